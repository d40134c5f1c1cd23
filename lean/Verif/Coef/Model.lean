import Verif.Ec.Codes
import Verif.Quant.Model
import Verif.Cdf.Log

/-!
# Coefficient coding

Model of `ContextWriter::write_coeffs_lv_map` (`context/block_unit.rs`, `context/transform_unit.rs`), of the contexts
it keeps (`BlockContext::above_coeff_context`, `left_coeff_context`), and of the resets of these contexts.

The writer is modelled by the list of elements it is given: a symbol with the number of its CDF, or a bit. `none`
stands for a panic: an index out of bounds, a failed assertion, an overflow. Coefficients are integers; the type
`T` is `i16` or `i32`, and its smallest value, whose absolute value overflows, is not treated specially.
-/

namespace Rav1e.Coef
open Av1Spec (Src)
open Rav1e.Quant (TxSize TxType scanOf)
open Rav1e.Ec (flatToks writeGolomb)

/-- Elements given to the writer. -/
abbrev Toks := List (Src × Nat)

/-! ## Block sizes -/

/-- `BlockSize`, `partition.rs:130-154`. -/
inductive BlockSize
  | b4x4 | b4x8 | b8x4 | b8x8 | b8x16 | b16x8 | b16x16 | b16x32 | b32x16 | b32x32 | b32x64 | b64x32
  | b64x64 | b64x128 | b128x64 | b128x128 | b4x16 | b16x4 | b8x32 | b32x8 | b16x64 | b64x16
  deriving DecidableEq, Repr

/-- `bsize as usize`, `partition.rs:130-154`. -/
def BlockSize.idx : BlockSize → Nat
  | .b4x4 => 0 | .b4x8 => 1 | .b8x4 => 2 | .b8x8 => 3 | .b8x16 => 4 | .b16x8 => 5 | .b16x16 => 6 | .b16x32 => 7
  | .b32x16 => 8 | .b32x32 => 9 | .b32x64 => 10 | .b64x32 => 11 | .b64x64 => 12 | .b64x128 => 13
  | .b128x64 => 14 | .b128x128 => 15 | .b4x16 => 16 | .b16x4 => 17 | .b8x32 => 18 | .b32x8 => 19
  | .b16x64 => 20 | .b64x16 => 21

/-- `BlockSize::width_log2`, `partition.rs:245-254`. -/
def BlockSize.widthLog2 : BlockSize → Nat
  | .b4x4 | .b4x8 | .b4x16 => 2
  | .b8x4 | .b8x8 | .b8x16 | .b8x32 => 3
  | .b16x4 | .b16x8 | .b16x16 | .b16x32 | .b16x64 => 4
  | .b32x8 | .b32x16 | .b32x32 | .b32x64 => 5
  | .b64x16 | .b64x32 | .b64x64 | .b64x128 => 6
  | .b128x64 | .b128x128 => 7

/-- `BlockSize::height_log2`, `partition.rs:278-287`. -/
def BlockSize.heightLog2 : BlockSize → Nat
  | .b4x4 | .b8x4 | .b16x4 => 2
  | .b4x8 | .b8x8 | .b16x8 | .b32x8 => 3
  | .b4x16 | .b8x16 | .b16x16 | .b32x16 | .b64x16 => 4
  | .b8x32 | .b16x32 | .b32x32 | .b64x32 => 5
  | .b16x64 | .b32x64 | .b64x64 | .b128x64 => 6
  | .b64x128 | .b128x128 => 7

/-- `BlockSize::width_mi`, `partition.rs:262-264`. -/
def BlockSize.widthMi (b : BlockSize) : Nat := 2 ^ b.widthLog2 >>> 2
/-- `BlockSize::height_mi`, `partition.rs:295-297`. -/
def BlockSize.heightMi (b : BlockSize) : Nat := 2 ^ b.heightLog2 >>> 2

/-- `num_pels_log2_lookup`, `context/mod.rs:52-53`. -/
def numPelsLog2 : List Nat :=
  [4, 5, 5, 6, 7, 7, 8, 9, 9, 10, 11, 11, 12, 13, 13, 14, 6, 6, 8, 8, 10, 10]

/-- `TxSize::block_size`, `transform/mod.rs:195-217`. -/
def blockSize : TxSize → BlockSize
  | .tx4x4 => .b4x4 | .tx8x8 => .b8x8 | .tx16x16 => .b16x16 | .tx32x32 => .b32x32 | .tx64x64 => .b64x64
  | .tx4x8 => .b4x8 | .tx8x4 => .b8x4 | .tx8x16 => .b8x16 | .tx16x8 => .b16x8 | .tx16x32 => .b16x32
  | .tx32x16 => .b32x16 | .tx32x64 => .b32x64 | .tx64x32 => .b64x32 | .tx4x16 => .b4x16 | .tx16x4 => .b16x4
  | .tx8x32 => .b8x32 | .tx32x8 => .b32x8 | .tx16x64 => .b16x64 | .tx64x16 => .b64x16

/-- `BlockSize::subsampled_size`, `partition.rs:337-379`; `none` is the error, which all callers unwrap. -/
def BlockSize.subsampled (b : BlockSize) (xdec ydec : Nat) : Option BlockSize :=
  match xdec, ydec with
  | 0, 0 => some b
  | 1, 0 => match b with
    | .b4x4 | .b8x4 => some .b4x4
    | .b8x8 => some .b4x8
    | .b16x4 => some .b8x4
    | .b16x8 => some .b8x8
    | .b16x16 => some .b8x16
    | .b32x8 => some .b16x8
    | .b32x16 => some .b16x16
    | .b32x32 => some .b16x32
    | .b64x16 => some .b32x16
    | .b64x32 => some .b32x32
    | .b64x64 => some .b32x64
    | .b128x64 => some .b64x64
    | .b128x128 => some .b64x128
    | _ => none
  | 1, 1 => match b with
    | .b4x4 | .b4x8 | .b8x4 | .b8x8 => some .b4x4
    | .b4x16 | .b8x16 => some .b4x8
    | .b8x32 => some .b4x16
    | .b16x4 | .b16x8 => some .b8x4
    | .b16x16 => some .b8x8
    | .b16x32 => some .b8x16
    | .b16x64 => some .b8x32
    | .b32x8 => some .b16x4
    | .b32x16 => some .b16x8
    | .b32x32 => some .b16x16
    | .b32x64 => some .b16x32
    | .b64x16 => some .b32x8
    | .b64x32 => some .b32x16
    | .b64x64 => some .b32x32
    | .b64x128 => some .b32x64
    | .b128x64 => some .b64x32
    | .b128x128 => some .b64x64
  | _, _ => none

/-- `has_chroma`, `context/transform_unit.rs:108-121`; `mono` is `ChromaSampling::Cs400`. -/
def hasChroma (x y : Nat) (b : BlockSize) (xdec ydec : Nat) (mono : Bool) : Bool :=
  if mono then false
  else (x % 2 == 1 || b.widthMi % 2 == 0 || xdec == 0) && (y % 2 == 1 || b.heightMi % 2 == 0 || ydec == 0)

/-! ## Transform sizes and types -/

/-- `TxSize::sqr`, `transform/mod.rs:220-228`. -/
def sqr : TxSize → TxSize
  | .tx4x4 | .tx4x8 | .tx8x4 | .tx4x16 | .tx16x4 => .tx4x4
  | .tx8x8 | .tx8x16 | .tx16x8 | .tx8x32 | .tx32x8 => .tx8x8
  | .tx16x16 | .tx16x32 | .tx32x16 | .tx16x64 | .tx64x16 => .tx16x16
  | .tx32x32 | .tx32x64 | .tx64x32 => .tx32x32
  | .tx64x64 => .tx64x64

/-- `TxSize::sqr_up`, `transform/mod.rs:231-239`. -/
def sqrUp : TxSize → TxSize
  | .tx4x4 => .tx4x4
  | .tx8x8 | .tx4x8 | .tx8x4 => .tx8x8
  | .tx16x16 | .tx8x16 | .tx16x8 | .tx4x16 | .tx16x4 => .tx16x16
  | .tx32x32 | .tx16x32 | .tx32x16 | .tx8x32 | .tx32x8 => .tx32x32
  | .tx64x64 | .tx32x64 | .tx64x32 | .tx16x64 | .tx64x16 => .tx64x64

/-- `av1_get_coded_tx_size`, `context/mod.rs:95-102`. -/
def codedSize : TxSize → TxSize
  | .tx64x64 | .tx64x32 | .tx32x64 => .tx32x32
  | .tx16x64 => .tx16x32
  | .tx64x16 => .tx32x16
  | t => t

/-- `TxSet`, `transform/mod.rs:280-293`. -/
inductive TxSet | dctOnly | inter3 | intra2 | intra1 | inter2 | inter1
  deriving DecidableEq, Repr

/-- `tx_set as usize`, `transform/mod.rs:280-293`. -/
def TxSet.idx : TxSet → Nat
  | .dctOnly => 0 | .inter3 => 1 | .intra2 => 2 | .intra1 => 3 | .inter2 => 4 | .inter1 => 5

/-- `get_tx_set`, `context/transform_unit.rs:123-148`. The comparison of block sizes is the one of squares. -/
def getTxSet (tx : TxSize) (isInter reduced : Bool) : TxSet :=
  if 32 < (sqrUp tx).width then .dctOnly
  else if isInter then
    if reduced || sqrUp tx = .tx32x32 then .inter3
    else if sqr tx = .tx16x16 then .inter2
    else .inter1
  else if sqrUp tx = .tx32x32 then .dctOnly
  else if reduced || sqr tx = .tx16x16 then .intra2
  else .intra1

/-- `num_tx_set`, `context/transform_unit.rs:36`. -/
def numTxSet : List Nat := [1, 2, 5, 7, 12, 16]

/-- `av1_tx_used`, `context/transform_unit.rs:37-44`. -/
def txUsed : List (List Nat) :=
  [[1, 0, 0, 0, 0, 0, 0, 0, 0, 0, 0, 0, 0, 0, 0, 0],
   [1, 0, 0, 0, 0, 0, 0, 0, 0, 1, 0, 0, 0, 0, 0, 0],
   [1, 1, 1, 1, 0, 0, 0, 0, 0, 1, 0, 0, 0, 0, 0, 0],
   [1, 1, 1, 1, 0, 0, 0, 0, 0, 1, 1, 1, 0, 0, 0, 0],
   [1, 1, 1, 1, 1, 1, 1, 1, 1, 1, 1, 1, 0, 0, 0, 0],
   [1, 1, 1, 1, 1, 1, 1, 1, 1, 1, 1, 1, 1, 1, 1, 1]]

/-- `tx_set_index_intra`, `context/transform_unit.rs:47`. -/
def txSetIndexIntra : List Int := [0, -1, 2, 1, -1, -1]
/-- `tx_set_index_inter`, `context/transform_unit.rs:49`. -/
def txSetIndexInter : List Int := [0, 3, -1, -1, 2, 1]

/-- `av1_tx_ind`, `context/transform_unit.rs:51-58`. -/
def txInd : List (List Nat) :=
  [[0, 0, 0, 0, 0, 0, 0, 0, 0, 0, 0, 0, 0, 0, 0, 0],
   [1, 0, 0, 0, 0, 0, 0, 0, 0, 0, 0, 0, 0, 0, 0, 0],
   [1, 3, 4, 2, 0, 0, 0, 0, 0, 0, 0, 0, 0, 0, 0, 0],
   [1, 5, 6, 4, 0, 0, 0, 0, 0, 0, 2, 3, 0, 0, 0, 0],
   [3, 4, 5, 8, 6, 7, 9, 10, 11, 0, 1, 2, 0, 0, 0, 0],
   [7, 8, 9, 12, 10, 11, 13, 14, 15, 0, 1, 2, 3, 4, 5, 6]]

/-- `get_tx_set_index`, `context/transform_unit.rs:150-160`. -/
def getTxSetIndex (tx : TxSize) (isInter reduced : Bool) : Option Int :=
  let s := (getTxSet tx isInter reduced).idx
  if isInter then txSetIndexInter[s]? else txSetIndexIntra[s]?

/-- `TxClass`, `context/transform_unit.rs:245-249`. -/
inductive TxClass | two | horiz | vert
  deriving DecidableEq, Repr

/-- `tx_type_to_class`, `context/transform_unit.rs:272-289`; there is no entry for `WHT_WHT`. -/
def txClasses : List TxClass :=
  [.two, .two, .two, .two, .two, .two, .two, .two, .two, .two, .vert, .horiz, .vert, .horiz, .vert, .horiz]

/-! ## CDFs -/

/-- The number of the first CDF of a field when all CDFs of the structure are numbered in declaration order. -/
def firstCdf (name : String) : List Cdf.Field → Nat
  | [] => 0
  | f :: fs => if f.name = name then 0 else (if f.len = 0 then 0 else f.count) + firstCdf name fs

/-- The number of the CDF with index `i` in a field of `CDFContext`, `context/cdf_context.rs:23-96`. -/
def cdfNo (name : String) (i : Nat) : Nat := firstCdf name Cdf.fields + i

/-- Flattened index into an array with the given dimensions, checked. -/
def flatIdx : List (Nat × Nat) → Nat → Option Nat
  | [], a => some a
  | (i, n) :: r, a => if i < n then flatIdx r (a * n + i) else none

/-- `symbol_with_update!(self, w, s, &self.fc.name[i]..)`. -/
def symbol (name : String) (ix : List (Nat × Nat)) (s : Nat) : Option Toks :=
  (flatIdx ix 0).map fun i => [(.cdf (cdfNo name i), s)]

/-! ## Transform type -/

/-- `write_tx_type`, `context/transform_unit.rs:530-574`. `mode` is the number of the prediction mode. -/
def writeTxType (tx : TxSize) (ty : TxType) (mode : Nat) (isInter reduced : Bool) : Option Toks := do
  let sq := (sqr tx).idx
  let set := (getTxSet tx isInter reduced).idx
  let n ← numTxSet[set]?
  if 1 < n then
    let si ← getTxSetIndex tx isInter reduced
    if si ≤ 0 then none
    else
      let row ← txUsed[set]?
      let used ← row[ty.idx]?
      if used = 0 then none
      else
        let row ← txInd[set]?
        let s ← row[ty.idx]?
        if isInter then
          if si = 1 then symbol "inter_tx_1_cdf" [(sq, 4)] s
          else if si = 2 then symbol "inter_tx_2_cdf" [(sq, 4)] s
          else symbol "inter_tx_3_cdf" [(sq, 4)] s
        else if si = 1 then symbol "intra_tx_1_cdf" [(sq, 4), (mode, 13)] s
        else symbol "intra_tx_2_cdf" [(sq, 4), (mode, 13)] s
  else some []

/-! ## Contexts -/

/-- `BlockContext::above_coeff_context` and `left_coeff_context`, `context/block_unit.rs:237-238`, by plane. -/
structure Cx where
  above : Nat → List Nat
  left : Nat → List Nat

/-- `&l[o..][..n]`. -/
def slice (l : List Nat) (o n : Nat) : Option (List Nat) :=
  if o + n ≤ l.length then some ((l.drop o).take n) else none

/-- Writes `v` to all of `l[o..][..n]`. -/
def fill (l : List Nat) (o n v : Nat) : Option (List Nat) :=
  if o + n ≤ l.length then some (l.take o ++ List.replicate n v ++ l.drop (o + n)) else none

def setPlane (f : Nat → List Nat) (p : Nat) (l : List Nat) : Nat → List Nat := fun q => if q = p then l else f q

/-- The loop over both arrays, shared by `set_coeff_context` (`context/block_unit.rs:333-348`) and
`reset_skip_context` (`context/partition_unit.rs:457-467`): entries from `x` and `y` on. -/
def Cx.fill (s : Cx) (p x w y h v : Nat) : Option Cx := do
  let a ← Coef.fill (s.above p) x w v
  let l ← Coef.fill (s.left p) y h v
  some ⟨setPlane s.above p a, setPlane s.left p l⟩

/-- `set_coeff_context`, `context/block_unit.rs:333-348`, with `y_in_sb` (`:85-87`). -/
def setCoeffContext (s : Cx) (p x y : Nat) (tx : TxSize) (xdec ydec v : Nat) : Option Cx :=
  s.fill p (x >>> xdec) (tx.width >>> 2) ((y % 16) >>> ydec) (tx.height >>> 2) v

/-- `reset_left_coeff_context`, `context/block_unit.rs:350-354`, for the planes in `reset_left_contexts`
(`:394-402`). -/
def resetLeft (s : Cx) (planes : Nat) : Cx :=
  { s with left := fun p => if p < planes then (s.left p).map fun _ => 0 else s.left p }

/-- The loop over the planes in `reset_skip_context`, `context/partition_unit.rs:445-468`. -/
def resetSkipLoop (x y : Nat) (b : BlockSize) (xdec ydec : Nat) : List Nat → Cx → Option Cx
  | [], s => some s
  | p :: ps, s => do
    let xdec2 := if p = 0 then 0 else xdec
    let ydec2 := if p = 0 then 0 else ydec
    let pb ← if p = 0 then some b else b.subsampled xdec2 ydec2
    let s ← s.fill p (x >>> xdec2) pb.widthMi ((y % 16) >>> ydec2) pb.heightMi 0
    resetSkipLoop x y b xdec ydec ps s

/-- `reset_skip_context`, `context/partition_unit.rs:434-469`. `bsize >= BLOCK_8X8` in the partial order of
`partition.rs:165-179` means that neither side is smaller. -/
def resetSkip (s : Cx) (x y : Nat) (b : BlockSize) (xdec ydec : Nat) (mono : Bool) : Option Cx :=
  let numPlanes := if mono then 1 else 3
  let nplanes :=
    if 3 ≤ b.widthLog2 ∧ 3 ≤ b.heightLog2 then numPlanes
    else 1 + (numPlanes - 1) * (hasChroma x y b xdec ydec mono).toNat
  resetSkipLoop x y b xdec ydec (List.range nplanes) s

/-- `signs`, `context/block_unit.rs:449`. -/
def signs : List Int := [0, -1, 1]

/-- `dc_sign_contexts`, `context/block_unit.rs:450-454`. -/
def dcSignContexts : List Nat :=
  [1, 1, 1, 1, 1, 1, 1, 1, 1, 1, 1, 1, 1, 1, 1, 1, 1, 1, 1, 1, 1, 1, 1, 1,
   1, 1, 1, 1, 1, 1, 1, 1, 0, 2, 2, 2, 2, 2, 2, 2, 2, 2, 2, 2, 2, 2, 2, 2,
   2, 2, 2, 2, 2, 2, 2, 2, 2, 2, 2, 2, 2, 2, 2, 2, 2]

/-- `skip_contexts`, `context/block_unit.rs:492-498`. -/
def skipContexts : List (List Nat) :=
  [[1, 2, 2, 2, 3],
   [1, 4, 4, 4, 5],
   [1, 4, 4, 4, 5],
   [1, 4, 4, 4, 5],
   [1, 4, 4, 4, 6]]

/-- The loop over the signs of neighbours, `context/block_unit.rs:463-471`. -/
def dcSignSum : List Nat → Int → Option Int
  | [], a => some a
  | v :: l, a => signs[v >>> 6]?.bind fun s => dcSignSum l (a + s)

/-- `get_txb_ctx`, `context/block_unit.rs:442-526`: (`txb_skip_ctx`, `dc_sign_ctx`). -/
def getTxbCtx (s : Cx) (pb : BlockSize) (tx : TxSize) (p x y xdec ydec clippedW clippedH : Nat) :
    Option (Nat × Nat) := do
  let above ← slice (s.above p) (x >>> xdec) (clippedW >>> 2)
  let left ← slice (s.left p) ((y % 16) >>> ydec) (clippedH >>> 2)
  let d ← dcSignSum above 0
  let d ← dcSignSum left d
  let dc ← if d + 32 < 0 then none else dcSignContexts[(d + 32).toNat]?
  if p = 0 then
    if pb = blockSize tx then some (0, dc)
    else
      let top := above.foldl (· ||| ·) 0 &&& 63
      let left := left.foldl (· ||| ·) 0 &&& 63
      let mx := min (top ||| left) 4
      let mn := min (min top left) 4
      let row ← skipContexts[mn]?
      let c ← row[mx]?
      some (c, dc)
  else
    let top := above.foldl (· ||| ·) 0
    let left := left.foldl (· ||| ·) 0
    let a ← numPelsLog2[pb.idx]?
    let b ← numPelsLog2[(blockSize tx).idx]?
    some ((if top ≠ 0 then 1 else 0) + (if left ≠ 0 then 1 else 0) + (if b < a then 10 else 7), dc)

/-- `get_txsize_entropy_ctx`, `context/transform_unit.rs:776-778`. -/
def txsCtx (tx : TxSize) : Nat := ((sqr tx).idx + (sqrUp tx).idx + 1) >>> 1

/-! ## Levels -/

/-- `txb_init_levels`, `context/transform_unit.rs:780-792`; `h` is not zero and not above `stride`. -/
def initLevels (h stride : Nat) (coeffs : List Int) (levels : List Nat) : List Nat :=
  if _hc : 0 < h ∧ h ≤ coeffs.length ∧ stride ≤ levels.length then
    (coeffs.take h).map (fun c => min c.natAbs 127) ++ (levels.take stride).drop h ++
      initLevels h stride (coeffs.drop h) (levels.drop stride)
  else levels
termination_by coeffs.length
decreasing_by simp only [List.length_drop]; omega

/-- `eob_to_pos_small`, `context/transform_unit.rs:291-297`. -/
def eobToPosSmall : List Nat :=
  [0, 1, 2, 3, 3, 4, 4, 4, 4, 5, 5, 5, 5, 5, 5, 5, 5, 6, 6, 6, 6, 6, 6, 6, 6, 6, 6, 6, 6, 6, 6, 6, 6]

/-- `eob_to_pos_large`, `context/transform_unit.rs:299-306`. -/
def eobToPosLarge : List Nat := [6, 7, 8, 8, 9, 9, 9, 9, 10, 10, 10, 10, 10, 10, 10, 10, 11]

/-- `k_eob_group_start`, `context/transform_unit.rs:308-309`. -/
def eobGroupStart : List Nat := [0, 1, 2, 3, 5, 9, 17, 33, 65, 129, 257, 513]
/-- `k_eob_offset_bits`, `context/transform_unit.rs:310`. -/
def eobOffsetBits : List Nat := [0, 0, 0, 1, 2, 3, 4, 5, 6, 7, 8, 9]

/-- `get_eob_pos_token`, `context/transform_unit.rs:808-819`. -/
def eobPosToken (eob : Nat) : Option (Nat × Nat) := do
  let t ← if eob < 33 then eobToPosSmall[eob]? else eobToPosLarge[min ((eob - 1) >>> 5) 16]?
  let g ← eobGroupStart[t]?
  if eob < g then none else some (t, eob - g)

/-- The field for `eob_multi_size`, `context/block_unit.rs:1869-1898`. -/
def eobField (multi : Nat) : String :=
  match multi with
  | 0 => "eob_flag_cdf16"
  | 1 => "eob_flag_cdf32"
  | 2 => "eob_flag_cdf64"
  | 3 => "eob_flag_cdf128"
  | 4 => "eob_flag_cdf256"
  | 5 => "eob_flag_cdf512"
  | _ => "eob_flag_cdf1024"

/-- Bit `k` of `x`, `u32::from((x & (1 << k)) != 0)`. -/
def bitAt (x k : Nat) : Nat := if x &&& (1 <<< k) ≠ 0 then 1 else 0

/-- `encode_eob`, `context/block_unit.rs:1861-1914`. -/
def encodeEob (eob : Nat) (tx : TxSize) (cls : TxClass) (txs pt : Nat) : Option Toks := do
  let r ← eobPosToken eob
  let multi := tx.widthLog2 + tx.heightLog2 - 4
  if r.1 = 0 then none
  else
    let a ← symbol (eobField multi) [(pt, 2), (if cls = .two then 0 else 1, 2)] (r.1 - 1)
    let nb ← eobOffsetBits[r.1]?
    if 0 < nb then
      if r.1 < 3 then none
      else
        let b ← symbol "eob_extra_cdf" [(txs, 5), (pt, 2), (r.1 - 3, 9)] (bitAt r.2 (nb - 1))
        some (a ++ b ++ flatToks ((List.range (nb - 1)).map fun i => bitAt r.2 (nb - 1 - (i + 1))))
    else some a

/-- `get_nz_mag`, `context/transform_unit.rs:821-844`, with the start of the slice as an argument. -/
def nzMag (levels : List Nat) (o bhl : Nat) (cls : TxClass) : Option Nat := do
  let a ← levels[o + 1]?
  let b ← levels[o + ((1 <<< bhl) + 4)]?
  match cls with
  | .two =>
    let c ← levels[o + ((1 <<< bhl) + 4 + 1)]?
    let d ← levels[o + 2]?
    let e ← levels[o + ((2 <<< bhl) + (2 <<< 2))]?
    some (min 3 a + min 3 b + min 3 c + min 3 d + min 3 e)
  | .vert =>
    let c ← levels[o + 2]?
    let d ← levels[o + 3]?
    let e ← levels[o + 4]?
    some (min 3 a + min 3 b + min 3 c + min 3 d + min 3 e)
  | .horiz =>
    let c ← levels[o + ((2 <<< bhl) + (2 <<< 2))]?
    let d ← levels[o + ((3 <<< bhl) + (3 <<< 2))]?
    let e ← levels[o + ((4 <<< bhl) + (4 <<< 2))]?
    some (min 3 a + min 3 b + min 3 c + min 3 d + min 3 e)

/-- One of the three tables for square, tall and wide sizes that make up `av1_nz_map_ctx_offset`; blocks with a
side of four have zeros in the column or row they lack. -/
def nzOffset (w4 h4 : Bool) (t : List (List Nat)) : List (List Nat) :=
  let t := if w4 then t.map fun r => r.set 4 0 else t
  if h4 then t.set 4 [0, 0, 0, 0, 0] else t

def nzSquare : List (List Nat) :=
  [[0, 1, 6, 6, 21], [1, 6, 6, 21, 21], [6, 6, 21, 21, 21], [6, 21, 21, 21, 21], [21, 21, 21, 21, 21]]
def nzTall : List (List Nat) :=
  [[0, 11, 11, 11, 11], [11, 11, 11, 11, 11], [6, 6, 21, 21, 21], [6, 21, 21, 21, 21], [21, 21, 21, 21, 21]]
def nzWide : List (List Nat) :=
  [[0, 16, 6, 6, 21], [16, 16, 6, 21, 21], [16, 16, 21, 21, 21], [16, 16, 21, 21, 21], [16, 16, 21, 21, 21]]

/-- `av1_nz_map_ctx_offset`, `context/transform_unit.rs:316-469`, entry by entry in the order of the sizes. -/
def nzMapCtxOffset : List (List (List Nat)) :=
  [nzOffset true true nzSquare, nzSquare, nzSquare, nzSquare, nzSquare,
   nzOffset true false nzTall, nzOffset false true nzWide, nzTall, nzWide, nzTall, nzWide, nzTall, nzWide,
   nzOffset true false nzTall, nzOffset false true nzWide, nzTall, nzWide, nzTall, nzWide]

/-- `nz_map_ctx_offset_1d`, `context/transform_unit.rs:475-508`. -/
def nzMapCtxOffset1d : List Nat := 26 :: 31 :: List.replicate 30 36

/-- `get_nz_map_ctx_from_stats`, `context/transform_unit.rs:846-883`. -/
def nzMapCtxFromStats (stats idx bhl : Nat) (tx : TxSize) (cls : TxClass) : Option Nat :=
  if cls = .two ∧ idx = 0 then some 0
  else
    let col := idx >>> bhl
    let row := idx - (col <<< bhl)
    let ctx := min ((stats + 1) >>> 1) 4
    match cls with
    | .two => do
      let t ← nzMapCtxOffset[tx.idx]?
      let r ← t[min row 4]?
      let v ← r[min col 4]?
      some (ctx + v)
    | .horiz => nzMapCtxOffset1d[col]?.map (ctx + ·)
    | .vert => nzMapCtxOffset1d[row]?.map (ctx + ·)

/-- `get_nz_map_ctx`, `context/transform_unit.rs:885-907`. -/
def nzMapCtx (levels : List Nat) (idx bhl area scanIdx : Nat) (isEob : Bool) (tx : TxSize) (cls : TxClass) :
    Option Nat :=
  if isEob then
    some (if scanIdx = 0 then 0 else if scanIdx ≤ area / 8 then 1 else if scanIdx ≤ area / 4 then 2 else 3)
  else
    (nzMag levels (idx + ((idx >>> bhl) <<< 2)) bhl cls).bind fun stats => nzMapCtxFromStats stats idx bhl tx cls

/-- The sum of two levels, in `u8`. -/
def addU8 (a b : Nat) : Option Nat := if a + b < 256 then some (a + b) else none

/-- `get_br_ctx`, `context/transform_unit.rs:938-985`. -/
def brCtx (levels : List Nat) (idx bhl : Nat) (cls : TxClass) : Option Nat := do
  let col := idx >>> bhl
  let row := idx - (col <<< bhl)
  let stride := (1 <<< bhl) + 4
  let pos := col * stride + row
  let a ← levels[pos + 1]?
  let b ← levels[pos + stride]?
  let m ← addU8 a b
  match cls with
  | .two =>
    let c ← levels[pos + stride + 1]?
    let mag := min ((m + c + 1) >>> 1) 6
    some (if idx = 0 then mag else if row < 2 ∧ col < 2 then mag + 7 else mag + 14)
  | .horiz =>
    let c ← levels[pos + (stride <<< 1)]?
    let mag := min ((m + c + 1) >>> 1) 6
    some (if idx = 0 then mag else if col = 0 then mag + 7 else mag + 14)
  | .vert =>
    let c ← levels[pos + 2]?
    let mag := min ((m + c + 1) >>> 1) 6
    some (if idx = 0 then mag else if row = 0 then mag + 7 else mag + 14)

/-- The loop over `coeff_br`, `context/block_unit.rs:1966-1978`: `fuel` bounds the iterations (there are at most
four). -/
def brLoop (txs pt ctx baseRange : Nat) : (fuel : Nat) → (idx : Nat) → Option Toks
  | 0, _ => some []
  | fuel + 1, idx =>
    if 12 ≤ idx then some []
    else do
      let k := min (baseRange - idx) 3
      let t ← symbol "coeff_br_cdf" [(min txs 3, 5), (pt, 2), (ctx, 21)] k
      if k < 3 then some t
      else
        let ts ← brLoop txs pt ctx baseRange fuel (idx + 3)
        some (t ++ ts)

/-- What does not change while the levels of a block are coded. -/
structure Lv where
  levels : List Nat
  eob : Nat
  tx : TxSize
  cls : TxClass
  txs : Nat
  pt : Nat

/-- `coeff_base` or `coeff_base_eob` of the coefficient number `c`, `context/block_unit.rs:1945-1959`. -/
def encodeBase (l : Lv) (c ctx level : Nat) : Option Toks :=
  if c = l.eob - 1 then
    if level = 0 then none
    else symbol "coeff_base_eob_cdf" [(l.txs, 5), (l.pt, 2), (ctx, 4)] (min level 3 - 1)
  else symbol "coeff_base_cdf" [(l.txs, 5), (l.pt, 2), (ctx, 42)] (min level 3)

/-- The `coeff_br` of a coefficient, `context/block_unit.rs:1961-1979`. -/
def encodeBr (l : Lv) (pos level : Nat) : Option Toks :=
  if 2 < level then
    (brCtx l.levels pos (codedSize l.tx).heightLog2 l.cls).bind fun ctx => brLoop l.txs l.pt ctx (level - 3) 5 0
  else some []

/-- One turn of the loop in `encode_coeffs`, `context/block_unit.rs:1938-1980`, with the context that
`get_nz_map_contexts` (`context/transform_unit.rs:911-936`) has stored for it. -/
def encodeCoeff (l : Lv) (c pos : Nat) (v : Int) : Option Toks := do
  let ctx ← nzMapCtx l.levels pos (codedSize l.tx).heightLog2 (codedSize l.tx).area c (decide (c = l.eob - 1)) l.tx l.cls
  let a ← encodeBase l c ctx v.natAbs
  let b ← encodeBr l pos v.natAbs
  some (a ++ b)

/-- `encode_coeffs`, `context/block_unit.rs:1916-1981`: the coefficients number `c - 1`, ..., `0`. -/
def encodeCoeffs (l : Lv) (scan : List Nat) (coeffs : List Int) : Nat → Option Toks
  | 0 => some []
  | c + 1 => do
    let pos ← scan[c]?
    let v ← coeffs[c]?
    let a ← encodeCoeff l c pos v
    let b ← encodeCoeffs l scan coeffs c
    some (a ++ b)

/-- The loop of `encode_coeff_signs`, `context/block_unit.rs:1989-2008`, from coefficient number `c` on. -/
def encodeSigns (pt dcCtx : Nat) : Nat → List Int → Option Toks
  | _, [] => some []
  | c, v :: vs =>
    if v = 0 then encodeSigns pt dcCtx (c + 1) vs
    else do
      let sign := if v < 0 then 1 else 0
      let a ← if c = 0 then symbol "dc_sign_cdf" [(pt, 2), (dcCtx, 3)] sign else some [(.flat, sign)]
      let b := if 14 < v.natAbs then flatToks (writeGolomb (v.natAbs - 15)) else []
      let r ← encodeSigns pt dcCtx (c + 1) vs
      some (a ++ b ++ r)

/-- `set_dc_sign`, `context/block_unit.rs:325-331`. -/
def setDcSign (cul : Nat) (dc : Int) : Nat :=
  if dc < 0 then cul ||| (1 <<< 6) else if 0 < dc then cul + (2 <<< 6) else cul

/-- What `write_coeffs_lv_map` is called with. -/
structure Arg where
  plane : Nat
  x : Nat
  y : Nat
  coeffs : List Int
  eob : Nat
  mode : Nat
  tx : TxSize
  ty : TxType
  pb : BlockSize
  xdec : Nat
  ydec : Nat
  reduced : Bool
  clippedW : Nat
  clippedH : Nat

/-- The coefficients in scan order, `context/block_unit.rs:1800-1804`. -/
def gather (coeffs : List Int) : List Nat → Option (List Int)
  | [] => some []
  | p :: ps => coeffs[p]?.bind fun v => (gather coeffs ps).map (v :: ·)

/-- What follows `eob` being zero or not: `context/block_unit.rs:1830-1858`. -/
def writeLevels (a : Arg) (s : Cx) (scan : List Nat) (coeffs : List Int) (dcCtx : Nat) : Option (Toks × Cx) := do
  let height := (codedSize a.tx).height
  let levels := initLevels height (height + 4) a.coeffs (List.replicate (1384 - 2 * (height + 4)) 0)
  let cls ← txClasses[a.ty.idx]?
  let pt := if a.plane = 0 then 0 else 1
  let t1 ← if a.plane = 0 then writeTxType a.tx a.ty a.mode (decide (14 ≤ a.mode)) a.reduced else some []
  let t2 ← encodeEob a.eob a.tx cls (txsCtx a.tx) pt
  let t3 ← encodeCoeffs ⟨levels, a.eob, a.tx, cls, txsCtx a.tx, pt⟩ scan coeffs a.eob
  let t4 ← encodeSigns pt dcCtx 0 coeffs
  let dc ← coeffs[0]?
  let cul := (coeffs.map Int.natAbs).sum
  let s ← setCoeffContext s a.plane a.x a.y a.tx a.xdec a.ydec (setDcSign (min 63 cul) dc)
  some (t1 ++ t2 ++ t3 ++ t4, s)

/-- `write_coeffs_lv_map`, `context/block_unit.rs:1783-1859`. -/
def writeCoeffs (a : Arg) (s : Cx) : Option (Toks × Cx) := do
  let scan ← scanOf a.tx a.ty
  if scan.length < a.eob then none
  else
    let scan := scan.take a.eob
    let coeffs ← gather a.coeffs scan
    let ctx ← getTxbCtx s a.pb a.tx a.plane a.x a.y a.xdec a.ydec a.clippedW a.clippedH
    let t0 ← symbol "txb_skip_cdf" [(txsCtx a.tx, 5), (ctx.1, 13)] (if a.eob = 0 then 1 else 0)
    if a.eob = 0 then
      (setCoeffContext s a.plane a.x a.y a.tx a.xdec a.ydec 0).map fun s => (t0, s)
    else
      (writeLevels a s scan coeffs ctx.2).map fun r => (t0 ++ r.1, r.2)

/-- What happens to the contexts of coefficients while a tile is encoded: a call of `write_coeffs_lv_map`, of
`reset_skip_context`, of `reset_left_contexts`; `other` stands for what is written in between. -/
inductive Job where
  | coeffs (a : Arg)
  | skip (x y : Nat) (b : BlockSize) (xdec ydec : Nat) (mono : Bool)
  | row (planes : Nat)
  | other (t : Toks)

/-- The elements given to the writer by a sequence of these calls, as they follow each other in `encode_tile`
(`encoder.rs:3468-3671`) and the functions it calls. -/
def encodeJobs : List Job → Cx → Option Toks
  | [], _ => some []
  | .coeffs a :: js, s => do
    let r ← writeCoeffs a s
    let t ← encodeJobs js r.2
    some (r.1 ++ t)
  | .skip x y b xdec ydec mono :: js, s => do
    let s ← resetSkip s x y b xdec ydec mono
    encodeJobs js s
  | .row planes :: js, s => encodeJobs js (resetLeft s planes)
  | .other t :: js, s => (encodeJobs js s).map (t ++ ·)

/-- `BlockContext::new`, `context/block_unit.rs:243-261`: arrays of `COEFF_CONTEXT_MAX_WIDTH` and `MIB_SIZE` zeros. -/
def Cx.new : Cx := ⟨fun _ => List.replicate 1024 0, fun _ => List.replicate 16 0⟩

/-- `frame_clipped_txw` and `frame_clipped_txh`, `encoder.rs:1561-1566`: `inB` is the size of the frame in units of
four pixels, `x` the position in the frame. -/
def clipped (inB x dec size : Nat) : Nat := min (((inB - x) <<< 2) >>> dec) size

end Rav1e.Coef
