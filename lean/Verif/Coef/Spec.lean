import Verif.Ec.SpecReader
import Verif.Quant.ScanThms

/-!
# Coefficient syntax of the AV1 specification

`coeffs( )` (5.11.39), `transform_type( )` (5.11.47), the selection of their CDFs (8.3.2) and the contexts they
leave behind, as reader programs. Nothing in this file refers to the model of the encoder; the three scan orders
come from `Quant/ScanThms.lean`, where they are defined by their geometry.

A transform size is the pair of the logarithms of its width and height; the enumeration `TX_4X4`.. of the square
sizes is `log2 - 2`. A transform type is its number in the table of 6.10.19. The array `Quant`, which the
specification indexes with `pos = (row << bwl) + col`, is a function of row and column. The context arrays are
indexed from the first column of the tile and the first row of the superblock row, where they are cleared.
-/

namespace Av1Spec.Coef

/-- The CDF arrays of the specification, with all their indices. -/
inductive Cdf where
  | txbSkip (txSzCtx ctx : Nat)
  | eobPt (multisize ptype ctx : Nat)
  | eobExtra (txSzCtx ptype i : Nat)
  | coeffBaseEob (txSzCtx ptype ctx : Nat)
  | coeffBase (txSzCtx ptype ctx : Nat)
  | coeffBr (txSzCtx ptype ctx : Nat)
  | dcSign (ptype ctx : Nat)
  /-- `IntraTxTypeSet<set>Cdf`, by square size and intra direction -/
  | intraTx (set txSzSqr intraDir : Nat)
  /-- `InterTxTypeSet<set>Cdf`, by square size -/
  | interTx (set txSzSqr : Nat)
deriving DecidableEq, Repr

/-- A transform size: logarithms of width and height. -/
structure Tx where
  wl : Nat
  hl : Nat
deriving DecidableEq, Repr

def Tx.w (t : Tx) : Nat := 2 ^ t.wl
def Tx.h (t : Tx) : Nat := 2 ^ t.hl
/-- `Tx_Size_Sqr` -/
def Tx.sqr (t : Tx) : Nat := min t.wl t.hl - 2
/-- `Tx_Size_Sqr_Up` -/
def Tx.sqrUp (t : Tx) : Nat := max t.wl t.hl - 2
/-- `txSzCtx` -/
def Tx.ctx (t : Tx) : Nat := (t.sqr + t.sqrUp + 1) >>> 1
/-- `Adjusted_Tx_Size` -/
def Tx.adj (t : Tx) : Tx := ⟨min t.wl 5, min t.hl 5⟩

/-- `get_tx_class`. -/
inductive Class | two | horiz | vert
deriving DecidableEq, Repr

def txClass (ty : Nat) : Class :=
  if ty = 10 ∨ ty = 12 ∨ ty = 14 then .vert else if ty = 11 ∨ ty = 13 ∨ ty = 15 then .horiz else .two

/-- `get_scan` (5.11.41). -/
def scan (t : Tx) (ty : Nat) : List (Nat × Nat) :=
  match txClass ty with
  | .vert => Rav1e.Quant.rowOrder t.adj.w t.adj.h
  | .horiz => Rav1e.Quant.colOrder t.adj.w t.adj.h
  | .two => Rav1e.Quant.defaultOrder t.adj.w t.adj.h

/-! ## Transform type -/

/-- `get_tx_set` (5.11.48): 0 is `TX_SET_DCTONLY`, otherwise the number in `TX_SET_INTRA_<n>` or
`TX_SET_INTER_<n>`. -/
def txSet (t : Tx) (isInter reduced : Bool) : Nat :=
  if 3 < t.sqrUp then 0
  else if isInter then
    if reduced ∨ t.sqrUp = 3 then 3 else if t.sqr = 2 then 2 else 1
  else if t.sqrUp = 3 then 0
  else if reduced then 2 else if t.sqr = 2 then 2 else 1

/-- `Tx_Type_Intra_Inv_Set<n>`. -/
def intraInv : Nat → List Nat
  | 1 => [9, 0, 10, 11, 3, 1, 2]
  | 2 => [9, 0, 3, 1, 2]
  | _ => []

/-- `Tx_Type_Inter_Inv_Set<n>`. -/
def interInv : Nat → List Nat
  | 1 => [9, 10, 11, 12, 13, 14, 15, 0, 1, 2, 4, 5, 3, 6, 7, 8]
  | 2 => [9, 10, 11, 0, 1, 2, 4, 5, 3, 6, 7, 8]
  | 3 => [9, 0]
  | _ => []

/-- `is_tx_type_in_set`. -/
def inSet (t : Tx) (isInter reduced : Bool) (ty : Nat) : Prop :=
  let s := txSet t isInter reduced
  if s = 0 then ty = 0 else if isInter then ty ∈ interInv s else ty ∈ intraInv s

/-! ## What the decoder knows -/

/-- A transform block: plane, size, position in the context arrays, number of columns and rows (of four pixels)
from there to the edge of the frame, size of the residual block of the plane in pixels, and what decides the
transform type: for luma the prediction, for chroma the type derived by `compute_tx_type`. -/
structure Blk where
  plane : Nat
  tx : Tx
  x4 : Nat
  y4 : Nat
  cols : Nat
  rows : Nat
  bw : Nat
  bh : Nat
  isInter : Bool
  reduced : Bool
  intraDir : Nat
  chromaType : Nat
deriving Repr

/-- `AboveLevelContext`, `AboveDcContext`, `LeftLevelContext`, `LeftDcContext`. -/
structure Ctx where
  aboveLevel : Nat → Nat → Nat
  aboveDc : Nat → Nat → Nat
  leftLevel : Nat → Nat → Nat
  leftDc : Nat → Nat → Nat

/-- The entries `k < n` before the edge of the frame. -/
def entries (f : Nat → Nat) (x n avail : Nat) : List Nat :=
  ((List.range n).filter fun k => k < avail).map fun k => f (x + k)

/-- The context of `all_zero` (8.3.2). -/
def allZeroCtx (b : Blk) (s : Ctx) : Nat :=
  let w4 := b.tx.w >>> 2
  let h4 := b.tx.h >>> 2
  if b.plane = 0 then
    let top := (entries (s.aboveLevel 0) b.x4 w4 b.cols).foldl max 0
    let left := (entries (s.leftLevel 0) b.y4 h4 b.rows).foldl max 0
    if b.bw = b.tx.w ∧ b.bh = b.tx.h then 0
    else if top = 0 ∧ left = 0 then 1
    else if top = 0 ∨ left = 0 then 2 + (if 3 < max top left then 1 else 0)
    else if max top left ≤ 3 then 4
    else if min top left ≤ 3 then 5
    else 6
  else
    let above := (entries (s.aboveLevel b.plane) b.x4 w4 b.cols).any (· ≠ 0) ||
      (entries (s.aboveDc b.plane) b.x4 w4 b.cols).any (· ≠ 0)
    let left := (entries (s.leftLevel b.plane) b.y4 h4 b.rows).any (· ≠ 0) ||
      (entries (s.leftDc b.plane) b.y4 h4 b.rows).any (· ≠ 0)
    7 + above.toNat + left.toNat + (if b.tx.w * b.tx.h < b.bw * b.bh then 3 else 0)

/-- 1 stands for a negative DC coefficient, 2 for a positive one. -/
def dcVote (v : Nat) : Int := if v = 1 then -1 else if v = 2 then 1 else 0

/-- The context of `dc_sign` (8.3.2). -/
def dcSignCtx (b : Blk) (s : Ctx) : Nat :=
  let d := ((entries (s.aboveDc b.plane) b.x4 (b.tx.w >>> 2) b.cols).map dcVote).sum +
    ((entries (s.leftDc b.plane) b.y4 (b.tx.h >>> 2) b.rows).map dcVote).sum
  if d < 0 then 1 else if 0 < d then 2 else 0

/-! ## Contexts of the levels -/

/-- `Sig_Ref_Diff_Offset`, as (row, column). -/
def sigRef : Class → List (Nat × Nat)
  | .two => [(0, 1), (1, 0), (1, 1), (0, 2), (2, 0)]
  | .horiz => [(0, 1), (1, 0), (0, 2), (0, 3), (0, 4)]
  | .vert => [(1, 0), (0, 1), (2, 0), (3, 0), (4, 0)]

/-- `Mag_Ref_Offset_With_Tx_Class`. -/
def magRef : Class → List (Nat × Nat)
  | .two => [(0, 1), (1, 0), (1, 1)]
  | .horiz => [(0, 1), (1, 0), (0, 2)]
  | .vert => [(0, 1), (1, 0), (2, 0)]

/-- Sum of the levels at the given offsets, each cut at `lim`; positions outside the block do not count. -/
def refSum (t : Tx) (q : Nat → Nat → Nat) (lim row col : Nat) (offs : List (Nat × Nat)) : Nat :=
  (offs.map fun o =>
    if row + o.1 < t.adj.h ∧ col + o.2 < t.adj.w then min (q (row + o.1) (col + o.2)) lim else 0).sum

/-- `Coeff_Base_Ctx_Offset[ txSz ][ row ][ col ]`, by the rule that generates the table. -/
def baseOffset (t : Tx) (row col : Nat) : Nat :=
  if row = 0 ∧ col = 0 then 0
  else if t.w < t.h ∧ row < 2 then 11
  else if t.h < t.w ∧ col < 2 then 16
  else if row + col < 2 then 1
  else if row + col < 4 then 6
  else 21

/-- The context of `coeff_base_eob`: `get_coeff_base_ctx` with `isEob` (8.3.2), after the subtraction. -/
def baseEobCtx (t : Tx) (c : Nat) : Nat :=
  if c = 0 then 0
  else if c ≤ (t.adj.h <<< t.adj.wl) / 8 then 1
  else if c ≤ (t.adj.h <<< t.adj.wl) / 4 then 2
  else 3

/-- The context of `coeff_base`: `get_coeff_base_ctx` (8.3.2). -/
def baseCtx (t : Tx) (cls : Class) (q : Nat → Nat → Nat) (row col : Nat) : Nat :=
  let ctx := min ((refSum t q 3 row col (sigRef cls) + 1) >>> 1) 4
  match cls with
  | .two => if row = 0 ∧ col = 0 then 0 else ctx + baseOffset t (min row 4) (min col 4)
  | .vert => ctx + [26, 31, 36].getD (min row 2) 0
  | .horiz => ctx + [26, 31, 36].getD (min col 2) 0

/-- The context of `coeff_br` (8.3.2). -/
def brCtx (t : Tx) (cls : Class) (q : Nat → Nat → Nat) (row col : Nat) : Nat :=
  let mag := min ((refSum t q 15 row col (magRef cls) + 1) >>> 1) 6
  if row = 0 ∧ col = 0 then mag
  else match cls with
    | .two => if row < 2 ∧ col < 2 then mag + 7 else mag + 14
    | .horiz => if col = 0 then mag + 7 else mag + 14
    | .vert => if row = 0 then mag + 7 else mag + 14

/-! ## Reader programs -/

section
variable (num : Cdf → Nat)

/-- `S()` with a CDF. -/
def sym (c : Cdf) : Rd Nat := rdSym (num c)

/-- `transform_type( )` (5.11.47) when `qidx > 0`: the type, `DCT_DCT` if the set has no other. -/
def rdTxType (b : Blk) : Rd Nat :=
  let s := txSet b.tx b.isInter b.reduced
  if s = 0 then .ret 0
  else if b.isInter then (sym num (.interTx s b.tx.sqr)).bind fun i => .ret ((interInv s).getD i 0)
  else (sym num (.intraTx s b.tx.sqr b.intraDir)).bind fun i => .ret ((intraInv s).getD i 0)

/-- The bits `eob_extra_bit`, most significant first. -/
def rdEobBits : Nat → Nat → Rd Nat
  | 0, eob => .ret eob
  | n + 1, eob => rdBit.bind fun b => rdEobBits n (if b ≠ 0 then eob + (1 <<< n) else eob)

/-- `eob` (5.11.39). The CDFs of `eob_pt_512` and `eob_pt_1024` do not depend on the class. -/
def rdEob (t : Tx) (ptype : Nat) (cls : Class) : Rd Nat :=
  let multisize := min t.wl 5 + min t.hl 5 - 4
  (sym num (.eobPt multisize ptype (if 5 ≤ multisize ∨ cls = .two then 0 else 1))).bind fun s =>
    let eobPt := s + 1
    let eob := if eobPt < 2 then eobPt else (1 <<< (eobPt - 2)) + 1
    if 3 ≤ eobPt then
      (sym num (.eobExtra t.ctx ptype (eobPt - 3))).bind fun e =>
        rdEobBits (eobPt - 3) (if e ≠ 0 then eob + (1 <<< (eobPt - 3)) else eob)
    else .ret eob

/-- The loop over `coeff_br`, at most `n` times. -/
def rdBr (c : Cdf) : Nat → Nat → Rd Nat
  | 0, level => .ret level
  | n + 1, level => (sym num c).bind fun s => if s < 3 then .ret (level + s) else rdBr c n (level + s)

/-- The first loop of `coeffs( )`: the levels of the positions `c - 1`, ..., `0` of the scan. -/
def rdLevels (t : Tx) (ptype : Nat) (cls : Class) (order : List (Nat × Nat)) (eob : Nat) :
    Nat → (Nat → Nat → Nat) → Rd (Nat → Nat → Nat)
  | 0, q => .ret q
  | c + 1, q =>
    let pos := order.getD c (0, 0)
    (if c + 1 = eob then (sym num (.coeffBaseEob t.ctx ptype (baseEobCtx t c))).bind fun s => .ret (s + 1)
      else sym num (.coeffBase t.ctx ptype (baseCtx t cls q pos.1 pos.2))).bind fun level =>
    (if 2 < level then rdBr num (.coeffBr (min t.ctx 3) ptype (brCtx t cls q pos.1 pos.2)) 4 level
      else .ret level).bind fun level =>
    rdLevels t ptype cls order eob c fun r k => if (r, k) = pos then level else q r k

/-- What the second loop has produced: the coefficients, `culLevel` and `dcCategory`. -/
structure Acc where
  quant : Nat → Nat → Int
  cul : Nat
  dc : Nat

/-- The second loop of `coeffs( )`: signs and Golomb codes, for the positions of the scan from number `c` on. -/
def rdSigns (ptype ctx : Nat) (q : Nat → Nat → Nat) : Nat → List (Nat × Nat) → Acc → Rd Acc
  | _, [], a => .ret a
  | c, pos :: ps, a =>
    let level := q pos.1 pos.2
    if level ≠ 0 then
      (if c = 0 then sym num (.dcSign ptype ctx) else rdBit).bind fun sign =>
      (if 14 < level then rdGolomb.bind fun g => .ret (level + g) else .ret level).bind fun level =>
      let dc := if pos = (0, 0) then (if sign ≠ 0 then 1 else 2) else a.dc
      let lv : Nat := level % 2 ^ 20
      rdSigns ptype ctx q (c + 1) ps
        { quant := fun r k => if (r, k) = pos then (if sign ≠ 0 then -(lv : Int) else lv) else a.quant r k
          cul := a.cul + lv
          dc }
    else rdSigns ptype ctx q (c + 1) ps a

/-- The contexts after a block: `culLevel` and `dcCategory` over its width and height. -/
def Ctx.put (s : Ctx) (b : Blk) (cul dc : Nat) : Ctx :=
  let a (f : Nat → Nat → Nat) (x n v : Nat) : Nat → Nat → Nat := fun p k =>
    if p = b.plane ∧ x ≤ k ∧ k < x + n then v else f p k
  { aboveLevel := a s.aboveLevel b.x4 (b.tx.w >>> 2) cul
    aboveDc := a s.aboveDc b.x4 (b.tx.w >>> 2) dc
    leftLevel := a s.leftLevel b.y4 (b.tx.h >>> 2) cul
    leftDc := a s.leftDc b.y4 (b.tx.h >>> 2) dc }

/-- What `coeffs( )` gives: `eob`, the transform type and the coefficients. -/
structure Out where
  eob : Nat
  type : Nat
  quant : Nat → Nat → Int

/-- `coeffs( )` (5.11.39). -/
def rdCoeffs (b : Blk) (s : Ctx) : Rd (Out × Ctx) :=
  let ptype := if 0 < b.plane then 1 else 0
  (sym num (.txbSkip b.tx.ctx (allZeroCtx b s))).bind fun allZero =>
    if allZero ≠ 0 then .ret (⟨0, 0, fun _ _ => 0⟩, s.put b 0 0)
    else
      (if b.plane = 0 then rdTxType num b else .ret b.chromaType).bind fun ty =>
      let cls := txClass ty
      let order := scan b.tx ty
      (rdEob num b.tx ptype cls).bind fun eob =>
      (rdLevels num b.tx ptype cls order eob eob fun _ _ => 0).bind fun q =>
      (rdSigns num ptype (dcSignCtx b s) q 0 (order.take eob) ⟨fun _ _ => 0, 0, 0⟩).bind fun a =>
      .ret (⟨eob, ty, a.quant⟩, s.put b (min 63 a.cul) a.dc)

/-! ## Sequences -/

/-- Clears the entries `x0` to `x1` and `y0` to `y1` of a plane. -/
def Ctx.clear (s : Ctx) (plane x0 x1 y0 y1 : Nat) : Ctx :=
  let a (f : Nat → Nat → Nat) (lo hi : Nat) : Nat → Nat → Nat := fun p k =>
    if p = plane ∧ lo ≤ k ∧ k ≤ hi then 0 else f p k
  { aboveLevel := a s.aboveLevel x0 x1
    aboveDc := a s.aboveDc x0 x1
    leftLevel := a s.leftLevel y0 y1
    leftDc := a s.leftDc y0 y1 }

/-- A block without coefficients: position and size in units of four luma pixels, subsampling. -/
structure Skip where
  miCol : Nat
  miRow : Nat
  bw4 : Nat
  bh4 : Nat
  subX : Nat
  subY : Nat
  mono : Bool

/-- `HasChroma`, as computed in `decode_block( )`. -/
def Skip.hasChroma (b : Skip) : Bool :=
  if b.subY = 1 ∧ b.miRow % 2 = 0 ∧ b.bh4 % 2 = 1 then false
  else if b.subX = 1 ∧ b.miCol % 2 = 0 ∧ b.bw4 % 2 = 1 then false
  else !b.mono

/-- `reset_block_context( bw4, bh4 )`. -/
def Ctx.resetBlock (s : Ctx) (b : Skip) : Ctx :=
  (List.range (1 + 2 * b.hasChroma.toNat)).foldl (fun s plane =>
    let subX := if 0 < plane then b.subX else 0
    let subY := if 0 < plane then b.subY else 0
    s.clear plane (b.miCol >>> subX) ((b.miCol + b.bw4 - 1) >>> subX) (b.miRow >>> subY)
      ((b.miRow + b.bh4 - 1) >>> subY)) s

/-- `clear_left_context( )`, at the start of every row of superblocks. -/
def Ctx.clearLeft (s : Ctx) : Ctx := { s with leftLevel := fun _ _ => 0, leftDc := fun _ _ => 0 }

/-- After `clear_above_context( )` and `clear_left_context( )`, at the start of a tile. -/
def Ctx.start : Ctx := ⟨fun _ _ => 0, fun _ _ => 0, fun _ _ => 0, fun _ _ => 0⟩

/-- What the decoder does with the contexts of coefficients in a tile, in order; the syntax elements in between are
read by other programs. -/
inductive Op where
  | coeffs (b : Blk)
  | skip (b : Skip)
  | row
  | other (p : Rd Unit)

/-- Reads the coefficients of a sequence of transform blocks. -/
def rdOps : List Op → Ctx → Rd (List Out)
  | [], _ => .ret []
  | .coeffs b :: ops, s => (rdCoeffs num b s).bind fun r => (rdOps ops r.2).bind fun l => .ret (r.1 :: l)
  | .skip b :: ops, s => rdOps ops (s.resetBlock b)
  | .row :: ops, s => rdOps ops s.clearLeft
  | .other p :: ops, s => p.bind fun _ => rdOps ops s

end

end Av1Spec.Coef
