import Verif.Quant.Tables
import Verif.Quant.Scans
/-
Model of the quantizer: the choice of quantizer indices (`select_qi` and `new_from_log_q`), the reciprocal
division, the quantization and reconstruction of a block of coefficients, and the scan orders.

A result of `none` stands for a panic: an index out of bounds, an `unwrap` of nothing, a failed assertion or
an arithmetic overflow (a panic in debug builds, a wrong value in release builds).
-/
namespace Rav1e.Quant

/-- A checked unsigned value of `w` bits: `none` on overflow. -/
def chk (w n : Nat) : Option Nat := if n < 2 ^ w then some n else none

/-- A checked signed value of `w` bits. -/
def chkI (w : Nat) (n : Int) : Option Int :=
  if -(2 : Int) ^ (w - 1) ≤ n ∧ n < 2 ^ (w - 1) then some n else none

/-- The conversion of an integer to a signed type of `w` bits (`as i16`, `as i32`): two's complement. -/
def wrapI (w : Nat) (n : Int) : Int := (n + 2 ^ (w - 1)) % 2 ^ w - 2 ^ (w - 1)

/-! ## Transform sizes and types -/

/-- `TxSize`, `transform/mod.rs:101-123`. -/
inductive TxSize
  | tx4x4 | tx8x8 | tx16x16 | tx32x32 | tx64x64
  | tx4x8 | tx8x4 | tx8x16 | tx16x8 | tx16x32 | tx32x16 | tx32x64 | tx64x32
  | tx4x16 | tx16x4 | tx8x32 | tx32x8 | tx16x64 | tx64x16
  deriving DecidableEq, Repr

/-- `tx_size as usize`, `transform/mod.rs:101-123`. -/
def TxSize.idx : TxSize → Nat
  | .tx4x4 => 0 | .tx8x8 => 1 | .tx16x16 => 2 | .tx32x32 => 3 | .tx64x64 => 4
  | .tx4x8 => 5 | .tx8x4 => 6 | .tx8x16 => 7 | .tx16x8 => 8 | .tx16x32 => 9 | .tx32x16 => 10
  | .tx32x64 => 11 | .tx64x32 => 12
  | .tx4x16 => 13 | .tx16x4 => 14 | .tx8x32 => 15 | .tx32x8 => 16 | .tx16x64 => 17 | .tx64x16 => 18

/-- `TxSize::width_log2`, `transform/mod.rs:138-146`. -/
def TxSize.widthLog2 : TxSize → Nat
  | .tx4x4 | .tx4x8 | .tx4x16 => 2
  | .tx8x8 | .tx8x4 | .tx8x16 | .tx8x32 => 3
  | .tx16x16 | .tx16x8 | .tx16x32 | .tx16x4 | .tx16x64 => 4
  | .tx32x32 | .tx32x16 | .tx32x64 | .tx32x8 => 5
  | .tx64x64 | .tx64x32 | .tx64x16 => 6

/-- `TxSize::height_log2`, `transform/mod.rs:159-167`. -/
def TxSize.heightLog2 : TxSize → Nat
  | .tx4x4 | .tx8x4 | .tx16x4 => 2
  | .tx8x8 | .tx4x8 | .tx16x8 | .tx32x8 => 3
  | .tx16x16 | .tx8x16 | .tx32x16 | .tx4x16 | .tx64x16 => 4
  | .tx32x32 | .tx16x32 | .tx64x32 | .tx8x32 => 5
  | .tx64x64 | .tx32x64 | .tx16x64 => 6

/-- `TxSize::width`, `transform/mod.rs:133-135`. -/
def TxSize.width (t : TxSize) : Nat := 2 ^ t.widthLog2

/-- `TxSize::height`, `transform/mod.rs:154-156`. -/
def TxSize.height (t : TxSize) : Nat := 2 ^ t.heightLog2

/-- `TxSize::area`, `transform/mod.rs:180-187`. -/
def TxSize.area (t : TxSize) : Nat := 2 ^ (t.widthLog2 + t.heightLog2)

/-- `TxType`, `transform/mod.rs:56-74`. -/
inductive TxType
  | dctDct | adstDct | dctAdst | adstAdst | flipadstDct | dctFlipadst | flipadstFlipadst
  | adstFlipadst | flipadstAdst | idtx | vDct | hDct | vAdst | hAdst | vFlipadst | hFlipadst | whtWht
  deriving DecidableEq, Repr

/-- `tx_type as usize`, `transform/mod.rs:56-74`. -/
def TxType.idx : TxType → Nat
  | .dctDct => 0 | .adstDct => 1 | .dctAdst => 2 | .adstAdst => 3 | .flipadstDct => 4
  | .dctFlipadst => 5 | .flipadstFlipadst => 6 | .adstFlipadst => 7 | .flipadstAdst => 8 | .idtx => 9
  | .vDct => 10 | .hDct => 11 | .vAdst => 12 | .hAdst => 13 | .vFlipadst => 14 | .hFlipadst => 15
  | .whtWht => 16

/-! ## Scan orders -/

/-- The loop of `invert`, `scan_order.rs:898-901`, from index `i` on. -/
def invertLoop (scan : List Nat) (i : Nat) (iscan : List Nat) : List Nat :=
  match scan with
  | [] => iscan
  | s :: rest => invertLoop rest (i + 1) (iscan.set s i)

/-- `invert`, `scan_order.rs:895-903`. An index out of bounds would stop the compilation (the function is
only evaluated at compile time); `List.set` ignores it instead. -/
def invert (scan : List Nat) : List Nat := invertLoop scan 0 scan

/-- `av1_scan_orders[tx_size][tx_type].scan`, `quantize/mod.rs:272`. There is no column for `WHT_WHT`. -/
def scanOf (tx : TxSize) (ty : TxType) : Option (List Nat) := do
  let row ← Scans.av1_scan_orders[tx.idx]?
  row[ty.idx]?

/-- `av1_scan_orders[tx_size][tx_type].iscan`, `quantize/mod.rs:273`: every `iscan` member is `invert` of
the `scan` member beside it (`scan_order.rs:905-946`). -/
def iscanOf (tx : TxSize) (ty : TxType) : Option (List Nat) := (scanOf tx ty).map invert

/-! ## Reciprocal division -/

/-- `divu_gen`, `quantize/mod.rs:129-146`. `Nat.log2 d` is `31 - leading_zeros`, and `d` is a power of two
exactly when it equals two to that power. -/
def divuGen (d : Nat) : Option (Nat × Nat × Nat) := do
  let m := Nat.log2 d
  if d = 2 ^ m then some (0xFFFFFFFF, 0xFFFFFFFF, m)
  else
    let t := (2 ^ (m + 32)) / d
    let td ← chk 64 (t * d)
    let tdd ← chk 64 (td + d)
    let r := tdd % 2 ^ 32
    if r ≤ 2 ^ m then
      let a ← chk 32 (t % 2 ^ 32 + 1)
      some (a, 0, m)
    else some (t % 2 ^ 32, t % 2 ^ 32, m)

/-- `divu_pair`, `quantize/mod.rs:148-157`. -/
def divuPair (x : Nat) (d : Nat × Nat × Nat) : Option Nat := do
  let ax ← chk 64 (d.1 * x)
  let s ← chk 64 (ax + d.2.1)
  some ((s / 2 ^ 32 / 2 ^ d.2.2) % 2 ^ 32)

/-! ## Look-up of quantizers -/

/-- The table of the quantizers for DC coefficients at a bit depth, as `select_dc_qi` picks it,
`quantize/mod.rs:79-87`: `unimplemented!` for other depths. -/
def dcTable : Nat → Option (List Nat)
  | 8 => some Tables.dc_qlookup_Q3
  | 10 => some Tables.dc_qlookup_10_Q3
  | 12 => some Tables.dc_qlookup_12_Q3
  | _ => none

/-- The same for AC coefficients, `quantize/mod.rs:89-97`. -/
def acTable : Nat → Option (List Nat)
  | 8 => some Tables.ac_qlookup_Q3
  | 10 => some Tables.ac_qlookup_10_Q3
  | 12 => some Tables.ac_qlookup_12_Q3
  | _ => none

/-- The index of `dc_q` and `ac_q` into their tables, `quantize/mod.rs:41`. -/
def qIndex (qindex : Nat) (delta : Int) : Nat := min (max ((qindex : Int) + delta) 0).toNat 255

/-- The row of the tables that `dc_q` and `ac_q` use, `quantize/mod.rs:40`. -/
def bdIndex (bitDepth : Nat) : Nat := min ((bitDepth ^^^ 8) / 2) 2

/-- `dc_q`, `quantize/mod.rs:37-42`. -/
def dcQ (qindex : Nat) (delta : Int) (bitDepth : Nat) : Option Nat := do
  let t ← [Tables.dc_qlookup_Q3, Tables.dc_qlookup_10_Q3, Tables.dc_qlookup_12_Q3][bdIndex bitDepth]?
  t[qIndex qindex delta]?

/-- `ac_q`, `quantize/mod.rs:44-49`. -/
def acQ (qindex : Nat) (delta : Int) (bitDepth : Nat) : Option Nat := do
  let t ← [Tables.ac_qlookup_Q3, Tables.ac_qlookup_10_Q3, Tables.ac_qlookup_12_Q3][bdIndex bitDepth]?
  t[qIndex qindex delta]?

/-- The outcome of `slice::binary_search`: `Ok` with the index of a match, or `Err` with the place where
the value could be inserted. -/
inductive Found
  | hit (i : Nat)
  | gap (i : Nat)
  deriving DecidableEq, Repr

/-- What the standard library promises about `binary_search` on a sorted slice: any one of several
matches may be returned, and the insertion point keeps the slice sorted. -/
def Found.Ok (t : List Nat) (x : Nat) : Found → Prop
  | .hit i => t[i]? = some x
  | .gap i => i ≤ t.length ∧ (∀ j v, j < i → t[j]? = some v → v < x) ∧
      (∀ j v, i ≤ j → t[j]? = some v → x < v)

/-- A binary search: its outcome for every sorted table and value. The code uses the one of the standard
library, which is not modelled; theorems hold for every search that keeps the promise above. -/
abbrev Search := List Nat → Nat → Found

/-- The branch of `select_qi` for a value that is not in the table, `quantize/mod.rs:61-74`: the nearer of
the two entries around it in the log domain. `none` when an assertion fails or a product does not fit
`i32`. -/
def selectGap (quantizer : Int) (t : List Nat) (qi : Nat) : Option Nat :=
  if 0 < qi ∧ qi ≤ 255 then
    (t[qi - 1]?).bind fun a =>
    (t[qi]?).bind fun b =>
    (chkI 32 (wrapI 32 a * wrapI 32 b)).bind fun thresh =>
    (chkI 32 (wrapI 32 quantizer * wrapI 32 quantizer)).bind fun q2 =>
    if q2 < thresh then some ((qi - 1) % 256) else some (qi % 256)
  else none

/-- `select_qi`, `quantize/mod.rs:52-77`. `none` when the value searched for is zero or an index is out of
bounds. -/
def selectQi (bs : Search) (quantizer : Int) (t : List Nat) : Option Nat := do
  let lo : Nat ← t[0]?
  let hi : Nat ← t[255]?
  if quantizer < (lo : Int) then some 0
  else if (hi : Int) ≤ quantizer then some 255
  else
    let q := quantizer.toNat % 2 ^ 16
    if q = 0 then none
    else match bs t q with
      | .hit qi => some (qi % 256)
      | .gap qi => selectGap quantizer t qi

/-- `select_dc_qi`, `quantize/mod.rs:79-87`. -/
def selectDcQi (bs : Search) (quantizer : Int) (bitDepth : Nat) : Option Nat := do
  let t ← dcTable bitDepth
  selectQi bs quantizer t

/-- `select_ac_qi`, `quantize/mod.rs:89-97`. -/
def selectAcQi (bs : Search) (quantizer : Int) (bitDepth : Nat) : Option Nat := do
  let t ← acTable bitDepth
  selectQi bs quantizer t

/-- `u8::clamp`: panics when the bounds are the wrong way round. -/
def clampQi (lo hi q : Nat) : Option Nat := if lo ≤ hi then some (max lo (min q hi)) else none

/-- The quantizer indices chosen by `QuantizerParameters::new_from_log_q`, `rate.rs:557-580`, from the
three linear quantizers that `bexp64` computes for the planes (`rate.rs:540`, `546-547`). -/
def chooseQi (bs : Search) (qy qu qv : Int) (bitDepth : Nat) (mono : Bool) :
    Option (List Nat × List Nat) := do
  let y ← selectAcQi bs qy bitDepth
  let base := max y 1
  let lo := max (base - 63) 1
  let hi := min (base + 63) 255
  let dcy ← (selectDcQi bs qy bitDepth).bind (clampQi lo hi)
  let dcu ← if mono then some 0 else (selectDcQi bs qu bitDepth).bind (clampQi lo hi)
  let dcv ← if mono then some 0 else (selectDcQi bs qv bitDepth).bind (clampQi lo hi)
  let acu ← if mono then some 0 else (selectAcQi bs qu bitDepth).bind (clampQi lo hi)
  let acv ← if mono then some 0 else (selectAcQi bs qv bitDepth).bind (clampQi lo hi)
  some ([dcy, dcu, dcv], [base, acu, acv])

/-! ## Quantization of a block -/

/-- `get_log_tx_scale`, `quantize/mod.rs:30-35`. -/
def logTxScale (tx : TxSize) : Nat :=
  (if 256 < tx.area then 1 else 0) + (if 1024 < tx.area then 1 else 0)

/-- `QuantizationContext`, `quantize/mod.rs:99-111`. -/
structure QCtx where
  logTxScale : Nat
  dcQuant : Nat
  dcOffset : Nat
  dcMulAdd : Nat × Nat × Nat
  acQuant : Nat
  acOffsetEob : Nat
  acOffset0 : Nat
  acOffset1 : Nat
  acMulAdd : Nat × Nat × Nat
  deriving DecidableEq, Repr

/-- `QuantizationContext::update`, `quantize/mod.rs:219-266`. The products fit `u32`: both factors are
below 2^16. -/
def QCtx.update (qindex : Nat) (tx : TxSize) (intra : Bool) (bitDepth : Nat) (dcDelta acDelta : Int) :
    Option QCtx := do
  let dq ← dcQ qindex dcDelta bitDepth
  let dm ← divuGen dq
  let aq ← acQ qindex acDelta bitDepth
  let am ← divuGen aq
  some {
    logTxScale := Quant.logTxScale tx
    dcQuant := dq
    dcMulAdd := dm
    acQuant := aq
    acMulAdd := am
    dcOffset := dq * (if intra then 109 else 108) / 256
    acOffset0 := aq * (if intra then 98 else 97) / 256
    acOffset1 := aq * (if intra then 109 else 108) / 256
    acOffsetEob := aq * (if intra then 88 else 44) / 256 }

/-- `copysign`, `quantize/mod.rs:159-166`: the negation of `i32::MIN` would overflow. -/
def copysign (value : Nat) (signed : Int) : Option Int :=
  let v := wrapI 32 value
  if signed < 0 then chkI 32 (-v) else some v

/-- The coefficient, sign-extended to `i32` and shifted left (`i32::cast_from(c) << log_tx_scale`, bits
shifted out are lost): `quantize/mod.rs:276`, `320`. -/
def scaled (s : Nat) (c : Int) : Int := wrapI 32 (c * 2 ^ s)

/-- The level of the DC coefficient, `quantize/mod.rs:275-282`; `w` is the width of the coefficient type. -/
def dcLevel (qc : QCtx) (w : Nat) (c : Int) : Option Int := do
  let coeff := scaled qc.logTxScale c
  let x ← chk 32 (coeff.natAbs + qc.dcOffset)
  let d ← divuPair x qc.dcMulAdd
  let v ← copysign d coeff
  some (wrapI w v)

/-- `deadzone`, `quantize/mod.rs:288-291`. `align_power_of_two_and_shift` (crate `v_frame`, not part of the
repository) divides by the power of two and rounds up. -/
def deadzone (qc : QCtx) (w : Nat) : Option Int :=
  if qc.acOffsetEob ≤ qc.acQuant then
    some (wrapI w (((qc.acQuant - qc.acOffsetEob) + 2 ^ qc.logTxScale - 1) / 2 ^ qc.logTxScale : Nat))
  else none

/-- `c.abs() >= deadzone` for every coefficient of the zip, `quantize/mod.rs:293-298`; the absolute value
overflows for the least value of the type. -/
def lastPos (dz : Int) (w : Nat) : List Nat → List Int → Option Nat
  | i :: is, c :: cs => do
    let a ← chkI w c.natAbs
    let m ← lastPos dz w is cs
    some (max (if dz ≤ a then i else 0) m)
  | _, _ => some 0

/-- One coefficient of the loop over the scan, `quantize/mod.rs:319-339`. The state is `level_mode` and the
quantized coefficients. -/
def acStep (qc : QCtx) (w : Nat) (coeffs : List Int) (mode : Nat) (q : List Int) (pos : Nat) :
    Option (Nat × List Int) := do
  let c ← coeffs[pos]?
  let coeff := scaled qc.logTxScale c
  let x := coeff.natAbs
  let level0 ← divuPair x qc.acMulAdd
  let offset := if level0 > 1 - mode then qc.acOffset1 else qc.acOffset0
  let xo ← chk 32 (x + offset)
  let next ← chk 32 ((level0 + 1) * qc.acQuant)
  let level ← chk 32 (level0 + (if next ≤ xo then 1 else 0))
  let mode := if mode ≠ 0 ∧ level = 0 then 0 else if level > 1 then 1 else mode
  let v ← copysign level coeff
  if pos < q.length then some (mode, q.set pos (wrapI w v)) else none

/-- The loop over the scan, `quantize/mod.rs:319-339`. -/
def acLoop (qc : QCtx) (w : Nat) (coeffs : List Int) (mode : Nat) (q : List Int) :
    List Nat → Option (List Int)
  | [] => some q
  | pos :: rest => do
    let (mode, q) ← acStep qc w coeffs mode q pos
    acLoop qc w coeffs mode q rest

/-- `scan.iter().rposition(|&i| qcoeffs[i] != 0).map(|n| n + 1).unwrap_or(0)`, `quantize/mod.rs:345-352`:
the end of block recomputed from the levels. -/
def eobOf (q : List Int) (scan : List Nat) : Nat :=
  scan.zipIdx.foldl (fun e p => if q.getD p.1 0 ≠ 0 then p.2 + 1 else e) 0

/-- `QuantizationContext::quantize`, `quantize/mod.rs:269-355`, with the two scan tables and the buffer for
the levels as arguments. Returns the end of block and the levels. -/
def quantizeWith (qc : QCtx) (w : Nat) (scan iscan : List Nat) (coeffs q : List Int) :
    Option (Nat × List Int) := do
  let c0 ← coeffs[0]?
  let d ← dcLevel qc w c0
  let q ← if 0 < q.length then some (q.set 0 d) else none
  let dz ← deadzone qc w
  let last ← lastPos dz w iscan coeffs
  let eob := if 0 < last then last + 1 else if d ≠ 0 then 1 else 0
  let q ← acLoop qc w coeffs 1 q ((scan.take eob).drop 1)
  if eob = eobOf q scan then some (eob, q) else none

/-- `QuantizationContext::quantize`, `quantize/mod.rs:269-355`. -/
def quantize (qc : QCtx) (w : Nat) (coeffs q : List Int) (tx : TxSize) (ty : TxType) :
    Option (Nat × List Int) := do
  let scan ← scanOf tx ty
  let iscan ← iscanOf tx ty
  quantizeWith qc w scan iscan coeffs q

/-- One coefficient of `rust::dequantize`, `quantize/mod.rs:374-383`: `w` is the width of the coefficient
type. The arithmetic shift of `c` by 31 is minus one for a negative `c` and zero otherwise. -/
def dequant1 (s quant w : Nat) (c : Int) : Option Int := do
  let p ← chkI 32 (c * quant)
  let sum ← chkI 32 (p + (if c < 0 then 2 ^ s - 1 else 0))
  some (wrapI w (sum / 2 ^ s))

/-- The loop of `rust::dequantize`, `quantize/mod.rs:374-383`, from position `i` on. -/
def dequantLoop (s dcQuant acQuant w : Nat) : Nat → List Int → Option (List Int)
  | _, [] => some []
  | i, c :: cs => do
    let r ← dequant1 s (if i = 0 then dcQuant else acQuant) w c
    let rs ← dequantLoop s dcQuant acQuant w (i + 1) cs
    some (r :: rs)

/-- `rust::dequantize`, `quantize/mod.rs:363-384`, into a buffer as long as the levels. -/
def dequantize (qindex : Nat) (w : Nat) (coeffs : List Int) (tx : TxSize) (bitDepth : Nat)
    (dcDelta acDelta : Int) : Option (List Int) := do
  let dq ← dcQ qindex dcDelta bitDepth
  let aq ← acQ qindex acDelta bitDepth
  dequantLoop (logTxScale tx) dq aq w 0 coeffs

attribute [irreducible] chk chkI wrapI

end Rav1e.Quant
