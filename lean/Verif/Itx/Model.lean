import Verif.Itx.Stages
import Verif.Quant.Model
/-
C59: `rust::inverse_transform_add` of `transform/inverse.rs` and what it calls, on 32-bit integers. `none` is a panic: an overflow (in a build
with checks), an index out of bounds or `unimplemented!`.
-/
namespace Rav1e.Itx
open Rav1e.Wht (chkI wrapI clampValue)
open Rav1e.Quant (TxSize TxType)

/-- `half_btf`, `transform/mod.rs:297-307`, with `bit` 12: the products may overflow, the sums wrap. -/
def halfBtf (w0 : Int) (in0 : Option Int) (w1 : Int) (in1 : Option Int) : Option Int := do
  let x ← in0
  let y ← in1
  let p ← chkI 32 (w0 * x)
  let q ← chkI 32 (w1 * y)
  let result := wrapI 32 (p + q)
  some (wrapI 32 (result + 2048) / 4096)

/-- The expressions of the array literals with 32-bit integers; `clamp_value` is `transform/mod.rs:311-315`. -/
def ops (range : Nat) : Ops (Option Int) where
  btf := halfBtf
  add x y := do
    let x ← x
    let y ← y
    let s ← chkI 32 (x + y)
    some (clampValue s range)
  sub x y := do
    let x ← x
    let y ← y
    let s ← chkI 32 (x - y)
    some (clampValue s range)
  nadd x y := do
    let x ← x
    let y ← y
    let n ← chkI 32 (-x)
    let s ← chkI 32 (n + y)
    some (clampValue s range)
  neg x := do
    let x ← x
    chkI 32 (-x)
  bad := none

/-- `round_shift` of the external crate `v_frame`: `(value + (1 << bit >> 1)) >> bit`. -/
def roundShift (value : Int) (bit : Nat) : Option Int := do
  let s ← chkI 32 (value + 2 ^ bit / 2)
  some (s / 2 ^ bit)

/-- `av1_iadst4`, `transform/inverse.rs:102-148`. -/
def iadst4 (input : List Int) : Option (List Int) := do
  let x0 ← input[0]?
  let x1 ← input[1]?
  let x2 ← input[2]?
  let x3 ← input[3]?
  let s0 ← chkI 32 (1321 * x0)
  let s1 ← chkI 32 (2482 * x0)
  let s2 ← chkI 32 (3344 * x1)
  let s3 ← chkI 32 (3803 * x2)
  let s4 ← chkI 32 (1321 * x2)
  let s5 ← chkI 32 (2482 * x3)
  let s6 ← chkI 32 (3803 * x3)
  let d ← chkI 32 (x0 - x2)
  let s7 ← chkI 32 (d + x3)
  let s0 ← chkI 32 (s0 + s3)
  let s1 ← chkI 32 (s1 - s4)
  let s3 := s2
  let s2 ← chkI 32 (3344 * s7)
  let s0 ← chkI 32 (s0 + s5)
  let s1 ← chkI 32 (s1 - s6)
  let x0 ← chkI 32 (s0 + s3)
  let x1 ← chkI 32 (s1 + s3)
  let x2 := s2
  let x3 ← chkI 32 (s0 + s1)
  let x3 ← chkI 32 (x3 - s3)
  let o0 ← roundShift x0 12
  let o1 ← roundShift x1 12
  let o2 ← roundShift x2 12
  let o3 ← roundShift x3 12
  some [o0, o1, o2, o3]

/-- `av1_iidentity4`, `transform/inverse.rs:150-155`, `av1_iidentity8`, `transform/inverse.rs:299-304`, `av1_iidentity16`,
`transform/inverse.rs:579-584`, and `av1_iidentity32`, `transform/inverse.rs:886-891`; `n` is the logarithm of the size. -/
def iidentity (n : Nat) (input : List Int) : Option (List Int) :=
  (List.range (2 ^ n)).mapM fun i => do
    let x ← input[i]?
    if n = 2 then
      let p ← chkI 32 (5793 * x)
      roundShift p 12
    else if n = 3 then chkI 32 (2 * x)
    else if n = 4 then
      let p ← chkI 32 (5793 * 2 * x)
      roundShift p 12
    else chkI 32 (4 * x)

/-- `TxType1D`, `transform/mod.rs:333-340`. -/
inductive Kind
  | dct | adst | flipadst | idtx | wht
  deriving DecidableEq

/-- `get_1d_tx_types`, `transform/mod.rs:342-362`: columns, then rows. -/
def get1dTxTypes : TxType → Kind × Kind
  | .dctDct => (.dct, .dct)
  | .adstDct => (.adst, .dct)
  | .dctAdst => (.dct, .adst)
  | .adstAdst => (.adst, .adst)
  | .flipadstDct => (.flipadst, .dct)
  | .dctFlipadst => (.dct, .flipadst)
  | .flipadstFlipadst => (.flipadst, .flipadst)
  | .adstFlipadst => (.adst, .flipadst)
  | .flipadstAdst => (.flipadst, .adst)
  | .idtx => (.idtx, .idtx)
  | .vDct => (.dct, .idtx)
  | .hDct => (.idtx, .dct)
  | .vAdst => (.adst, .idtx)
  | .hAdst => (.idtx, .adst)
  | .vFlipadst => (.flipadst, .idtx)
  | .hFlipadst => (.idtx, .flipadst)
  | .whtWht => (.wht, .wht)

/-- The values of an array if none of them is a panic. -/
def values (l : List (Option Int)) : Option (List Int) := l.mapM id

/-- An inverse ADST, `transform/inverse.rs:1595-1601`; none for 32 and 64. -/
def iadst (range n : Nat) (input : List Int) : Option (List Int) :=
  match n with
  | 2 => iadst4 input
  | 3 => values (iadst8 (ops range) (input.map some))
  | 4 => values (iadst16 (ops range) (input.map some))
  | _ => none

/-- `INV_TXFM_FNS`, `transform/inverse.rs:1593-1623`, with the reversal of `av1_iflipadst4`, `transform/inverse.rs:93-96`, `av1_iflipadst8`,
`transform/inverse.rs:209-212`, and `av1_iflipadst16`, `transform/inverse.rs:403-406`. `n` is the logarithm of the size. The Walsh-Hadamard
transform is left out here: it is modelled in `Verif.Transform.Wht`. -/
def invTxfm (k : Kind) (range n : Nat) (input : List Int) : Option (List Int) :=
  match k, n with
  | .dct, 2 => values (idct4 (ops range) (input.map some))
  | .dct, 3 => values (idct8 (ops range) (input.map some))
  | .dct, 4 => values (idct16 (ops range) (input.map some))
  | .dct, 5 => values (idct32 (ops range) (input.map some))
  | .dct, 6 => values (idct64 (ops range) (input.map some))
  | .adst, n => iadst range n input
  | .flipadst, n => (iadst range n input).map List.reverse
  | .idtx, n => if n ≤ 5 then iidentity n input else none
  | _, _ => none

/-- `INV_INTERMEDIATE_SHIFTS`, `transform/inverse.rs:1710-1711`. -/
def invIntermediateShifts : List Nat := [0, 1, 2, 2, 2, 0, 0, 1, 1, 1, 1, 1, 1, 1, 1, 2, 2, 2, 2]

/-- `rect_ratio_log2`, `transform/mod.rs:274-276`. -/
def rectRatioLog2 (tx : TxSize) : Int := tx.widthLog2 - tx.heightLog2

/-- `temp_in` of row `r`, `transform/inverse.rs:1660-1677`: coefficients are stored by columns. -/
def rowInput (bd : Nat) (tx : TxSize) (input : List Int) (r : Nat) : Option (List Int) :=
  (List.range 64).mapM fun j =>
    if j < min tx.width 32 then do
      let raw ← input[r + j * min tx.height 32]?
      let val ← if (rectRatioLog2 tx).natAbs = 1 then do
          let p ← chkI 32 (raw * 2896)
          roundShift p 12
        else some raw
      some (clampValue val (bd + 8))
    else some 0

/-- The first loop, `transform/inverse.rs:1651-1679`, and the rows of `buffer` that it leaves at zero, `transform/inverse.rs:1645`. -/
def rows (bd : Nat) (tx : TxSize) (ty : TxType) (input : List Int) : Option (List (List Int)) := do
  let l ← (List.range (min tx.height 32)).mapM fun r => do
    let tempIn ← rowInput bd tx input r
    invTxfm (get1dTxTypes ty).2 (bd + 8) tx.widthLog2 tempIn
  some (l ++ List.replicate (tx.height - min tx.height 32) (List.replicate tx.width 0))

/-- `temp_in` of column `c`, `transform/inverse.rs:1684-1694`. -/
def colInput (bd : Nat) (tx : TxSize) (buffer : List (List Int)) (c : Nat) : Option (List Int) :=
  (List.range 64).mapM fun i =>
    if i < tx.height then do
      let row ← buffer[i]?
      let raw ← row[c]?
      let shift ← invIntermediateShifts[tx.idx]?
      let v ← roundShift raw shift
      some (clampValue v (max (bd + 6) 16))
    else some 0

/-- The second loop, `transform/inverse.rs:1680-1705`, for column `c`: the new pixels. -/
def column (bd : Nat) (tx : TxSize) (ty : TxType) (buffer : List (List Int)) (out : Nat → Nat → Int) (c : Nat) : Option (List Int) := do
  let tempIn ← colInput bd tx buffer c
  let tempOut ← invTxfm (get1dTxTypes ty).1 (max (bd + 6) 16) tx.heightLog2 tempIn
  (List.range tx.height).mapM fun i => do
    let temp ← tempOut[i]?
    let r ← roundShift temp 4
    let s ← chkI 32 (out i c + r)
    some (max 0 (min s (2 ^ bd - 1)))

/-- `rust::inverse_transform_add`, `transform/inverse.rs:1633-1706`, for types other than `WHT_WHT`. `out` is the region of the plane by row and
column; a column of it is read and written only in its own round of the second loop. -/
def inverseTransformAdd (bd : Nat) (tx : TxSize) (ty : TxType) (input : List Int) (out : Nat → Nat → Int) : Option (Nat → Nat → Int) := do
  if input.length < min tx.width 32 * min tx.height 32 then none
  else
    let buffer ← rows bd tx ty input
    let l ← (List.range tx.width).mapM fun c => column bd tx ty buffer out c
    some fun i c => if i < tx.height ∧ c < tx.width then (l.getD c []).getD i 0 else out i c

end Rav1e.Itx
