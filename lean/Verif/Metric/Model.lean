import Verif.Seg.Model

/-!
# Metrics of motion search and mode decision: the code

`get_sad`, `get_satd` and `get_weighted_sse`.  Regions of planes are functions of row and column, `none` is a panic.
-/

namespace Rav1e.Metric

open Rav1e.Dist (chk chkI sumChk)

/-- `get_sad` (src/dist.rs:31-52). -/
def sad (a b : Nat → Nat → Nat) (w h : Nat) : Option Nat := do
  if 128 < w ∨ 128 < h then none
  let rows ← (List.range h).mapM fun y => sumChk 32 ((List.range w).map fun x => ((a y x : Int) - b y x).natAbs)
  sumChk 32 rows

/-- `butterfly` (src/dist.rs:55-57). -/
def butterfly (a b : Int) : Option (Int × Int) := do
  let s ← chkI (a + b)
  let d ← chkI (a - b)
  some (s, d)

/-- One turn of the loop of `hadamard4_1d` (src/dist.rs:71-74). -/
def had4 (x : Nat → Int) : Option (List Int) := do
  let (a0, a1) ← butterfly (x 0) (x 1)
  let (a2, a3) ← butterfly (x 2) (x 3)
  let (b0, b2) ← butterfly a0 a2
  let (b1, b3) ← butterfly a1 a3
  some [b0, b1, b2, b3]

/-- One turn of the loop of `hadamard8_1d` (src/dist.rs:95-108). -/
def had8 (x : Nat → Int) : Option (List Int) := do
  let (a0, a1) ← butterfly (x 0) (x 1)
  let (a2, a3) ← butterfly (x 2) (x 3)
  let (a4, a5) ← butterfly (x 4) (x 5)
  let (a6, a7) ← butterfly (x 6) (x 7)
  let (b0, b2) ← butterfly a0 a2
  let (b1, b3) ← butterfly a1 a3
  let (b4, b6) ← butterfly a4 a6
  let (b5, b7) ← butterfly a5 a7
  let (c0, c4) ← butterfly b0 b4
  let (c1, c5) ← butterfly b1 b5
  let (c2, c6) ← butterfly b2 b6
  let (c3, c7) ← butterfly b3 b7
  some [c0, c1, c2, c3, c4, c5, c6, c7]

/-- The assignments at the end of a turn (src/dist.rs:75-78, src/dist.rs:110-117): the values go to places `s1` apart. -/
def write (d : Nat → Int) (base s1 : Nat) (out : List Int) : Nat → Int := fun p =>
  match (List.range out.length).find? fun j => p == base + j * s1 with
  | some j => out.getD j 0
  | none => d p

/-- `hadamard4_1d` and `hadamard8_1d` (src/dist.rs:61-119): `s0` and `s1` are the strides. -/
def pass (n s0 s1 : Nat) (d : Nat → Int) : Option (Nat → Int) :=
  (List.range n).foldlM (fun d i => ((if n = 4 then had4 else had8) fun j => d (i * s0 + j * s1)).map (write d (i * s0) s1)) d

/-- `hadamard2d` (src/dist.rs:122-141) for squares. -/
def hadamard2d (n : Nat) (d : Nat → Int) : Option (Nat → Int) := do
  let d ← pass n 1 n d
  pass n n 1 d

/-- The values of `(0..len).step_by(size)`. -/
def starts (len size : Nat) : List Nat := (List.range ((len + size - 1) / size)).map (· * size)

/-- A chunk of `get_satd` (src/dist.rs:171-214). -/
def chunk (a b : Nat → Nat → Nat) (w h size : Nat) (c : Nat × Nat) : Option Nat :=
  let cw := min (w - c.2) size
  let ch := min (h - c.1) size
  let a := fun y x => a (c.1 + y) (c.2 + x)
  let b := fun y x => b (c.1 + y) (c.2 + x)
  if cw ≠ size ∨ ch ≠ size then sad a b cw ch
  else do
    let d ← hadamard2d size fun p => (a (p / size) (p % size) : Int) - b (p / size) (p % size)
    sumChk 64 ((List.range (size * size)).map fun p => (d p).natAbs)

/-- `get_satd` (src/dist.rs:156-221).  Sizes below 8 other than 4 are not modelled: the code would transform 8x8 values that it has not laid out. -/
def satd (a b : Nat → Nat → Nat) (w h : Nat) : Option Nat := do
  if 128 < w ∨ 128 < h then none
  let size := min (min w h) 8
  if size ≠ 4 ∧ size ≠ 8 then none
  let parts ← ((starts h size).flatMap fun y => (starts w size).map fun x => (y, x)).mapM (chunk a b w h size)
  let sum ← sumChk 64 parts
  let ln := Nat.log2 size
  let r ← chk 64 (sum + (1 <<< ln >>> 1))
  some ((r >>> ln) % 2 ^ 32)

/-- The sum of a chunk of `get_weighted_sse` (src/dist.rs:260-275), with its scale. -/
def weightedChunk (a b : Nat → Nat → Nat) (scale : Nat) : Option Nat := do
  let rows ← (List.range 4).mapM fun y => do
    let sq ← (List.range 4).mapM fun x => chkI (((a y x : Int) - b y x) * ((a y x : Int) - b y x))
    sumChk 32 (sq.map Int.toNat)
  let sum ← sumChk 32 rows
  let v ← chk 64 (sum * scale)
  let v ← chk 64 (v + (1 <<< 8 >>> 1))
  some (v >>> 8)

/-- `get_weighted_sse` (src/dist.rs:234-283): windows of 4x4 pixels.  The scales are a function of row and column: there are as many as windows. -/
def weightedSse (a b scale : Nat → Nat → Nat) (w h : Nat) : Option Nat := do
  let rows ← (List.range (h / 4)).mapM fun y => do
    let cells ← (List.range (w / 4)).mapM fun x => weightedChunk (fun i j => a (4 * y + i) (4 * x + j)) (fun i j => b (4 * y + i) (4 * x + j)) (scale y x)
    sumChk 64 cells
  let sse ← sumChk 64 rows
  let den ← Seg.scaleNew 1 (1 <<< 8)
  let v ← chk 64 (sse + (den >>> 1))
  if den = 0 then none
  some (v / den)

end Rav1e.Metric
