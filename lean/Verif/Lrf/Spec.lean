/-!
# Loop restoration in a decoder

Section 7.17 of the AV1 specification, for one plane of a frame, written pixel by pixel.  The specification runs through
the frame in blocks of 4x4 luma pixels; `row` is the row of such blocks that a pixel is in.
-/

namespace Rav1e.Lrf.Spec

/-- `Round2( x, n )`. -/
def round2 (x n : Nat) : Nat := if n = 0 then x else (x + 2 ^ (n - 1)) / 2 ^ n
/-- `Round2( x, n )` of a signed number. -/
def round2i (x : Int) (n : Nat) : Int := if n = 0 then x else (x + 2 ^ (n - 1)) / 2 ^ n

/-- `Clip3( lo, hi, x )`. -/
def clip3 (lo hi x : Int) : Int := if x < lo then lo else if x > hi then hi else x

/-- `f 0 + … + f (n - 1)`. -/
def sum : Nat → (Nat → Nat) → Nat
  | 0, _ => 0
  | n + 1, f => sum n f + f n

/-- The same for signed numbers. -/
def sumi : Nat → (Nat → Int) → Int
  | 0, _ => 0
  | n + 1, f => sumi n f + f n

/-- `LrType`, with `LrWiener` (vertical, horizontal), and `LrSgrSet`, `LrSgrXqd`. -/
inductive Unit where
  | none
  | wiener (v h : Int × Int × Int)
  | sgrproj (set : Nat) (xqd0 xqd1 : Int)
deriving Repr, DecidableEq

/-- `Sgr_Params`: radius and epsilon for each of the two passes. -/
def sgrParams : List ((Nat × Nat) × (Nat × Nat)) :=
  [((2, 12), (1, 4)), ((2, 15), (1, 6)), ((2, 18), (1, 8)), ((2, 21), (1, 9)), ((2, 24), (1, 10)), ((2, 29), (1, 11)),
   ((2, 36), (1, 12)), ((2, 45), (1, 13)), ((2, 56), (1, 14)), ((2, 68), (1, 15)), ((0, 0), (1, 5)), ((0, 0), (1, 8)),
   ((0, 0), (1, 11)), ((0, 0), (1, 14)), ((2, 30), (0, 0)), ((2, 75), (0, 0))]

/-- What the decoder knows of one plane. -/
structure Dec where
  /-- `subX`, `subY`: 0 for luma -/
  subX : Nat
  subY : Nat
  bitDepth : Nat
  /-- `UpscaledWidth`, `FrameHeight` -/
  frameWidth : Nat
  frameHeight : Nat
  /-- `LoopRestorationSize[ plane ]` -/
  unitSize : Nat
  /-- the unit at a row and column of units -/
  lrUnit : Nat → Nat → Unit
  /-- `UpscaledCdefFrame[ plane ][ y ][ x ]` and `UpscaledCurrFrame[ plane ][ y ][ x ]` -/
  cdef : Int → Int → Nat
  curr : Int → Int → Nat

namespace Dec
variable (d : Dec)

def planeW : Nat := round2 d.frameWidth d.subX
def planeH : Nat := round2 d.frameHeight d.subY
/-- `count_units_in_frame`. -/
def countUnits (size : Nat) : Nat := max ((size + d.unitSize / 2) / d.unitSize) 1
def unitRows : Nat := d.countUnits d.planeH
def unitCols : Nat := d.countUnits d.planeW

/-- The row and column of blocks of 4x4 luma pixels that a pixel of the plane is in. -/
def row (y : Nat) : Nat := y * 2 ^ d.subY / 4
def col (x : Nat) : Nat := x * 2 ^ d.subX / 4

/-! 7.17.2 (loop restore block process) -/

def stripeNum (y : Nat) : Nat := (d.row y * 4 + 8) / 64
def stripeStartY (y : Nat) : Int := (-8 + (d.stripeNum y : Int) * 64) / 2 ^ d.subY
def stripeEndY (y : Nat) : Int := d.stripeStartY y + (64 / 2 ^ d.subY : Nat) - 1
def unitRow (y : Nat) : Nat := min (d.unitRows - 1) ((d.row y * 4 + 8) / 2 ^ d.subY / d.unitSize)
def unitCol (x : Nat) : Nat := min (d.unitCols - 1) (d.col x * 4 / 2 ^ d.subX / d.unitSize)

/-! 7.17.6 (get source sample process): `y0` is the row of the pixel that is restored. -/

def sample (y0 : Nat) (x y : Int) : Nat :=
  let x := max 0 (min ((d.planeW : Int) - 1) x)
  let y := max 0 (min ((d.planeH : Int) - 1) y)
  if y < d.stripeStartY y0 then d.curr (max (d.stripeStartY y0 - 2) y) x
  else if y > d.stripeEndY y0 then d.curr (min (d.stripeEndY y0 + 2) y) x
  else d.cdef y x

/-! 7.17.5 (box filter process) -/

/-- `a2` and `B` for the sums `a` of the squares and `b` of the samples of a box of `n` samples. -/
def finish (bitDepth n eps a b : Nat) : Nat × Nat :=
  let n2e := n * n * eps
  let s := (2 ^ 20 + n2e / 2) / n2e
  let oneByN := (2 ^ 12 + n / 2) / n
  let a := round2 a (2 * (bitDepth - 8))
  let d := round2 b (bitDepth - 8)
  let p := a * n - d * d
  let z := round2 (p * s) 20
  let a2 := if z ≥ 255 then 256 else if z = 0 then 1 else (z * 2 ^ 8 + z / 2) / (z + 1)
  (a2, round2 ((2 ^ 8 - a2) * b * oneByN) 12)

/-- `A` and `B` at row `i` and column `j` of the plane. -/
def box (y0 r eps : Nat) (i j : Int) : Nat × Nat :=
  finish d.bitDepth ((2 * r + 1) * (2 * r + 1)) eps
    (sum (2 * r + 1) (fun dy => sum (2 * r + 1) (fun dx =>
      d.sample y0 (j - r + dx) (i - r + dy) * d.sample y0 (j - r + dx) (i - r + dy))))
    (sum (2 * r + 1) (fun dy => sum (2 * r + 1) (fun dx => d.sample y0 (j - r + dx) (i - r + dy))))

/-- The row in the block of 4x4 luma pixels. -/
def inBlock (y : Nat) : Nat := y - d.row y * 4 / 2 ^ d.subY

/-- The weight of the box `dy - 1` rows and `dx - 1` columns away, for row `i` of a block. -/
def weight (pass i dy dx : Nat) : Nat :=
  if pass = 0 then (if (i + dy + 1) % 2 = 1 then (if dx = 1 then 6 else 5) else 0)
  else if dx = 1 ∨ dy = 1 then 4 else 3

/-- `F`. -/
def flt (pass r eps : Nat) (y x : Nat) : Nat :=
  let i := d.inBlock y
  let shift := if pass = 0 ∧ i % 2 = 1 then 4 else 5
  let a := sum 3 (fun dy => sum 3 (fun dx => weight pass i dy dx * (d.box y r eps ((y : Int) - 1 + dy) ((x : Int) - 1 + dx)).1))
  let b := sum 3 (fun dy => sum 3 (fun dx => weight pass i dy dx * (d.box y r eps ((y : Int) - 1 + dy) ((x : Int) - 1 + dx)).2))
  round2 (a * d.cdef y x + b) (8 + shift - 4)

/-! 7.17.3 (self guided filter process) -/

def selfGuided (set : Nat) (w0 w1 : Int) (y x : Nat) : Nat :=
  let p := sgrParams.getD set ((0, 0), (0, 0))
  let w2 : Int := 2 ^ 7 - w0 - w1
  let u : Int := (d.cdef y x : Int) * 2 ^ 4
  let v := w1 * u
  let v := if p.1.1 ≠ 0 then v + w0 * d.flt 0 p.1.1 p.1.2 y x else v + w0 * u
  let v := if p.2.1 ≠ 0 then v + w2 * d.flt 1 p.2.1 p.2.2 y x else v + w2 * u
  (clip3 0 (2 ^ d.bitDepth - 1) (round2i v (4 + 7))).toNat

/-! 7.17.4 (Wiener filter process) -/

def wienerTaps (c : Int × Int × Int) : List Int :=
  [c.1, c.2.1, c.2.2, 128 - 2 * c.1 - 2 * c.2.1 - 2 * c.2.2, c.2.2, c.2.1, c.1]

/-- `InterRound0`, `InterRound1`, 7.11.3.2 with `isCompound` equal to 0. -/
def interRound0 : Nat := if d.bitDepth = 12 then 5 else 3
def interRound1 : Nat := if d.bitDepth = 12 then 9 else 11

def intermediate (h : List Int) (y0 : Nat) (y x : Int) : Int :=
  let offset : Int := 2 ^ (d.bitDepth + 7 - d.interRound0 - 1)
  let limit : Int := 2 ^ (d.bitDepth + 1 + 7 - d.interRound0) - 1
  clip3 (-offset) (limit - offset)
    (round2i (sumi 7 (fun t => h.getD t 0 * d.sample y0 (x + t - 3) y)) d.interRound0)

def wiener (v h : Int × Int × Int) (y x : Nat) : Nat :=
  (clip3 0 (2 ^ d.bitDepth - 1) (round2i (sumi 7 (fun t =>
    (wienerTaps v).getD t 0 * d.intermediate (wienerTaps h) y ((y : Int) + t - 3) x)) d.interRound1)).toNat

/-- `LrFrame[ plane ][ y ][ x ]`. -/
def lrFrame (y x : Nat) : Nat :=
  match d.lrUnit (d.unitRow y) (d.unitCol x) with
  | .none => d.cdef y x
  | .wiener v h => d.wiener v h y x
  | .sgrproj set w0 w1 => d.selfGuided set w0 w1 y x

end Dec

end Rav1e.Lrf.Spec
