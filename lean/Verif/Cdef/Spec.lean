/-!
# CDEF as the decoder does it

Specification: section 7.15 of the AV1 specification, by pixel.  Nothing here is taken from the model of the code.
-/

namespace Rav1e.Cdef.Spec

/-- What the decoder knows when the filter starts. -/
structure Params where
  bitDepth : Nat
  numPlanes : Nat
  subX : Nat
  subY : Nat
  miRows : Nat
  miCols : Nat
  /-- `CdefDamping` -/
  damping : Nat
  /-- `cdef_y_pri_strength`, `cdef_y_sec_strength`, `cdef_uv_pri_strength`, `cdef_uv_sec_strength` by index -/
  yPri : Nat → Nat
  ySec : Nat → Nat
  uvPri : Nat → Nat
  uvSec : Nat → Nat
  /-- `Skips[r][c]` -/
  skips : Nat → Nat → Bool
  /-- `cdef_idx[r][c]`, -1 when none was coded -/
  cdefIdx : Nat → Nat → Int
  /-- `CurrFrame[plane][y][x]` -/
  cur : Nat → Int → Int → Int

/-- `CdefFrame` only depends on pixels that are available, 7.15.2: inside of the picture. -/
def available (s : Params) (p : Nat) (y x : Int) : Bool :=
  let r := y * 2 ^ (if p = 0 then 0 else s.subY) / 4
  let c := x * 2 ^ (if p = 0 then 0 else s.subX) / 4
  decide (0 ≤ r ∧ r < s.miRows ∧ 0 ≤ c ∧ c < s.miCols)

/-! ## Direction, 7.15.1 -/

/-- The line through pixel `(i, j)` of the 8x8 block in direction `d`: pixels with equal numbers are on one line. -/
def line (d i j : Nat) : Nat :=
  match d with
  | 0 => i + j
  | 1 => i + j / 2
  | 2 => i
  | 3 => 3 + i - j / 2
  | 4 => 7 + i - j
  | 5 => 3 + j - i / 2
  | 6 => j
  | _ => i / 2 + j

/-- The pixels of line `k` in direction `d`. -/
def onLine (d k : Nat) : List (Nat × Nat) :=
  ((List.range 8).flatMap (fun i => (List.range 8).map (fun j => (i, j)))).filter (fun ij => line d ij.1 ij.2 == k)

/-- The sum of squared line sums, each divided by the number of pixels on the line, times 840. -/
def cost (px : Nat → Nat → Int) (d : Nat) : Int :=
  ((List.range 15).map (fun k =>
    let s := ((onLine d k).map (fun ij => px ij.1 ij.2)).sum
    s * s * (840 / (onLine d k).length : Nat))).sum

/-- `yDir`: the first direction with the largest cost. -/
def yDir (px : Nat → Nat → Int) : Nat :=
  ((List.range 8).find? (fun d => (List.range 8).all (fun d' => decide (cost px d' ≤ cost px d)))).getD 0

/-- `var` -/
def variance (px : Nat → Nat → Int) : Int := (cost px (yDir px) - cost px ((yDir px + 4) % 8)) / 1024

/-- The pixels of the 8x8 luma block at row `r`, column `c` in units of 4x4, as the search uses them. -/
def pixels (s : Params) (r c : Nat) (i j : Nat) : Int :=
  s.cur 0 (4 * r + i) (4 * c + j) / 2 ^ (s.bitDepth - 8) - 128

/-! ## Filter, 7.15.2 -/

/-- `Cdef_Directions[dir][k]`: rows and columns. -/
def directions : List (List (Int × Int)) :=
  [[(-1, 1), (-2, 2)], [(0, 1), (-1, 2)], [(0, 1), (0, 2)], [(0, 1), (1, 2)], [(1, 1), (2, 2)], [(1, 0), (2, 1)],
   [(1, 0), (2, 0)], [(1, 0), (2, -1)]]

def floorLog2 (x : Int) : Nat := x.toNat.log2

def constrain (diff threshold damping : Int) : Int :=
  if threshold = 0 then 0
  else
    let dampingAdj := max 0 (damping - floorLog2 threshold)
    let mag : Int := diff.natAbs
    diff.sign * max 0 (min mag (threshold - mag / 2 ^ dampingAdj.toNat))

/-- A pixel that the filter looks at: its value, with the strength and the weight of the tap. -/
structure Tap where
  v : Int
  strength : Int
  weight : Int

/-- The taps of pixel `(y, x)` that are available, in the order of the specification. -/
def taps (s : Params) (p : Nat) (y x : Int) (pri sec : Int) (dir : Nat) : List Tap :=
  let priTaps : List Int := if pri / 2 ^ (s.bitDepth - 8) % 2 = 0 then [4, 2] else [3, 3]
  let secTaps : List Int := [2, 1]
  (List.range 2).flatMap (fun k => [(-1 : Int), 1].flatMap (fun sign =>
    [(dir, pri, priTaps.getD k 0), ((dir + 6) % 8, sec, secTaps.getD k 0), ((dir + 2) % 8, sec, secTaps.getD k 0)].filterMap
      (fun t =>
        let o := (directions.getD t.1 []).getD k (0, 0)
        let y' := y + sign * o.1
        let x' := x + sign * o.2
        if available s p y' x' then some ⟨s.cur p y' x', t.2.1, t.2.2⟩ else none)))

/-- The filtered pixel. -/
def filter (s : Params) (p : Nat) (y x : Int) (pri sec damping : Int) (dir : Nat) : Int :=
  let ts := taps s p y x pri sec dir
  let v := s.cur p y x
  let sum := (ts.map (fun t => t.weight * constrain (t.v - v) t.strength damping)).sum
  let hi := (ts.map Tap.v).foldl max v
  let lo := (ts.map Tap.v).foldl min v
  max lo (min hi (v + (8 + sum - (if sum < 0 then 1 else 0)) / 16))

/-- `Cdef_Uv_Dir[subX][subY][yDir]` (without 4:4:0, which AV1 does not have). -/
def uvDir (subX subY yDir : Nat) : Nat :=
  if subX = 1 ∧ subY = 0 then [7, 0, 2, 4, 5, 6, 6, 6].getD yDir 0 else yDir

/-- `CdefFrame[plane][y][x]`, 7.15: block by block of 8x8 luma pixels. -/
def cdefFrame (s : Params) (p : Nat) (y x : Int) : Int :=
  let r := (y * 2 ^ (if p = 0 then 0 else s.subY) / 8 * 2).toNat
  let c := (x * 2 ^ (if p = 0 then 0 else s.subX) / 8 * 2).toNat
  let skip := s.skips r c && s.skips (r + 1) c && s.skips r (c + 1) && s.skips (r + 1) (c + 1)
  let idx := s.cdefIdx r c
  if idx = -1 ∨ skip then s.cur p y x
  else
    let px := pixels s r c
    let var := variance px
    let scale : Int := 2 ^ (s.bitDepth - 8)
    if p = 0 then
      let pri := s.yPri idx.toNat * scale
      let varStr : Int := if var / 64 ≠ 0 then min (floorLog2 (var / 64) : Int) 12 else 0
      filter s p y x (if var ≠ 0 then (pri * (4 + varStr) + 8) / 16 else 0) (s.ySec idx.toNat * scale)
        (s.damping + (s.bitDepth - 8 : Nat)) (if pri = 0 then 0 else yDir px)
    else
      let pri := s.uvPri idx.toNat * scale
      filter s p y x pri (s.uvSec idx.toNat * scale) (s.damping + (s.bitDepth - 8 : Nat) - 1)
        (if pri = 0 then 0 else uvDir s.subX s.subY (yDir px))

end Rav1e.Cdef.Spec
