/-!
# Intra prediction in the AV1 specification

Section 7.11.2 of the AV1 bitstream specification (the intra prediction process) and section 7.11.5 (chroma from luma), written from the
text of the specification and without reference to the model.  `Round2(v, n)` is `(v + 2^(n-1)) >> n`.
-/

namespace Rav1e.Intra.Spec

/-- `Round2`. -/
def round2 (v : Int) (n : Nat) : Int := if n = 0 then v else (v + 2 ^ (n - 1)) >>> n

/-- `Clip1`. -/
def clip1 (bd : Nat) (v : Int) : Int := max 0 (min v (2 ^ bd - 1))

/-- The intra modes. -/
inductive Mode
  | dc | v | h | d45 | d135 | d113 | d157 | d203 | d67 | smooth | smoothV | smoothH | paeth
  deriving DecidableEq, Repr

/-- `Mode_To_Angle`. -/
def modeToAngle : Mode → Option Int
  | .v => some 90 | .h => some 180 | .d45 => some 45 | .d135 => some 135 | .d113 => some 113 | .d157 => some 157
  | .d203 => some 203 | .d67 => some 67
  | _ => none

/-- The inputs of the process: the plane of `CurrFrame` as decoded so far (`cur row col`), the position and size of the block, what is
available around it, and `maxX`, `maxY`: the last column and the last row of the plane. -/
structure Input where
  cur : Int → Int → Int
  x : Int
  y : Int
  w : Nat
  h : Nat
  maxX : Int
  maxY : Int
  haveLeft : Bool
  haveAbove : Bool
  haveAboveRt : Bool
  haveBelowLft : Bool
  bitDepth : Nat

/-- `AboveRow[ i ]` for `i = -1..w+h-1`, before any filter.  At most `w` pixels right of the block are used. -/
def Input.aboveRow (s : Input) (i : Int) : Int :=
  if i = -1 then
    if s.haveAbove && s.haveLeft then s.cur (s.y - 1) (s.x - 1)
    else if s.haveAbove then s.cur (s.y - 1) s.x
    else if s.haveLeft then s.cur s.y (s.x - 1)
    else 2 ^ (s.bitDepth - 1)
  else if !s.haveAbove then
    if s.haveLeft then s.cur s.y (s.x - 1) else 2 ^ (s.bitDepth - 1) - 1
  else if i < s.w then s.cur (s.y - 1) (min s.maxX (s.x + i))
  else if s.haveAboveRt then s.cur (s.y - 1) (min s.maxX (s.x + min i (2 * s.w - 1)))
  else s.cur (s.y - 1) (min s.maxX (s.x + s.w - 1))

/-- `LeftCol[ i ]` for `i = -1..w+h-1`, before any filter.  At most `h` pixels below the block are used. -/
def Input.leftCol (s : Input) (i : Int) : Int :=
  if i = -1 then s.aboveRow (-1)
  else if !s.haveLeft then
    if s.haveAbove then s.cur (s.y - 1) s.x else 2 ^ (s.bitDepth - 1) + 1
  else if i < s.h then s.cur (min s.maxY (s.y + i)) (s.x - 1)
  else if s.haveBelowLft then s.cur (min s.maxY (s.y + min i (2 * s.h - 1))) (s.x - 1)
  else s.cur (min s.maxY (s.y + s.h - 1)) (s.x - 1)

/-- `f 0 + ... + f (n - 1)`. -/
def sum (n : Nat) (f : Nat → Int) : Int := ((List.range n).map f).sum

/-- The DC prediction (7.11.2.5). -/
def Input.dc (s : Input) : Int :=
  let left := sum s.h fun k => s.leftCol k
  let above := sum s.w fun k => s.aboveRow k
  if s.haveLeft && s.haveAbove then (left + above + ((s.w + s.h) / 2 : Nat)) / ((s.w + s.h : Nat) : Int)
  else if s.haveLeft then clip1 s.bitDepth ((left + (s.h / 2 : Nat)) / (s.h : Int))
  else if s.haveAbove then clip1 s.bitDepth ((above + (s.w / 2 : Nat)) / (s.w : Int))
  else 2 ^ (s.bitDepth - 1)

/-- The Paeth prediction (7.11.2.2). -/
def Input.paeth (s : Input) (i j : Nat) : Int :=
  let base := s.aboveRow j + s.leftCol i - s.aboveRow (-1)
  let pLeft := (base - s.leftCol i).natAbs
  let pTop := (base - s.aboveRow j).natAbs
  let pTopLeft := (base - s.aboveRow (-1)).natAbs
  if pLeft ≤ pTop ∧ pLeft ≤ pTopLeft then s.leftCol i else if pTop ≤ pTopLeft then s.aboveRow j else s.aboveRow (-1)

/-- `Sm_Weights_Tx_4x4` to `Sm_Weights_Tx_64x64`. -/
def smWeights : Nat → List Int
  | 4 => [255, 149, 85, 64]
  | 8 => [255, 197, 146, 105, 73, 50, 37, 32]
  | 16 => [255, 225, 196, 170, 145, 123, 102, 84, 68, 54, 43, 33, 26, 20, 17, 16]
  | 32 => [255, 240, 225, 210, 196, 182, 169, 157, 145, 133, 122, 111, 101, 92, 83, 74, 66, 59, 52, 45, 39, 34, 29, 25, 21, 17, 14,
      12, 10, 9, 8, 8]
  | 64 => [255, 248, 240, 233, 225, 218, 210, 203, 196, 189, 182, 176, 169, 163, 156, 150, 144, 138, 133, 127, 121, 116, 111, 106,
      101, 96, 91, 86, 82, 77, 73, 69, 65, 61, 57, 54, 50, 47, 44, 41, 38, 35, 32, 29, 27, 25, 22, 20, 18, 16, 15, 13, 12, 10, 9, 8,
      7, 6, 6, 5, 5, 4, 4, 4]
  | _ => []

/-- The weight of row or column `i` of a block whose side is `n`. -/
def smWeight (n i : Nat) : Int := (smWeights n).getD i 0

/-- The smooth predictions (7.11.2.6). -/
def Input.smooth (s : Input) (i j : Nat) : Int :=
  round2 (smWeight s.h i * s.aboveRow j + (256 - smWeight s.h i) * s.leftCol (s.h - 1) +
    smWeight s.w j * s.leftCol i + (256 - smWeight s.w j) * s.aboveRow (s.w - 1)) 9
@[inherit_doc Input.smooth] def Input.smoothV (s : Input) (i j : Nat) : Int :=
  round2 (smWeight s.h i * s.aboveRow j + (256 - smWeight s.h i) * s.leftCol (s.h - 1)) 8
@[inherit_doc Input.smooth] def Input.smoothH (s : Input) (i j : Nat) : Int :=
  round2 (smWeight s.w j * s.leftCol i + (256 - smWeight s.w j) * s.aboveRow (s.w - 1)) 8

/-! ### The directional prediction (7.11.2.4) -/

/-- `Dr_Intra_Derivative`. -/
def drIntraDerivative : Int → Int
  | 3 => 1023 | 6 => 547 | 9 => 372 | 14 => 273 | 17 => 215 | 20 => 178 | 23 => 151 | 26 => 132 | 29 => 116 | 32 => 102
  | 36 => 90 | 39 => 80 | 42 => 71 | 45 => 64 | 48 => 57 | 51 => 51 | 54 => 45 | 58 => 40 | 61 => 35 | 64 => 31 | 67 => 27
  | 70 => 23 | 73 => 19 | 76 => 15 | 81 => 11 | 84 => 7 | 87 => 3 | _ => 0

/-- The intra edge filter strength selection process (7.11.2.9). -/
def edgeStrength (blkWh : Nat) (filterType : Bool) (d : Nat) : Nat :=
  if !filterType then
    if blkWh ≤ 8 then (if d ≥ 56 then 1 else 0)
    else if blkWh ≤ 12 then (if d ≥ 40 then 1 else 0)
    else if blkWh ≤ 16 then (if d ≥ 40 then 1 else 0)
    else if blkWh ≤ 24 then (if d ≥ 32 then 3 else if d ≥ 16 then 2 else if d ≥ 8 then 1 else 0)
    else if blkWh ≤ 32 then (if d ≥ 32 then 3 else if d ≥ 4 then 2 else 1)
    else 3
  else
    if blkWh ≤ 8 then (if d ≥ 64 then 2 else if d ≥ 40 then 1 else 0)
    else if blkWh ≤ 16 then (if d ≥ 48 then 2 else if d ≥ 20 then 1 else 0)
    else if blkWh ≤ 24 then (if d ≥ 4 then 3 else 0)
    else 3

/-- The intra edge upsample selection process (7.11.2.10). -/
def useUpsample (blkWh : Nat) (filterType : Bool) (d : Nat) : Bool :=
  if d = 0 ∨ d ≥ 40 then false else if filterType then decide (blkWh ≤ 8) else decide (blkWh ≤ 16)

/-- `Intra_Edge_Kernel`. -/
def intraEdgeKernel : List (List Int) := [[0, 4, 8, 4, 0], [0, 5, 6, 5, 0], [2, 4, 4, 4, 2]]

/-- The intra edge filter process (7.11.2.12) for `sz` samples, the first of which is at index -1. -/
def edgeFilter (sz : Int) (strength : Nat) (buf : Int → Int) : Int → Int :=
  if strength = 0 then buf
  else fun k =>
    let i := k + 1
    if 1 ≤ i ∧ i < sz then
      (sum 5 (fun j => ((intraEdgeKernel.getD (strength - 1) []).getD j 0) * buf (max 0 (min (sz - 1) (i - 2 + j)) - 1)) + 8) >>> 4
    else buf k

/-- The intra edge upsample process (7.11.2.11) for `numPx` samples. -/
def edgeUpsample (bd : Nat) (numPx : Int) (buf : Int → Int) : Int → Int :=
  let dup : Int → Int := fun k => if k = 0 then buf (-1) else if k = numPx + 2 then buf (numPx - 1) else buf (k - 2)
  fun k =>
    if k = -2 then dup 0
    else if -1 ≤ k ∧ k ≤ 2 * numPx - 2 then
      if k % 2 = 1 then
        let i := (k + 1) / 2
        clip1 bd (round2 (-dup i + 9 * dup (i + 1) + 9 * dup (i + 2) - dup (i + 3)) 4)
      else dup (k / 2 + 2)
    else buf k

/-- `AboveRow` and `LeftCol` after step 1: the corner filter (7.11.2.8), the edge filters and the upsampling.  `filterType` is the output
of the intra filter type process for the block. -/
def Input.filtered (s : Input) (pAngle : Int) (enableEdgeFilter filterType : Bool) : ((Int → Int) × Nat) × ((Int → Int) × Nat) :=
  if !enableEdgeFilter then ((s.aboveRow, 0), (s.leftCol, 0))
  else
    let wh := s.w + s.h
    let turned := pAngle ≠ 90 ∧ pAngle ≠ 180
    let corner := if turned ∧ 90 < pAngle ∧ pAngle < 180 ∧ wh ≥ 24 then
        round2 (5 * s.leftCol 0 + 6 * s.aboveRow (-1) + 5 * s.aboveRow 0) 4
      else s.aboveRow (-1)
    let above : Int → Int := fun i => if i = -1 then corner else s.aboveRow i
    let left : Int → Int := fun i => if i = -1 then corner else s.leftCol i
    let dA := (pAngle - 90).natAbs
    let dL := (pAngle - 180).natAbs
    let above := if turned ∧ s.haveAbove then
        edgeFilter (min (s.w : Int) (s.maxX - s.x + 1) + (if pAngle < 90 then s.h else 0) + 1) (edgeStrength wh filterType dA) above
      else above
    let left := if turned ∧ s.haveLeft then
        edgeFilter (min (s.h : Int) (s.maxY - s.y + 1) + (if pAngle > 180 then s.w else 0) + 1) (edgeStrength wh filterType dL) left
      else left
    let upA := useUpsample wh filterType dA
    let upL := useUpsample wh filterType dL
    let above := if upA then edgeUpsample s.bitDepth (s.w + (if pAngle < 90 then s.h else 0)) above else above
    let left := if upL then edgeUpsample s.bitDepth (s.h + (if pAngle > 180 then s.w else 0)) left else left
    ((above, upA.toNat), (left, upL.toNat))

/-- The sample between two elements of an edge. -/
def interpolate (buf : Int → Int) (base shift : Int) : Int := round2 (buf base * (32 - shift) + buf (base + 1) * shift) 5

/-- The directional prediction for the pixel in row `i` and column `j`. -/
def Input.directional (s : Input) (pAngle : Int) (enableEdgeFilter filterType : Bool) (i j : Nat) : Int :=
  let e := s.filtered pAngle enableEdgeFilter filterType
  let above := e.1.1
  let upA := e.1.2
  let left := e.2.1
  let upL := e.2.2
  if pAngle = 90 then above j
  else if pAngle = 180 then left i
  else if pAngle < 90 then
    let dx := drIntraDerivative pAngle
    let idx : Int := (i + 1) * dx
    let base := idx >>> (6 - upA) + j * 2 ^ upA
    let shift := (idx * 2 ^ upA) >>> 1 % 32
    let maxBaseX : Int := (s.w + s.h - 1) * 2 ^ upA
    if base < maxBaseX then interpolate above base shift else above maxBaseX
  else if pAngle < 180 then
    let dx := drIntraDerivative (180 - pAngle)
    let dy := drIntraDerivative (pAngle - 90)
    let idx : Int := j * 64 - (i + 1) * dx
    let base := idx >>> (6 - upA)
    if base ≥ -(2 ^ upA) then interpolate above base ((idx * 2 ^ upA) >>> 1 % 32)
    else
      let idx : Int := i * 64 - (j + 1) * dy
      interpolate left (idx >>> (6 - upL)) ((idx * 2 ^ upL) >>> 1 % 32)
  else
    let dy := drIntraDerivative (270 - pAngle)
    let idx : Int := (j + 1) * dy
    interpolate left (idx >>> (6 - upL) + i * 2 ^ upL) ((idx * 2 ^ upL) >>> 1 % 32)

/-- The intra prediction process: `pred[ i ][ j ]`. -/
def Input.pred (s : Input) (m : Mode) (angleDelta : Int) (enableEdgeFilter filterType : Bool) (i j : Nat) : Int :=
  match modeToAngle m with
  | some a => s.directional (a + angleDelta * 3) enableEdgeFilter filterType i j
  | none =>
    match m with
    | .smooth => s.smooth i j
    | .smoothV => s.smoothV i j
    | .smoothH => s.smoothH i j
    | .paeth => s.paeth i j
    | _ => s.dc

/-! ### Chroma from luma (7.11.5) -/

/-- `Round2Signed`. -/
def round2Signed (v : Int) (n : Nat) : Int := if 0 ≤ v then round2 v n else -(round2 (-v) n)

/-- The luma of a chroma pixel: `L[ i ][ j ]`.  `luma` is the luma plane of `CurrFrame`, `maxLumaW`, `maxLumaH` the end of the luma that has
been decoded for the block. -/
def lumaSample (luma : Int → Int → Int) (startX startY maxLumaW maxLumaH : Int) (subX subY : Nat) (i j : Nat) : Int :=
  let lumaY := min ((startY * 2 ^ subY) + i * 2 ^ subY) (maxLumaH - 2 ^ subY)
  let lumaX := min ((startX + j) * 2 ^ subX) (maxLumaW - 2 ^ subX)
  (sum (subY + 1) fun dy => sum (subX + 1) fun dx => luma (lumaY + dy) (lumaX + dx)) * 2 ^ (3 - subX - subY)

/-- `MaxLumaW` or `MaxLumaH`: a luma block that starts at `start` and is `n` pixels long is made of transform blocks of `tx` pixels, and those
that start before the end `frameEnd` of the frame are decoded; `m` is where the last of these ends. -/
def IsMaxLuma (start n tx frameEnd m : Nat) : Prop :=
  ∃ k, k * tx < n ∧ start + k * tx < frameEnd ∧ m = start + k * tx + tx ∧ ∀ j, j * tx < n → start + j * tx < frameEnd → j ≤ k

/-- The prediction of a chroma pixel from the DC prediction `dc` and the luma of the block. -/
def cfl (L : Nat → Nat → Int) (alpha dc : Int) (log2W log2H bd : Nat) (i j : Nat) : Int :=
  let avg := round2 (sum (2 ^ log2H) fun r => sum (2 ^ log2W) fun c => L r c) (log2W + log2H)
  clip1 bd (dc + round2Signed (alpha * (L i j - avg)) 6)

end Rav1e.Intra.Spec
