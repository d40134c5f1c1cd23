/-!
# Inter prediction in the decoder

Sections 7.11.3.1 to 7.11.3.4 of the AV1 specification and the calls of section 5.11.33 (compute prediction syntax), pixel by
pixel, for blocks without warped motion, overlapped motion, masks and distance weights: the encoder does not enable them.
-/

namespace Rav1e.Mc.Spec

/-- `Round2( x, n )` and `Round2Signed( x, n )`, 4.7. -/
def round2 (x : Int) (n : Nat) : Int := if n = 0 then x else (x + 2 ^ (n - 1)) / 2 ^ n
def round2Signed (x : Int) (n : Nat) : Int := if 0 ≤ x then round2 x n else -round2 (-x) n
def clip3 (lo hi x : Int) : Int := if x < lo then lo else if x > hi then hi else x

/-- The first half of each filter of `Subpel_Filters`; the other half is its mirror image. -/
def halfFilters : List (List (List Int)) :=
  [-- EIGHTTAP
   [[0, 0, 0, 128, 0, 0, 0, 0], [0, 2, -6, 126, 8, -2, 0, 0], [0, 2, -10, 122, 18, -4, 0, 0], [0, 2, -12, 116, 28, -8, 2, 0],
    [0, 2, -14, 110, 38, -10, 2, 0], [0, 2, -14, 102, 48, -12, 2, 0], [0, 2, -16, 94, 58, -12, 2, 0],
    [0, 2, -14, 84, 66, -12, 2, 0], [0, 2, -14, 76, 76, -14, 2, 0]],
   -- EIGHTTAP_SMOOTH
   [[0, 0, 0, 128, 0, 0, 0, 0], [0, 2, 28, 62, 34, 2, 0, 0], [0, 0, 26, 62, 36, 4, 0, 0], [0, 0, 22, 62, 40, 4, 0, 0],
    [0, 0, 20, 60, 42, 6, 0, 0], [0, 0, 18, 58, 44, 8, 0, 0], [0, 0, 16, 56, 46, 10, 0, 0],
    [0, -2, 16, 54, 48, 12, 0, 0], [0, -2, 14, 52, 52, 14, -2, 0]],
   -- EIGHTTAP_SHARP
   [[0, 0, 0, 128, 0, 0, 0, 0], [-2, 2, -6, 126, 8, -2, 2, 0], [-2, 6, -12, 124, 16, -6, 4, -2], [-2, 8, -18, 120, 26, -10, 6, -2],
    [-4, 10, -22, 116, 38, -14, 6, -2], [-4, 10, -22, 108, 48, -18, 8, -2], [-4, 10, -24, 100, 60, -20, 8, -2],
    [-4, 10, -24, 90, 70, -22, 10, -2], [-4, 12, -24, 80, 80, -24, 12, -4]],
   -- BILINEAR
   [[0, 0, 0, 128, 0, 0, 0, 0], [0, 0, 0, 120, 8, 0, 0, 0], [0, 0, 0, 112, 16, 0, 0, 0], [0, 0, 0, 104, 24, 0, 0, 0],
    [0, 0, 0, 96, 32, 0, 0, 0], [0, 0, 0, 88, 40, 0, 0, 0], [0, 0, 0, 80, 48, 0, 0, 0], [0, 0, 0, 72, 56, 0, 0, 0],
    [0, 0, 0, 64, 64, 0, 0, 0]],
   -- EIGHTTAP and EIGHTTAP_SHARP of at most four pixels
   [[0, 0, 0, 128, 0, 0, 0, 0], [0, 0, -4, 126, 8, -2, 0, 0], [0, 0, -8, 122, 18, -4, 0, 0], [0, 0, -10, 116, 28, -6, 0, 0],
    [0, 0, -12, 110, 38, -8, 0, 0], [0, 0, -12, 102, 48, -10, 0, 0], [0, 0, -14, 94, 58, -10, 0, 0],
    [0, 0, -12, 84, 66, -10, 0, 0], [0, 0, -12, 76, 76, -12, 0, 0]],
   -- EIGHTTAP_SMOOTH of at most four pixels
   [[0, 0, 0, 128, 0, 0, 0, 0], [0, 0, 30, 62, 34, 2, 0, 0], [0, 0, 26, 62, 36, 4, 0, 0], [0, 0, 22, 62, 40, 4, 0, 0],
    [0, 0, 20, 60, 42, 6, 0, 0], [0, 0, 18, 58, 44, 8, 0, 0], [0, 0, 16, 56, 46, 10, 0, 0],
    [0, 0, 14, 54, 48, 12, 0, 0], [0, 0, 12, 52, 52, 12, 0, 0]]]

/-- `Subpel_Filters[ filter ][ pos ][ t ]`. -/
def subpel (filter pos t : Nat) : Int :=
  if pos ≤ 8 then ((halfFilters.getD filter []).getD pos []).getD t 0
  else ((halfFilters.getD filter []).getD (16 - pos) []).getD (7 - t) 0

/-- `interpFilter[ dir ]` for a block of `len` pixels in the direction of the filter. -/
def interpFilter (filter len : Nat) : Nat :=
  if len ≤ 4 then (if filter = 0 ∨ filter = 2 then 4 else if filter = 1 then 5 else filter) else filter

/-- A plane of a reference picture: `FrameStore`, `RefUpscaledWidth`, `RefFrameHeight`. -/
structure RefPic where
  width : Nat
  height : Nat
  px : Nat → Nat → Nat

/-- A motion vector and the reference it belongs to: 0 is `INTRA_FRAME`, -1 is `NONE`. -/
structure RefMv where
  refFrame : Int
  mvRow : Int
  mvCol : Int

/-- `RefFrames[ ][ ]`, `Mvs[ ][ ]` of a block. -/
structure Blk where
  a : RefMv
  b : RefMv

/-- What the decoder has read. -/
structure Dec where
  bitDepth : Nat
  subX : Nat
  subY : Nat
  frameWidth : Nat
  frameHeight : Nat
  /-- `interpolation_filter` of the frame header -/
  filter : Nat
  /-- the picture of a reference frame -/
  ref : Int → RefPic
  /-- the block that covers a position in units of 4x4 luma pixels -/
  blk : Nat → Nat → Blk

namespace Dec
variable (d : Dec)

/-! 7.11.3.2 (rounding variables) -/

def interRound0 : Nat := if d.bitDepth = 12 then 5 else 3
def interRound1 (isCompound : Bool) : Nat := if isCompound then 7 else if d.bitDepth = 12 then 9 else 11
/-- `InterPostRound` of compound prediction. -/
def interPostRound : Nat := if d.bitDepth = 12 then 2 else 4

/-! 7.11.3.3 (motion vector scaling) -/

def scale (ref cur : Nat) : Int := (((ref : Int) * 2 ^ 14) + (cur : Int) / 2) / cur
/-- `startX` for the column `x` of the block, `startY` for its row. -/
def startPos (x : Nat) (mv : Int) (sub : Nat) (scale : Int) : Int :=
  let halfSample : Int := 8
  let orig : Int := (x : Int) * 16 + (2 * mv) / 2 ^ sub + halfSample
  let base := orig * scale - halfSample * 2 ^ 14
  round2Signed base 8 + 32
def step (scale : Int) : Int := round2Signed scale 4

/-! 7.11.3.4 (block inter prediction) -/

def lastX (r : RefPic) : Int := (((r.width + d.subX) / 2 ^ d.subX : Nat) : Int) - 1
def lastY (r : RefPic) : Int := (((r.height + d.subY) / 2 ^ d.subY : Nat) : Int) - 1

/-- `ref[ y ][ x ]` at a position clipped to the picture. -/
def refPx (r : RefPic) (y x : Int) : Int := r.px (clip3 0 (d.lastY r) y).toNat (clip3 0 (d.lastX r) x).toNat

/-- `intermediate[ r ][ c ]`. -/
def intermediate (p : RefPic) (startX startY stepX : Int) (w r c : Nat) : Int :=
  let pos := startX + stepX * c
  round2 ((List.range 8).map (fun (t : Nat) => subpel (interpFilter d.filter w) (pos / 64 % 16).toNat t *
    d.refPx p (startY / 1024 + r - 3) (pos / 1024 + t - 3))).sum d.interRound0

/-- `pred[ r ][ c ]`. -/
def blockPred (p : RefPic) (startX startY stepX stepY : Int) (w h : Nat) (isCompound : Bool) (r c : Nat) : Int :=
  let pos := startY % 1024 + stepY * r
  round2 ((List.range 8).map (fun (t : Nat) => subpel (interpFilter d.filter h) (pos / 64 % 16).toNat t *
    d.intermediate p startX startY stepX w ((pos / 1024).toNat + t) c)).sum (d.interRound1 isCompound)

/-- The prediction of the pixel `(r, c)` of the block at `(x, y)` from one reference. -/
def onePred (m : RefMv) (x y w h : Nat) (isCompound : Bool) (r c : Nat) : Int :=
  let p := d.ref m.refFrame
  let xScale := scale p.width d.frameWidth
  let yScale := scale p.height d.frameHeight
  d.blockPred p (startPos x m.mvCol d.subX xScale) (startPos y m.mvRow d.subY yScale) (step xScale) (step yScale) w h
    isCompound r c

/-! 7.11.3.1 (general inter prediction) -/

def clip1 (x : Int) : Int := clip3 0 (2 ^ d.bitDepth - 1) x

/-- The predicted pixel `(r, c)` of the block of `w` by `h` pixels at `(x, y)` of the plane. -/
def predictInter (b : Blk) (x y w h r c : Nat) : Int :=
  if 0 < b.b.refFrame then
    d.clip1 (round2 (d.onePred b.a x y w h true r c + d.onePred b.b x y w h true r c) (1 + d.interPostRound))
  else d.clip1 (d.onePred b.a x y w h false r c)

/-! 5.11.33 (compute prediction) -/

/-- `num4x4W * 4` and `num4x4H * 4` of the block in the plane: a side of at least 4 pixels. -/
def planeSide (len sub : Nat) : Nat := max 4 (len / 2 ^ sub)

/-- `someUseIntra`. -/
def someUseIntra (miRow miCol bw bh : Nat) : Bool :=
  (List.range (planeSide bh d.subY / 4 * 2 ^ d.subY)).any (fun r => (List.range (planeSide bw d.subX / 4 * 2 ^ d.subX)).any
    (fun c => (d.blk (miRow / 2 ^ d.subY * 2 ^ d.subY + r) (miCol / 2 ^ d.subX * 2 ^ d.subX + c)).a.refFrame = 0))

/-- The predicted pixel `(i, j)` of the plane block of the inter block at `(miRow, miCol)` with `bw` by `bh` luma pixels. -/
def pixel (miRow miCol bw bh i j : Nat) : Int :=
  let baseX := miCol / 2 ^ d.subX * 4
  let baseY := miRow / 2 ^ d.subY * 4
  if d.someUseIntra miRow miCol bw bh then
    d.predictInter (d.blk miRow miCol) baseX baseY (planeSide bw d.subX) (planeSide bh d.subY) i j
  else
    let predW := bw / 2 ^ d.subX
    let predH := bh / 2 ^ d.subY
    d.predictInter (d.blk (miRow / 2 ^ d.subY * 2 ^ d.subY + i / predH) (miCol / 2 ^ d.subX * 2 ^ d.subX + j / predW))
      (baseX + j / predW * predW) (baseY + i / predH * predH) predW predH (i % predH) (j % predW)

end Dec

end Rav1e.Mc.Spec
