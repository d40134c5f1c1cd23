import Mathlib.Init

/-!
# The part of a block that the distortion is computed over: the code
-/

namespace Rav1e.Visible

/-- `clip_visible_bsize` (src/rdo.rs:228-251), one coordinate: `frame` pixels, a block of `blk` pixels at `x`. -/
def clip (frame blk x : Nat) : Nat := if x + blk ≤ frame then blk else if frame ≤ x then 0 else frame - x

/-- `chroma_w` or `chroma_h` of `compute_distortion` (src/rdo.rs:314-323), also in `compute_tx_distortion` (src/rdo.rs:402-411). -/
def chromaLen (blk vis dec : Nat) : Nat := if blk ≥ 8 ∨ dec = 0 then (vis + dec) / 2 ^ dec else (4 + vis + dec) / 2 ^ dec

/-- `has_chroma` (src/context/transform_unit.rs:119-120), one coordinate: a block of `n` units of 4 pixels at unit `b`. -/
def chromaAxis (b n dec : Nat) : Prop := b % 2 = 1 ∨ n % 2 = 0 ∨ dec = 0

instance (b n dec : Nat) : Decidable (chromaAxis b n dec) := inferInstanceAs (Decidable (_ ∨ _ ∨ _))

/-- A frame: its size in pixels and the subsampling of its chroma; `mono`: there is none. -/
structure Frame where
  width : Nat
  height : Nat
  xdec : Nat
  ydec : Nat
  mono : Bool
  deriving DecidableEq

/-- A block: its place in the frame and its size, in units of 4 pixels. -/
structure Blk where
  x : Nat
  y : Nat
  w : Nat
  h : Nat
  deriving DecidableEq

/-- A rectangle of pixels of a plane. -/
structure Rect where
  x : Nat
  y : Nat
  w : Nat
  h : Nat
  deriving DecidableEq, Repr

/-- The rectangle of luma pixels that `compute_distortion` compares (src/rdo.rs:258-274); `none`: none at all.  `Area::BlockStartingAt` gives the place
(src/tiling/plane_region.rs:97-99). -/
def lumaRect (F : Frame) (B : Blk) : Option Rect :=
  if clip F.width (4 * B.w) (4 * B.x) = 0 ∨ clip F.height (4 * B.h) (4 * B.y) = 0 then none
  else some ⟨4 * B.x, 4 * B.y, clip F.width (4 * B.w) (4 * B.x), clip F.height (4 * B.h) (4 * B.y)⟩

/-- The rectangle of pixels of each chroma plane that `compute_distortion` compares (src/rdo.rs:272-274, 309-330) when the decision is not only on luma.
`Area::BlockStartingAt` gives the place (src/tiling/plane_region.rs:97-99). -/
def chromaRect (F : Frame) (B : Blk) : Option Rect :=
  if clip F.width (4 * B.w) (4 * B.x) = 0 ∨ clip F.height (4 * B.h) (4 * B.y) = 0 then none
  else if F.mono = false ∧ chromaAxis B.x B.w F.xdec ∧ chromaAxis B.y B.h F.ydec then
    some ⟨4 * (B.x / 2 ^ F.xdec), 4 * (B.y / 2 ^ F.ydec), chromaLen (4 * B.w) (clip F.width (4 * B.w) (4 * B.x)) F.xdec,
      chromaLen (4 * B.h) (clip F.height (4 * B.h) (4 * B.y)) F.ydec⟩
  else none

end Rav1e.Visible
