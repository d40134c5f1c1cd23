import Verif.Visible.Model

/-!
# The part of a block that the distortion is computed over: what it should be
-/

namespace Rav1e.Visible

/-- A pixel is in a rectangle. -/
def Spec.mem (r : Option Rect) (cx cy : Nat) : Prop := ∃ s, r = some s ∧ s.x ≤ cx ∧ cx < s.x + s.w ∧ s.y ≤ cy ∧ cy < s.y + s.h

/-- A luma pixel belongs to the block and to the picture. -/
def Spec.lumaVisible (F : Frame) (B : Blk) (cx cy : Nat) : Prop :=
  4 * B.x ≤ cx ∧ cx < 4 * (B.x + B.w) ∧ 4 * B.y ≤ cy ∧ cy < 4 * (B.y + B.h) ∧ cx < F.width ∧ cy < F.height

/-- The last luma unit of the block is one with which chroma is coded: with subsampling these are the odd ones. -/
def Spec.closes (b n dec : Nat) : Prop := dec = 0 ∨ (b + n) % 2 = 0

/-- A chroma position is coded with the block, along one coordinate: from the beginning of the chroma unit (4 pixels) in which the block begins to the end of the one
in which it ends. -/
def Spec.chromaIn (b n dec c : Nat) : Prop := b / 2 ^ dec ≤ c / 4 ∧ c / 4 ≤ (b + n - 1) / 2 ^ dec

/-- A chroma pixel is coded with the block and belongs to the picture, of whose size half, rounded up, is that of chroma. -/
def Spec.chromaVisible (F : Frame) (B : Blk) (cx cy : Nat) : Prop :=
  F.mono = false ∧ Spec.closes B.x B.w F.xdec ∧ Spec.closes B.y B.h F.ydec ∧ Spec.chromaIn B.x B.w F.xdec cx ∧ Spec.chromaIn B.y B.h F.ydec cy ∧
    2 ^ F.xdec * cx < F.width ∧ 2 ^ F.ydec * cy < F.height

/-- The weight of a place: that of the square of 8x8 luma pixels in which it lies; there are as many in a row as it takes to cover the picture. -/
def Spec.weightOf (F : Frame) (scales : List Nat) (lx ly : Nat) : Nat := scales.getD (ly / 8 * ((F.width + 7) / 8) + lx / 8) 0

end Rav1e.Visible
