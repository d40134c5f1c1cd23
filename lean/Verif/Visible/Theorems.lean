import Verif.Visible.Spec
import Mathlib.Tactic.NormNum

/-!
# The part of a block that the distortion is computed over: theorems
-/

namespace Rav1e.Visible

/-- A block as partitions make them: its place is a multiple of its size, which is a power of two (only 1 or even is used). -/
structure BlkOk (F : Frame) (B : Blk) : Prop where
  xdec : F.xdec ≤ 1
  ydec : F.ydec ≤ 1
  w : B.w = 1 ∨ (B.w % 2 = 0 ∧ 0 < B.w)
  h : B.h = 1 ∨ (B.h % 2 = 0 ∧ 0 < B.h)
  x : B.x % B.w = 0
  y : B.y % B.h = 0

theorem clip_eq (f b x : Nat) : clip f b x = min b (f - x) := by
  unfold clip
  split
  · omega
  · split <;> omega

theorem even_of {x w : Nat} (h : w = 1 ∨ (w % 2 = 0 ∧ 0 < w)) (hx : x % w = 0) : w = 1 ∨ (w % 2 = 0 ∧ 0 < w ∧ x % 2 = 0) := by
  rcases h with h | ⟨h, h0⟩
  · exact .inl h
  · refine .inr ⟨h, h0, ?_⟩
    have : 2 ∣ x := (Nat.dvd_of_mod_eq_zero h).trans (Nat.dvd_of_mod_eq_zero hx)
    omega

/-- One coordinate of chroma. -/
theorem axis {f b n dec c : Nat} (hd : dec ≤ 1) (hn : n = 1 ∨ (n % 2 = 0 ∧ 0 < n ∧ b % 2 = 0)) (hv : 4 * b < f) (hc : chromaAxis b n dec) :
    (4 * (b / 2 ^ dec) ≤ c ∧ c < 4 * (b / 2 ^ dec) + chromaLen (4 * n) (clip f (4 * n) (4 * b)) dec) ↔
      (Spec.chromaIn b n dec c ∧ 2 ^ dec * c < f) := by
  unfold Spec.chromaIn chromaLen
  rw [clip_eq]
  unfold chromaAxis at hc
  rcases (show dec = 0 ∨ dec = 1 by omega) with rfl | rfl
  · rw [if_pos (.inr rfl)]
    simp only [pow_zero, Nat.div_one, Nat.one_mul, Nat.add_zero]
    omega
  · simp only [pow_one]
    rcases hn with rfl | ⟨h1, h2, h3⟩
    · rw [if_neg (by omega)]
      omega
    · rw [if_pos (.inl (by omega))]
      omega

theorem closes_iff {b n dec : Nat} (hn : n = 1 ∨ (n % 2 = 0 ∧ 0 < n ∧ b % 2 = 0)) : Spec.closes b n dec ↔ chromaAxis b n dec := by
  unfold Spec.closes chromaAxis
  omega

/-- **C73**, luma: the pixels that are compared are exactly those of the block that belong to the picture. -/
theorem luma_exact (F : Frame) (B : Blk) (cx cy : Nat) : Spec.mem (lumaRect F B) cx cy ↔ Spec.lumaVisible F B cx cy := by
  unfold Spec.mem Spec.lumaVisible lumaRect
  rw [clip_eq, clip_eq]
  split
  · constructor
    · rintro ⟨s, h, _⟩; cases h
    · intro h; omega
  · constructor
    · rintro ⟨s, h, h1, h2, h3, h4⟩
      cases h
      dsimp only at h1 h2 h3 h4
      omega
    · intro h
      refine ⟨_, rfl, ?_⟩
      dsimp only
      omega

/-- **C73**, chroma: if some luma pixel of the block belongs to the picture, the chroma pixels that are compared are exactly those that are coded with the block
and belong to the picture.  Missing: blocks without such a luma pixel, see `chroma_ignored`. -/
theorem chroma_exact_partial (F : Frame) (B : Blk) (ok : BlkOk F B) (hx : 4 * B.x < F.width) (hy : 4 * B.y < F.height) (cx cy : Nat) :
    Spec.mem (chromaRect F B) cx cy ↔ Spec.chromaVisible F B cx cy := by
  have ew := even_of ok.w ok.x
  have eh := even_of ok.h ok.y
  have v : ¬ (clip F.width (4 * B.w) (4 * B.x) = 0 ∨ clip F.height (4 * B.h) (4 * B.y) = 0) := by
    rw [clip_eq, clip_eq]; omega
  unfold Spec.mem Spec.chromaVisible chromaRect
  rw [if_neg v, closes_iff ew, closes_iff eh]
  by_cases hc : F.mono = false ∧ chromaAxis B.x B.w F.xdec ∧ chromaAxis B.y B.h F.ydec
  · rw [if_pos hc]
    have ax := axis (c := cx) ok.xdec ew hx hc.2.1
    have ay := axis (c := cy) ok.ydec eh hy hc.2.2
    constructor
    · rintro ⟨s, h, h1, h2, h3, h4⟩
      cases h
      obtain ⟨x1, x2⟩ := ax.mp ⟨h1, h2⟩
      obtain ⟨y1, y2⟩ := ay.mp ⟨h3, h4⟩
      exact ⟨hc.1, hc.2.1, hc.2.2, x1, y1, x2, y2⟩
    · rintro ⟨_, _, _, x1, y1, x2, y2⟩
      obtain ⟨h1, h2⟩ := ax.mpr ⟨x1, x2⟩
      obtain ⟨h3, h4⟩ := ay.mpr ⟨y1, y2⟩
      exact ⟨_, rfl, h1, h2, h3, h4⟩
  · rw [if_neg hc]
    constructor
    · rintro ⟨s, h, _⟩; cases h
    · rintro ⟨a, b, c, _⟩; exact absurd ⟨a, b, c⟩ hc

/-- **C73**, never too much: no pixel outside of the picture or of the block counts, whether luma is visible or not. -/
theorem chroma_sound (F : Frame) (B : Blk) (ok : BlkOk F B) (cx cy : Nat) (h : Spec.mem (chromaRect F B) cx cy) : Spec.chromaVisible F B cx cy := by
  by_cases v : 4 * B.x < F.width ∧ 4 * B.y < F.height
  · exact (chroma_exact_partial F B ok v.1 v.2 cx cy).mp h
  · exfalso
    obtain ⟨s, e, _⟩ := h
    unfold chromaRect at e
    rw [clip_eq, clip_eq, if_pos (by omega)] at e
    cases e

/-- **C73**, a defect: in a 4:2:0 picture of width 12 the 4x4 block at x = 12, y = 4 is coded (there are 4 units of 4 pixels, as sizes are rounded up to 8), and
with it the chroma of the 8x8 square around it, of which 2 x 4 pixels are visible; they do not count in the distortion of the block. -/
theorem chroma_ignored : let F : Frame := ⟨12, 8, 1, 1, false⟩; let B : Blk := ⟨3, 1, 1, 1⟩
    BlkOk F B ∧ B.x < 2 * ((F.width + 7) / 8) ∧ Spec.chromaVisible F B 4 0 ∧ Spec.chromaVisible F B 5 3 ∧ ∀ cx cy, ¬ Spec.mem (chromaRect F B) cx cy := by
  refine ⟨⟨by decide, by decide, by decide, by decide, by decide, by decide⟩, by decide, ?_, ?_, ?_⟩
  · unfold Spec.chromaVisible Spec.closes Spec.chromaIn; decide
  · unfold Spec.chromaVisible Spec.closes Spec.chromaIn; decide
  · rintro cx cy ⟨s, h, _⟩
    cases h

/-- The hypotheses are met by a 4x4 block at the edge of a picture of odd size. -/
example : let F : Frame := ⟨15, 7, 1, 1, false⟩; let B : Blk := ⟨3, 1, 1, 1⟩
    BlkOk F B ∧ 4 * B.x < F.width ∧ 4 * B.y < F.height ∧ chromaRect F B = some ⟨4, 0, 4, 4⟩ ∧ lumaRect F B = some ⟨12, 4, 3, 3⟩ :=
  ⟨⟨by decide, by decide, by decide, by decide, by decide, by decide⟩, by decide, by decide, by decide, by decide⟩

end Rav1e.Visible
