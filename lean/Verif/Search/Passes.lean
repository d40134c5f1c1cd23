import Verif.Search.Theorems

/-!
# Motion search: passes of different resolutions
-/

namespace Rav1e.Search

open Spec

/-- One axis of the refinement. -/
theorem axis {lo hi a : Int} (h1 : lo - 16 ≤ a) (h2 : a ≤ hi + 8) (h3 : lo ≤ -16) (h4 : 16 ≤ hi) :
    max (a.tdiv 8 - 1) (lo.tdiv 8) ≤ min (a.tdiv 8 + 2) (hi.tdiv 8) ∧ lo ≤ 8 * max (a.tdiv 8 - 1) (lo.tdiv 8) ∧
      8 * min (a.tdiv 8 + 2) (hi.tdiv 8) ≤ hi ∧
      ∀ x, a.tdiv 8 - 1 ≤ x → x ≤ a.tdiv 8 + 2 → lo ≤ 8 * x → 8 * x ≤ hi →
        max (a.tdiv 8 - 1) (lo.tdiv 8) ≤ x ∧ x ≤ min (a.tdiv 8 + 2) (hi.tdiv 8) := by
  have pos : ∀ b : Int, 0 ≤ b → 8 * b.tdiv 8 ≤ b ∧ b < 8 * b.tdiv 8 + 8 := by
    intro b h
    rw [Int.tdiv_eq_ediv_of_nonneg h]; omega
  have neg : ∀ b : Int, b ≤ 0 → b ≤ 8 * b.tdiv 8 ∧ 8 * b.tdiv 8 < b + 8 := by
    intro b h
    obtain ⟨d, rfl⟩ : ∃ d, b = -d := ⟨-b, by omega⟩
    rw [Int.neg_tdiv, Int.tdiv_eq_ediv_of_nonneg (by omega)]; omega
  obtain ⟨p1, p2⟩ := neg lo (by omega)
  obtain ⟨p3, p4⟩ := pos hi (by omega)
  generalize lo.tdiv 8 = l at *
  generalize hi.tdiv 8 = k at *
  rcases le_total 0 a with ha | ha
  · obtain ⟨p5, p6⟩ := pos a ha
    generalize a.tdiv 8 = t at *
    exact ⟨by omega, by omega, by omega, fun x _ _ _ _ => by omega⟩
  · obtain ⟨p5, p6⟩ := neg a ha
    generalize a.tdiv 8 = t at *
    exact ⟨by omega, by omega, by omega, fun x _ _ _ _ => by omega⟩

/-- **C70**, refinement: around a stored vector that is at most two pixels outside the limits on the low side and one on the high side,
the search at the next resolution finds an allowed vector of whole pixels with its cost, and none of the 4x4 allowed whole-pixel vectors from
one pixel before to two pixels behind the stored vector costs less. -/
theorem refine_search {c : Ctx} (ok : Ok c) {sad : MV → Nat} (hd : Ok32 sad) (h0 : c.pmv0 = ⟨0, 0⟩) (h1 : c.pmv1 = ⟨0, 0⟩) (v : MV)
    (b1 : c.lim.xmin - 16 ≤ v.col) (b2 : v.col ≤ c.lim.xmax + 8) (b3 : c.lim.ymin - 16 ≤ v.row) (b4 : v.row ≤ c.lim.ymax + 8) :
    ∃ q, refine c sad v = some q ∧ Measured c sad q ∧ 8 ∣ q.mv.row ∧ 8 ∣ q.mv.col ∧
      ∀ y x : Int, v.row.tdiv 8 - 1 ≤ y → y ≤ v.row.tdiv 8 + 2 → v.col.tdiv 8 - 1 ≤ x → x ≤ v.col.tdiv 8 + 2 →
        InRange c.lim ⟨8 * y, 8 * x⟩ → q.cost ≤ cost c sad ⟨8 * y, 8 * x⟩ := by
  obtain ⟨hx, x1, x2, x3⟩ := axis b1 b2 ok.x2 ok.x3
  obtain ⟨hy, y1, y2, y3⟩ := axis b3 b4 ok.y2 ok.y3
  obtain ⟨f1, f2⟩ := full_spec ok hd h0 h1 (step := 1) (by norm_num) hx hy x1 x2 y1 y2
  have hdv := full_div c sad (max (v.col.tdiv 8 - 1) (c.lim.xmin.tdiv 8)) (min (v.col.tdiv 8 + 2) (c.lim.xmax.tdiv 8))
    (max (v.row.tdiv 8 - 1) (c.lim.ymin.tdiv 8)) (min (v.row.tdiv 8 + 2) (c.lim.ymax.tdiv 8)) 1
  have hr : refine c sad v = some (fullSearch c sad (max (v.col.tdiv 8 - 1) (c.lim.xmin.tdiv 8)) (min (v.col.tdiv 8 + 2) (c.lim.xmax.tdiv 8))
      (max (v.row.tdiv 8 - 1) (c.lim.ymin.tdiv 8)) (min (v.row.tdiv 8 + 2) (c.lim.ymax.tdiv 8)) 1) := by
    unfold refine
    simp only
    rw [if_neg (by rw [not_or, not_lt, not_lt]; exact ⟨hx, hy⟩)]
  generalize fullSearch c sad (max (v.col.tdiv 8 - 1) (c.lim.xmin.tdiv 8)) (min (v.col.tdiv 8 + 2) (c.lim.xmax.tdiv 8))
      (max (v.row.tdiv 8 - 1) (c.lim.ymin.tdiv 8)) (min (v.row.tdiv 8 + 2) (c.lim.ymax.tdiv 8)) 1 = q at f1 f2 hdv hr
  refine ⟨q, hr, ?_, hdv.1, hdv.2, ?_⟩
  · rcases f1 with f1 | f1
    · exfalso
      have g := f2 ⟨8 * max (v.row.tdiv 8 - 1) (c.lim.ymin.tdiv 8), 8 * max (v.col.tdiv 8 - 1) (c.lim.xmin.tdiv 8)⟩
        ⟨_, _, rfl, ⟨le_refl _, hy, by simp⟩, le_refl _, hx, by simp⟩
      have g' := cost_lt ok hd (v := ⟨8 * max (v.row.tdiv 8 - 1) (c.lim.ymin.tdiv 8), 8 * max (v.col.tdiv 8 - 1) (c.lim.xmin.tdiv 8)⟩)
        ⟨x1, le_trans (Int.mul_le_mul_of_nonneg_left hx (by norm_num)) x2, y1, le_trans (Int.mul_le_mul_of_nonneg_left hy (by norm_num)) y2⟩
      rw [f1] at g
      omega
    · exact f1
  · intro y x c1 c2 c3 c4 hin
    obtain ⟨i1, i2, i3, i4⟩ := hin
    simp only at i1 i2 i3 i4
    obtain ⟨u1, u2⟩ := x3 x c3 c4 i1 i2
    obtain ⟨w1, w2⟩ := y3 y c1 c2 i3 i4
    exact f2 _ ⟨y, x, rfl, ⟨w1, w2, by simp⟩, u1, u2, by simp⟩

/-- **C70**, from one resolution to the next: what a pass at a quarter (`s = 1`: half) of the resolution found for a block is a start that the
refinement of that block accepts, for every position, frame size and rest of the superblock. -/
theorem refine_after_pass (w h bx byy size n m s : Nat) (hx : bx ≤ w) (hy : byy ≤ h) (hs : s = 0 ∨ s = 1) (hz : 4 ∣ size)
    (lambda : Nat) (hl : lambda < 2 ^ 32) (hp : Bool) {sad : MV → Nat} (hd : Ok32 sad) (r : MV)
    (hr : InRange ((getMvRange w h bx byy (passSize size n (s + 1)) (passSize size m (s + 1))).shr (s + 1)) r) :
    ∃ q, refine ⟨(getMvRange w h bx byy (passSize size n s) (passSize size m s)).shr s, ⟨0, 0⟩, ⟨0, 0⟩, lambda, hp⟩ sad
        ⟨r.row * 2 ^ (s + 1) / 2 ^ s, r.col * 2 ^ (s + 1) / 2 ^ s⟩ = some q ∧
      InRange ((getMvRange w h bx byy (passSize size n s) (passSize size m s)).shr s) q.mv ∧ 8 ∣ q.mv.row ∧ 8 ∣ q.mv.col := by
  have ok := limits_ok w h bx byy (passSize size n s) (passSize size m s) s hx hy (by omega) ⟨0, 0⟩ ⟨0, 0⟩ lambda hp (by decide) (by decide) hl
  have b : ∀ k : Nat, ∃ a a' : Nat, passSize size k s = a ∧ passSize size k (s + 1) = a' ∧
      ((s = 0 ∧ (a' = a ∨ (a' = a + 1 ∧ a' % 2 = 0))) ∨ (s = 1 ∧ a % 2 = 0 ∧ a' % 4 = 0 ∧ (a' = a ∨ a' = a + 2))) := by
    intro k
    refine ⟨_, _, rfl, rfl, ?_⟩
    unfold passSize
    rcases hs with rfl | rfl <;> norm_num <;> omega
  obtain ⟨a, a', e1, e2, e3⟩ := b n
  obtain ⟨t, t', g1, g2, g3⟩ := b m
  rw [e1, g1] at ok ⊢
  rw [e2, g2] at hr
  obtain ⟨r1, r2, r3, r4⟩ := hr
  obtain ⟨q, q1, q2, q3, q4, _⟩ := refine_search ok hd rfl rfl ⟨r.row * 2 ^ (s + 1) / 2 ^ s, r.col * 2 ^ (s + 1) / 2 ^ s⟩
    (by rcases hs with rfl | rfl <;> simp only [getMvRange, Lim.shr] at r1 ⊢ <;> norm_num at r1 ⊢ <;> omega)
    (by rcases hs with rfl | rfl <;> simp only [getMvRange, Lim.shr] at r2 ⊢ <;> norm_num at r2 ⊢ <;> omega)
    (by rcases hs with rfl | rfl <;> simp only [getMvRange, Lim.shr] at r3 ⊢ <;> norm_num at r3 ⊢ <;> omega)
    (by rcases hs with rfl | rfl <;> simp only [getMvRange, Lim.shr] at r4 ⊢ <;> norm_num at r4 ⊢ <;> omega)
  exact ⟨q, q1, q2.1, q3, q4⟩

/-- **C70**, the last pass: whatever vectors were stored before, what is stored at full resolution is a vector a stream can have, as
`final_codable` asks. -/
theorem stored_valid (w h bx byy bw bh : Nat) (hx : bx ≤ w) (hy : byy ≤ h) (lambda : Nat) (hl : lambda < 2 ^ 32) (hp : Bool)
    {sad : MV → Nat} (hd : Ok32 sad) (s : Subsets) :
    ∃ p, fullPixelMe ⟨(getMvRange w h bx byy bw bh).shr 0, ⟨0, 0⟩, ⟨0, 0⟩, lambda, hp⟩ sad s false false 0 0 0 = some p ∧
      (-16384 < p.mv.row ∧ p.mv.row < 16384) ∧ -16384 < p.mv.col ∧ p.mv.col < 16384 := by
  have ok := limits_ok w h bx byy bw bh 0 hx hy (by omega) ⟨0, 0⟩ ⟨0, 0⟩ lambda hp (by decide) (by decide) hl
  obtain ⟨p, q, g1, _, g3, _⟩ := final_search ok hd hd false s (sadS := sad)
  refine ⟨p, g1, ?_⟩
  obtain ⟨a1, a2, a3, a4⟩ := g3.1
  simp only [getMvRange, Lim.shr, pow_zero, Int.ediv_one] at a1 a2 a3 a4
  omega

/-- The hypotheses are met: the last block of a row of superblocks with 61 pixels left. -/
example : InRange ((getMvRange 480 270 464 20 (passSize 64 61 2) (passSize 64 64 2)).shr 2) ⟨-40, 120⟩ ∧
    passSize 64 61 2 = 64 ∧ passSize 64 61 1 = 62 ∧ passSize 64 61 0 = 61 := by
  unfold InRange; decide +kernel

end Rav1e.Search
