import Verif.Splat.Model
import Verif.Splat.Spec
import Mathlib.Tactic.Ring
import Mathlib.Tactic.Linarith
import Mathlib.Tactic.Positivity
import Mathlib.Tactic.FieldSimp
import Mathlib.Data.List.GetD
import Mathlib.Algebra.BigOperators.Ring.Finset

namespace Rav1e.Splat

theorem topLeft_eq (r : Int) : topLeft r = r / 64 * 64 := by
  unfold topLeft size
  by_cases h : r < 0
  · rw [if_pos h, Int.tdiv_eq_ediv]
    have : ¬ (0 ≤ r - (64 - 1)) := by omega
    by_cases hd : (64 : Int) ∣ r - (64 - 1)
    · simp only [hd, or_true, if_true]; omega
    · simp only [this, hd, or_self, if_false]
      have : Int.sign 64 = 1 := rfl
      rw [this]; omega
  · rw [if_neg h, Int.tdiv_eq_ediv]
    have : 0 ≤ r - 0 := by omega
    simp only [this, true_or, if_true]; omega

theorem index_inj {w x y x' y' : Nat} (hx : x < w) (hx' : x' < w)
    (h : y * w + x = y' * w + x') : x = x' ∧ y = y' := by
  have h1 : (y * w + x) / w = (y' * w + x') / w := by rw [h]
  have h2 : (y * w + x) % w = (y' * w + x') % w := by rw [h]
  have hw : 0 < w := by omega
  rw [Nat.mul_comm y, Nat.mul_comm y', Nat.mul_add_div hw, Nat.mul_add_div hw,
    Nat.div_eq_of_lt hx, Nat.div_eq_of_lt hx'] at h1
  rw [Nat.mul_comm y, Nat.mul_comm y', Nat.mul_add_mod, Nat.mul_add_mod,
    Nat.mod_eq_of_lt hx, Nat.mod_eq_of_lt hx'] at h2
  omega

theorem index_lt {w h x y : Nat} (hx : x < w) (hy : y < h) : y * w + x < w * h := by
  have : (y + 1) * w ≤ h * w := Nat.mul_le_mul_right w hy
  rw [Nat.add_mul] at this
  rw [Nat.mul_comm w h]; omega

theorem propagate_spec (w h : Nat) (amt : ℚ) (imp : List ℚ) (qx qy : Int) (f : ℚ)
    (hl : imp.length = w * h) :
    ∃ imp', propagate w h amt imp (qx * 64) (qy * 64) f = some imp' ∧ imp'.length = w * h ∧
      ∀ x y, x < w → y < h → imp'.getD (y * w + x) 0 =
        imp.getD (y * w + x) 0 + if qx = x ∧ qy = y then amt * f else 0 := by
  have e1 : (qx * 64).tdiv 64 = qx := Int.mul_tdiv_cancel _ (by decide)
  have e2 : (qy * 64).tdiv 64 = qy := Int.mul_tdiv_cancel _ (by decide)
  unfold propagate size
  rw [e1, e2]
  by_cases hc : qx ≥ 0 ∧ qy ≥ 0 ∧ qx.toNat < w ∧ qy.toNat < h
  · have hi : qy.toNat * w + qx.toNat < imp.length := by
      rw [hl]; exact index_lt hc.2.2.1 hc.2.2.2
    refine ⟨_, by rw [if_pos hc]; exact if_pos hi, by simpa using hl, ?_⟩
    intro x y hx hy
    have hj : y * w + x < imp.length := by rw [hl]; exact index_lt hx hy
    rw [List.getD_eq_getElem _ _ (by simpa using hj), List.getElem_set,
      List.getD_eq_getElem _ _ hj]
    by_cases hij : qy.toNat * w + qx.toNat = y * w + x
    · obtain ⟨a, b⟩ := index_inj hc.2.2.1 hx hij
      rw [if_pos hij, if_pos ⟨by omega, by omega⟩]
      rw [hij, List.getD_eq_getElem _ _ hj]
    · rw [if_neg hij, if_neg, add_zero]
      rintro ⟨a, b⟩
      subst a; subst b
      exact hij (by simp)
  · refine ⟨imp, if_neg hc, hl, ?_⟩
    intro x y hx hy
    rw [if_neg, add_zero]
    rintro ⟨a, b⟩
    exact hc (by omega)

theorem common_eq (r : Int) (x : Nat) : Spec.common r (64 * x) =
    if r / 64 = x then r / 64 * 64 + 64 - r
    else if r / 64 + 1 = x then r + 64 - (r / 64 * 64 + 64) else 0 := by
  unfold Spec.common
  split
  · omega
  · split <;> omega

theorem splat_spec (w h : Nat) (imp : List ℚ) (e : ℚ × Int × Int) (hl : imp.length = w * h) :
    ∃ imp', splat w h imp e = some imp' ∧ imp'.length = w * h ∧
      ∀ x y, x < w → y < h → imp'.getD (y * w + x) 0 =
        imp.getD (y * w + x) 0 + e.1 * Spec.share e.2.1 e.2.2 x y := by
  obtain ⟨amt, rx, ry⟩ := e
  have ex : topLeft rx + size = (rx / 64 + 1) * 64 := by rw [topLeft_eq]; unfold size; ring
  have ey : topLeft ry + size = (ry / 64 + 1) * 64 := by rw [topLeft_eq]; unfold size; ring
  unfold splat
  simp only [ex, ey]
  simp only [topLeft_eq]
  obtain ⟨i1, p1, l1, s1⟩ := propagate_spec w h amt imp (rx / 64) (ry / 64)
    (((((rx / 64 + 1) * 64 - rx) * ((ry / 64 + 1) * 64 - ry) : Int) : ℚ) / (area : ℚ)) hl
  obtain ⟨i2, p2, l2, s2⟩ := propagate_spec w h amt i1 (rx / 64 + 1) (ry / 64)
    ((((rx + size - (rx / 64 + 1) * 64) * ((ry / 64 + 1) * 64 - ry) : Int) : ℚ) / (area : ℚ)) l1
  obtain ⟨i3, p3, l3, s3⟩ := propagate_spec w h amt i2 (rx / 64) (ry / 64 + 1)
    (((((rx / 64 + 1) * 64 - rx) * (ry + size - (ry / 64 + 1) * 64) : Int) : ℚ) / (area : ℚ)) l2
  obtain ⟨i4, p4, l4, s4⟩ := propagate_spec w h amt i3 (rx / 64 + 1) (ry / 64 + 1)
    ((((rx + size - (rx / 64 + 1) * 64) * (ry + size - (ry / 64 + 1) * 64) : Int) : ℚ) /
      (area : ℚ)) l3
  refine ⟨i4, by rw [p1, Option.bind_some, p2, Option.bind_some, p3, Option.bind_some, p4],
    l4, ?_⟩
  intro x y hx hy
  rw [s4 x y hx hy, s3 x y hx hy, s2 x y hx hy, s1 x y hx hy]
  unfold Spec.share
  rw [common_eq, common_eq]
  unfold size area
  generalize rx / 64 = a
  generalize ry / 64 = b
  split_ifs <;> first | (exfalso; omega) | (push_cast; ring)

/-- Whatever the blocks hand on and wherever their reference blocks are, also outside of the
frame, no index is out of bounds, and every block of the reference frame receives from each
exactly the share of its amount that its part of the area of the reference block is. -/
theorem importance_by_area (w h : Nat) (imp : List ℚ) (es : List (ℚ × Int × Int))
    (hl : imp.length = w * h) :
    ∃ imp', update w h imp es = some imp' ∧ imp'.length = w * h ∧
      ∀ x y, x < w → y < h → imp'.getD (y * w + x) 0 =
        imp.getD (y * w + x) 0 + Spec.received es x y := by
  induction es generalizing imp with
  | nil => exact ⟨imp, rfl, hl, fun x y _ _ => by simp [Spec.received]⟩
  | cons e es ih =>
    obtain ⟨i1, p1, l1, s1⟩ := splat_spec w h imp e hl
    obtain ⟨i2, p2, l2, s2⟩ := ih i1 l1
    refine ⟨i2, by unfold update; rw [p1, Option.bind_some, p2], l2, ?_⟩
    intro x y hx hy
    rw [s2 x y hx hy, s1 x y hx hy]
    simp only [Spec.received, List.map_cons, List.sum_cons]
    ring

/-- Two blocks of a 2 x 2 frame: one refers to the middle of the frame, one partly outside. -/
example : update 2 2 [0, 0, 0, 0] [(8, 32, 32), (16, -32, 0)] = some [10, 2, 2, 2] := by
  decide +kernel

/-- What a block hands on is never negative and at most its part of its own cost and
importance; a block that is not cheaper to predict hands nothing on. A cost of zero is never
divided by. -/
theorem amount_bounds (intraCost interCost : Nat) (future : ℚ) (len : Nat) (hf : 0 ≤ future)
    (hlen : 0 < len) :
    0 ≤ amount intraCost interCost future len ∧
    amount intraCost interCost future len ≤ (intraCost + future) / len ∧
    (intraCost ≤ interCost → amount intraCost interCost future len = 0) ∧
    (interCost < intraCost → amount intraCost interCost future len * len * intraCost =
      (intraCost + future) * (intraCost - interCost)) := by
  have hl : (0 : ℚ) < len := by exact_mod_cast hlen
  have ha : (0 : ℚ) ≤ intraCost + future := by positivity
  unfold amount
  by_cases hc : intraCost ≤ interCost
  · simp only [hc, if_true, mul_zero, zero_div]
    exact ⟨le_refl _, by positivity, fun _ => trivial, fun h => by omega⟩
  · have hi : (interCost : ℚ) < intraCost := by exact_mod_cast (Nat.lt_of_not_le hc)
    have h0 : (0 : ℚ) < intraCost := lt_of_le_of_lt (by positivity) hi
    have hd : (interCost : ℚ) / intraCost ≤ 1 := by rw [div_le_one h0]; exact hi.le
    have hd0 : (0 : ℚ) ≤ (interCost : ℚ) / intraCost := by positivity
    simp only [hc, if_false]
    refine ⟨div_nonneg (mul_nonneg ha (by linarith)) hl.le, ?_, fun h => h.elim, fun _ => ?_⟩
    · exact div_le_div_of_nonneg_right (mul_le_of_le_one_right ha (by linarith)) hl.le
    · field_simp

example : amount 100 25 20 3 = 30 := by decide +kernel

theorem common_nonneg (a b : Int) : 0 ≤ Spec.common a b := le_max_left _ _

/-- Importance never becomes negative. -/
theorem importance_nonneg (w h : Nat) (imp : List ℚ) (es : List (ℚ × Int × Int))
    (hl : imp.length = w * h) (hi : ∀ v ∈ imp, 0 ≤ v) (he : ∀ e ∈ es, 0 ≤ e.1) :
    ∃ imp', update w h imp es = some imp' ∧
      ∀ x y, x < w → y < h → 0 ≤ imp'.getD (y * w + x) 0 := by
  obtain ⟨imp', p, _, s⟩ := importance_by_area w h imp es hl
  refine ⟨imp', p, fun x y hx hy => ?_⟩
  rw [s x y hx hy]
  have hj : y * w + x < imp.length := by rw [hl]; exact index_lt hx hy
  apply add_nonneg
  · rw [List.getD_eq_getElem _ _ hj]; exact hi _ (List.getElem_mem hj)
  · unfold Spec.received
    apply List.sum_nonneg
    intro v hv
    obtain ⟨e, hm, rfl⟩ := List.mem_map.1 hv
    refine mul_nonneg (he e hm) ?_
    unfold Spec.share
    have : (0 : ℚ) ≤ ((Spec.common e.2.1 (64 * x) * Spec.common e.2.2 (64 * y) : Int) : ℚ) := by
      exact_mod_cast mul_nonneg (common_nonneg _ _) (common_nonneg _ _)
    positivity

theorem common_sum (r : Int) (hr : 0 ≤ r) (w : Nat) :
    ∑ x ∈ Finset.range w, Spec.common r (64 * x) = min (r + 64) (64 * w) - min r (64 * w) := by
  induction w with
  | zero => simp only [Finset.range_zero, Finset.sum_empty]; omega
  | succ w ih =>
    rw [Finset.sum_range_succ, ih]
    unfold Spec.common
    push_cast
    omega

/-- Nothing is lost or made up: a reference block inside of the frame hands all of its amount
to the blocks of the frame. -/
theorem nothing_lost (w h : Nat) (amt : ℚ) (rx ry : Int) (hx : 0 ≤ rx) (hy : 0 ≤ ry)
    (hw : rx + 64 ≤ 64 * w) (hh : ry + 64 ≤ 64 * h) :
    ∃ imp', update w h (List.replicate (w * h) 0) [(amt, rx, ry)] = some imp' ∧
      ∑ y ∈ Finset.range h, ∑ x ∈ Finset.range w, imp'.getD (y * w + x) 0 = amt := by
  obtain ⟨imp', p, _, s⟩ := importance_by_area w h (List.replicate (w * h) 0) [(amt, rx, ry)]
    (by simp)
  refine ⟨imp', p, ?_⟩
  have e : ∀ y ∈ Finset.range h, ∑ x ∈ Finset.range w, imp'.getD (y * w + x) 0 =
      (amt / 64) * ((Spec.common ry (64 * y) : Int) : ℚ) := by
    intro y hy'
    have : ∀ x ∈ Finset.range w, imp'.getD (y * w + x) 0 =
        (amt * ((Spec.common ry (64 * y) : Int) : ℚ) / 4096) *
          ((Spec.common rx (64 * x) : Int) : ℚ) := by
      intro x hx'
      rw [s x y (Finset.mem_range.1 hx') (Finset.mem_range.1 hy')]
      have hj := index_lt (Finset.mem_range.1 hx') (Finset.mem_range.1 hy')
      rw [List.getD_eq_getElem _ _ (by simpa using hj), List.getElem_replicate]
      simp only [Spec.received, Spec.share, List.map_cons, List.map_nil, List.sum_cons,
        List.sum_nil]
      push_cast
      ring
    rw [Finset.sum_congr rfl this, ← Finset.mul_sum, ← Int.cast_sum, common_sum rx hx,
      min_eq_left hw, min_eq_left (by omega : rx ≤ 64 * w)]
    push_cast
    ring
  rw [Finset.sum_congr rfl e, ← Finset.mul_sum, ← Int.cast_sum, common_sum ry hy,
    min_eq_left hh, min_eq_left (by omega : ry ≤ 64 * h)]
  push_cast
  ring

/-- The hypotheses hold for the block in the middle of a 2 x 2 frame. -/
example : (0 : Int) ≤ 32 ∧ (32 : Int) + 64 ≤ 64 * (2 : Nat) := by decide

end Rav1e.Splat
