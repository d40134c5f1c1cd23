import Verif.RateEst.Model
import Verif.RateEst.Spec
import Mathlib.Algebra.Order.Field.Basic
import Mathlib.Algebra.Order.Group.MinMax
import Mathlib.Data.List.GetD
import Mathlib.Data.Rat.Lemmas
import Mathlib.Tactic.Linarith
import Mathlib.Tactic.NormNum
import Mathlib.Tactic.Ring

/-!
# Estimated rates: theorems
-/

namespace Rav1e.RateEst

open Rav1e.LogExp (i64)

theorem table_shape : table.length = 8 ∧ (∀ t ∈ table, t.length = 19) ∧ ∀ t ∈ table, ∀ r ∈ t, r.length = 50 ∧ ∀ y ∈ r, y ≤ 99999 := by
  decide +kernel

theorem row_ok {q ts : Nat} (hq : q < 256) (ht : ts < 19) : ∃ t row, table[q / 32]? = some t ∧ t[ts]? = some row ∧ row.length = 50 ∧
    (∀ y ∈ row, y ≤ 99999) ∧ ∀ k, Spec.entry q ts k = row.getD k 0 := by
  obtain ⟨s1, s2, s3⟩ := table_shape
  have h1 : q / 32 < table.length := by omega
  have h2 := s2 _ (List.getElem_mem h1)
  have h3 : ts < (table[q / 32]).length := by omega
  have h4 := s3 _ (List.getElem_mem h1) _ (List.getElem_mem h3)
  refine ⟨table[q / 32], table[q / 32][ts], List.getElem?_eq_getElem h1, List.getElem?_eq_getElem h3, h4.1, h4.2, ?_⟩
  intro k
  unfold Spec.entry
  rw [List.getD_eq_getElem _ _ h1, List.getD_eq_getElem _ _ h3]

theorem entry_le {q ts : Nat} (hq : q < 256) (ht : ts < 19) (k : Nat) : Spec.entry q ts k ≤ 99999 := by
  obtain ⟨t, row, _, _, _, h, e⟩ := row_ok hq ht
  rw [e]
  by_cases hk : k < row.length
  · rw [List.getD_eq_getElem _ _ hk]; exact h _ (List.getElem_mem hk)
  · rw [List.getD_eq_default _ _ (by omega)]; omega

/-- Division by truncation, in terms of products. -/
theorem slope_bounds (D : Int) : (0 ≤ D → (D * 256).tdiv 2000 * 2000 ≤ D * 256 ∧ D * 256 < (D * 256).tdiv 2000 * 2000 + 2000 ∧ 0 ≤ (D * 256).tdiv 2000) ∧
    (D ≤ 0 → D * 256 ≤ (D * 256).tdiv 2000 * 2000 ∧ (D * 256).tdiv 2000 * 2000 < D * 256 + 2000 ∧ (D * 256).tdiv 2000 ≤ 0) := by
  constructor
  · intro h
    rw [Int.tdiv_eq_ediv_of_nonneg (by omega)]; omega
  · intro h
    obtain ⟨E, rfl⟩ : ∃ E, D = -E := ⟨-D, by omega⟩
    rw [show -E * 256 = -(E * 256) by ring, Int.neg_tdiv, Int.tdiv_eq_ediv_of_nonneg (by omega)]; omega

/-- The arithmetic in terms of the two values. -/
theorem row_form {row : List Nat} {dist k a b : Nat} (hk : min (dist / 2000) 48 = k) (hd : dist < 2 ^ 42) (ha : row[k]? = some a) (hb : row[k + 1]? = some b)
    (e0 : a ≤ 99999) (e1 : b ≤ 99999) :
    estimateRow row dist = some (max ((a : Int) + ((dist : Int) - 2000 * k) * (((b : Int) - a) * 256).tdiv 2000 / 256) 0).toNat := by
  have hk1 : k ≤ 48 := by omega
  have hk2 : 2000 * k ≤ dist := by omega
  have bd : binDown dist = k := by unfold binDown; omega
  have bu : binUp dist = k + 1 := by unfold binUp; omega
  unfold estimateRow
  rw [bd, bu, ha, hb, Option.bind_some, Option.bind_some]
  unfold interp
  have hx : (((k + 1) * 2000 : Nat) : Int) - ((k * 2000 : Nat) : Int) = 2000 := by push_cast; ring
  have hx0 : ((k * 2000 : Nat) : Int) = 2000 * k := by push_cast; ring
  rw [hx, hx0, show (2 : Int) ^ 8 = 256 by norm_num]
  have hs : -12800 ≤ (((b : Int) - a) * 256).tdiv 2000 ∧ (((b : Int) - a) * 256).tdiv 2000 ≤ 12800 := by
    obtain ⟨t1, t2⟩ := slope_bounds ((b : Int) - a)
    rcases le_total (0 : Int) ((b : Int) - a) with h | h
    · have := t1 h; omega
    · have := t2 h; omega
  generalize (((b : Int) - a) * 256).tdiv 2000 = s at *
  have i1 : i64 (dist : Int) = some (dist : Int) := by unfold i64; rw [if_pos (by constructor <;> omega)]
  rw [i1, Option.bind_some]
  have hp : ((dist : Int) - 2000 * k) * s ≤ 2 ^ 42 * 12800 ∧ -(2 ^ 42 * 12800) ≤ ((dist : Int) - 2000 * k) * s := by
    have hA : 0 ≤ (dist : Int) - 2000 * k := by omega
    have hB : (dist : Int) - 2000 * k ≤ 2 ^ 42 := by omega
    have hC : -12800 ≤ s := by omega
    have hD : s ≤ 12800 := by omega
    constructor <;> nlinarith
  have i2 : i64 (((dist : Int) - 2000 * k) * s) = some (((dist : Int) - 2000 * k) * s) := by unfold i64; rw [if_pos (by constructor <;> omega)]
  rw [i2, Option.bind_some]

/-- The code in terms of the two values. -/
theorem estimate_form {q ts dist : Nat} (hq : q < 256) (ht : ts < 19) (hd : dist < 2 ^ 42) (k : Nat) (hk : min (dist / 2000) 48 = k) :
    estimateRate q ts dist = some (max ((Spec.entry q ts k : Int) +
      ((dist : Int) - 2000 * k) * (((Spec.entry q ts (k + 1) : Int) - Spec.entry q ts k) * 256).tdiv 2000 / 256) 0).toNat := by
  have e0 := entry_le hq ht k
  have e1 := entry_le hq ht (k + 1)
  obtain ⟨t, row, g1, g2, g3, _, g5⟩ := row_ok hq ht
  rw [g5] at e0
  rw [g5] at e1
  have l0 : k < row.length := by omega
  have l1 : k + 1 < row.length := by omega
  have y0 : row[k]? = some (row.getD k 0) := by
    rw [List.getElem?_eq_getElem l0, List.getD_eq_getElem _ _ l0]
  have y1 : row[k + 1]? = some (row.getD (k + 1) 0) := by
    rw [List.getElem?_eq_getElem l1, List.getD_eq_getElem _ _ l1]
  have F := row_form hk hd y0 y1 e0 e1
  rw [g5 k, g5 (k + 1), ← F]
  unfold estimateRate
  rw [g1, Option.bind_some, g2, Option.bind_some]

/-- Slope and product as bounds. -/
theorem inner {D x : Int} (h0 : 0 ≤ x) (h1 : x ≤ 2000) :
    (0 ≤ D → 0 ≤ x * (D * 256).tdiv 2000 / 256 ∧ x * (D * 256).tdiv 2000 / 256 ≤ D) ∧
    (D ≤ 0 → D ≤ x * (D * 256).tdiv 2000 / 256 ∧ x * (D * 256).tdiv 2000 / 256 ≤ 0) ∧
    2000 * (x * (D * 256).tdiv 2000 / 256) ≤ D * x + 16000 ∧ D * x - 18000 ≤ 2000 * (x * (D * 256).tdiv 2000 / 256) := by
  have ht := slope_bounds D
  generalize (D * 256).tdiv 2000 = s at *
  obtain ⟨t1, t2⟩ := ht
  have hf1 : x * s / 256 * 256 ≤ x * s := Int.ediv_mul_le _ (by norm_num)
  have hf2 : x * s < x * s / 256 * 256 + 256 := by have := Int.lt_ediv_add_one_mul_self (x * s) (show (0 : Int) < 256 by norm_num); omega
  generalize x * s / 256 = z at *
  refine ⟨?_, ?_, ?_, ?_⟩
  · intro hD
    obtain ⟨a1, a2, a3⟩ := t1 hD
    have : 0 ≤ x * s := Int.mul_nonneg h0 a3
    have : x * s ≤ 2000 * s := Int.mul_le_mul_of_nonneg_right h1 a3
    constructor <;> omega
  · intro hD
    obtain ⟨a1, a2, a3⟩ := t2 hD
    have : x * s ≤ 0 := Int.mul_nonpos_of_nonneg_of_nonpos h0 a3
    have : 2000 * s ≤ x * s := Int.mul_le_mul_of_nonpos_right h1 a3
    constructor <;> omega
  · rcases le_total 0 D with hD | hD
    · obtain ⟨a1, a2, a3⟩ := t1 hD
      have : x * (s * 2000) ≤ x * (D * 256) := Int.mul_le_mul_of_nonneg_left a1 h0
      nlinarith
    · obtain ⟨a1, a2, a3⟩ := t2 hD
      have : x * (s * 2000) ≤ x * (D * 256 + 2000) := Int.mul_le_mul_of_nonneg_left a2.le h0
      nlinarith
  · rcases le_total 0 D with hD | hD
    · obtain ⟨a1, a2, a3⟩ := t1 hD
      have : x * (D * 256) ≤ x * (s * 2000 + 2000) := Int.mul_le_mul_of_nonneg_left a2.le h0
      nlinarith
    · obtain ⟨a1, a2, a3⟩ := t2 hD
      have : x * (D * 256) ≤ x * (s * 2000) := Int.mul_le_mul_of_nonneg_left a1 h0
      nlinarith

/-- **C71**, inside the table: for every quantizer, transform size and distortion up to 98000 there is an estimate; it lies between
the two values of the table around the distortion, and differs from the straight line between them by at most 9. -/
theorem estimate_between (q ts dist : Nat) (hq : q < 256) (ht : ts < 19) (hd : dist ≤ 98000) :
    ∃ r, estimateRate q ts dist = some r ∧
      let k := min (dist / 2000) 48
      min (Spec.entry q ts k) (Spec.entry q ts (k + 1)) ≤ r ∧ r ≤ max (Spec.entry q ts k) (Spec.entry q ts (k + 1)) ∧
      |(r : ℚ) - Spec.line q ts k dist| ≤ 9 := by
  obtain ⟨k, hk⟩ : ∃ k, min (dist / 2000) 48 = k := ⟨_, rfl⟩
  have F := estimate_form hq ht (dist := dist) (by omega) k hk
  simp only [hk]
  refine ⟨_, F, ?_⟩
  have hl : 2000 * k ≤ dist := by omega
  have hu : dist ≤ 2000 * k + 2000 := by omega
  unfold Spec.line
  generalize Spec.entry q ts k = a
  generalize Spec.entry q ts (k + 1) = b
  obtain ⟨i1, i2, i3, i4⟩ := inner (D := (b : Int) - a) (x := (dist : Int) - 2000 * k) (by omega) (by omega)
  generalize hz : ((dist : Int) - 2000 * k) * (((b : Int) - a) * 256).tdiv 2000 / 256 = z at *
  have hz0 : 0 ≤ (a : Int) + z := by
    rcases le_total (0 : Int) ((b : Int) - a) with h | h
    · have := i1 h; omega
    · have := i2 h; omega
  obtain ⟨n, hn⟩ : ∃ n : Nat, (max ((a : Int) + z) 0).toNat = n := ⟨_, rfl⟩
  rw [hn]
  have hn' : (n : Int) = a + z := by omega
  refine ⟨?_, ?_, ?_⟩
  · rcases le_total (0 : Int) ((b : Int) - a) with h | h
    · have := i1 h; omega
    · have := i2 h; omega
  · rcases le_total (0 : Int) ((b : Int) - a) with h | h
    · have := i1 h; omega
    · have := i2 h; omega
  · have hq' : (n : ℚ) = a + z := by exact_mod_cast hn'
    have j3 : (2000 : ℚ) * z ≤ (b - a) * (dist - 2000 * k) + 16000 := by exact_mod_cast i3
    have j4 : ((b : ℚ) - a) * (dist - 2000 * k) - 18000 ≤ 2000 * z := by exact_mod_cast i4
    rw [hq', abs_le]
    constructor <;> linarith

/-- **C71**, at the bins: the estimate is the value of the table. -/
theorem estimate_at_bin (q ts k : Nat) (hq : q < 256) (ht : ts < 19) (hk : k ≤ 48) :
    estimateRate q ts (2000 * k) = some (Spec.entry q ts k) := by
  rw [estimate_form hq ht (dist := 2000 * k) (by omega) k (by omega)]
  simp

/-- **C71**, beyond the table: there is an estimate for every distortion below `2 ^ 42`. -/
theorem estimate_total (q ts dist : Nat) (hq : q < 256) (ht : ts < 19) (hd : dist < 2 ^ 42) : ∃ r, estimateRate q ts dist = some r :=
  ⟨_, estimate_form hq ht hd _ rfl⟩

/-- **C71**, beyond the table the estimate follows the straight line through the last two values, or is 0 where this is negative; it differs
by at most 1 and the 256th part of the distance from the second last bin. -/
theorem estimate_beyond (q ts dist : Nat) (hq : q < 256) (ht : ts < 19) (h0 : 96000 ≤ dist) (hd : dist < 2 ^ 42) :
    ∃ r, estimateRate q ts dist = some r ∧ |(r : ℚ) - max (Spec.line q ts 48 dist) 0| ≤ 1 + ((dist : ℚ) - 96000) / 256 := by
  have F := estimate_form hq ht (dist := dist) hd 48 (by omega)
  refine ⟨_, F, ?_⟩
  unfold Spec.line
  norm_num only
  generalize Spec.entry q ts 48 = a
  generalize Spec.entry q ts 49 = b
  have hx : 0 ≤ (dist : Int) - 96000 := by omega
  obtain ⟨t1, t2⟩ := slope_bounds ((b : Int) - a)
  obtain ⟨x, ex⟩ : ∃ x : Int, (dist : Int) - 96000 = x := ⟨_, rfl⟩
  have exq : (dist : ℚ) - 96000 = x := by rw [← ex]; push_cast; ring
  have hx' : 0 ≤ x := by omega
  rw [ex, exq]
  obtain ⟨D, eD⟩ : ∃ D : Int, (b : Int) - a = D := ⟨_, rfl⟩
  have eDq : (b : ℚ) - a = D := by rw [← eD]; push_cast; ring
  rw [eD] at t1 t2 ⊢
  rw [eDq]
  generalize (D * 256).tdiv 2000 = s at *
  have hf1 : x * s / 256 * 256 ≤ x * s := Int.ediv_mul_le _ (by norm_num)
  have hf2 : x * s < x * s / 256 * 256 + 256 := by have := Int.lt_ediv_add_one_mul_self (x * s) (show (0 : Int) < 256 by norm_num); omega
  generalize x * s / 256 = z at *
  have u : 2000 * 256 * z ≤ 256 * (D * x) + 2000 * x ∧ 256 * (D * x) - 2000 * x - 2000 * 256 ≤ 2000 * 256 * z := by
    rcases le_total 0 D with hD | hD
    · obtain ⟨a1, a2, a3⟩ := t1 hD
      have m1 : x * (s * 2000) ≤ x * (D * 256) := Int.mul_le_mul_of_nonneg_left a1 hx'
      have m2 : x * (D * 256) ≤ x * (s * 2000 + 2000) := Int.mul_le_mul_of_nonneg_left a2.le hx'
      constructor <;> nlinarith
    · obtain ⟨a1, a2, a3⟩ := t2 hD
      have m1 : x * (s * 2000) ≤ x * (D * 256 + 2000) := Int.mul_le_mul_of_nonneg_left a2.le hx'
      have m2 : x * (D * 256) ≤ x * (s * 2000) := Int.mul_le_mul_of_nonneg_left a1 hx'
      constructor <;> nlinarith
  have u1 : 2000 * 256 * (z : ℚ) ≤ 256 * (D * x) + 2000 * x := by exact_mod_cast u.1
  have u2 : 256 * (D * x) - 2000 * x - 2000 * 256 ≤ 2000 * 256 * (z : ℚ) := by exact_mod_cast u.2
  have hr : (((max ((a : Int) + z) 0).toNat : Nat) : ℚ) = max ((a : ℚ) + z) 0 := by
    have : (((max ((a : Int) + z) 0).toNat : Nat) : Int) = max ((a : Int) + z) 0 := Int.toNat_of_nonneg (le_max_right _ _)
    exact_mod_cast congrArg (fun i : Int => (i : ℚ)) this
  rw [hr]
  refine (abs_max_sub_max_le_abs _ _ _).trans ?_
  rw [abs_le]
  constructor <;> linarith

/-- **C71**, the estimate follows the table: where its values do not fall, a larger distortion does not have a smaller estimate. -/
theorem estimate_mono (q ts d1 d2 : Nat) (hq : q < 256) (ht : ts < 19) (h : d1 ≤ d2) (hd : d2 < 2 ^ 42)
    (hm : ∀ k, k ≤ 48 → Spec.entry q ts k ≤ Spec.entry q ts (k + 1)) :
    ∃ r1 r2, estimateRate q ts d1 = some r1 ∧ estimateRate q ts d2 = some r2 ∧ r1 ≤ r2 := by
  obtain ⟨k1, e1⟩ : ∃ k, min (d1 / 2000) 48 = k := ⟨_, rfl⟩
  obtain ⟨k2, e2⟩ : ∃ k, min (d2 / 2000) 48 = k := ⟨_, rfl⟩
  have F1 := estimate_form hq ht (dist := d1) (by omega) k1 e1
  have F2 := estimate_form hq ht (dist := d2) hd k2 e2
  refine ⟨_, _, F1, F2, ?_⟩
  have m1 := hm k1 (by omega)
  have m2 := hm k2 (by omega)
  have nonneg : ∀ a b : Nat, a ≤ b → 0 ≤ (((b : Int) - a) * 256).tdiv 2000 := by
    intro a b hab
    rw [Int.tdiv_eq_ediv_of_nonneg (by omega)]; omega
  have n1 := nonneg _ _ m1
  have n2 := nonneg _ _ m2
  apply Int.toNat_le_toNat
  by_cases hk : k1 = k2
  · subst hk
    have := Int.mul_le_mul_of_nonneg_right (show (d1 : Int) - 2000 * k1 ≤ (d2 : Int) - 2000 * k1 by omega) n1
    have := Int.ediv_le_ediv (show (0 : Int) < 256 by norm_num) this
    omega
  · have hlt : k1 < k2 := by omega
    have chain : ∀ j, k1 + 1 ≤ j → j ≤ 49 → Spec.entry q ts (k1 + 1) ≤ Spec.entry q ts j := by
      intro j h1 h2
      induction j, h1 using Nat.le_induction with
      | base => exact le_refl _
      | succ j hj ih => exact le_trans (ih (by omega)) (hm j (by omega))
    have hc := chain k2 (by omega) (by omega)
    obtain ⟨i1, _⟩ := inner (D := (Spec.entry q ts (k1 + 1) : Int) - Spec.entry q ts k1) (x := (d1 : Int) - 2000 * k1) (by omega) (by omega)
    have i1 := i1 (by omega)
    have p2 : 0 ≤ ((d2 : Int) - 2000 * k2) * (((Spec.entry q ts (k2 + 1) : Int) - Spec.entry q ts k2) * 256).tdiv 2000 / 256 :=
      Int.ediv_nonneg (Int.mul_nonneg (by omega) n2) (by norm_num)
    omega

/-- The hypothesis of `estimate_mono` is met. -/
example : ∀ k, k ≤ 48 → Spec.entry 255 3 k ≤ Spec.entry 255 3 (k + 1) := by decide +kernel

/-- **C71**, a defect: values of bins without data are 99999.  For 4x4 transforms and low quantizers only the last bin has data, so that the
estimate falls from 99999 to 0 when the distortion grows from 96000 to 98100. -/
theorem estimate_falls : estimateRate 0 0 96000 = some 99999 ∧ estimateRate 0 0 98100 = some 0 ∧
    (∀ k, k ≤ 48 → Spec.entry 0 0 k = 99999) ∧ Spec.entry 0 0 49 = 104 := by decide +kernel

end Rav1e.RateEst
