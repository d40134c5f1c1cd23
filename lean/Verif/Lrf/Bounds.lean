import Verif.Lrf.Box
import Mathlib.Tactic.Ring
import Mathlib.Tactic.Linarith
import Mathlib.Tactic.IntervalCases

/-!
# The arithmetic of one box

`sgrproj_sum_finish` works with 32 bits.  The product of the variance and the strength fits only because the variance of
`n` values is largest when about half of them are the smallest and the others the largest value.
-/

namespace Rav1e.Lrf

open Spec (sum)

theorem sum_le {n b : Nat} {f : Nat → Nat} (h : ∀ i, i < n → f i ≤ b) : sum n f ≤ n * b := by
  induction n with
  | zero => exact Nat.zero_le _
  | succ n ih =>
    have := ih (fun i hi => h i (by omega))
    have h2 := h n (by omega)
    show sum n f + f n ≤ _
    rw [Nat.add_mul]; omega

/-- A convex function on `[0, M]` is largest at one of the ends. -/
theorem convex_end (N M c x : Int) (hN : 1 ≤ N) (h0 : 0 ≤ x) (hM : x ≤ M) :
    N * (x * x) - (c + x) * (c + x) ≤ -(c * c) ∨ N * (x * x) - (c + x) * (c + x) ≤ N * (M * M) - (c + M) * (c + M) := by
  by_cases h : (N - 1) * M - 2 * c ≤ 0
  · left
    have h1 : (N - 1) * x ≤ (N - 1) * M := mul_le_mul_of_nonneg_left hM (by omega)
    have h2 : x * ((N - 1) * x - 2 * c) ≤ 0 := mul_nonpos_of_nonneg_of_nonpos h0 (by omega)
    nlinarith
  · right
    have h1 : (N - 1) * x ≤ (N - 1) * M := mul_le_mul_of_nonneg_left hM (by omega)
    have h2 : x * ((N - 1) * x - 2 * c) ≤ x * ((N - 1) * M - 2 * c) := mul_le_mul_of_nonneg_left (by omega) h0
    have h3 : x * ((N - 1) * M - 2 * c) ≤ M * ((N - 1) * M - 2 * c) := mul_le_mul_of_nonneg_right hM (by omega)
    nlinarith

theorem var_row (N M : Nat) (hN : 1 ≤ N) (n : Nat) (f : Nat → Nat) (h : ∀ i, i < n → f i ≤ M) (s : Int) :
    ∃ k : Nat, k ≤ n ∧ (N : Int) * (sum n (fun i => f i * f i) : Nat) - (s + (sum n f : Nat)) * (s + (sum n f : Nat)) ≤
      (N : Int) * (k * (M * M)) - (s + k * M) * (s + k * M) := by
  induction n generalizing s with
  | zero => exact ⟨0, Nat.le_refl _, by simp [sum]⟩
  | succ n ih =>
    obtain ⟨k, hk, e⟩ := ih (fun i hi => h i (by omega)) (s + f n)
    have e1 : ((sum (n + 1) f : Nat) : Int) = (sum n f : Nat) + f n := by show ((sum n f + f n : Nat) : Int) = _; push_cast; rfl
    have e2 : ((sum (n + 1) (fun i => f i * f i) : Nat) : Int) = (sum n (fun i => f i * f i) : Nat) + f n * f n := by
      show ((sum n (fun i => f i * f i) + f n * f n : Nat) : Int) = _; push_cast; rfl
    have e3 := convex_end N M (s + k * M) (f n) (by omega) (by omega) (by exact_mod_cast h n (by omega))
    rw [e1, e2]
    rcases e3 with e3 | e3
    · exact ⟨k, by omega, by nlinarith⟩
    · refine ⟨k + 1, by omega, ?_⟩
      push_cast
      nlinarith

theorem var_rect (N M : Nat) (hN : 1 ≤ N) (m n : Nat) (f : Nat → Nat → Nat) (h : ∀ i j, i < m → j < n → f i j ≤ M)
    (s : Int) :
    ∃ k : Nat, k ≤ m * n ∧ (N : Int) * (sum m (fun i => sum n (fun j => f i j * f i j)) : Nat) -
        (s + (sum m (fun i => sum n (f i)) : Nat)) * (s + (sum m (fun i => sum n (f i)) : Nat)) ≤
      (N : Int) * (k * (M * M)) - (s + k * M) * (s + k * M) := by
  induction m generalizing s with
  | zero => exact ⟨0, Nat.zero_le _, by simp [sum]⟩
  | succ m ih =>
    have e1 : ((sum (m + 1) (fun i => sum n (f i)) : Nat) : Int) = (sum m (fun i => sum n (f i)) : Nat) + (sum n (f m) : Nat) := by
      show ((sum m (fun i => sum n (f i)) + sum n (f m) : Nat) : Int) = _; push_cast; rfl
    have e2 : ((sum (m + 1) (fun i => sum n (fun j => f i j * f i j)) : Nat) : Int) =
        (sum m (fun i => sum n (fun j => f i j * f i j)) : Nat) + (sum n (fun j => f m j * f m j) : Nat) := by
      show ((sum m (fun i => sum n (fun j => f i j * f i j)) + sum n (fun j => f m j * f m j) : Nat) : Int) = _; push_cast; rfl
    obtain ⟨k, hk, e⟩ := var_row N M hN n (f m) (fun j hj => h m j (by omega) hj) (s + (sum m (fun i => sum n (f i)) : Nat))
    obtain ⟨k', hk', e'⟩ := ih (fun i j hi hj => h i j (by omega) hj) (s + k * M)
    refine ⟨k' + k, by rw [Nat.add_mul]; omega, ?_⟩
    rw [e1, e2]
    push_cast
    nlinarith

/-- The variance of the values of a box with an odd number of values. -/
theorem var_le (M d : Nat) (hd : d = 3 ∨ d = 5) (f : Nat → Nat → Nat) (h : ∀ i j, i < d → j < d → f i j ≤ M) :
    d * d * sum d (fun i => sum d (fun j => f i j * f i j)) ≤
      sum d (fun i => sum d (f i)) * sum d (fun i => sum d (f i)) + (d * d * (d * d) - 1) / 4 * (M * M) := by
  obtain ⟨k, hk, e⟩ := var_rect (d * d) M (by rcases hd with rfl | rfl <;> omega) d d f h 0
  have hq : (k : Int) * (d * d - k) ≤ ((d * d * (d * d) - 1) / 4 : Nat) := by
    rcases hd with rfl | rfl
    · have : k ≤ 9 := hk
      interval_cases k <;> decide
    · have : k ≤ 25 := hk
      interval_cases k <;> decide
  have hm : (k : Int) * (d * d - k) * (M * M) ≤ ((d * d * (d * d) - 1) / 4 : Nat) * (M * M) :=
    mul_le_mul_of_nonneg_right hq (by positivity)
  generalize (d * d * (d * d) - 1) / 4 = V at hm ⊢
  generalize sum d (fun i => sum d (fun j => f i j * f i j)) = Q at e ⊢
  generalize sum d (fun i => sum d (f i)) = S at e ⊢
  zify
  push_cast at e
  nlinarith

/-- The scaled variance for any depth. -/
theorem scaled_var (k n a d S Q V M : Nat) (ha : a * (k * k) ≤ Q + k * k / 2) (hd : S ≤ d * k + k / 2)
    (hv : n * Q ≤ S * S + V * (M * M)) (hS : S ≤ n * M) :
    (a * n - d * d) * (k * k) ≤ V * (M * M) + n * (k * k) + k * (n * M) := by
  have h1 : n * (a * (k * k)) ≤ n * (Q + k * k) := Nat.mul_le_mul_left _ (by omega)
  have h2 : S * S ≤ (d * k) * (d * k) + k * S := by
    by_cases h : S ≤ d * k
    · have := Nat.mul_le_mul h h
      omega
    · obtain ⟨e, he⟩ : ∃ e, S = d * k + e := ⟨S - d * k, by omega⟩
      have h3 : 2 * e ≤ k := by omega
      have h4 : (2 * e) * S ≤ k * S := Nat.mul_le_mul_right _ h3
      generalize d * k = D at he ⊢
      subst he
      nlinarith
  have h3 : k * S ≤ k * (n * M) := Nat.mul_le_mul_left _ hS
  rw [Nat.sub_mul]
  have e1 : a * n * (k * k) = n * (a * (k * k)) := by ring
  have e2 : d * d * (k * k) = (d * k) * (d * k) := by ring
  rw [e1, e2]
  have h4 : n * (Q + k * k) = n * Q + n * (k * k) := by ring
  omega

theorem round_ssq (bd ssq : Nat) (hbd : bd = 8 ∨ bd = 10 ∨ bd = 12) :
    (ssq + (1 <<< (2 * (bd - 8)) >>> 1)) >>> (2 * (bd - 8)) = Spec.round2 ssq (2 * (bd - 8)) := by
  rcases hbd with rfl | rfl | rfl <;> simp [Spec.round2, Nat.shiftRight_eq_div_pow, Nat.shiftLeft_eq]

theorem round_sum (bd S : Nat) (hbd : bd = 8 ∨ bd = 10 ∨ bd = 12) :
    (S + (1 <<< (bd - 8) >>> 1)) >>> (bd - 8) = Spec.round2 S (bd - 8) := by
  rcases hbd with rfl | rfl | rfl <;> simp [Spec.round2, Nat.shiftRight_eq_div_pow, Nat.shiftLeft_eq]

/-- The products with the variance fit. -/
theorem var_fits (bd M n ssq S s V : Nat) (hbd : bd = 8 ∧ M = 255 ∨ bd = 10 ∧ M = 1023 ∨ bd = 12 ∧ M = 4095)
    (hn : n = 9 ∧ V = 20 ∧ s ≤ 3236 ∨ n = 25 ∧ V = 156 ∧ s ≤ 140)
    (hS : S ≤ n * M) (hQ : ssq ≤ n * (M * M))
    (hv : n * ssq ≤ S * S + V * (M * M)) :
    (Spec.round2 ssq (2 * (bd - 8)) * n - Spec.round2 S (bd - 8) * Spec.round2 S (bd - 8)) * s + 524288 < 4294967296 ∧
      Spec.round2 ssq (2 * (bd - 8)) * n < 4294967296 ∧
      Spec.round2 S (bd - 8) * Spec.round2 S (bd - 8) < 4294967296 := by
  have hd : Spec.round2 S (bd - 8) ≤ 6400 := by
    rcases hbd with ⟨rfl, rfl⟩ | ⟨rfl, rfl⟩ | ⟨rfl, rfl⟩ <;> rcases hn with ⟨rfl, -⟩ | ⟨rfl, -⟩ <;> norm_num [Spec.round2] at hS ⊢ <;> omega
  have ha : Spec.round2 ssq (2 * (bd - 8)) ≤ 1638400 := by
    rcases hbd with ⟨rfl, rfl⟩ | ⟨rfl, rfl⟩ | ⟨rfl, rfl⟩ <;> rcases hn with ⟨rfl, -⟩ | ⟨rfl, -⟩ <;> norm_num [Spec.round2] at hQ ⊢ <;> omega
  refine ⟨?_, ?_, ?_⟩
  · have key := scaled_var (2 ^ (bd - 8)) n (Spec.round2 ssq (2 * (bd - 8))) (Spec.round2 S (bd - 8)) S ssq V M
      (by rcases hbd with ⟨rfl, rfl⟩ | ⟨rfl, rfl⟩ | ⟨rfl, rfl⟩ <;> norm_num [Spec.round2] <;> omega)
      (by rcases hbd with ⟨rfl, rfl⟩ | ⟨rfl, rfl⟩ | ⟨rfl, rfl⟩ <;> norm_num [Spec.round2] <;> omega) hv hS
    generalize Spec.round2 ssq (2 * (bd - 8)) * n - Spec.round2 S (bd - 8) * Spec.round2 S (bd - 8) = p at key ⊢
    rcases hn with ⟨rfl, rfl, h⟩ | ⟨rfl, rfl, h⟩
    · have h1 : p ≤ 1313000 := by
        rcases hbd with ⟨rfl, rfl⟩ | ⟨rfl, rfl⟩ | ⟨rfl, rfl⟩ <;> norm_num at key ⊢ <;> omega
      have := Nat.mul_le_mul h1 h
      omega
    · have h1 : p ≤ 10300000 := by
        rcases hbd with ⟨rfl, rfl⟩ | ⟨rfl, rfl⟩ | ⟨rfl, rfl⟩ <;> norm_num at key ⊢ <;> omega
      have := Nat.mul_le_mul h1 h
      omega
  · have : Spec.round2 ssq (2 * (bd - 8)) * n ≤ 1638400 * 25 :=
      Nat.mul_le_mul ha (by rcases hn with ⟨rfl, -⟩ | ⟨rfl, -⟩ <;> omega)
    omega
  · have := Nat.mul_le_mul hd hd
    omega

theorem a2_range (z : Nat) : 1 ≤ a2 z ∧ a2 z ≤ 256 := by
  unfold a2
  split
  · omega
  · split
    · omega
    · constructor
      · rw [Nat.le_div_iff_mul_le (by omega)]; omega
      · apply Nat.div_le_of_le_mul
        omega

/-- The products with the sum fit. -/
theorem b_fits (bd M n S o A : Nat) (hbd : bd = 8 ∧ M = 255 ∨ bd = 10 ∧ M = 1023 ∨ bd = 12 ∧ M = 4095) (hn : n = 9 ∧ o = 455 ∨ n = 25 ∧ o = 164)
    (hS : S ≤ n * M) (h1 : 1 ≤ A) :
    (256 - A) * S * o + 2048 < 4294967296 ∧ (256 - A) * S < 4294967296 := by
  have h4 : M ≤ 4095 := by rcases hbd with ⟨rfl, rfl⟩ | ⟨rfl, rfl⟩ | ⟨rfl, rfl⟩ <;> decide
  rcases hn with ⟨rfl, rfl⟩ | ⟨rfl, rfl⟩
  · have h2 : S ≤ 36855 := by omega
    have := Nat.mul_le_mul (show 256 - A ≤ 255 by omega) h2
    omega
  · have h2 : S ≤ 102375 := by omega
    have := Nat.mul_le_mul (show 256 - A ≤ 255 by omega) h2
    omega

/-- One box with no overflow is one box of the specification. -/
theorem sumFinish_ok (bd M n ssq S oneOverN s eps V : Nat) (hbd : bd = 8 ∧ M = 255 ∨ bd = 10 ∧ M = 1023 ∨ bd = 12 ∧ M = 4095)
    (hn : n = 9 ∧ V = 20 ∧ oneOverN = 455 ∧ s ≤ 3236 ∨ n = 25 ∧ V = 156 ∧ oneOverN = 164 ∧ s ≤ 140)
    (hs : s = (1048576 + n * n * eps / 2) / (n * n * eps))
    (hS : S ≤ n * M) (hQ : ssq ≤ n * (M * M))
    (hv : n * ssq ≤ S * S + V * (M * M)) :
    sumFinish bd ssq S n oneOverN s = some (Spec.Dec.finish bd n eps ssq S) ∧
      1 ≤ (Spec.Dec.finish bd n eps ssq S).1 ∧ (Spec.Dec.finish bd n eps ssq S).1 ≤ 256 ∧
      (Spec.Dec.finish bd n eps ssq S).2 < 1048576 := by
  have hbd' : bd = 8 ∨ bd = 10 ∨ bd = 12 := hbd.imp And.left (Or.imp And.left And.left)
  have hone : (4096 + n / 2) / n = oneOverN := by
    rcases hn with ⟨rfl, -, rfl, -⟩ | ⟨rfl, -, rfl, -⟩ <;> rfl
  have hp := var_fits bd M n ssq S s V hbd (hn.imp (fun h => ⟨h.1, h.2.1, h.2.2.2⟩) (fun h => ⟨h.1, h.2.1, h.2.2.2⟩)) hS hQ hv
  have c1 : ssq + (1 <<< (2 * (bd - 8)) >>> 1) < 4294967296 := by
    have h1 : 1 <<< (2 * (bd - 8)) >>> 1 ≤ 128 := by rcases hbd with ⟨rfl, rfl⟩ | ⟨rfl, rfl⟩ | ⟨rfl, rfl⟩ <;> decide
    have h2 : M * M ≤ 16769025 := by rcases hbd with ⟨rfl, rfl⟩ | ⟨rfl, rfl⟩ | ⟨rfl, rfl⟩ <;> decide
    have h3 : n ≤ 25 := by omega
    have h4 := Nat.mul_le_mul h3 h2
    omega
  have c2 : S + (1 <<< (bd - 8) >>> 1) < 4294967296 := by
    have h1 : 1 <<< (bd - 8) >>> 1 ≤ 8 := by rcases hbd with ⟨rfl, rfl⟩ | ⟨rfl, rfl⟩ | ⟨rfl, rfl⟩ <;> decide
    have h2 : M ≤ 4095 := by rcases hbd with ⟨rfl, rfl⟩ | ⟨rfl, rfl⟩ | ⟨rfl, rfl⟩ <;> decide
    have h3 : n ≤ 25 := by omega
    have h4 := Nat.mul_le_mul h3 h2
    omega
  have hz : Spec.round2 ((Spec.round2 ssq (2 * (bd - 8)) * n - Spec.round2 S (bd - 8) * Spec.round2 S (bd - 8)) * s) 20 =
      ((Spec.round2 ssq (2 * (bd - 8)) * n - Spec.round2 S (bd - 8) * Spec.round2 S (bd - 8)) * s + (1 <<< 20 >>> 1)) >>> 20 :=
    round20 _
  have h1 := a2_range (Spec.round2 ((Spec.round2 ssq (2 * (bd - 8)) * n -
    Spec.round2 S (bd - 8) * Spec.round2 S (bd - 8)) * s) 20)
  have hb := b_fits bd M n S oneOverN _ hbd (hn.imp (fun h => ⟨h.1, h.2.2.1⟩) (fun h => ⟨h.1, h.2.2.1⟩)) hS h1.1
  have key := sumFinish_steps bd ssq S n oneOverN s c1 c2 _ _ (round_ssq bd ssq hbd').symm (round_sum bd S hbd').symm
    hp.2.1 hp.2.2 hp.1 _ hz (by rw [a2_code]; exact hb.2) (by rw [a2_code]; exact hb.1)
  rw [finish_eq, hone, ← hs, key]
  generalize Spec.round2 ((Spec.round2 ssq (2 * (bd - 8)) * n -
    Spec.round2 S (bd - 8) * Spec.round2 S (bd - 8)) * s) 20 = z at h1 hb
  rw [a2_code]
  refine ⟨by rw [round12]; rfl, h1.1, h1.2, ?_⟩
  have e : Spec.round2 ((256 - a2 z) * S * oneOverN) 12 = ((256 - a2 z) * S * oneOverN + 2048) / 4096 := rfl
  show Spec.round2 ((256 - a2 z) * S * oneOverN) 12 < _
  rw [e]
  have := hb.1
  omega

end Rav1e.Lrf
