import Mathlib.Analysis.SpecialFunctions.Log.Base
import Verif.Seg.Table2
import Verif.LogExp.Table

/-!
# The polynomial approximation of the binary logarithm
-/

namespace Rav1e.Seg

open Real

theorem okAt_all {m : Nat} (h1 : 32768 ≤ m) (h2 : m < 65536) : okAt m = true := by
  rcases Nat.lt_or_ge m 49152 with h | h
  · have := table1 ((m - 32768) / 256) (by omega) ((m - 32768) % 256) (by omega)
    rwa [show 32768 + 256 * ((m - 32768) / 256) + (m - 32768) % 256 = m by omega] at this
  · have := table2 ((m - 49152) / 256) (by omega) ((m - 49152) % 256) (by omega)
    rwa [show 49152 + 256 * ((m - 49152) / 256) + (m - 49152) % 256 = m by omega] at this

/-- The polynomial for a number of 16 bits. -/
theorem frac_near {m : Nat} (h1 : 32768 ≤ m) (h2 : m < 65536) : ∃ f, blogFrac ((m : Int) - 32768 - 16384) = some f ∧
    |(((16 * 2 ^ 11 + f >>> (3 : Nat) : Int)) : ℝ) - 2048 * logb 2 m| ≤ 1 := by
  have h := okAt_all h1 h2
  unfold okAt at h
  rcases hf : blogFrac ((m : Int) - 32768 - 16384) with _ | f
  · rw [hf] at h; cases h
  rw [hf] at h
  simp only [Bool.and_eq_true, Nat.ble_eq] at h
  refine ⟨f, rfl, ?_⟩
  generalize (16 * 2 ^ 11 + f >>> (3 : Nat) : Int) = V at *
  obtain ⟨a, b⟩ := h
  have hV : 0 < V := by
    by_contra hc
    rw [show V.toNat = 0 by omega] at b
    have : 32768 ^ 2048 ≤ m ^ 2048 := Nat.pow_le_pow_left h1 _
    have h3 : (2 : Nat) ^ (0 + 1) < 32768 ^ 2048 := by
      calc (2 : Nat) ^ (0 + 1) < 32768 ^ 1 := by norm_num
        _ ≤ 32768 ^ 2048 := Nat.pow_le_pow_right (by norm_num) (by norm_num)
    omega
  obtain ⟨n, rfl⟩ : ∃ n : ℕ, V = n := ⟨V.toNat, by omega⟩
  have m0 : (0 : ℝ) < m := by
    have : 0 < m := by omega
    exact_mod_cast this
  have e : 2048 * logb 2 (m : ℝ) = logb 2 ((m : ℝ) ^ 2048) := by rw [logb_pow]; norm_num
  rw [e]
  have n1 : 1 ≤ n := by omega
  have A : ((n : ℝ) - 1) ≤ logb 2 ((m : ℝ) ^ 2048) := by
    rw [le_logb_iff_rpow_le (by norm_num) (by positivity)]
    have : ((2 ^ (n - 1) : ℕ) : ℝ) ≤ ((m ^ 2048 : ℕ) : ℝ) := by exact_mod_cast a
    push_cast at this
    rw [show ((n : ℝ) - 1) = ((n - 1 : ℕ) : ℝ) by push_cast [n1]; ring, rpow_natCast]
    exact this
  have B : logb 2 ((m : ℝ) ^ 2048) ≤ (n : ℝ) + 1 := by
    rw [logb_le_iff_le_rpow (by norm_num) (by positivity)]
    have : ((m ^ 2048 : ℕ) : ℝ) ≤ ((2 ^ (n + 1) : ℕ) : ℝ) := by exact_mod_cast b
    push_cast at this
    rw [show ((n : ℝ) + 1) = ((n + 1 : ℕ) : ℝ) by push_cast; ring, rpow_natCast]
    exact this
  rw [abs_le]
  push_cast
  constructor <;> linarith

/-- **`blog32_q11`**: without overflow and within 1.1 units of 2048 times the binary logarithm. -/
theorem blog32Q11_near {w : Nat} (h0 : 0 < w) (h1 : w < 2 ^ 32) : ∃ v, blog32Q11 w = some v ∧ |(v : ℝ) - 2048 * logb 2 w| ≤ 11 / 10 := by
  have hL : Nat.log2 w < 32 := (Nat.log2_lt (by omega)).2 h1
  have l1 : 2 ^ Nat.log2 w ≤ w := Nat.log2_self_le (by omega)
  have l2 : w < 2 ^ (Nat.log2 w + 1) := Nat.lt_log2_self
  unfold blog32Q11
  rw [if_neg (by omega)]
  generalize Nat.log2 w = L at *
  have W : (0 : ℝ) < w := by exact_mod_cast h0
  dsimp only
  rcases Nat.lt_or_ge 15 L with hc | hc
  · rw [if_pos (by omega), Nat.shiftRight_eq_div_pow]
    obtain ⟨k, rfl⟩ : ∃ k, L = 15 + k := ⟨L - 15, by omega⟩
    rw [show 15 + k + 1 - 16 = k by omega]
    have kp : 0 < 2 ^ k := by positivity
    have e1 : 2 ^ (15 + k) = 32768 * 2 ^ k := by rw [pow_add]; norm_num
    have e2 : 2 ^ (15 + k + 1) = 65536 * 2 ^ k := by rw [show 15 + k + 1 = 16 + k by omega, pow_add]; norm_num
    rw [e1] at l1
    rw [e2] at l2
    have m1 : 32768 ≤ w / 2 ^ k := (Nat.le_div_iff_mul_le kp).2 l1
    have m2 : w / 2 ^ k < 65536 := (Nat.div_lt_iff_lt_mul kp).2 l2
    have m3 : w / 2 ^ k * 2 ^ k ≤ w := Nat.div_mul_le_self _ _
    have m4 : w < (w / 2 ^ k + 1) * 2 ^ k := by
      have := Nat.lt_div_mul_add kp (a := w)
      rw [Nat.add_mul]
      omega
    generalize w / 2 ^ k = m at *
    obtain ⟨f, e, h⟩ := frac_near m1 m2
    rw [e]
    refine ⟨_, rfl, ?_⟩
    have M0 : (32768 : ℝ) ≤ m := by exact_mod_cast m1
    have M3 : (m : ℝ) * 2 ^ k ≤ w := by exact_mod_cast m3
    have M4 : (w : ℝ) ≤ (m + 1) * 2 ^ k := by exact_mod_cast m4.le
    have a1 : logb 2 (m : ℝ) + k ≤ logb 2 w := by
      have := logb_le_logb_of_le (b := 2) (by norm_num) (by positivity) M3
      rwa [logb_mul (by positivity) (by positivity), logb_pow, logb_self_eq_one (by norm_num), mul_one] at this
    have a2 : logb 2 (w : ℝ) ≤ logb 2 (m : ℝ) + 1 / 20480 + k := by
      have h5 := logb_le_logb_of_le (b := 2) (by norm_num) W M4
      rw [logb_mul (by positivity) (by positivity), logb_pow, logb_self_eq_one (by norm_num), mul_one] at h5
      have h6 : logb 2 ((m : ℝ) + 1) ≤ logb 2 m + 1 / 20480 := by
        unfold logb
        have hl : (69 / 100 : ℝ) < log 2 := LogExp.log_two_pos
        rw [div_add' _ _ _ (by linarith), div_le_div_iff_of_pos_right (by linarith)]
        have h7 : log ((m : ℝ) + 1) - log m ≤ 1 / m := by
          rw [← log_div (by positivity) (by positivity)]
          have := log_le_sub_one_of_pos (x := ((m : ℝ) + 1) / m) (by positivity)
          rw [add_div, div_self (by positivity)] at this ⊢
          linarith
        have h8 : 1 / (m : ℝ) ≤ 1 / 32768 := one_div_le_one_div_of_le (by norm_num) M0
        linarith
      linarith
    rw [abs_le] at h ⊢
    push_cast at h ⊢
    constructor <;> linarith
  · rw [if_neg (by omega), Nat.shiftLeft_eq]
    obtain ⟨k, hk⟩ : ∃ k, k = 15 - L := ⟨_, rfl⟩
    rw [show 16 - (L + 1) = k by omega]
    have kp : 0 < 2 ^ k := by positivity
    have e1 : 2 ^ L * 2 ^ k = 32768 := by rw [← pow_add, show L + k = 15 by omega]; norm_num
    have e2 : 2 ^ (L + 1) * 2 ^ k = 65536 := by rw [← pow_add, show L + 1 + k = 16 by omega]; norm_num
    have m1 : 32768 ≤ w * 2 ^ k := by rw [← e1]; exact Nat.mul_le_mul_right _ l1
    have m2 : w * 2 ^ k < 65536 := by rw [← e2]; exact Nat.mul_lt_mul_of_pos_right l2 kp
    rw [Nat.mod_eq_of_lt (by omega)]
    have eW : logb 2 ((w * 2 ^ k : ℕ) : ℝ) = logb 2 w + k := by
      push_cast
      rw [logb_mul (by positivity) (by positivity), logb_pow, logb_self_eq_one (by norm_num), mul_one]
    generalize w * 2 ^ k = m at *
    obtain ⟨f, e, h⟩ := frac_near m1 m2
    rw [e]
    refine ⟨_, rfl, ?_⟩
    rw [eW] at h
    have K : (k : ℝ) = 15 - L := by
      have : (k : ℝ) + L = 15 := by
        have : k + L = 15 := by omega
        exact_mod_cast this
      linarith
    rw [K] at h
    rw [abs_le] at h ⊢
    push_cast at h ⊢
    constructor <;> linarith

example : blog32Q11 1 = some 0 ∧ blog32Q11 1000 = some 20410 ∧ blog32Q11 (2 ^ 28 - 1) = some 57344 := by decide +kernel

end Rav1e.Seg
