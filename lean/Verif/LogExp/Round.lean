import Verif.LogExp.Bexp
import Verif.LogExp.Blog
import Mathlib.Analysis.Complex.ExponentialBounds

/-!
# `bexp64` undoes `blog64`
-/

namespace Rav1e.LogExp

open Real

theorem round_half (W : Int) (k : ℕ) : |(((W >>> k + 1) >>> 1 : Int) : ℝ) - (W : ℝ) / 2 ^ (k + 1)| ≤ 1 / 2 := by
  obtain ⟨a1, a2⟩ := shr_bounds W k
  have h : ((W >>> k + 1) >>> 1 : Int) = (W >>> k + 1) / 2 := by
    rw [Int.shiftRight_eq_div_pow]
    norm_num
  rw [h]
  have e : (W : ℝ) / 2 ^ (k + 1) = (W : ℝ) / 2 ^ k / 2 := by
    rw [pow_succ]
    field_simp
  rw [e]
  have b1 : 2 * ((W >>> k + 1) / 2) ≤ W >>> k + 1 := by omega
  have b2 : W >>> k ≤ 2 * ((W >>> k + 1) / 2) := by omega
  generalize (W >>> k + 1) / 2 = q at *
  have c1 : 2 * (q : ℝ) ≤ ((W >>> k : Int) : ℝ) + 1 := by exact_mod_cast b1
  have c2 : ((W >>> k : Int) : ℝ) ≤ 2 * (q : ℝ) := by exact_mod_cast b2
  rw [abs_le]
  constructor <;> linarith

theorem exp_small (t e : ℝ) (h : |t| ≤ e) (he : e ≤ 1 / 2 ^ 29) : |exp t - 1| ≤ e * (1 + 1 / 2 ^ 29) := by
  have h1 := abs_exp_sub_one_sub_id_le (show |t| ≤ 1 by linarith)
  have h2 : |exp t - 1| ≤ |exp t - 1 - t| + |t| := by
    have := abs_add_le (exp t - 1 - t) t
    simpa using this
  have h3 : t ^ 2 ≤ e * (1 / 2 ^ 29) := by
    rw [← sq_abs]
    have := abs_nonneg t
    nlinarith
  linarith

/-- `bexp64` from the value of its loops. -/
theorem bexp_of (l ip f W : Int) (E : ℝ) (hl : l = ip * 2 ^ 57 + f) (h0 : 0 ≤ ip) (h1 : ip < 63) (hf : 0 ≤ f) (hf1 : f < 2 ^ 57)
    (hW : expFrac ip f = some W) (hW0 : 0 < W) (hW1 : W < 2 ^ 63 - 1) (hv : |vol W - (62 * 2 ^ 62 + 32 * f)| ≤ E) (hE : E ≤ 2 ^ 32) :
    ∃ v, bexp64 l = some v ∧ |(v : ℝ) - (2 : ℝ) ^ ((l : ℝ) / 2 ^ 57)| ≤ 1 / 2 + (2 : ℝ) ^ ((l : ℝ) / 2 ^ 57) * (6932 / 10000 * E / 2 ^ 62) := by
  have hlog := log_two_pos
  have hlog2 := log_two_lt_d9
  have hip : l >>> 57 = ip := by
    rw [Int.shiftRight_eq_div_pow]
    norm_num
    omega
  have hq : q57 ip = some (ip * 2 ^ 57) := if_pos ⟨by omega, by omega⟩
  have hWr : (0 : ℝ) < W := by exact_mod_cast hW0
  set x := (2 : ℝ) ^ ((l : ℝ) / 2 ^ 57) with hx
  have hx0 : 0 < x := rpow_pos_of_pos (by norm_num) _
  obtain ⟨n, rfl⟩ : ∃ n : ℕ, ip = n := ⟨ip.toNat, by omega⟩
  have hn : n ≤ 62 := by omega
  -- the exact value
  have hy : |(W : ℝ) / 2 ^ (62 - n) - x| ≤ x * (6932 / 10000 * E / 2 ^ 62) := by
    have hly : log ((W : ℝ) / 2 ^ (62 - n)) = log x + log 2 * ((vol W - (62 * 2 ^ 62 + 32 * f)) / 2 ^ 62) := by
      rw [log_div hWr.ne' (by positivity), log_pow, hx, log_rpow (by norm_num), hl, vol, Nat.cast_sub hn]
      push_cast
      field_simp
      ring
    set t := log 2 * ((vol W - (62 * 2 ^ 62 + 32 * f)) / 2 ^ 62) with ht
    have hy1 : (W : ℝ) / 2 ^ (62 - n) = x * exp t := by
      rw [← exp_log (show 0 < (W : ℝ) / 2 ^ (62 - n) by positivity), hly, exp_add, exp_log hx0]
    have E0 : 0 ≤ E := le_trans (abs_nonneg _) hv
    have ht1 : |t| ≤ 0.6931471808 * E / 2 ^ 62 := by
      rw [ht, abs_mul, abs_div, abs_of_pos (by linarith : 0 < log 2), abs_of_pos (by positivity : (0 : ℝ) < 2 ^ 62), ← mul_div_assoc]
      refine div_le_div_of_nonneg_right ?_ (by positivity)
      exact mul_le_mul hlog2.le hv (abs_nonneg _) (by norm_num)
    have ht2 := exp_small t _ ht1 (by
      rw [div_le_iff₀ (by positivity)]
      norm_num
      linarith)
    rw [hy1, show x * exp t - x = x * (exp t - 1) by ring, abs_mul, abs_of_pos hx0]
    refine mul_le_mul_of_nonneg_left (le_trans ht2 ?_) hx0.le
    rw [div_mul_eq_mul_div]
    refine div_le_div_of_nonneg_right ?_ (by positivity)
    nlinarith
  unfold bexp64
  dsimp only
  rw [hip, if_neg (by omega), if_neg (by omega), hq]
  dsimp only [Option.bind_eq_bind, Option.bind_some]
  rw [show l - (n : Int) * 2 ^ 57 = f by omega, i64_some f (by omega) (by omega)]
  dsimp only [Option.bind_some]
  rw [hW]
  dsimp only [Option.bind_some]
  by_cases h62 : (n : Int) < 62
  · rw [if_pos h62]
    have hk : (61 - (n : Int)).toNat = 61 - n := by omega
    rw [hk]
    have r := round_half W (61 - n)
    rw [show 61 - n + 1 = 62 - n by omega] at r
    have hb : W >>> (61 - n) ≤ W := by
      rw [Int.shiftRight_eq_div_pow]
      exact Int.ediv_le_self _ (by omega)
    have hb0 : 0 ≤ W >>> (61 - n) := by
      rw [Int.shiftRight_eq_div_pow]
      exact Int.ediv_nonneg (by omega) (by positivity)
    rw [i64_some _ (by omega) (by omega)]
    refine ⟨_, rfl, ?_⟩
    obtain ⟨r1, r2⟩ := abs_le.mp r
    obtain ⟨y1, y2⟩ := abs_le.mp hy
    rw [abs_le]
    constructor <;> linarith
  · rw [if_neg h62]
    refine ⟨W, rfl, ?_⟩
    rw [show 62 - n = 0 by omega, pow_zero, div_one] at hy
    linarith

theorem expFrac_zero (ip : Int) : expFrac ip 0 = some (2 ^ 62) := by
  unfold expFrac
  rw [if_neg (by simp)]

theorem vol_one : vol ((2 ^ 62 : Int) : ℝ) = 62 * 2 ^ 62 := by
  have hlog := log_two_pos
  unfold vol
  push_cast
  rw [show (4611686018427387904 : ℝ) = 2 ^ 62 by norm_num, log_pow]
  field_simp
  norm_num

/-- `bexp64`, with its error. -/
theorem bexp64_err (l : Int) (h0 : 0 ≤ l) (h1 : l < 63 * 2 ^ 57) (hf : l < 31 * 2 ^ 57 ∨ 128 * (l % 2 ^ 57) ≤ 127 * 2 ^ 57) :
    ∃ v, bexp64 l = some v ∧ |(v : ℝ) - (2 : ℝ) ^ ((l : ℝ) / 2 ^ 57)| ≤
      1 / 2 + (2 : ℝ) ^ ((l : ℝ) / 2 ^ 57) * (6932 / 10000 * (if l < 31 * 2 ^ 57 then 1552540534 else 800) / 2 ^ 62) := by
  have hl : l = l / 2 ^ 57 * 2 ^ 57 + l % 2 ^ 57 := by omega
  have i0 : 0 ≤ l / 2 ^ 57 := by omega
  have i1 : l / 2 ^ 57 < 63 := by omega
  have f0 : 0 ≤ l % 2 ^ 57 := by omega
  have f1 : l % 2 ^ 57 < 2 ^ 57 := by omega
  by_cases hz : l % 2 ^ 57 = 0
  · refine bexp_of l (l / 2 ^ 57) (l % 2 ^ 57) (2 ^ 62) _ hl i0 i1 f0 f1 (by rw [hz]; exact expFrac_zero _) (by norm_num) (by norm_num) ?_ ?_
    · rw [vol_one, hz]
      split <;> norm_num
    · split <;> norm_num
  by_cases hc : l < 31 * 2 ^ 57
  · obtain ⟨W, e, a, b, c⟩ := expFrac_low (l / 2 ^ 57) (l % 2 ^ 57) (by omega) (by omega) f1
    rw [if_pos hc]
    exact bexp_of l _ _ W _ hl i0 i1 f0 f1 e a b c (by norm_num)
  · obtain ⟨W, e, a, b, c⟩ := expFrac_high (l / 2 ^ 57) (l % 2 ^ 57) (by omega) (by omega) (hf.resolve_left hc)
    rw [if_neg hc]
    exact bexp_of l _ _ W _ hl i0 i1 f0 f1 e a b c (by norm_num)

/-- `bexp64` is within a rounding of the exponential. -/
theorem bexp64_near (l : Int) (h0 : 0 ≤ l) (h1 : l < 63 * 2 ^ 57) (hf : l < 31 * 2 ^ 57 ∨ 128 * (l % 2 ^ 57) ≤ 127 * 2 ^ 57) :
    ∃ v, bexp64 l = some v ∧ |(v : ℝ) - (2 : ℝ) ^ ((l : ℝ) / 2 ^ 57)| ≤
      1 / 2 + (2 : ℝ) ^ ((l : ℝ) / 2 ^ 57) / (if l < 31 * 2 ^ 57 then 2 ^ 31 else 2 ^ 52) := by
  obtain ⟨v, e, h⟩ := bexp64_err l h0 h1 hf
  refine ⟨v, e, le_trans h ?_⟩
  have hx0 : 0 < (2 : ℝ) ^ ((l : ℝ) / 2 ^ 57) := rpow_pos_of_pos (by norm_num) _
  generalize (2 : ℝ) ^ ((l : ℝ) / 2 ^ 57) = x at *
  have : (6932 / 10000 * (if l < 31 * 2 ^ 57 then 1552540534 else 800) / 2 ^ 62 : ℝ) ≤ 1 / (if l < 31 * 2 ^ 57 then 2 ^ 31 else 2 ^ 52) := by
    split <;> norm_num
  have := mul_le_mul_of_nonneg_left this hx0.le
  rw [mul_one_div] at this
  linarith

/-! ### The round trip -/

theorem blog64_pow (k : ℕ) (hk : k ≤ 62) : blog64 ((2 ^ k : ℕ) : Int) = some ((k : Int) * 2 ^ 57) := by
  have h : ∀ k : ℕ, k ≤ 62 → blog64 ((2 ^ k : ℕ) : Int) = some ((k : Int) * 2 ^ 57) := by decide +kernel
  exact h k hk

theorem logb_lower (n k : ℕ) (h : 2 ^ k < n) (hk : k ≤ 48) : (k : ℝ) * 2 ^ 57 + 300 ≤ 2 ^ 57 * logb 2 n := by
  have hl := log_two_pos
  have hl2 := log_two_lt
  have hn : (2 : ℝ) ^ k + 1 ≤ n := by exact_mod_cast h
  have hp : (0 : ℝ) < 2 ^ k := by positivity
  have e : (2 : ℝ) ^ k + 1 = 2 ^ k * (1 + 1 / 2 ^ k) := by field_simp
  have x0 : (0 : ℝ) < 1 / 2 ^ k := by positivity
  have x1 : (1 : ℝ) / 2 ^ k ≤ 1 := by
    rw [div_le_one hp]
    exact one_le_pow₀ (by norm_num)
  have x2 : (1 : ℝ) / 2 ^ 48 ≤ 1 / 2 ^ k := one_div_le_one_div_of_le hp (pow_le_pow_right₀ (by norm_num) hk)
  have a := log_le_log (by positivity) hn
  rw [e, log_mul hp.ne' (by positivity), log_pow] at a
  have b := one_sub_inv_le_log_of_pos (show (0 : ℝ) < 1 + 1 / 2 ^ k by positivity)
  have c : 1 / 2 ^ k / 2 ≤ 1 - (1 + 1 / (2 : ℝ) ^ k)⁻¹ := by
    generalize (1 : ℝ) / 2 ^ k = x at *
    rw [show 1 - (1 + x)⁻¹ = x / (1 + x) by field_simp; ring]
    exact div_le_div_of_nonneg_left x0.le (by linarith) (by linarith)
  unfold logb
  rw [← mul_div_assoc, le_div_iff₀ (by linarith)]
  nlinarith

theorem logb_upper (n k : ℕ) (h0 : 0 < n) (h : 128 * n ≤ 127 * 2 ^ (k + 1)) : 2 ^ 57 * logb 2 n ≤ (k : ℝ) * 2 ^ 57 + 127 / 128 * 2 ^ 57 - 100 := by
  have hl := log_two_pos
  have hl2 := log_two_lt
  have hn : (n : ℝ) ≤ 2 ^ (k + 1) * (127 / 128) := by
    have : (128 : ℝ) * n ≤ 127 * 2 ^ (k + 1) := by exact_mod_cast h
    linarith
  have hn0 : (0 : ℝ) < n := by exact_mod_cast h0
  have a := log_le_log hn0 hn
  rw [log_mul (by positivity) (by norm_num), log_pow] at a
  have b := log_le_sub_one_of_pos (show (0 : ℝ) < 127 / 128 by norm_num)
  unfold logb
  rw [← mul_div_assoc, div_le_iff₀ (by linarith)]
  push_cast at a
  nlinarith

/-- Above 91 units, `bexp64` cannot miss. -/
theorem back_near (n : ℕ) (h : 0 < n) (l : Int) (hl : |(l : ℝ) - 2 ^ 57 * logb 2 n| ≤ 91) :
    |(2 : ℝ) ^ ((l : ℝ) / 2 ^ 57) - n| ≤ n * (64 / 2 ^ 57) := by
  have hlog := log_two_pos
  have hlog2 := log_two_lt_d9
  have hn0 : (0 : ℝ) < n := by exact_mod_cast h
  set t := log 2 * (((l : ℝ) - 2 ^ 57 * logb 2 n) / 2 ^ 57) with ht
  have hx : (2 : ℝ) ^ ((l : ℝ) / 2 ^ 57) = n * exp t := by
    rw [rpow_def_of_pos (by norm_num), show log 2 * ((l : ℝ) / 2 ^ 57) = log n + t by rw [ht, logb]; field_simp; ring, exp_add, exp_log hn0]
  have ht1 : |t| ≤ 0.6931471808 * 91 / 2 ^ 57 := by
    rw [ht, abs_mul, abs_div, abs_of_pos (by linarith : 0 < log 2), abs_of_pos (by positivity : (0 : ℝ) < 2 ^ 57), ← mul_div_assoc]
    refine div_le_div_of_nonneg_right ?_ (by positivity)
    exact mul_le_mul hlog2.le hl (abs_nonneg _) (by norm_num)
  have ht2 := exp_small t _ ht1 (by norm_num)
  rw [hx, show n * exp t - n = n * (exp t - 1) by ring, abs_mul, abs_of_pos hn0]
  exact mul_le_mul_of_nonneg_left (le_trans ht2 (by norm_num)) hn0.le

theorem close_eq (v : Int) (n : ℕ) (x e : ℝ) (h1 : |(v : ℝ) - x| ≤ 1 / 2 + x * e) (h2 : |x - n| ≤ n * (64 / 2 ^ 57)) (he : 0 ≤ e)
    (h3 : (n : ℝ) * (64 / 2 ^ 57) + n * (1 + 64 / 2 ^ 57) * e < 1 / 2) : v = n := by
  obtain ⟨a1, a2⟩ := abs_le.mp h1
  obtain ⟨b1, b2⟩ := abs_le.mp h2
  have hx : x * e ≤ n * (1 + 64 / 2 ^ 57) * e := mul_le_mul_of_nonneg_right (by linarith) he
  have c1 : (v : ℝ) < n + 1 := by linarith
  have c2 : (n : ℝ) < v + 1 := by linarith
  have d1 : v < n + 1 := by exact_mod_cast c1
  have d2 : (n : Int) < v + 1 := by exact_mod_cast c2
  omega

/-- `bexp64` undoes `blog64` on numbers up to 2^49 that are not just below a power of two. -/
theorem round_trip (n : ℕ) (h : 0 < n) (hn : n ≤ 2 ^ 49) (hs : n < 2 ^ 30 ∨ 128 * n ≤ 127 * 2 ^ (Nat.log2 n + 1)) :
    ∃ l, blog64 n = some l ∧ bexp64 l = some (n : Int) := by
  obtain ⟨l, e, hl⟩ := blog64_near n h (by omega)
  refine ⟨l, e, ?_⟩
  obtain ⟨k1, k2⟩ := log2_bounds' n h
  have bn := back_near n h l hl
  obtain ⟨l1, l2⟩ := abs_le.mp hl
  have hn' : (n : ℝ) ≤ 2 ^ 49 := by exact_mod_cast hn
  have hn0 : (0 : ℝ) < n := by exact_mod_cast h
  set k := Nat.log2 n with hk
  have hk49 : k ≤ 49 := by
    by_contra hc
    have : 2 ^ 50 ≤ 2 ^ k := Nat.pow_le_pow_right (by norm_num) (by omega)
    omega
  -- the logarithm has the integer part of the number
  have lo : (k : Int) * 2 ^ 57 ≤ l := by
    by_cases hp : n = 2 ^ k
    · have := blog64_pow k (by omega)
      rw [← hp, e] at this
      rw [Option.some.inj this]
    · have : k ≤ 48 := by
        by_contra hc
        have : k = 49 := by omega
        rw [this] at k1 hp
        omega
      have a := logb_lower n k (by omega) this
      have : ((k * 2 ^ 57 : Int) : ℝ) ≤ l := by push_cast; linarith
      exact_mod_cast this
  have hi : 128 * n ≤ 127 * 2 ^ (k + 1) → l ≤ k * 2 ^ 57 + 127 * 2 ^ 57 / 128 := by
    intro hh
    have a := logb_upper n k h hh
    have : (l : ℝ) ≤ ((k * 2 ^ 57 + 127 * 2 ^ 57 / 128 : Int) : ℝ) := by push_cast; linarith
    exact_mod_cast this
  by_cases hk30 : k ≤ 30
  · have hsm : 128 * n ≤ 127 * 2 ^ 31 := by
      rcases hs with h5 | h5
      · omega
      · have : 2 ^ (k + 1) ≤ 2 ^ 31 := Nat.pow_le_pow_right (by norm_num) (by omega)
        omega
    have a := logb_upper n 30 h hsm
    have hlt : l < 31 * 2 ^ 57 := by
      have : (l : ℝ) < ((31 * 2 ^ 57 : Int) : ℝ) := by push_cast; linarith
      exact_mod_cast this
    obtain ⟨v, e2, hv⟩ := bexp64_err l (by omega) (by omega) (Or.inl hlt)
    rw [if_pos hlt] at hv
    have hsm' : 128 * (n : ℝ) ≤ 127 * 2 ^ 31 := by exact_mod_cast hsm
    rw [e2, close_eq v n _ _ hv bn (by norm_num) (by norm_num; linarith)]
  · have hb : 128 * n ≤ 127 * 2 ^ (k + 1) := by
      rcases hs with h5 | h5
      · have : 2 ^ 31 ≤ 2 ^ k := Nat.pow_le_pow_right (by norm_num) (by omega)
        omega
      · exact h5
    have hi := hi hb
    have hge : ¬ l < 31 * 2 ^ 57 := by omega
    obtain ⟨v, e2, hv⟩ := bexp64_err l (by omega) (by omega) (Or.inr (by omega))
    rw [if_neg hge] at hv
    rw [e2, close_eq v n _ _ hv bn (by norm_num) (by norm_num; linarith)]

end Rav1e.LogExp
