import Verif.LogExp.Log
import Mathlib.Analysis.SpecialFunctions.Log.Base

/-!
# `blog64` and `blog32` are accurate
-/

namespace Rav1e.LogExp

open Real

theorem isPow2_iff (w : Int) (h1 : 2 ^ 61 ≤ w) (h2 : w < 2 ^ 62) : isPow2 w = true ↔ w = 2 ^ 61 := by
  constructor
  · intro h
    by_contra hne
    have hb : ∀ v : ℕ, 2 ^ 61 ≤ v → v < 2 ^ 62 → v.testBit 61 = true := by
      intro v a b
      rw [Nat.testBit_eq_decide_div_mod_eq]
      have : v / 2 ^ 61 = 1 := by omega
      rw [this]
      rfl
    unfold isPow2 at h
    have h0 : w.toNat &&& (w.toNat - 1) = 0 := by simpa using h
    have h3 : (w.toNat &&& (w.toNat - 1)).testBit 61 = true := by
      rw [Nat.testBit_and, hb _ (by omega) (by omega), hb _ (by omega) (by omega)]
      rfl
    rw [h0] at h3
    simp at h3
  · rintro rfl
    decide +kernel

/-- The number of bits. -/
theorem log2_bounds' (n : ℕ) (h : 0 < n) : 2 ^ Nat.log2 n ≤ n ∧ n < 2 ^ (Nat.log2 n + 1) :=
  ⟨Nat.log2_self_le (by omega), Nat.lt_log2_self⟩

theorem wrap64_id (v : Int) (h1 : -2 ^ 63 ≤ v) (h2 : v < 2 ^ 63) : wrap64 v = v := by
  unfold wrap64
  omega

theorem wrap32_id (v : Int) (h1 : -2 ^ 31 ≤ v) (h2 : v < 2 ^ 31) : wrap32 v = v := by
  unfold wrap32
  omega

/-- The mantissa and its logarithm, for numbers of at most 62 bits. -/
theorem mantissa (n : ℕ) (h : 0 < n) (hk : Nat.log2 n ≤ 61) :
    2 ^ 61 ≤ (n : Int) * 2 ^ (61 - Nat.log2 n) ∧ (n : Int) * 2 ^ (61 - Nat.log2 n) < 2 ^ 62 ∧
      logb 2 n = log (((n : Int) * 2 ^ (61 - Nat.log2 n) : Int) : ℝ) / log 2 - 61 + Nat.log2 n := by
  obtain ⟨a, b⟩ := log2_bounds' n h
  generalize hK : Nat.log2 n = k at *
  have e1 : (2 : ℕ) ^ 61 = 2 ^ k * 2 ^ (61 - k) := by rw [← pow_add]; congr 1; omega
  have e2 : (2 : ℕ) ^ 62 = 2 ^ (k + 1) * 2 ^ (61 - k) := by rw [← pow_add]; congr 1; omega
  have p : 0 < (2 : ℕ) ^ (61 - k) := by positivity
  refine ⟨?_, ?_, ?_⟩
  · have : (2 : ℕ) ^ 61 ≤ n * 2 ^ (61 - k) := by rw [e1]; exact Nat.mul_le_mul_right _ a
    exact_mod_cast this
  · have : n * 2 ^ (61 - k) < (2 : ℕ) ^ 62 := by rw [e2]; exact Nat.mul_lt_mul_of_pos_right b p
    exact_mod_cast this
  · have hl := log_two_pos
    have hn : (0 : ℝ) < n := by exact_mod_cast h
    simp only [Int.cast_mul, Int.cast_natCast, Int.cast_pow, Int.cast_ofNat]
    rw [log_mul hn.ne' (by positivity), log_pow, logb, Nat.cast_sub hk]
    push_cast
    field_simp
    ring

theorem log_two_pow_div (k : ℕ) (w : ℝ) (h : w = 2 ^ k) : log w / log 2 = k := by
  have hl := log_two_pos
  rw [h, log_pow]
  field_simp

/-- What `blog64` makes of a mantissa. -/
theorem blog_tail (w : Int) (h1 : 2 ^ 61 ≤ w) (h2 : w < 2 ^ 62) (k : ℕ) (hk : k ≤ 62) :
    ∃ v, (if isPow2 w then q57 k else do
      let z ← logFrac logSteps w
      let z ← i64 (z + 8)
      i64 ((← q57 k) + z >>> 4)) = some v ∧ |(v : ℝ) - 2 ^ 57 * (log (w : ℝ) / log 2 - 61 + k)| ≤ 90 := by
  have hq : q57 k = some ((k : Int) * 2 ^ 57) := if_pos ⟨by omega, by omega⟩
  by_cases hp : isPow2 w
  · rw [if_pos hp, hq]
    refine ⟨_, rfl, ?_⟩
    have e := (isPow2_iff w h1 h2).1 hp
    rw [log_two_pow_div 61 w (by rw [e]; norm_num)]
    have z : (((k : Int) * 2 ^ 57 : Int) : ℝ) - 2 ^ 57 * (((61 : ℕ) : ℝ) - 61 + k) = 0 := by push_cast; ring
    rw [z]
    norm_num
  · rw [if_neg hp]
    obtain ⟨z, e, hz⟩ := logFrac_near logSteps 380 logOk64 w h1 h2
    have hlen : (logSteps.length : ℝ) = 65 := by norm_num [logSteps]
    rw [hlen] at hz
    have hl := log_two_pos
    have w1 : (2 : ℝ) ^ 61 ≤ w := by exact_mod_cast h1
    have w2 : (w : ℝ) ≤ 2 ^ 62 := by exact_mod_cast h2.le
    have l1 : 61 ≤ log (w : ℝ) / log 2 := by
      rw [le_div_iff₀ (by linarith), show (61 : ℝ) * log 2 = log (2 ^ 61) by rw [log_pow]; norm_num]
      exact log_le_log (by norm_num) w1
    have l2 : log (w : ℝ) / log 2 ≤ 62 := by
      rw [div_le_iff₀ (by linarith), show (62 : ℝ) * log 2 = log (2 ^ 62) by rw [log_pow]; norm_num]
      exact log_le_log (by linarith) w2
    generalize log (w : ℝ) / log 2 = L at *
    obtain ⟨hz1, hz2⟩ := abs_le.mp hz
    have z1 : (-1500 : Int) ≤ z := by
      have : (-1500 : ℝ) ≤ z := by push_cast at hz1; linarith
      exact_mod_cast this
    have z2 : z ≤ 2 ^ 61 + 1500 := by
      have : (z : ℝ) ≤ 2 ^ 61 + 1500 := by push_cast at hz2; linarith
      exact_mod_cast this
    obtain ⟨s1, s2⟩ := shr_bounds (z + 8) 4
    have s3 : (z + 8) >>> 4 ≤ 2 ^ 57 + 100 := by rw [Int.shiftRight_eq_div_pow]; omega
    have s4 : -100 ≤ (z + 8) >>> 4 := by rw [Int.shiftRight_eq_div_pow]; omega
    refine ⟨(k : Int) * 2 ^ 57 + (z + 8) >>> 4, ?_, ?_⟩
    · rw [e]
      dsimp only [Option.bind_eq_bind, Option.bind_some]
      rw [i64_some _ (by omega) (by omega)]
      dsimp only [Option.bind_some]
      rw [hq]
      dsimp only [Option.bind_some]
      exact i64_some _ (by omega) (by omega)
    · rw [Int.cast_add, Int.cast_mul, Int.cast_natCast, abs_le]
      push_cast at s1 s2 hz1 hz2 ⊢
      constructor <;> linarith

/-- `blog64` is accurate, for every number. -/
theorem blog64_near (n : ℕ) (h : 0 < n) (hn : n < 2 ^ 63) : ∃ v, blog64 n = some v ∧ |(v : ℝ) - 2 ^ 57 * logb 2 n| ≤ 91 := by
  have e0 : ¬ ((n : Int) ≤ 0) := by omega
  unfold blog64
  rw [if_neg e0]
  dsimp only
  rw [Int.toNat_natCast]
  by_cases hk : Nat.log2 n ≤ 61
  · obtain ⟨m1, m2, m3⟩ := mantissa n h hk
    rw [if_neg (show ¬ Nat.log2 n > 61 by omega), wrap64_id _ (by omega) (by omega)]
    obtain ⟨v, e, hv⟩ := blog_tail _ m1 m2 (Nat.log2 n) (by omega)
    refine ⟨v, e, ?_⟩
    rw [m3]
    linarith
  · have hk2 : Nat.log2 n = 62 := by
      have : Nat.log2 n < 63 := (Nat.log2_lt (by omega)).2 hn
      omega
    obtain ⟨a, b⟩ := log2_bounds' n h
    rw [hk2] at a b ⊢
    rw [if_pos (show (62 : ℕ) > 61 by norm_num), show 62 - 61 = 1 from rfl]
    have w1 : (2 : Int) ^ 61 ≤ (n : Int) >>> 1 := by rw [Int.shiftRight_eq_div_pow]; omega
    have w2 : (n : Int) >>> 1 < 2 ^ 62 := by rw [Int.shiftRight_eq_div_pow]; omega
    obtain ⟨v, e, hv⟩ := blog_tail ((n : Int) >>> 1) w1 w2 62 (by norm_num)
    refine ⟨v, e, ?_⟩
    obtain ⟨s1, s2⟩ := shr_bounds (n : Int) 1
    have w1' : (2 : ℝ) ^ 61 ≤ (((n : Int) >>> 1 : Int) : ℝ) := by exact_mod_cast w1
    generalize hw : (((n : Int) >>> 1 : Int) : ℝ) = w at *
    have hl := log_two_pos
    have hnr : (2 : ℝ) ^ 62 ≤ n := by exact_mod_cast a
    have near := log_near (2 * w) n (2 ^ 62) (by norm_num) (by linarith) hnr
    have lw : log (2 * w) = log 2 + log w := log_mul (by norm_num) (by linarith)
    have d : |log (n : ℝ) - log (2 * w)| ≤ 2 / 2 ^ 62 := by
      refine near.trans ?_
      apply div_le_div_of_nonneg_right _ (by norm_num)
      push_cast at s1 s2
      rw [abs_le]
      constructor <;> linarith
    have d2 : |2 ^ 57 * logb 2 n - 2 ^ 57 * (log w / log 2 - 61 + (62 : ℕ))| ≤ 1 := by
      rw [show 2 ^ 57 * logb 2 (n : ℝ) - 2 ^ 57 * (log w / log 2 - 61 + (62 : ℕ)) = 2 ^ 57 / log 2 * (log (n : ℝ) - log (2 * w)) by
        rw [lw, logb]; field_simp; push_cast; ring, abs_mul, abs_of_pos (by positivity)]
      refine (mul_le_mul_of_nonneg_left d (by positivity)).trans ?_
      rw [div_mul_eq_mul_div, div_le_iff₀ (by linarith)]
      norm_num
      linarith
    rw [abs_le] at hv d2 ⊢
    constructor <;> linarith [hv.1, hv.2, d2.1, d2.2]

/-- `blog32` is accurate, for every number. -/
theorem blog32_near (n : ℕ) (h : 0 < n) (hn : n < 2 ^ 32) : ∃ v, blog32 n = some v ∧ |(v : ℝ) - 2 ^ 24 * logb 2 n| ≤ 6 / 10 := by
  unfold blog32
  rw [if_neg (by omega)]
  have hk : Nat.log2 n < 32 := (Nat.log2_lt (by omega)).2 hn
  obtain ⟨h1, h2, m3⟩ := mantissa n h (by omega)
  dsimp only
  rw [wrap64_id _ (by omega) (by omega), m3]
  generalize (n : Int) * 2 ^ (61 - Nat.log2 n) = w at *
  generalize Nat.log2 n = k at *
  by_cases hp : isPow2 w
  · rw [if_pos hp]
    refine ⟨_, rfl, ?_⟩
    have e := (isPow2_iff w h1 h2).1 hp
    rw [log_two_pow_div 61 w (by rw [e]; norm_num)]
    have z : (((k : Int) * 2 ^ 24 : Int) : ℝ) - 2 ^ 24 * (((61 : ℕ) : ℝ) - 61 + k) = 0 := by push_cast; ring
    rw [z]
    norm_num
  · rw [if_neg hp]
    obtain ⟨z, e, hz⟩ := logFrac_near logSteps32 6199786086 logOk32 w h1 h2
    have hlen : (logSteps32.length : ℝ) = 32 := by norm_num [logSteps32]
    rw [hlen] at hz
    have hl := log_two_pos
    have w1 : (2 : ℝ) ^ 61 ≤ w := by exact_mod_cast h1
    have w2 : (w : ℝ) ≤ 2 ^ 62 := by exact_mod_cast h2.le
    have l1 : 61 ≤ log (w : ℝ) / log 2 := by
      rw [le_div_iff₀ (by linarith), show (61 : ℝ) * log 2 = log (2 ^ 61) by rw [log_pow]; norm_num]
      exact log_le_log (by norm_num) w1
    have l2 : log (w : ℝ) / log 2 ≤ 62 := by
      rw [div_le_iff₀ (by linarith), show (62 : ℝ) * log 2 = log (2 ^ 62) by rw [log_pow]; norm_num]
      exact log_le_log (by linarith) w2
    generalize log (w : ℝ) / log 2 = L at *
    obtain ⟨hz1, hz2⟩ := abs_le.mp hz
    have z1 : (-7000000000 : Int) ≤ z := by
      have : (-7000000000 : ℝ) ≤ z := by push_cast at hz1; linarith
      exact_mod_cast this
    have z2 : z ≤ 2 ^ 61 + 7000000000 := by
      have : (z : ℝ) ≤ 2 ^ 61 + 7000000000 := by push_cast at hz2; linarith
      exact_mod_cast this
    obtain ⟨s1, s2⟩ := shr_bounds (z + 2 ^ 36) 37
    have s3 : (z + 2 ^ 36) >>> 37 ≤ 2 ^ 24 + 1 := by rw [Int.shiftRight_eq_div_pow]; omega
    have s4 : 0 ≤ (z + 2 ^ 36) >>> 37 := by rw [Int.shiftRight_eq_div_pow]; omega
    refine ⟨(k : Int) * 2 ^ 24 + (z + 2 ^ 36) >>> 37, ?_, ?_⟩
    · rw [e]
      dsimp only [Option.bind_eq_bind, Option.bind_some]
      rw [i64_some _ (by omega) (by omega)]
      dsimp only [Option.bind_some]
      rw [wrap32_id _ (by omega) (by omega)]
      exact if_pos ⟨by omega, by omega⟩
    · rw [Int.cast_add, Int.cast_mul, Int.cast_natCast, abs_le]
      push_cast at s1 s2 hz1 hz2 ⊢
      constructor <;> linarith

end Rav1e.LogExp
