import Verif.LogExp.Round

/-!
# Binary logarithm and exponential: C43

The logarithm is accurate on every positive argument and strictly increasing up to 2^48, the exponential is accurate wherever it does not overflow for sure,
and it gives back the integer of a logarithm.  It does overflow on rare arguments, some of which are logarithms of integers, so the last two are partial.
-/

namespace Rav1e.LogExp

open Real

/-- **C43.** `blog64` of a positive number is within 91 units of 2^-57 of its binary logarithm, and nothing overflows. -/
theorem blog64_accurate (n : Int) (h : 0 < n) (hn : n < 2 ^ 63) : ∃ v, blog64 n = some v ∧ |(v : ℝ) - 2 ^ 57 * logb 2 (n : ℝ)| ≤ 91 := by
  obtain ⟨k, rfl⟩ : ∃ k : ℕ, n = k := ⟨n.toNat, by omega⟩
  simpa using blog64_near k (by omega) (by omega)

example : blog64 1793 = some 0x159dc71e24d32daf := by decide +kernel

/-- **C43.** `blog32` of a positive number is within 0.6 units of 2^-24 of its binary logarithm, and nothing overflows. -/
theorem blog32_accurate (n : ℕ) (h : 0 < n) (hn : n < 2 ^ 32) : ∃ v, blog32 n = some v ∧ |(v : ℝ) - 2 ^ 24 * logb 2 (n : ℝ)| ≤ 6 / 10 :=
  blog32_near n h hn

example : blog32 1793 = q57ToQ24 0x159dc71e24d32daf := by decide +kernel

theorem logb_gap (n m : ℕ) (h : 0 < n) (hm : n < m) (hn : n < 2 ^ 48) : 2 ^ 57 * logb 2 (n : ℝ) + 300 ≤ 2 ^ 57 * logb 2 (m : ℝ) := by
  have hl := log_two_pos
  have hl2 := log_two_lt
  have n0 : (0 : ℝ) < n := by exact_mod_cast h
  have n1 : (1 : ℝ) ≤ n := by exact_mod_cast h
  have nm : (n : ℝ) + 1 ≤ m := by exact_mod_cast hm
  have nu : (n : ℝ) ≤ 2 ^ 48 := by exact_mod_cast hn.le
  have e : (n : ℝ) + 1 = n * (1 + 1 / n) := by field_simp
  have x0 : (0 : ℝ) < 1 / n := by positivity
  have x1 : (1 : ℝ) / n ≤ 1 := by rw [div_le_one n0]; exact n1
  have x2 : (1 : ℝ) / 2 ^ 48 ≤ 1 / n := one_div_le_one_div_of_le n0 nu
  have a := log_le_log (by positivity) nm
  rw [e, log_mul n0.ne' (by positivity)] at a
  have b := one_sub_inv_le_log_of_pos (show (0 : ℝ) < 1 + 1 / n by positivity)
  have c : 1 / (n : ℝ) / 2 ≤ 1 - (1 + 1 / (n : ℝ))⁻¹ := by
    generalize (1 : ℝ) / n = x at *
    rw [show 1 - (1 + x)⁻¹ = x / (1 + x) by field_simp; ring]
    exact div_le_div_of_nonneg_left x0.le (by linarith) (by linarith)
  have d : 2 ^ 57 * logb 2 (m : ℝ) - 2 ^ 57 * logb 2 (n : ℝ) = 2 ^ 57 * (log m - log n) / log 2 := by
    unfold logb
    field_simp
  have f : 300 ≤ 2 ^ 57 * (log m - log n) / log 2 := by
    rw [le_div_iff₀ (by linarith)]
    nlinarith
  linarith

/-- **C43.** `blog64` is strictly increasing up to 2^48. -/
theorem blog64_strictMono (n m : ℕ) (h : 0 < n) (hnm : n < m) (hm : m ≤ 2 ^ 48) : ∃ u v, blog64 n = some u ∧ blog64 m = some v ∧ u < v := by
  obtain ⟨u, e1, h1⟩ := blog64_near n h (by omega)
  obtain ⟨v, e2, h2⟩ := blog64_near m (by omega) (by omega)
  refine ⟨u, v, e1, e2, ?_⟩
  have g := logb_gap n m h hnm (by omega)
  obtain ⟨a1, a2⟩ := abs_le.mp h1
  obtain ⟨b1, b2⟩ := abs_le.mp h2
  have : (u : ℝ) < v := by linarith
  exact_mod_cast this

example : blog64 3 = some 228417168884608271 ∧ blog64 4 = some (2 * 2 ^ 57) := by decide +kernel

/-- `bexp64` is zero below zero and saturates from 63 on. -/
theorem bexp64_clamped (l : Int) : (l < 0 → bexp64 l = some 0) ∧ (63 * 2 ^ 57 ≤ l → bexp64 l = some (2 ^ 63 - 1)) := by
  have e : l >>> 57 = l / 2 ^ 57 := by rw [Int.shiftRight_eq_div_pow]; norm_num
  constructor
  · intro h
    unfold bexp64
    dsimp only
    rw [e, if_pos (by omega)]
  · intro h
    unfold bexp64
    dsimp only
    rw [e, if_neg (by omega), if_pos (by omega)]
    rfl

/-- **C43, in part.** `bexp64` is within half a unit, plus 2^-31 or 2^-52 of the value, of the exponential.  Missing: integer parts above 30 with a fraction above
127/128, where an intermediate sum can overflow. -/
theorem bexp64_accurate_partial (l : Int) (h0 : 0 ≤ l) (h1 : l < 63 * 2 ^ 57) (hf : l < 31 * 2 ^ 57 ∨ 128 * (l % 2 ^ 57) ≤ 127 * 2 ^ 57) :
    ∃ v, bexp64 l = some v ∧ |(v : ℝ) - (2 : ℝ) ^ ((l : ℝ) / 2 ^ 57)| ≤
      1 / 2 + (2 : ℝ) ^ ((l : ℝ) / 2 ^ 57) / (if l < 31 * 2 ^ 57 then 2 ^ 31 else 2 ^ 52) :=
  bexp64_near l h0 h1 hf

example : bexp64 (10 * 2 ^ 57 + 2 ^ 56) = some 1448 ∧ bexp64 (40 * 2 ^ 57 + 2 ^ 56) = some 1554944255988 := by decide +kernel

/-- **C43, in part.** `bexp64` gives back the integer of a logarithm.  Missing: numbers above 2^49, and numbers from 2^30 on in the last 128th below a power of
two, for which this can fail (`round_trip_fails`). -/
theorem round_trip_partial (n : ℕ) (h : 0 < n) (hn : n ≤ 2 ^ 49) (hs : n < 2 ^ 30 ∨ 128 * n ≤ 127 * 2 ^ (Nat.log2 n + 1)) :
    ∃ l, blog64 n = some l ∧ bexp64 l = some (n : Int) := round_trip n h hn hs

example : (0 < 1000000007 ∧ 1000000007 < 2 ^ 30) ∧ 2 ^ 30 ≤ 123456789012 ∧ 128 * 123456789012 ≤ 127 * 2 ^ (Nat.log2 123456789012 + 1) := by decide +kernel

/-- The full round trip does not hold: `bexp64` overflows on the logarithm of 137366560918 and does not give back 0x678dde6e5fd29f05. -/
theorem round_trip_fails : blog64 137366560918 = some 5332152416280245364 ∧ bexp64 5332152416280245364 = none ∧
    blog64 0x678dde6e5fd29f05 = some 0x7d6373ad151ca685 ∧ bexp64 0x7d6373ad151ca685 ≠ some 0x678dde6e5fd29f05 := by decide +kernel

/-- **C43.** `q57_to_q24` rounds to the nearest: no `i64` overflows. -/
theorem q57ToQ24_near (v : Int) (h0 : -2 ^ 63 ≤ v) (h1 : v < 2 ^ 63) : ∃ r, q57ToQ24 v = some r ∧ |r * 2 ^ 33 - v| ≤ 2 ^ 32 := by
  have e : v >>> 32 = v / 2 ^ 32 := by rw [Int.shiftRight_eq_div_pow]; norm_num
  have e2 : (v >>> 32 + 1) >>> 1 = (v / 2 ^ 32 + 1) / 2 := by rw [Int.shiftRight_eq_div_pow, e]; norm_num
  refine ⟨(v / 2 ^ 32 + 1) / 2, ?_, ?_⟩
  · unfold q57ToQ24
    rw [i64_some _ (by rw [e]; omega) (by rw [e]; omega)]
    dsimp only [Option.bind_eq_bind, Option.bind_some]
    rw [e2, wrap32_id _ (by omega) (by omega)]
  · rw [abs_le]
    omega

example : q57ToQ24 0x159dc71e24d32daf = some 181330831 := by decide +kernel

/-- **C43, in part.** `q24_to_q57` is exact, and `q57_to_q24` undoes it.  Missing: `i32` values outside the 31 bits that Q57 has room for (`q24ToQ57_wraps`). -/
theorem q24ToQ57_exact_partial (v : Int) (h0 : -2 ^ 30 ≤ v) (h1 : v < 2 ^ 30) : q24ToQ57 v = v * 2 ^ 33 ∧ q57ToQ24 (q24ToQ57 v) = some v := by
  have e : q24ToQ57 v = v * 2 ^ 33 := wrap64_id _ (by omega) (by omega)
  refine ⟨e, ?_⟩
  rw [e]
  obtain ⟨r, e1, e2⟩ := q57ToQ24_near (v * 2 ^ 33) (by omega) (by omega)
  rw [e1]
  rw [abs_le] at e2
  congr 1
  omega

example : -2 ^ 30 ≤ (181330831 : Int) ∧ (181330831 : Int) < 2 ^ 30 := by decide

theorem q24ToQ57_wraps : q24ToQ57 (2 ^ 30) = -2 ^ 63 := by decide +kernel

/-- **C43, in part.** `bexp_q24` is the exponential in Q24, saturated at 2^47 - 1.  Missing: arguments below -2^30 (`bexpQ24_overflows`), and from 7 on with a
fraction above 127/128. -/
theorem bexpQ24_accurate_partial (s : Int) (h0 : -2 ^ 30 ≤ s) (hf : s < 7 * 2 ^ 24 ∨ 128 * (s % 2 ^ 24) ≤ 127 * 2 ^ 24 ∨ 23 * 2 ^ 24 ≤ s) :
    ∃ v, bexpQ24 s = some v ∧ 0 ≤ v ∧ v ≤ 2 ^ 47 - 1 ∧ (s < -24 * 2 ^ 24 → v = 0) ∧ (23 * 2 ^ 24 ≤ s → v = 2 ^ 47 - 1) ∧
      (-24 * 2 ^ 24 ≤ s → s < 23 * 2 ^ 24 → |(v : ℝ) - 2 ^ 24 * (2 : ℝ) ^ ((s : ℝ) / 2 ^ 24)| ≤ 1 + 2 ^ 24 * (2 : ℝ) ^ ((s : ℝ) / 2 ^ 24) / 2 ^ 31) := by
  by_cases hs : s < 23 * 2 ^ 24
  swap
  · refine ⟨2 ^ 47 - 1, ?_, by norm_num, le_refl _, by omega, fun _ => rfl, by omega⟩
    unfold bexpQ24
    rw [if_neg hs]
  have hb : bexpQ24 s = (bexp64 (s * 2 ^ 33 + 24 * 2 ^ 57)).bind fun ret => some (if ret < 2 ^ 47 - 1 then ret else 2 ^ 47 - 1) := by
    unfold bexpQ24
    rw [if_pos hs, wrap64_id _ (by omega) (by omega)]
    rw [show q57 24 = some (24 * 2 ^ 57) from rfl]
    dsimp only [Option.bind_eq_bind, Option.bind_some]
    rw [i64_some _ (by omega) (by omega)]
    rfl
  rw [hb]
  by_cases hneg : s < -24 * 2 ^ 24
  · refine ⟨0, ?_, le_refl _, by norm_num, fun _ => rfl, by omega, by omega⟩
    rw [(bexp64_clamped _).1 (by omega)]
    rfl
  have hx : (2 : ℝ) ^ (((s * 2 ^ 33 + 24 * 2 ^ 57 : Int) : ℝ) / 2 ^ 57) = 2 ^ 24 * (2 : ℝ) ^ ((s : ℝ) / 2 ^ 24) := by
    rw [show ((s * 2 ^ 33 + 24 * 2 ^ 57 : Int) : ℝ) / 2 ^ 57 = (24 : ℕ) + (s : ℝ) / 2 ^ 24 by push_cast; field_simp; ring, rpow_add (by norm_num), rpow_natCast]
  obtain ⟨v, e, hv⟩ := bexp64_near (s * 2 ^ 33 + 24 * 2 ^ 57) (by omega) (by omega) (by omega)
  rw [hx] at hv
  rw [e]
  have hx1 : 2 ^ 24 * (2 : ℝ) ^ ((s : ℝ) / 2 ^ 24) < 2 ^ 47 := by
    have h1 : (s : ℝ) / 2 ^ 24 < (23 : ℕ) := by
      rw [div_lt_iff₀ (by positivity)]
      exact_mod_cast hs
    have h2 := rpow_lt_rpow_of_exponent_lt (by norm_num : (1 : ℝ) < 2) h1
    rw [rpow_natCast] at h2
    linarith
  have hx0 : 0 < 2 ^ 24 * (2 : ℝ) ^ ((s : ℝ) / 2 ^ 24) := by positivity
  generalize 2 ^ 24 * (2 : ℝ) ^ ((s : ℝ) / 2 ^ 24) = x at *
  have hv : |(v : ℝ) - x| ≤ 1 / 2 + x / 2 ^ 31 := by
    refine le_trans hv ?_
    split
    · exact le_refl _
    · have : x / 2 ^ 52 ≤ x / 2 ^ 31 := div_le_div_of_nonneg_left hx0.le (by positivity) (by norm_num)
      linarith
  obtain ⟨v1, v2⟩ := abs_le.mp hv
  have v0 : 0 ≤ v := by
    have : (-1 : ℝ) < v := by linarith
    have : -1 < v := by exact_mod_cast this
    omega
  refine ⟨if v < 2 ^ 47 - 1 then v else 2 ^ 47 - 1, rfl, ?_, ?_, by omega, by omega, fun _ _ => ?_⟩
  · split <;> omega
  · split <;> omega
  · by_cases hm : v < 2 ^ 47 - 1
    · rw [if_pos hm]
      linarith
    · rw [if_neg hm]
      have hm' : (2 : ℝ) ^ 47 - 1 ≤ v := by exact_mod_cast (not_lt.mp hm)
      have : 0 < x / 2 ^ 31 := by positivity
      push_cast
      rw [abs_le]
      constructor <;> linarith

example : bexpQ24 (-2 ^ 24) = some (2 ^ 23) ∧ bexpQ24 (8 * 2 ^ 24 + 5) = some 4294968183 := by decide +kernel

/-- Below -2^30 the shift drops the sign and the sum overflows. -/
theorem bexpQ24_overflows : bexpQ24 (-2 ^ 30 - 1) = none := by decide +kernel

end Rav1e.LogExp
