import Verif.LogExp.Model
import Mathlib.Analysis.SpecialFunctions.Log.Deriv
import Mathlib.Tactic.FieldSimp
import Mathlib.Tactic.Linarith
import Mathlib.Tactic.Positivity
import Mathlib.Tactic.NormNum
import Mathlib.Tactic.Ring

/-!
# The table of `atanh`

That the entries of `ATANH_LOG2` are what they stand for, up to two units in the last place.
-/

namespace Rav1e.LogExp

open Real Finset

/-- The area tangent of `2^-(i+1)`. -/
noncomputable def at' (i : ℕ) : ℝ := 1 / 2 * log ((1 + 1 / 2 ^ (i + 1)) / (1 - 1 / 2 ^ (i + 1)))

/-- A partial sum of the series of `atanh` at `1 / m`. -/
def ser (m : ℕ) : ℕ → ℚ
  | 0 => 0
  | k + 1 => ser m k + 1 / ((m : ℚ) ^ (2 * k + 1) * (2 * k + 1))

/-- What the tail is at most. -/
def tail (m n : ℕ) : ℚ := 1 / ((m : ℚ) ^ (2 * n + 1) * (1 - 1 / (m : ℚ) ^ 2))

theorem ser_cast (m : ℕ) : ∀ n, ((ser m n : ℚ) : ℝ) = ∑ i ∈ range n, (1 / (m : ℝ)) ^ (2 * i + 1) / (2 * i + 1)
  | 0 => by simp [ser]
  | n + 1 => by
    rw [sum_range_succ, ← ser_cast m n, ser]
    push_cast
    rw [one_div_pow, div_div]

theorem ser_le (m n : ℕ) (hm : 1 < m) : ((ser m n : ℚ) : ℝ) ≤ 1 / 2 * log ((1 + 1 / (m : ℝ)) / (1 - 1 / (m : ℝ))) := by
  have h : (1 : ℝ) < m := by exact_mod_cast hm
  rw [ser_cast]
  exact sum_range_le_log_div (by positivity) (by rw [div_lt_one (by linarith)]; exact h) n

theorem le_ser (m n : ℕ) (hm : 1 < m) : 1 / 2 * log ((1 + 1 / (m : ℝ)) / (1 - 1 / (m : ℝ))) ≤ ((ser m n + tail m n : ℚ) : ℝ) := by
  have h : (1 : ℝ) < m := by exact_mod_cast hm
  have := log_div_le_sum_range_add (x := 1 / (m : ℝ)) (by positivity) (by rw [div_lt_one (by linarith)]; exact h) n
  refine this.trans (le_of_eq ?_)
  push_cast
  rw [ser_cast, tail]
  push_cast
  rw [one_div_pow, one_div_pow, div_div]

/-- Bounds of `ln 2`. -/
theorem log2_bounds : ((2 * ser 3 44 : ℚ) : ℝ) ≤ log 2 ∧ log 2 ≤ ((2 * (ser 3 44 + tail 3 44) : ℚ) : ℝ) := by
  have a := ser_le 3 44 (by norm_num)
  have b := le_ser 3 44 (by norm_num)
  have e : ((1 + 1 / ((3 : ℕ) : ℝ)) / (1 - 1 / ((3 : ℕ) : ℝ))) = 2 := by norm_num
  rw [e] at a b
  push_cast at a b ⊢
  constructor <;> linarith

/-- An entry of the table, checked with rational numbers. -/
def tblOk (i : ℕ) : Bool :=
  decide ((tbl i : ℚ) * (2 * (ser 3 44 + tail 3 44)) ≤ 2 ^ (62 + i) * ser (2 ^ (i + 1)) 36 + 1) &&
    decide (2 ^ (62 + i) * (ser (2 ^ (i + 1)) 36 + tail (2 ^ (i + 1)) 36) ≤ (tbl i : ℚ) * (2 * ser 3 44) + 1) && decide (0 ≤ tbl i)

theorem tbl_all : ∀ i < 32, tblOk i = true := by decide +kernel

theorem at_eq (i : ℕ) : at' i = 1 / 2 * log ((1 + 1 / ((2 ^ (i + 1) : ℕ) : ℝ)) / (1 - 1 / ((2 ^ (i + 1) : ℕ) : ℝ))) := by
  unfold at'
  push_cast
  rfl

theorem two_pow_gt (i : ℕ) : 1 < 2 ^ (i + 1) := Nat.one_lt_two_pow (by omega)

theorem tbl_near (i : ℕ) (h : i < 32) : |(tbl i : ℝ) * log 2 - 2 ^ (62 + i) * at' i| ≤ 1 := by
  have hk := tbl_all i h
  simp only [tblOk, Bool.and_eq_true, decide_eq_true_eq] at hk
  obtain ⟨⟨h1, h2⟩, h0⟩ := hk
  have g1 : (((tbl i : ℚ) * (2 * (ser 3 44 + tail 3 44)) : ℚ) : ℝ) ≤ ((2 ^ (62 + i) * ser (2 ^ (i + 1)) 36 + 1 : ℚ) : ℝ) := by exact_mod_cast h1
  have g2 : ((2 ^ (62 + i) * (ser (2 ^ (i + 1)) 36 + tail (2 ^ (i + 1)) 36) : ℚ) : ℝ) ≤ (((tbl i : ℚ) * (2 * ser 3 44) + 1 : ℚ) : ℝ) := by exact_mod_cast h2
  have g0 : (0 : ℝ) ≤ (tbl i : ℝ) := by exact_mod_cast h0
  have a1 := ser_le (2 ^ (i + 1)) 36 (two_pow_gt i)
  have a2 := le_ser (2 ^ (i + 1)) 36 (two_pow_gt i)
  rw [← at_eq] at a1 a2
  obtain ⟨l1, l2⟩ := log2_bounds
  push_cast at g1 g2 a1 a2 l1 l2
  have p : (0 : ℝ) ≤ 2 ^ (62 + i) := by positivity
  have b1 := mul_le_mul_of_nonneg_left l2 g0
  have b2 := mul_le_mul_of_nonneg_left l1 g0
  have b3 := mul_le_mul_of_nonneg_left a1 p
  have b4 := mul_le_mul_of_nonneg_left a2 p
  rw [abs_le]
  constructor <;> linarith

theorem log_two_pos : (69 / 100 : ℝ) < log 2 := lt_of_lt_of_le (by norm_num [ser]) log2_bounds.1

theorem log_two_lt : log 2 < (70 / 100 : ℝ) := lt_of_le_of_lt log2_bounds.2 (by norm_num [ser, tail])

/-- For small arguments. -/
theorem at_small (i : ℕ) (h : 31 ≤ i) : 2 ^ 61 ≤ 2 ^ (62 + i) * at' i ∧ 2 ^ (62 + i) * at' i ≤ 2 ^ 61 + 1 / 2 := by
  have a1 := ser_le (2 ^ (i + 1)) 1 (two_pow_gt i)
  have a2 := le_ser (2 ^ (i + 1)) 1 (two_pow_gt i)
  rw [← at_eq] at a1 a2
  have e1 : ((ser (2 ^ (i + 1)) 1 : ℚ) : ℝ) = 1 / 2 ^ (i + 1) := by simp [ser]
  have e2 : ((tail (2 ^ (i + 1)) 1 : ℚ) : ℝ) = 1 / ((2 ^ (i + 1)) ^ 3 * (1 - 1 / (2 ^ (i + 1)) ^ 2)) := by simp [tail]
  rw [Rat.cast_add, e2] at a2
  rw [e1] at a1 a2
  obtain ⟨j, rfl⟩ : ∃ j, i = 31 + j := ⟨i - 31, by omega⟩
  have hX : (1 : ℝ) ≤ 2 ^ j := one_le_pow₀ (by norm_num)
  generalize hA : at' (31 + j) = A at a1 a2 ⊢
  have q1 : (2 : ℝ) ^ (62 + (31 + j)) = 2 ^ 93 * 2 ^ j := by rw [show 62 + (31 + j) = 93 + j by omega, pow_add]
  have q2 : (2 : ℝ) ^ (31 + j + 1) = 2 ^ 32 * 2 ^ j := by rw [show 31 + j + 1 = 32 + j by omega, pow_add]
  rw [q1]
  rw [q2] at a1 a2
  generalize (2 : ℝ) ^ j = X at *
  have hXp : (0 : ℝ) < X := by linarith
  constructor
  · have := mul_le_mul_of_nonneg_left a1 (show (0 : ℝ) ≤ 2 ^ 93 * X by positivity)
    refine le_trans (le_of_eq ?_) this
    field_simp
  · have := mul_le_mul_of_nonneg_left a2 (show (0 : ℝ) ≤ 2 ^ 93 * X by positivity)
    refine this.trans ?_
    have k1 : (1 / 2 : ℝ) ≤ 1 - 1 / (2 ^ 32 * X) ^ 2 := by
      have : 1 / (2 ^ 32 * X) ^ 2 ≤ 1 / 2 := by
        apply one_div_le_one_div_of_le (by norm_num)
        nlinarith
      linarith
    have k2 : 1 / ((2 ^ 32 * X) ^ 3 * (1 - 1 / (2 ^ 32 * X) ^ 2)) ≤ 1 / ((2 ^ 32 * X) ^ 3 * (1 / 2)) := by
      apply one_div_le_one_div_of_le (by positivity)
      exact mul_le_mul_of_nonneg_left k1 (by positivity)
    have k3 : 2 ^ 93 * X * (1 / (2 ^ 32 * X) + 1 / ((2 ^ 32 * X) ^ 3 * (1 / 2))) = 2 ^ 61 + 1 / (4 * X ^ 2) := by
      field_simp
      ring
    have k4 : 1 / (4 * X ^ 2) ≤ 1 / 4 := by
      apply one_div_le_one_div_of_le (by norm_num)
      nlinarith
    have := mul_le_mul_of_nonneg_left k2 (show (0 : ℝ) ≤ 2 ^ 93 * X by positivity)
    rw [mul_add] at k3 ⊢
    linarith

theorem tbl_near' (i : ℕ) : |(tbl (min i 31) : ℝ) * log 2 - 2 ^ (62 + i) * at' i| ≤ 2 := by
  by_cases h : i < 32
  · rw [show min i 31 = i by omega]
    exact (tbl_near i h).trans (by norm_num)
  · rw [show min i 31 = 31 by omega]
    have a := tbl_near 31 (by norm_num)
    have b := at_small 31 (le_refl _)
    have c := at_small i (by omega)
    generalize (2 : ℝ) ^ (62 + 31) * at' 31 = u at a b
    generalize (2 : ℝ) ^ (62 + i) * at' i = v at c ⊢
    obtain ⟨b1, b2⟩ := b
    obtain ⟨c1, c2⟩ := c
    rw [abs_le] at a ⊢
    obtain ⟨a1, a2⟩ := a
    constructor <;> linarith

/-- The logarithm that an iteration takes away, in units of `2^-61`. -/
noncomputable def eta (i : ℕ) : ℝ := 2 ^ 62 * at' i / log 2

theorem tbl_eta (i : ℕ) : |(tbl (min i 31) : ℝ) - 2 ^ i * eta i| ≤ 3 := by
  have h := tbl_near' i
  have hl := log_two_pos
  have e : (tbl (min i 31) : ℝ) - 2 ^ i * eta i = ((tbl (min i 31) : ℝ) * log 2 - 2 ^ (62 + i) * at' i) / log 2 := by
    unfold eta
    have : log 2 ≠ 0 := by linarith
    rw [pow_add]
    field_simp
  rw [e, abs_div, abs_of_pos (by linarith : (0 : ℝ) < log 2), div_le_iff₀ (by linarith)]
  linarith

/-- Floors. -/
theorem shr_bounds (v : Int) (k : ℕ) : ((v >>> k : Int) : ℝ) ≤ (v : ℝ) / 2 ^ k ∧ (v : ℝ) / 2 ^ k < ((v >>> k : Int) : ℝ) + 1 := by
  have h1 : (v >>> k) * 2 ^ k ≤ v := by
    rw [Int.shiftRight_eq_div_pow]
    exact_mod_cast Int.ediv_mul_le v (by positivity)
  have h2 : v < ((v >>> k) + 1) * 2 ^ k := by
    rw [Int.shiftRight_eq_div_pow]
    exact_mod_cast Int.lt_ediv_add_one_mul_self v (by positivity)
  have p : (0 : ℝ) < 2 ^ k := by positivity
  constructor
  · rw [le_div_iff₀ p]; exact_mod_cast h1
  · rw [div_lt_iff₀ p]; exact_mod_cast h2

theorem shr_eta (i : ℕ) : |((tbl (min i 31) >>> i : Int) : ℝ) - eta i| ≤ 4 := by
  have h := tbl_eta i
  obtain ⟨a, b⟩ := shr_bounds (tbl (min i 31)) i
  have p : (1 : ℝ) ≤ 2 ^ i := one_le_pow₀ (by norm_num)
  have c : |(tbl (min i 31) : ℝ) / 2 ^ i - eta i| ≤ 3 := by
    rw [show (tbl (min i 31) : ℝ) / 2 ^ i - eta i = ((tbl (min i 31) : ℝ) - 2 ^ i * eta i) / 2 ^ i by field_simp, abs_div,
      abs_of_pos (by linarith : (0 : ℝ) < 2 ^ i), div_le_iff₀ (by linarith)]
    nlinarith
  rw [abs_le] at c ⊢
  constructor <;> linarith [c.1, c.2]

/-- Logarithms of near numbers are near. -/
theorem log_near (a b lo : ℝ) (hl : 0 < lo) (ha : lo ≤ a) (hb : lo ≤ b) : |log b - log a| ≤ |b - a| / lo := by
  have key : ∀ a b : ℝ, lo ≤ a → lo ≤ b → log b - log a ≤ |b - a| / lo := by
    intro a b ha hb
    have hap : 0 < a := by linarith
    rw [← log_div (by linarith) (by linarith)]
    refine (log_le_sub_one_of_pos (div_pos (by linarith) hap)).trans ?_
    rw [show b / a - 1 = (b - a) / a by field_simp]
    refine (div_le_div_of_nonneg_right (le_abs_self _) hap.le).trans ?_
    exact div_le_div_of_nonneg_left (abs_nonneg _) hl ha
  rw [abs_le]
  refine ⟨?_, key a b ha hb⟩
  have := key b a hb ha
  rw [abs_sub_comm] at this
  linarith

end Rav1e.LogExp
