import Verif.Dist.Sums

/-!
# The sums in the psychovisual distortion
-/

namespace Rav1e.Dist

open Spec (total sse var64 boosted)

variable {a b : Nat → Nat → Nat} {w h bd : Nat}

/-- Pixels of this bit depth. -/
def Pix (a : Nat → Nat → Nat) (w h bd : Nat) : Prop := ∀ y < h, ∀ x < w, a y x < 2 ^ bd

/-- A variance in the range of 8-bit video. -/
def lbd (v bd : Nat) : Nat := v / 4 ^ (bd - 8)

theorem shr_lbd (v bd : Nat) : v >>> (2 * (bd - 8)) = lbd v bd := by
  unfold lbd
  rw [Nat.shiftRight_eq_div_pow, pow_mul, show 2 ^ 2 = 4 by norm_num]

theorem lbd_le {v : Nat} (hbd : bd ∈ [8, 10, 12]) (hv : v ≤ 16 * ((2 ^ bd - 1) * (2 ^ bd - 1)) + 32) : lbd v bd ≤ 1048100 := by
  unfold lbd
  simp only [List.mem_cons, List.not_mem_nil, or_false] at hbd
  rcases hbd with rfl | rfl | rfl <;> norm_num at hv ⊢ <;> omega

theorem max_le (hbd : bd ∈ [8, 10, 12]) : 2 ^ bd - 1 ≤ 4095 := by
  simp only [List.mem_cons, List.not_mem_nil, or_false] at hbd
  rcases hbd with rfl | rfl | rfl <;> norm_num

theorem Pix.le (ha : Pix a w h bd) : ∀ y < h, ∀ x < w, a y x ≤ 2 ^ bd - 1 := fun y hy x hx => by
  have := ha y hy x hx
  omega

/-- The error of a variance that is rounded twice. -/
theorem var_accurate (hn : w * h ∈ [1, 2, 4, 8, 16, 32, 64]) {d : Nat} (hd : w * h * d = 16384) :
    |((((total w h fun y x => a y x * a y x) - (total w h a * total w h a * d + 8192) / 2 ^ 14) * d + 128) / 2 ^ 8 : ℕ) - var64 a w h| ≤ 32 / (w * h) + 1 / 2 := by
  have hc := total_cauchy w h a
  have ev : var64 a w h = 64 * (((total w h fun y x => a y x * a y x : ℕ) : ℝ) / ((w * h : ℕ) : ℝ) - (((total w h a : ℕ) : ℝ) / ((w * h : ℕ) : ℝ)) ^ 2) := by
    unfold var64
    simp only [pow_two]
    push_cast
    rfl
  rw [ev]
  rw [show (w : ℝ) * h = ((w * h : ℕ) : ℝ) by push_cast; rfl]
  generalize (total w h fun y x => a y x * a y x) = Q at hc ⊢
  generalize total w h a = S at hc ⊢
  generalize w * h = n at hn hd hc ⊢
  have n0 : 0 < n := by simp at hn; omega
  have n1 : (0 : ℝ) < n := by exact_mod_cast n0
  have d0 : 0 < d := by rcases Nat.eq_zero_or_pos d with rfl | h; · omega
                        · exact h
  -- the first rounding
  have q1 := floor_le (S * S * d + 8192) (2 ^ 14)
  have q2 := lt_floor (S * S * d + 8192) (b := 2 ^ 14) (by norm_num)
  have hq : (S * S * d + 8192) / 2 ^ 14 ≤ Q := by
    have : S * S * d ≤ 16384 * Q := by
      calc S * S * d ≤ n * Q * d := Nat.mul_le_mul_right _ hc
        _ = 16384 * Q := by rw [← hd]; ring
    omega
  generalize (S * S * d + 8192) / 2 ^ 14 = q at q1 q2 hq ⊢
  obtain ⟨v, rfl⟩ := Nat.exists_eq_add_of_le hq
  rw [Nat.add_sub_cancel_left]
  have r1 := floor_le (v * d + 128) (2 ^ 8)
  have r2 := lt_floor (v * d + 128) (b := 2 ^ 8) (by norm_num)
  generalize (v * d + 128) / 2 ^ 8 = r at r1 r2 ⊢
  have hdR : (n : ℝ) * d = 16384 := by exact_mod_cast hd
  have ed : (d : ℝ) = 16384 / n := by field_simp; linarith
  push_cast at q1 q2 r1 r2 ⊢
  rw [ed] at q1 q2 r1 r2
  have e1 : (S * S * (16384 / n) + 8192 : ℝ) / 16384 = S * S / n + 1 / 2 := by field_simp; ring
  have e2 : (v * (16384 / n) + 128 : ℝ) / 256 = 64 * v / n + 1 / 2 := by field_simp; ring
  rw [e1] at q1 q2
  rw [e2] at r1 r2
  have e3 : (64 * ((q + v : ℝ) / n - (S / n) ^ 2)) = 64 * v / n + 64 / n * (q - S * S / n) := by field_simp; ring
  rw [e3]
  have k : (0 : ℝ) < 64 / n := by positivity
  have k1 : 64 / (n : ℝ) * (q - S * S / n) ≤ 64 / n * (1 / 2) := mul_le_mul_of_nonneg_left (by linarith) k.le
  have k2 : 64 / (n : ℝ) * (-(1 / 2)) ≤ 64 / n * (q - S * S / n) := mul_le_mul_of_nonneg_left (by linarith) k.le
  have k3 : (64 : ℝ) / n * (1 / 2) = 32 / n := by ring
  rw [abs_le]
  constructor <;> linarith

/-- The variance that the kernel computes with a divisor `d`. -/
def kvar (a : Nat → Nat → Nat) (w h d : Nat) : Nat := (((total w h fun y x => a y x * a y x) - (total w h a * total w h a * d + 8192) / 2 ^ 14) * d + 128) / 2 ^ 8

/-- What the kernel computes before it applies the boost. -/
theorem args_eq (hbd : bd ∈ [8, 10, 12]) (hw : 1 ≤ w ∧ w ≤ 8) (hh : 1 ≤ h ∧ h ≤ 8) (ha : Pix a w h bd) (hb : Pix b w h bd) : ∃ sv dv,
    kernelArgs a b w h = some (sse a b w h, sv, dv) ∧ lbd sv bd ≤ 1048100 ∧ lbd dv bd ≤ 1048100 ∧ sse a b w h ≤ 2 ^ 30 ∧
    (w * h ∈ [1, 2, 4, 8, 16, 32, 64] → |(sv : ℝ) - var64 a w h| ≤ 32 / (w * h) + 1 / 2 ∧ |(dv : ℝ) - var64 b w h| ≤ 32 / (w * h) + 1 / 2) ∧
    ∃ d, 256 ≤ d ∧ d ≤ 16384 ∧ w * h * d ≤ 16384 + 32 ∧ 16384 ≤ w * h * d + 32 ∧ sv = kvar a w h d ∧ dv = kvar b w h d := by
  have hM := max_le hbd
  have mm : (2 ^ bd - 1) * (2 ^ bd - 1) ≤ 4095 * 4095 := Nat.mul_le_mul hM hM
  have n1 : 1 ≤ w * h := Nat.mul_le_mul hw.1 hh.1
  have n2 : w * h ≤ 64 := Nat.mul_le_mul hw.2 hh.2
  obtain ⟨d, d1, d2, d3, d4, d5⟩ := div_table (w * h) (by omega) n1
  have a1 := total_le ha.le
  have b1 := total_le hb.le
  have a2 := total_sq_le ha.le
  have b2 := total_sq_le hb.le
  have ab := total_prod_le (b := b) ha.le
  have hs := total_sse w h a b
  have hse := sse_le ha.le hb.le
  obtain ⟨sa, la⟩ := scaledVar_eq n2 hM a1 a2 d3 d4
  obtain ⟨sb, lb⟩ := scaledVar_eq n2 hM b1 b2 d3 d4
  have w1 : w * h * (2 ^ bd - 1) ≤ 64 * 4095 := Nat.mul_le_mul n2 hM
  have w2 : (2 ^ bd - 1) * total w h a ≤ 4095 * (64 * 4095) := Nat.mul_le_mul hM (le_trans a1 w1)
  have w3 : (2 ^ bd - 1) * total w h b ≤ 4095 * (64 * 4095) := Nat.mul_le_mul hM (le_trans b1 w1)
  have w4 : w * h * ((2 ^ bd - 1) * (2 ^ bd - 1)) ≤ 64 * (4095 * 4095) := Nat.mul_le_mul n2 mm
  refine ⟨_, _, ?_, lbd_le hbd la, lbd_le hbd lb, by omega, fun hn => ?_, d, d2, d3, d4, d5, rfl, rfl⟩
  · unfold kernelArgs sub
    simp only [pixels_eq]
    rw [sumChk_eq (by rw [← total_eq]; omega), sumChk_eq (by rw [← total_eq]; omega)]
    simp only [← total_eq, Option.bind_eq_bind, Option.bind_some]
    rw [sumChk_eq (by rw [← total_eq w h fun y x => a y x * a y x]; omega), Option.bind_some, sumChk_eq (by rw [← total_eq w h fun y x => b y x * b y x]; omega),
      Option.bind_some, sumChk_eq (by rw [← total_eq w h fun y x => a y x * b y x]; omega), Option.bind_some,
      ← total_eq w h fun y x => a y x * a y x, ← total_eq w h fun y x => b y x * b y x, ← total_eq w h fun y x => a y x * b y x]
    rw [chk_lt (by omega), Option.bind_some, chk_lt (by omega), Option.bind_some, if_pos (by omega), Option.bind_some, if_pos (by omega), Option.bind_some, d1,
      Option.bind_some, sa, Option.bind_some, sb, Option.bind_some, hs, Nat.add_sub_cancel_left]
  · have hd : w * h * d = 16384 := by
      have : ∀ n ∈ [1, 2, 4, 8, 16, 32, 64], ∀ d, areaDivisors[n - 1]? = some d → n * d = 16384 := by decide
      exact this _ hn d d1
    exact ⟨var_accurate hn hd, var_accurate hn hd⟩

end Rav1e.Dist
