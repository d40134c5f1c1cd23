import Verif.Quant.Model
import Mathlib.Data.Nat.Log
import Mathlib.Data.Nat.Prime.Basic
import Mathlib.Algebra.Order.Ring.Nat
import Mathlib.Tactic.Linarith
import Mathlib.Tactic.Ring
/-
C34: the multiply-and-shift division of the quantizer is exact.
-/
namespace Rav1e.Quant

theorem chk_eq {w n : Nat} (h : n < 2 ^ w) : chk w n = some n := by simp [chk, h]

theorem divuPair_eq {x a b m : Nat} (h : a * x + b < 2 ^ 64) :
    divuPair x (a, b, m) = some ((a * x + b) / (2 ^ m * 2 ^ 32) % 2 ^ 32) := by
  have h1 : a * x < 2 ^ 64 := by omega
  rw [Nat.mul_comm (2 ^ m), ← Nat.div_div_eq_div_mul]
  simp only [divuPair, chk_eq h1, chk_eq h, Option.bind_eq_bind, Option.bind_some]

theorem divuPair_ones {x a m : Nat} (hx : x < 2 ^ 32) (ha : a + 1 = 2 ^ 32) :
    divuPair x (a, a, m) = some (x / 2 ^ m % 2 ^ 32) := by
  have ha' : a = 4294967295 := by omega
  have h2 : a * x + a < 2 ^ 64 := by subst ha'; omega
  have h3 : (a * x + a) / 2 ^ 32 = x := by subst ha'; omega
  rw [divuPair_eq h2, Nat.mul_comm (2 ^ m), ← Nat.div_div_eq_div_mul, h3]

theorem log2_bounds {d : Nat} (hd : 1 ≤ d) : 2 ^ Nat.log2 d ≤ d ∧ d < 2 ^ (Nat.log2 d + 1) :=
  ⟨Nat.log2_self_le (by omega), Nat.lt_log2_self⟩

/-- The quotient is pinned down by two bounds. -/
theorem div_of_bounds {s T k : Nat} (h1 : k * T ≤ s) (h2 : s < (k + 1) * T) : s / T = k := by
  rw [Nat.div_eq_iff (by rcases Nat.eq_zero_or_pos T with h | h
                         · subst h; simp at h2
                         · exact h)]
  constructor
  · exact h1
  · have : (k + 1) * T = k * T + T := by ring
    omega

/-- Rounding up the reciprocal is exact when the excess `e` is at most `2^m`. -/
theorem mul_up {d x T m a e : Nat} (hd : 1 ≤ d) (hx : x < 2 ^ 32) (hT : T = 2 ^ m * 2 ^ 32)
    (ha : a * d = T + e) (he : e ≤ 2 ^ m) : a * x / T = x / d := by
  have hdm := Nat.div_add_mod x d
  have hj := Nat.mod_lt x (show 0 < d by omega)
  generalize hk : x / d = k at *
  generalize hjj : x % d = j at *
  have hex : e * x < T := by
    subst hT
    rcases Nat.eq_zero_or_pos e with h | h
    · subst h; simp
    · calc e * x < e * 2 ^ 32 := Nat.mul_lt_mul_of_pos_left hx h
        _ ≤ 2 ^ m * 2 ^ 32 := Nat.mul_le_mul_right _ he
  have hdax : d * (a * x) = T * (d * k) + T * j + e * x := by
    calc d * (a * x) = (a * d) * x := by ring
      _ = T * x + e * x := by rw [ha]; ring
      _ = T * (d * k + j) + e * x := by rw [hdm]
      _ = _ := by ring
  apply div_of_bounds
  · apply Nat.le_of_mul_le_mul_left (c := d) _ hd
    calc d * (k * T) = T * (d * k) := by ring
      _ ≤ d * (a * x) := by rw [hdax]; omega
  · apply Nat.lt_of_mul_lt_mul_left (a := d)
    have h1 : T * j + T ≤ T * d := by
      calc T * j + T = T * (j + 1) := by ring
        _ ≤ T * d := Nat.mul_le_mul_left _ hj
    calc d * (a * x) < T * (d * k) + T * d := by rw [hdax]; omega
      _ = d * ((k + 1) * T) := by ring

/-- Rounding down the reciprocal and adding one to the dividend is exact when the defect `f` is positive
and below `2^m`. -/
theorem mul_down {d x T m a f : Nat} (hd : 1 ≤ d) (hx : x < 2 ^ 32) (hT : T = 2 ^ m * 2 ^ 32)
    (ha : a * d + f = T) (hf : 0 < f) (hf2 : f ≤ 2 ^ m) : (a * x + a) / T = x / d := by
  have hdm := Nat.div_add_mod x d
  have hj := Nat.mod_lt x (show 0 < d by omega)
  generalize hk : x / d = k at *
  generalize hjj : x % d = j at *
  have hfx : f * (x + 1) ≤ T := by
    rw [hT]; exact Nat.mul_le_mul hf2 (by omega)
  have hdax : d * (a * x + a) + f * (x + 1) = T * (d * k) + T * j + T := by
    calc d * (a * x + a) + f * (x + 1) = (a * d + f) * (x + 1) := by ring
      _ = T * (d * k + j + 1) := by rw [ha, hdm]
      _ = _ := by ring
  apply div_of_bounds
  · apply Nat.le_of_mul_le_mul_left (c := d) _ hd
    calc d * (k * T) = T * (d * k) := by ring
      _ ≤ d * (a * x + a) := by omega
  · apply Nat.lt_of_mul_lt_mul_left (a := d)
    have h1 : T * j + T ≤ T * d := by
      calc T * j + T = T * (j + 1) := by ring
        _ ≤ T * d := Nat.mul_le_mul_left _ hj
    have h2 : 0 < f * (x + 1) := Nat.mul_pos hf (by omega)
    calc d * (a * x + a) < T * (d * k) + T * d := by omega
      _ = d * ((k + 1) * T) := by ring

/-- C34: for every 32-bit divisor but zero `divu_gen` computes its constants without overflow, and for
every 32-bit dividend `divu_pair` then returns the quotient, again without overflow. -/
theorem divu_exact (d x : Nat) (hd : 1 ≤ d) (hd2 : d < 2 ^ 32) (hx : x < 2 ^ 32) :
    ∃ p, divuGen d = some p ∧ divuPair x p = some (x / d) := by
  obtain ⟨hlo, hhi⟩ := log2_bounds hd
  have hxd : x / d < 2 ^ 32 := lt_of_le_of_lt (Nat.div_le_self _ _) hx
  unfold divuGen
  generalize hm : Nat.log2 d = m at *
  have hm31 : m ≤ 31 := by
    by_contra h
    have : 2 ^ 32 ≤ 2 ^ m := Nat.pow_le_pow_right (by norm_num) (by omega)
    omega
  have hm32 : 2 ^ m ≤ 2 ^ 31 := Nat.pow_le_pow_right (by norm_num) hm31
  rw [show 2 ^ (m + 1) = 2 * 2 ^ m by ring] at hhi
  have hpos : 0 < 2 ^ m := by positivity
  have hT : 2 ^ (m + 32) = 2 ^ m * 2 ^ 32 := by rw [pow_add]
  by_cases hp : d = 2 ^ m
  · refine ⟨_, if_pos hp, ?_⟩
    rw [divuPair_ones hx (by norm_num), ← hp, Nat.mod_eq_of_lt hxd]
  · simp only [if_neg hp]
    rw [hT]
    generalize hTT : 2 ^ m * 2 ^ 32 = T at *
    have hdm := Nat.div_add_mod T d
    have hr := Nat.mod_lt T (show 0 < d by omega)
    generalize ht : T / d = t at *
    have hT63 : T ≤ 2 ^ 63 := by omega
    have ht2 : t + 1 < 2 ^ 32 := by
      by_contra h
      have h1 : (2 ^ 32 - 1) * (2 ^ m + 1) ≤ t * d := Nat.mul_le_mul (by omega) (by omega)
      have h2 : t * d ≤ T := by rw [Nat.mul_comm]; omega
      omega
    have htd : t * d ≤ T := by rw [Nat.mul_comm]; omega
    have hc1 : t * d < 2 ^ 64 := by omega
    have hc2 : t * d + d < 2 ^ 64 := by omega
    rw [Nat.mod_eq_of_lt (show t < 2 ^ 32 by omega), chk_eq hc1, Option.bind_eq_bind, Option.bind_some,
      chk_eq hc2, Option.bind_some, chk_eq ht2, Option.bind_some]
    -- the excess of rounding up
    obtain ⟨e, he⟩ : ∃ e, t * d + d = T + e := ⟨t * d + d - T, by
      have : d * t = t * d := Nat.mul_comm _ _
      omega⟩
    have hed : e ≤ d := by omega
    have hrr : (t * d + d) % 2 ^ 32 = e := by
      rw [he, ← hTT, Nat.add_comm, Nat.add_mul_mod_self_right, Nat.mod_eq_of_lt (by omega)]
    rw [hrr]
    split_ifs with hle
    · refine ⟨_, rfl, ?_⟩
      have h1 : (t + 1) * x < 2 ^ 64 := by
        calc (t + 1) * x < 2 ^ 32 * 2 ^ 32 := Nat.mul_lt_mul'' ht2 hx
          _ = 2 ^ 64 := by norm_num
      rw [divuPair_eq (by omega), hTT, Nat.add_zero,
        mul_up hd hx hTT.symm (by rw [Nat.add_mul, Nat.one_mul, he]) hle, Nat.mod_eq_of_lt hxd]
    · refine ⟨_, rfl, ?_⟩
      have h2 : t * x + t < 2 ^ 64 := by
        calc t * x + t = t * (x + 1) := by ring
          _ ≤ (2 ^ 32 - 2) * 2 ^ 32 := Nat.mul_le_mul (by omega) (by omega)
          _ < 2 ^ 64 := by norm_num
      have hf0 : d - e ≠ 0 := by
        intro h
        have hed' : e = d := by omega
        have hdvd : d ∣ 2 ^ (m + 32) := ⟨t, by rw [hT, Nat.mul_comm d t]; omega⟩
        obtain ⟨i, _, hi⟩ := (Nat.dvd_prime_pow Nat.prime_two).1 hdvd
        apply hp
        rw [hi, Nat.log2_two_pow] at hm
        rw [hi, hm]
      rw [divuPair_eq h2, hTT,
        mul_down (f := d - e) hd hx hTT.symm (by omega) (by omega) (by omega), Nat.mod_eq_of_lt hxd]

/-- All three branches are taken: a power of two, a divisor rounded up and one rounded down. -/
example : divuGen 8 = some (0xFFFFFFFF, 0xFFFFFFFF, 3) ∧ divuPair 1000 (0xFFFFFFFF, 0xFFFFFFFF, 3) = some 125 ∧
    divuGen 5 = some (3435973837, 0, 2) ∧ divuPair 4294967295 (3435973837, 0, 2) = some 858993459 ∧
    divuGen 7 = some (2454267026, 2454267026, 2) ∧
    divuPair 4294967295 (2454267026, 2454267026, 2) = some 613566756 := by decide +kernel

end Rav1e.Quant
