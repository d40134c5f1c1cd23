import Mathlib.Tactic.NormNum
import Mathlib.Tactic.Ring
import Mathlib.Tactic.Linarith
import Verif.Dist.Model

/-!
# The approximation of the reciprocal square root
-/

namespace Rav1e.Dist

/-- The approximation with natural numbers. -/
def normN (t : Nat) : Nat :=
  if Nat.ble 32768 t then 23557 - ((t - 32768) * (13490 - (t - 32768) * 6711 / 32768) + 32767) / 32768
  else 23557 + (32768 - t) * (13490 + ((32768 - t) * 6711 + 32767) / 32768) / 32768

/-- What the rest needs to know about a value of it. -/
def good (t : Nat) : Bool :=
  (fun r => Nat.ble 16777 r && Nat.ble r 31980 && Nat.ble (9523 * 2 ^ 44) (10000 * (r * r * t)) && Nat.ble (10000 * (r * r * t)) (10487 * 2 ^ 44) &&
    Nat.ble ((2 ^ 20 + 16 * (t + 1) + 16128) * r) 42500000000) (normN t)

theorem good_table : ∀ a < 192, ∀ b < 256, good (16384 + 256 * a + b) = true := by decide +kernel

theorem good_all {t : Nat} (h1 : 16384 ≤ t) (h2 : t < 65536) : good t = true := by
  have := good_table ((t - 16384) / 256) (by omega) ((t - 16384) % 256) (by omega)
  rwa [show 16384 + 256 * ((t - 16384) / 256) + (t - 16384) % 256 = t by omega] at this

theorem shr15 (v : Int) : v >>> (15 : Nat) = v / 32768 := by rw [Int.shiftRight_eq_div_pow]; norm_num

theorem norm_eq {t : Nat} (h1 : 16384 ≤ t) (h2 : t < 65536) : rsqrtNorm t = some (normN t) := by
  have hg := good_all h1 h2
  simp only [good, Bool.and_eq_true, Nat.ble_eq] at hg
  obtain ⟨⟨⟨⟨g1, g2⟩, -⟩, -⟩, -⟩ := hg
  unfold rsqrtNorm mult chkI
  simp only [Option.bind_eq_bind]
  rw [if_neg (by omega)]
  rw [if_pos (by constructor <;> omega), Option.map_some, Option.bind_some, shr15]
  by_cases ht : 32768 ≤ t
  · have hN : normN t = 23557 - ((t - 32768) * (13490 - (t - 32768) * 6711 / 32768) + 32767) / 32768 := by
      unfold normN; rw [if_pos (by simpa using ht)]
    rw [hN] at g1 g2 ⊢
    clear hN
    obtain ⟨n, rfl⟩ : ∃ n, t = 32768 + n := ⟨t - 32768, by omega⟩
    rw [show 32768 + n - 32768 = n by omega] at g1 g2 ⊢
    have ea : (((32768 + n : Nat) : Int) - 32768) * 6711 / 32768 = ((n * 6711 / 32768 : Nat) : Int) := by push_cast; congr 1; ring
    rw [ea]
    have ha : n * 6711 / 32768 ≤ 6711 := by omega
    obtain ⟨a, ha'⟩ : ∃ a, a = n * 6711 / 32768 := ⟨_, rfl⟩
    rw [← ha'] at ha g1 g2 ⊢
    obtain ⟨c, hc⟩ : ∃ c, 13490 = a + c := ⟨13490 - a, by omega⟩
    rw [show 13490 - a = c by omega] at g1 g2 ⊢
    have eb : (((32768 + n : Nat) : Int) - 32768) * (-13490 + (a : Int)) = -((n * c : Nat) : Int) := by
      push_cast
      rw [show (-13490 : Int) + a = -c by omega]
      ring
    rw [eb]
    have hb : n * c ≤ 32768 * 13490 := Nat.mul_le_mul (by omega) (by omega)
    obtain ⟨b, hb'⟩ : ∃ b, b = n * c := ⟨_, rfl⟩
    rw [← hb'] at hb g1 g2 ⊢
    rw [if_pos (by constructor <;> omega), Option.map_some, Option.bind_some, shr15]
    rw [if_pos (by constructor <;> omega)]
    congr 1
    omega
  · have hN : normN t = 23557 + (32768 - t) * (13490 + ((32768 - t) * 6711 + 32767) / 32768) / 32768 := by
      unfold normN; rw [if_neg (by simpa using ht)]
    rw [hN] at g1 g2 ⊢
    clear hN
    obtain ⟨n, hn⟩ : ∃ n, 32768 = t + n := ⟨32768 - t, by omega⟩
    rw [show 32768 - t = n by omega] at g1 g2 ⊢
    have ea : ((t : Int) - 32768) * 6711 / 32768 = -(((n * 6711 + 32767) / 32768 : Nat) : Int) := by omega
    rw [ea]
    have ha : (n * 6711 + 32767) / 32768 ≤ 6711 := by omega
    obtain ⟨a, ha'⟩ : ∃ a, a = (n * 6711 + 32767) / 32768 := ⟨_, rfl⟩
    rw [← ha'] at ha g1 g2 ⊢
    have eb : ((t : Int) - 32768) * (-13490 + -(a : Int)) = ((n * (13490 + a) : Nat) : Int) := by
      push_cast
      rw [show (t : Int) - 32768 = -n by omega]
      ring
    rw [eb]
    have hb : n * (13490 + a) ≤ 16384 * 20201 := Nat.mul_le_mul (by omega) (by omega)
    obtain ⟨b, hb'⟩ : ∃ b, b = n * (13490 + a) := ⟨_, rfl⟩
    rw [← hb'] at hb g1 g2 ⊢
    rw [if_pos (by constructor <;> omega), Option.map_some, Option.bind_some, shr15]
    rw [if_pos (by constructor <;> omega)]
    congr 1

/-- For the arguments that occur, 2 k binary digits are split off: what is left of `x` is a number of 16 bits whose reciprocal square root is approximated. -/
theorem rsqrt_eq {x : Nat} (h1 : c1 * c1 ≤ x) (h2 : x < 2 ^ 40) : ∃ k t r, 11 ≤ k ∧ k ≤ 19 ∧ rsqrt x = some (r, 15 + k) ∧
    t * 2 ^ (2 * k - 14) ≤ x ∧ x < (t + 1) * 2 ^ (2 * k - 14) ∧ 16777 ≤ r ∧ r ≤ 31980 ∧ 9523 * 2 ^ 44 ≤ 10000 * (r * r * t) ∧
    10000 * (r * r * t) ≤ 10487 * 2 ^ 44 ∧ (2 ^ 20 + 16 * (t + 1) + 16128) * r ≤ 42500000000 ∧ 16384 ≤ t ∧ t < 65536 := by
  have h0 : x ≠ 0 := by unfold c1 at h1; omega
  have l1 : 2 ^ Nat.log2 x ≤ x := Nat.log2_self_le h0
  have l2 : x < 2 ^ (Nat.log2 x + 1) := Nat.lt_log2_self
  have l3 : 22 < Nat.log2 x := by
    have : (2 : Nat) ^ 23 < 2 ^ (Nat.log2 x + 1) := lt_of_le_of_lt (by unfold c1 at h1; omega) l2
    have := (Nat.pow_lt_pow_iff_right (by norm_num : 1 < 2)).1 this
    omega
  have l4 : Nat.log2 x < 40 := (Nat.pow_lt_pow_iff_right (by norm_num : 1 < 2)).1 (lt_of_le_of_lt l1 h2)
  have hk : Nat.log2 x >>> 1 = Nat.log2 x / 2 := by rw [Nat.shiftRight_eq_div_pow]
  obtain ⟨k, hk'⟩ : ∃ k, Nat.log2 x / 2 = k := ⟨_, rfl⟩
  have b1 : 2 ^ (2 * k) ≤ x := le_trans (Nat.pow_le_pow_right (by norm_num) (by omega)) l1
  have b2 : x < 2 ^ (2 * k + 2) := lt_of_lt_of_le l2 (Nat.pow_le_pow_right (by norm_num) (by omega))
  have k1 : 11 ≤ k := by omega
  have k2 : k ≤ 19 := by omega
  have pp : 0 < 2 ^ (2 * k - 14) := Nat.two_pow_pos _
  have e1 : 2 ^ (2 * k) = 16384 * 2 ^ (2 * k - 14) := by rw [show (16384 : Nat) = 2 ^ 14 by norm_num, ← pow_add]; congr 1; omega
  have e2 : 2 ^ (2 * k + 2) = 65536 * 2 ^ (2 * k - 14) := by rw [show (65536 : Nat) = 2 ^ 16 by norm_num, ← pow_add]; congr 1; omega
  have t1 : 16384 ≤ x / 2 ^ (2 * k - 14) := by rw [Nat.le_div_iff_mul_le pp, ← e1]; exact b1
  have t2 : x / 2 ^ (2 * k - 14) < 65536 := by rw [Nat.div_lt_iff_lt_mul pp, ← e2]; exact b2
  have hg := good_all t1 t2
  simp only [good, Bool.and_eq_true, Nat.ble_eq] at hg
  obtain ⟨⟨⟨⟨g1, g2⟩, g3⟩, g4⟩, g5⟩ := hg
  refine ⟨k, x / 2 ^ (2 * k - 14), normN (x / 2 ^ (2 * k - 14)), k1, k2, ?_, Nat.div_mul_le_self _ _, ?_, g1, g2, g3, g4, g5, t1, t2⟩
  · unfold rsqrt
    rw [if_neg h0]
    simp only [hk, hk', Option.bind_eq_bind]
    rw [if_pos (by omega), Nat.shiftRight_eq_div_pow, show ((2 : Int) * k - (16 - 2)).toNat = 2 * k - 14 by omega, Nat.mod_eq_of_lt (by norm_num; exact t2), norm_eq t1 t2]
    rw [Option.bind_some, Int.shiftRight_eq_div_pow]
    congr 2
    have : ((2 : Int) * k - (16 - 2) + 16) / 2 ^ 1 = k + 1 := by omega
    rw [show (((2 : Nat) ^ 1 : Nat) : Int) = 2 ^ 1 by norm_num, this]
    omega
  · have := Nat.lt_div_mul_add (a := x) pp
    rw [Nat.add_mul, one_mul]
    exact this

end Rav1e.Dist
