import Mathlib.Tactic.Positivity
import Mathlib.Tactic.FieldSimp
import Verif.Dist.Rsqrt
import Verif.Dist.Spec

/-!
# The boost
-/

namespace Rav1e.Dist

theorem chk_lt {bits n : Nat} (h : n < 2 ^ bits) : chk bits n = some n := if_pos h

theorem ratio_eq : ratio = 4455 := by decide

/-- The steps of the boost do not overflow. -/
theorem boost_steps {input s d : Nat} (hi : input ≤ 2 ^ 30) (hs : s ≤ 1048100) (hd : d ≤ 1048100) {sv dv bd : Nat} (hb : 8 ≤ bd) (es : sv >>> (2 * (bd - 8)) = s)
    (ed : dv >>> (2 * (bd - 8)) = d) : ∃ k t r, 11 ≤ k ∧ k ≤ 19 ∧ t * 2 ^ (2 * k - 14) ≤ c1 * c1 + s * d ∧ c1 * c1 + s * d < (t + 1) * 2 ^ (2 * k - 14) ∧
    16777 ≤ r ∧ r ≤ 31980 ∧ 9523 * 2 ^ 44 ≤ 10000 * (r * r * t) ∧ 10000 * (r * r * t) ≤ 10487 * 2 ^ 44 ∧ 16384 ≤ t ∧
    boost64 input sv dv bd = some (input * (4455 * (s + d + c2) * r / 2 ^ 14) / 2 ^ (15 + k)) := by
  have hsd : s * d ≤ 1048100 * 1048100 := Nat.mul_le_mul hs hd
  obtain ⟨k, t, r, k1, k2, e, t1, t2, r1, r2, r3, r4, r5, t3, t4⟩ := rsqrt_eq (x := c1 * c1 + s * d) (by omega) (by unfold c1; omega)
  refine ⟨k, t, r, k1, k2, t1, t2, r1, r2, r3, r4, t3, ?_⟩
  have key : (s + d + c2) * r ≤ 42600000000 := by
    have h1 : 2 ^ 20 * (s + d) ≤ 2 ^ 20 * 2 ^ 20 + s * d := by
      obtain ⟨a, ha⟩ := Nat.exists_eq_add_of_le (show s ≤ 2 ^ 20 by omega)
      obtain ⟨b, hb⟩ := Nat.exists_eq_add_of_le (show d ≤ 2 ^ 20 by omega)
      have h2 : (2 ^ 20 - s) * (2 ^ 20 - d) = a * b := by rw [ha]; congr 1 <;> omega
      zify at ha hb ⊢
      have ha' : (a : Int) = 2 ^ 20 - s := by linarith
      have hb' : (b : Int) = 2 ^ 20 - d := by linarith
      have : (0 : Int) ≤ a * b := by positivity
      rw [ha', hb'] at this
      nlinarith
    rcases Nat.lt_or_ge k 19 with hk | hk
    · have hx : (t + 1) * 2 ^ (2 * k - 14) ≤ 2 ^ 38 + 2 ^ 22 := by
        have ht : t * 2 ^ (2 * k - 14) < 2 ^ 38 := by
          have : (2 : Nat) ^ (2 * k - 14) ≤ 2 ^ 22 := Nat.pow_le_pow_right (by norm_num) (by omega)
          calc t * 2 ^ (2 * k - 14) ≤ 65535 * 2 ^ 22 := Nat.mul_le_mul (by omega) this
            _ < 2 ^ 38 := by norm_num
        have : (2 : Nat) ^ (2 * k - 14) ≤ 2 ^ 22 := Nat.pow_le_pow_right (by norm_num) (by omega)
        rw [Nat.add_mul, one_mul]
        omega
      have h3 : s + d ≤ 1310800 := by omega
      calc (s + d + c2) * r ≤ 1326928 * 31980 := Nat.mul_le_mul (by unfold c2; omega) r2
        _ ≤ 42600000000 := by norm_num
    · obtain rfl : k = 19 := by omega
      have h3 : s + d ≤ 2 ^ 20 + 16 * (t + 1) := by omega
      calc (s + d + c2) * r ≤ (2 ^ 20 + 16 * (t + 1) + 16128) * r := Nat.mul_le_mul_right _ (by unfold c2; omega)
        _ ≤ 42600000000 := by omega
  have k3 : 4455 * (s + d + c2) * r ≤ 4455 * 42600000000 := by rw [mul_assoc]; exact Nat.mul_le_mul_left _ key
  have k4 : input * (4455 * (s + d + c2) * r / 2 ^ 14) < 2 ^ 64 := by
    calc input * (4455 * (s + d + c2) * r / 2 ^ 14) ≤ 2 ^ 30 * (4455 * 42600000000 / 2 ^ 14) := Nat.mul_le_mul hi (Nat.div_le_div_right k3)
      _ < 2 ^ 64 := by norm_num
  unfold boost64 sub
  rw [if_pos hb]
  simp only [Option.bind_eq_bind, Option.bind_some, es, ed]
  rw [chk_lt (by omega), Option.bind_some, chk_lt (by unfold c1; omega), Option.bind_some, e, Option.bind_some]
  simp only
  rw [chk_lt (by unfold c2; omega), Option.bind_some, ratio_eq, chk_lt (by unfold c2; omega), Option.bind_some, chk_lt (by omega), Option.bind_some,
    Nat.shiftRight_eq_div_pow, chk_lt k4, Option.bind_some, Nat.shiftRight_eq_div_pow]

/-- The approximation relative to the root. -/
theorem root_accurate {x k t r : Nat} {y : ℝ} (y2 : y * y = x) (hy : 0 < y) (k1 : 11 ≤ k) (t1 : t * 2 ^ (2 * k - 14) ≤ x) (t2 : x < (t + 1) * 2 ^ (2 * k - 14)) (r1 : 16777 ≤ r)
    (r3 : 9523 * 2 ^ 44 ≤ 10000 * (r * r * t)) (r4 : 10000 * (r * r * t) ≤ 10487 * 2 ^ 44) (t3 : 16384 ≤ t) :
    0.9758 ≤ r * y / 2 ^ (15 + k) ∧ r * y / 2 ^ (15 + k) ≤ 1.0242 := by
  have ppos : (0 : ℝ) < 2 ^ (15 + k) := by positivity
  have ep : ((2 : ℝ) ^ (15 + k)) * 2 ^ (15 + k) = 2 ^ 44 * 2 ^ (2 * k - 14) := by rw [← pow_add, ← pow_add]; congr 1; omega
  have qpos : (0 : ℝ) < 2 ^ (2 * k - 14) := by positivity
  have T1 : (t : ℝ) * 2 ^ (2 * k - 14) ≤ x := by exact_mod_cast t1
  have T2 : (x : ℝ) < (t + 1) * 2 ^ (2 * k - 14) := by exact_mod_cast t2
  have R3 : (9523 * 2 ^ 44 : ℝ) ≤ 10000 * (r * r * t) := by exact_mod_cast r3
  have R4 : (10000 * (r * r * t) : ℝ) ≤ 10487 * 2 ^ 44 := by exact_mod_cast r4
  have R1 : (16777 : ℝ) ≤ r := by exact_mod_cast r1
  have T3 : (16384 : ℝ) ≤ t := by exact_mod_cast t3
  generalize (2 : ℝ) ^ (15 + k) = P at ppos ep ⊢
  generalize (2 : ℝ) ^ (2 * k - 14) = Q at ep qpos T1 T2
  generalize (r : ℝ) = r at R1 R3 R4 ⊢
  generalize (t : ℝ) = t at T1 T2 T3 R3 R4
  generalize (x : ℝ) = x at y2 T1 T2
  obtain ⟨ρ, hρ⟩ : ∃ ρ : ℝ, ρ = r * y / P := ⟨_, rfl⟩
  have ρpos : 0 < ρ := by rw [hρ]; have : 0 < r := by linarith
                          positivity
  rw [← hρ]
  have hP : ρ * P = r * y := by rw [hρ]; field_simp
  have ρ2 : ρ * ρ * (2 ^ 44 * Q) = r * r * x := by
    rw [← ep, ← y2]
    calc ρ * ρ * (P * P) = (ρ * P) * (ρ * P) := by ring
      _ = r * r * (y * y) := by rw [hP]; ring
  have rr : 0 ≤ r * r := mul_self_nonneg r
  have lo : 0.9523 ≤ ρ * ρ := by
    have : r * r * (t * Q) ≤ r * r * x := mul_le_mul_of_nonneg_left T1 rr
    rw [← ρ2] at this
    have : r * r * t * Q ≤ ρ * ρ * 2 ^ 44 * Q := by linarith
    have := le_of_mul_le_mul_right this qpos
    linarith
  have hi : ρ * ρ ≤ 1.0488 := by
    have : r * r * x ≤ r * r * ((t + 1) * Q) := mul_le_mul_of_nonneg_left T2.le rr
    rw [← ρ2] at this
    have : ρ * ρ * 2 ^ 44 * Q ≤ r * r * (t + 1) * Q := by linarith
    have := le_of_mul_le_mul_right this qpos
    have h1 : r * r * 16384 ≤ r * r * t := mul_le_mul_of_nonneg_left T3 rr
    linarith
  constructor <;> nlinarith

theorem floor_le (a b : ℕ) : ((a / b : ℕ) : ℝ) ≤ a / b := by
  rcases Nat.eq_zero_or_pos b with rfl | hb
  · simp
  · rw [le_div_iff₀ (by exact_mod_cast hb)]
    exact_mod_cast Nat.div_mul_le_self a b

theorem lt_floor (a : ℕ) {b : ℕ} (hb : 0 < b) : (a : ℝ) / b - 1 ≤ ((a / b : ℕ) : ℝ) := by
  rw [sub_le_iff_le_add, div_le_iff₀ (by exact_mod_cast hb)]
  have : a ≤ (a / b + 1) * b := by rw [Nat.add_mul, one_mul]; exact (Nat.lt_div_mul_add hb).le
  exact_mod_cast this

/-- Rounding. -/
theorem round_accurate {input z r k : Nat} (hz : 16128 ≤ z) (r1 : 16777 ≤ r) :
    (4455 / 2 ^ 14 * (1 - 1 / 1000000) * (input * z * (r / 2 ^ (15 + k))) - 1 : ℝ) ≤ ((input * (4455 * z * r / 2 ^ 14) / 2 ^ (15 + k) : ℕ) : ℝ) ∧
    ((input * (4455 * z * r / 2 ^ 14) / 2 ^ (15 + k) : ℕ) : ℝ) ≤ 4455 / 2 ^ 14 * (input * z * (r / 2 ^ (15 + k))) := by
  have Z1 : (16128 : ℝ) ≤ z := by exact_mod_cast hz
  have R1 : (16777 : ℝ) ≤ r := by exact_mod_cast r1
  have a1 := floor_le (4455 * z * r) (2 ^ 14)
  have a2 := lt_floor (4455 * z * r) (b := 2 ^ 14) (by norm_num)
  generalize ha : 4455 * z * r / 2 ^ 14 = a at a1 a2 ⊢
  have v1 := floor_le (input * a) (2 ^ (15 + k))
  have v2 := lt_floor (input * a) (b := 2 ^ (15 + k)) (by positivity)
  have ppos : (0 : ℝ) < 2 ^ (15 + k) := by positivity
  rw [Nat.cast_pow, Nat.cast_mul, Nat.cast_mul, Nat.cast_ofNat, Nat.cast_ofNat] at a1 a2
  rw [Nat.cast_pow, Nat.cast_mul, Nat.cast_ofNat] at v1 v2
  generalize ((input * a / 2 ^ (15 + k) : ℕ) : ℝ) = v at v1 v2 ⊢
  generalize (2 : ℝ) ^ (15 + k) = P at v1 v2 ppos ⊢
  have h3 : (16128 * 16777 : ℝ) ≤ z * r := mul_le_mul Z1 R1 (by norm_num) (by linarith)
  have iN : (0 : ℝ) ≤ input := by positivity
  have iP : (0 : ℝ) ≤ input / P := by positivity
  have b1 : (a : ℝ) ≤ 4455 / 2 ^ 14 * (z * r) := by linarith
  have b2 : 4455 / 2 ^ 14 * (1 - 1 / 1000000) * (z * r) ≤ (a : ℝ) := by linarith
  have c1 := mul_le_mul_of_nonneg_left b1 iP
  have c2 := mul_le_mul_of_nonneg_left b2 iP
  have e1 : (input : ℝ) * z * (r / P) = input / P * (z * r) := by ring
  have e2 : (input : ℝ) * a / P = input / P * a := by ring
  rw [e1]
  rw [e2] at v1 v2
  constructor <;> linarith

/-- The boost is accurate. -/
theorem boost_accurate {input s d : Nat} (hi : input ≤ 2 ^ 30) (hs : s ≤ 1048100) (hd : d ≤ 1048100) {sv dv bd : Nat} (hb : 8 ≤ bd) (es : sv >>> (2 * (bd - 8)) = s)
    (ed : dv >>> (2 * (bd - 8)) = d) : ∃ v, boost64 input sv dv bd = some v ∧ 39 / 40 * Spec.boosted input s d - 1 ≤ v ∧ (v : ℝ) ≤ 41 / 40 * Spec.boosted input s d := by
  obtain ⟨k, t, r, k1, k2, t1, t2, r1, r2, r3, r4, t3, e⟩ := boost_steps hi hs hd hb es ed
  refine ⟨_, e, ?_⟩
  have hx : 0 < c1 * c1 + s * d := by unfold c1; omega
  have eb : Spec.boosted input s d = 3355 / 12338 * (input * ((s + d + c2 : ℕ) : ℝ) / √((c1 * c1 + s * d : ℕ) : ℝ)) := by
    unfold Spec.boosted c1 c2
    push_cast
    norm_num
    ring
  have hz : 16128 ≤ s + d + c2 := by unfold c2; omega
  generalize c1 * c1 + s * d = x at t1 t2 hx eb
  generalize s + d + c2 = z at hz eb ⊢
  have ypos : 0 < √(x : ℝ) := Real.sqrt_pos.2 (by exact_mod_cast hx)
  have y2 : √(x : ℝ) * √x = x := Real.mul_self_sqrt (by positivity)
  generalize √(x : ℝ) = y at eb ypos y2
  obtain ⟨q1, q2⟩ := root_accurate y2 ypos k1 t1 t2 r1 r3 r4 t3
  obtain ⟨v1, v2⟩ := round_accurate (input := input) (k := k) hz r1
  generalize ((input * (4455 * z * r / 2 ^ 14) / 2 ^ (15 + k) : ℕ) : ℝ) = v at v1 v2 ⊢
  have er : (input : ℝ) * z * (r / 2 ^ (15 + k)) = input * z / y * (r * y / 2 ^ (15 + k)) := by field_simp
  rw [er] at v1 v2
  have Epos : (0 : ℝ) ≤ input * z / y := by positivity
  rw [eb]
  generalize (input * z / y : ℝ) = E at v1 v2 Epos ⊢
  generalize (r * y / 2 ^ (15 + k) : ℝ) = ρ at q1 q2 v1 v2
  have w1 : E * ρ ≤ E * 1.0242 := mul_le_mul_of_nonneg_left q2 Epos
  have w2 : E * 0.9758 ≤ E * ρ := mul_le_mul_of_nonneg_left q1 Epos
  constructor <;> linarith

end Rav1e.Dist
