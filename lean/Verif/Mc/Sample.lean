import Verif.Mc.Taps
import Mathlib.Tactic.NormNum

/-! # Positions and rounding -/

namespace Rav1e.Mc

open Spec (round2 round2Signed clip3)

theorem roundShift_eq {n : Nat} (h : 0 < n) (v : Int) : roundShift v n = round2 v n := by
  unfold roundShift round2
  rw [if_neg (by omega), Int.shiftRight_eq_div_pow]
  have : (1 <<< n >>> 1 : Nat) = 2 ^ (n - 1) := by
    rw [Nat.shiftRight_eq_div_pow, Nat.shiftLeft_eq, Nat.one_mul]
    obtain ⟨m, rfl⟩ : ∃ m, n = m + 1 := ⟨n - 1, by omega⟩
    rw [pow_succ]
    simp
  rw [this]
  push_cast
  rfl

theorem i16_id {v : Int} (h1 : -32768 ≤ v) (h2 : v ≤ 32767) : i16 v = v := by unfold i16; omega

theorem clampPx_eq (bd : Nat) (v : Int) : clampPx bd v = clip3 0 (2 ^ bd - 1) v := by
  have h : ((1 <<< bd : Nat) : Int) = 2 ^ bd := by rw [Nat.shiftLeft_eq]; push_cast; ring
  have : (1 : Int) ≤ 2 ^ bd := one_le_pow₀ (by norm_num)
  unfold clampPx clip3
  rw [h]
  generalize (2 : Int) ^ bd = m at *
  split_ifs <;> omega

/-- What the decoder computes from the samples `P` around the block. -/
def ideal (fx fy : Nat → Int) (P : Nat → Nat → Int) (r0 r1 r c : Nat) : Int :=
  round2 (dot fy (fun t => round2 (dot fx (fun s => P (r + t) (c + s))) r0)) r1

section
variable {fx fy : Nat → Int} {P : Nat → Nat → Int} {r c : Nat}

theorem ideal_copy (hx : Copies fx) (hy : Copies fy) :
    ideal fx fy P 3 11 r c = P (r + 3) (c + 3) ∧ ideal fx fy P 5 9 r c = P (r + 3) (c + 3) ∧
    ideal fx fy P 3 7 r c = P (r + 3) (c + 3) * 2 ^ 4 ∧ ideal fx fy P 5 7 r c = P (r + 3) (c + 3) * 2 ^ 2 := by
  unfold ideal
  simp only [hy _, hx _]
  simp only [round2]
  norm_num
  omega

theorem round2_mul16 (x : Int) : round2 (128 * x) 3 = 16 * x := by simp only [round2]; norm_num; omega
theorem round2_mul4 (x : Int) : round2 (128 * x) 5 = 4 * x := by simp only [round2]; norm_num; omega

theorem ideal_vert (hx : Copies fx) :
    ideal fx fy P 3 11 r c = round2 (dot fy (fun t => P (r + t) (c + 3))) 7 ∧
    ideal fx fy P 5 9 r c = round2 (dot fy (fun t => P (r + t) (c + 3))) 7 ∧
    ideal fx fy P 3 7 r c = round2 (dot fy (fun t => P (r + t) (c + 3))) 3 ∧
    ideal fx fy P 5 7 r c = round2 (dot fy (fun t => P (r + t) (c + 3))) 5 := by
  unfold ideal
  simp only [hx _, round2_mul16, round2_mul4]
  rw [dot_smul fy (fun t => P (r + t) (c + 3)) 16, dot_smul fy (fun t => P (r + t) (c + 3)) 4]
  generalize dot fy _ = S
  simp only [round2]
  norm_num
  omega

theorem ideal_horz (hy : Copies fy) :
    ideal fx fy P 3 11 r c = round2 (round2 (dot fx (fun s => P (r + 3) (c + s))) 3) 4 ∧
    ideal fx fy P 5 9 r c = round2 (round2 (dot fx (fun s => P (r + 3) (c + s))) 5) 2 ∧
    ideal fx fy P 3 7 r c = round2 (dot fx (fun s => P (r + 3) (c + s))) 3 ∧
    ideal fx fy P 5 7 r c = round2 (dot fx (fun s => P (r + 3) (c + s))) 5 := by
  unfold ideal
  simp only [hy _]
  generalize round2 (dot fx fun s => P (r + 3) (c + s)) 3 = A
  generalize round2 (dot fx fun s => P (r + 3) (c + s)) 5 = B
  simp only [round2]
  norm_num
  omega

/-- The horizontal filter fits in 16 bits. -/
theorem horz_range {bd : Nat} (hbd : bd = 8 ∨ bd = 10 ∨ bd = 12) (tx : Tame fx) (hP : ∀ i j, 0 ≤ P i j ∧ P i j < 2 ^ bd) (i : Nat) :
    -7183 ≤ round2 (dot fx (fun s => P i (c + s))) (7 - intermediateBits bd) ∧
    round2 (dot fx (fun s => P i (c + s))) (7 - intermediateBits bd) ≤ 23546 := by
  have h := dot_range (v := fun s => P i (c + s)) (lo := 0) (hi := 2 ^ bd - 1) tx (by omega)
    (by have : (1 : Int) ≤ 2 ^ bd := one_le_pow₀ (by norm_num)
        omega)
    (fun s _ => ⟨(hP i (c + s)).1, by have := (hP i (c + s)).2; omega⟩)
  revert h
  generalize dot fx _ = S
  rcases hbd with rfl | rfl | rfl <;> simp only [round2, intermediateBits] <;> norm_num <;> omega

/-- The prediction of a reference of compound prediction fits in 16 bits once the bias is subtracted. -/
theorem prep_range {bd : Nat} (hbd : bd = 8 ∨ bd = 10 ∨ bd = 12) (tx : Tame fx) (ty : Tame fy)
    (hP : ∀ i j, 0 ≤ P i j ∧ P i j < 2 ^ bd) :
    -32768 ≤ ideal fx fy P (7 - intermediateBits bd) 7 r c - prepBias bd ∧
    ideal fx fy P (7 - intermediateBits bd) 7 r c - prepBias bd ≤ 32767 := by
  unfold ideal
  have hd : ∀ i : Nat, 184 * (0 : Int) - 56 * (2 ^ bd - 1) ≤ dot fx (fun s => P i (c + s)) ∧
      dot fx (fun s => P i (c + s)) ≤ 184 * (2 ^ bd - 1) - 56 * 0 := fun i =>
    dot_range (v := fun s => P i (c + s)) (lo := 0) (hi := 2 ^ bd - 1) tx (by omega)
      (by have : (1 : Int) ≤ 2 ^ bd := one_le_pow₀ (by norm_num)
          omega)
      (fun s _ => ⟨(hP i (c + s)).1, by have := (hP i (c + s)).2; omega⟩)
  have h1 : ∀ t < 8, (if bd = 8 then -1785 else -7166) ≤ round2 (dot fx (fun s => P (r + t) (c + s))) (7 - intermediateBits bd) ∧
      round2 (dot fx (fun s => P (r + t) (c + s))) (7 - intermediateBits bd) ≤ (if bd = 8 then 5865 else 23546) := by
    intro t _
    have h := hd (r + t)
    revert h
    generalize dot fx _ = S
    rcases hbd with rfl | rfl | rfl <;> simp only [round2, intermediateBits] <;> norm_num <;> omega
  have h2 := dot_range ty (by split_ifs <;> omega) (by split_ifs <;> omega) h1
  revert h2
  generalize dot fy _ = S
  rcases hbd with rfl | rfl | rfl <;> simp only [round2, prepBias] <;> norm_num <;> omega

end

/-! ## Positions -/

theorem scale_self {n : Nat} (h : 0 < n) : Spec.Dec.scale n n = 16384 := by
  unfold Spec.Dec.scale
  have h' : (0 : Int) < n := by exact_mod_cast h
  have : (n : Int) * 2 ^ 14 + (n : Int) / 2 = (n : Int) / 2 + 16384 * n := by ring
  rw [this, Int.add_mul_ediv_right _ _ (by omega), Int.ediv_eq_zero_of_lt (by omega) (by omega)]
  rfl

theorem step_self : Spec.Dec.step 16384 = 1024 := by decide

theorem startPos_self (x : Nat) (mv : Int) (sub : Nat) :
    Spec.Dec.startPos x mv sub 16384 = 64 * ((x : Int) * 16 + (2 * mv) / 2 ^ sub) + 32 := by
  unfold Spec.Dec.startPos round2Signed round2
  generalize (2 * mv) / 2 ^ sub = m
  norm_num
  split_ifs
  all_goals omega

/-- The fraction and the offset of a motion vector. -/
theorem mv_split {sub : Nat} (h : sub = 0 ∨ sub = 1) (mv : Int) :
    (2 * mv) / 2 ^ sub % 16 = (mv * 2 ^ (1 - sub)) % 16 ∧ (2 * mv) / 2 ^ sub / 16 = mv >>> (3 + sub) := by
  rw [Int.shiftRight_eq_div_pow]
  rcases h with rfl | rfl <;> norm_num <;> omega

end Rav1e.Mc
