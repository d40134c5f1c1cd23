import Verif.Mvref.Syntax

/-!
# Differences of motion vectors survive coding
-/

namespace Rav1e.Mvref

open Spec (Cdf Sym)

theorem and_three (n : Nat) : n &&& 3 = n % 4 := Nat.and_two_pow_sub_one_eq_mod n 2

theorem and_one (n : Nat) : n &&& 1 = n % 2 := Nat.and_two_pow_sub_one_eq_mod n 1

/-- The parts of a number put together. -/
theorem parts (n : Nat) : ((n >>> 3) <<< 3) ||| (((n >>> 1) &&& 3) <<< 1) ||| (n &&& 1) = n := by
  rw [and_three, and_one]
  have h1 : ((n >>> 3) <<< 3) ||| ((n >>> 1 % 4) <<< 1) = (n >>> 3) <<< 3 + (n >>> 1 % 4) <<< 1 :=
    (Nat.shiftLeft_add_eq_or_of_lt (by simp only [Nat.shiftLeft_eq, Nat.shiftRight_eq_div_pow]; omega) _).symm
  rw [h1]
  have h2 : (n >>> 3) <<< 3 + (n >>> 1 % 4) <<< 1 = (n >>> 1) <<< 1 := by
    simp only [Nat.shiftLeft_eq, Nat.shiftRight_eq_div_pow]; omega
  rw [h2, ← Nat.shiftLeft_add_eq_or_of_lt (by omega : n % 2 < 2 ^ 1)]
  simp only [Nat.shiftLeft_eq, Nat.shiftRight_eq_div_pow]; omega

/-- The class of a magnitude. -/
theorem class_spec {z : Nat} (hz : z < 16384) : (getMvClass z).1 ≤ 10 ∧
    ((getMvClass z).1 = 0 → (getMvClass z).2 = z ∧ z < 16) ∧
    ((getMvClass z).1 ≠ 0 → (getMvClass z).2 + 2 <<< ((getMvClass z).1 + 2) = z ∧ (getMvClass z).2 < 8 * 2 ^ (getMvClass z).1) := by
  unfold getMvClass mvClassBase
  have hs : z >>> 3 = z / 8 := by rw [Nat.shiftRight_eq_div_pow]
  dsimp only
  by_cases h : z ≥ 2 * 4096
  · rw [if_pos h]
    refine ⟨le_refl _, fun h => absurd h (by decide), fun _ => ?_⟩
    rw [if_pos (by decide)]
    simp only [Nat.shiftLeft_eq]
    omega
  · rw [if_neg h, hs]
    by_cases h0 : z / 8 = 0
    · rw [h0]
      refine ⟨by decide, fun _ => ⟨?_, by omega⟩, fun h => absurd (by decide) h⟩
      rw [if_neg (by decide)]; omega
    · have a1 := Nat.log2_self_le h0
      have a2 : z / 8 < 2 ^ ((z / 8).log2 + 1) := Nat.lt_log2_self
      generalize (z / 8).log2 = c at a1 a2
      have hc : c ≤ 9 := by
        by_contra hc
        have : 2 ^ 10 ≤ 2 ^ c := Nat.pow_le_pow_right (by omega) (by omega)
        omega
      rw [Nat.pow_succ] at a2
      refine ⟨by omega, ?_, ?_⟩
      · intro hc0
        rw [if_neg (by rw [hc0]; simp)]
        subst hc0
        omega
      · intro hc0
        rw [if_pos hc0]
        have e1 : 2 <<< (c + 2) = 8 * 2 ^ c := by rw [Nat.shiftLeft_eq, Nat.pow_add]; omega
        rw [e1]
        omega

theorem read_cons (c : Cdf) {v : Nat} (h : v < c.size) (l : List Sym) : Spec.read c ((c, v) :: l) = some (v, l) := by
  rw [Spec.read, if_pos ⟨rfl, h⟩]

/-- The bits of a number. -/
theorem bits_spec (axis n D : Nat) (rest : List Sym) : ∀ k i, i + k = n →
    Spec.readBits axis n k i (D % 2 ^ i) (((List.range' i k).map fun i => ((.mvBit axis i : Cdf), (D >>> i) &&& 1)) ++ rest) = some (D % 2 ^ n, rest)
  | 0, i, h => by
    obtain rfl : i = n := by omega
    rfl
  | k + 1, i, h => by
    rw [List.range'_succ, List.map_cons, List.cons_append, Spec.readBits, if_pos (by omega)]
    rw [read_cons _ (by rw [and_one]; exact Nat.mod_lt _ (by decide))]
    simp only [Option.bind_eq_bind, Option.bind_some]
    have e : D % 2 ^ i ||| ((D >>> i &&& 1) <<< i) = D % 2 ^ (i + 1) := by
      rw [Nat.or_comm, ← Nat.shiftLeft_add_eq_or_of_lt (Nat.mod_lt _ (Nat.pow_pos (by decide))), and_one, Nat.shiftRight_eq_div_pow, Nat.shiftLeft_eq,
        Nat.mod_pow_succ]
      rw [Nat.mul_comm, Nat.add_comm]
    rw [e]
    exact bits_spec axis n D rest k (i + 1) (by omega)

/-- The differences that a precision can express. -/
def Precision.Fits (prec : Precision) (v : Int) : Prop :=
  match prec with
  | .none => v % 8 = 0
  | .low => v % 2 = 0
  | .high => True

/-- A component is read back. -/
theorem component_rt {comp : Int} {axis : Nat} {prec : Precision} (h0 : comp ≠ 0) (h1 : -16384 ≤ comp) (h2 : comp ≤ 16384) (hp : prec.Fits comp) :
    ∃ l, encodeMvComponent comp axis prec = some l ∧
      ∀ rest, Spec.readMvComponent (decide (prec = .none)) (decide (prec = .high)) axis (l ++ rest) = some (comp, rest) := by
  unfold encodeMvComponent
  rw [if_pos ⟨h0, h1, h2⟩]
  have hz : comp.natAbs - 1 < 16384 := by omega
  obtain ⟨c1, c2, c3⟩ := class_spec hz
  dsimp only
  generalize hg : getMvClass (comp.natAbs - 1) = g at *
  obtain ⟨c, off⟩ := g
  dsimp only at c1 c2 c3 ⊢
  have hrange : List.range (c + 1 - 1) = List.range' 0 c := by rw [Nat.add_sub_cancel, List.range_eq_range']
  rw [hrange]
  have hoff : off % 8 = (comp.natAbs - 1) % 8 := by
    by_cases hc : c = 0
    · rw [(c2 hc).1]
    · have := (c3 hc).1
      rw [Nat.shiftLeft_eq, Nat.pow_add] at this
      omega
  have hpar := parts off
  have hfr : (off >>> 1) &&& 3 < 4 := by rw [and_three]; omega
  have hhp : off &&& 1 < 2 := by rw [and_one]; omega
  have hhp1 : prec ≠ .high → off &&& 1 = 1 := by
    intro hh
    rw [and_one]
    cases prec with
    | none => change comp % 8 = 0 at hp; omega
    | low => change comp % 2 = 0 at hp; omega
    | high => exact absurd rfl hh
  have hfr3 : prec = .none → (off >>> 1) &&& 3 = 3 := by
    rintro rfl
    change comp % 8 = 0 at hp
    rw [and_three, Nat.shiftRight_eq_div_pow]
    omega
  have hsgn : (if comp < 0 then 1 else 0) < 2 := by split_ifs <;> omega
  have hval : ∀ m : Nat, m = comp.natAbs → (if (if comp < 0 then 1 else 0) = 1 then -(m : Int) else (m : Int)) = comp := by
    rintro m rfl
    by_cases hc : comp < 0
    · rw [if_pos hc, if_pos rfl]; omega
    · rw [if_neg hc, if_neg (by decide)]; omega
  refine ⟨_, rfl, fun rest => ?_⟩
  unfold Spec.readMvComponent
  simp only [List.cons_append, List.nil_append]
  rw [read_cons _ hsgn]
  simp only [Option.bind_eq_bind, Option.bind_some]
  rw [read_cons (.mvClass axis) (show c < 11 from by omega)]
  simp only [Option.bind_some]
  have key : Spec.readMag (decide (prec = .none)) (decide (prec = .high)) axis c
      ((if c = 0 then [(Cdf.mvClass0Bit axis, off >>> 3)] else (List.range' 0 c).map fun i => ((.mvBit axis i : Cdf), (off >>> 3 >>> i) &&& 1)) ++
        ((if prec ≠ .none then [(if c = 0 then Cdf.mvClass0Fr axis (off >>> 3) else .mvFr axis, (off >>> 1) &&& 3)] else []) ++
        ((if prec = .high then [(if c = 0 then Cdf.mvClass0Hp axis else .mvHp axis, off &&& 1)] else []) ++ rest))) = some (comp.natAbs, rest) := by
    unfold Spec.readMag
    by_cases hc : c = 0
    · obtain ⟨z1, z2⟩ := c2 hc
      have hd : off >>> 3 < 2 := by rw [Nat.shiftRight_eq_div_pow]; omega
      have hend : comp.natAbs = off + 1 := by omega
      simp only [if_pos hc, List.cons_append, List.nil_append]
      rw [read_cons (.mvClass0Bit axis) hd, hend]
      simp only [Option.bind_eq_bind, Option.bind_some]
      have hf : ∀ r, Spec.read (.mvClass0Fr axis (off >>> 3)) ((.mvClass0Fr axis (off >>> 3), (off >>> 1) &&& 3) :: r) = some ((off >>> 1) &&& 3, r) :=
        fun r => read_cons (.mvClass0Fr axis (off >>> 3)) hfr r
      have hh : ∀ r, Spec.read (.mvClass0Hp axis) ((.mvClass0Hp axis, off &&& 1) :: r) = some (off &&& 1, r) := fun r => read_cons (.mvClass0Hp axis) hhp r
      cases prec with
      | none =>
        rw [hfr3 rfl, hhp1 (by decide)] at hpar
        simp only [decide_false, decide_true, ne_eq, reduceCtorEq, not_true_eq_false, if_true, if_false, Bool.false_eq_true, List.nil_append, hpar]
      | low =>
        rw [hhp1 (by decide)] at hpar
        simp only [decide_false, ne_eq, reduceCtorEq, not_false_eq_true, if_true, if_false, Bool.false_eq_true, List.cons_append, List.nil_append, hf,
          Option.bind_some, hpar]
      | high =>
        simp only [decide_false, decide_true, ne_eq, reduceCtorEq, not_false_eq_true, if_true, if_false, Bool.false_eq_true, List.cons_append, List.nil_append, hf,
          hh, Option.bind_some, hpar]
    · obtain ⟨z1, z2⟩ := c3 hc
      have hd : off >>> 3 < 2 ^ c := by rw [Nat.shiftRight_eq_div_pow]; omega
      have hend : comp.natAbs = 2 <<< (c + 2) + (off + 1) := by omega
      simp only [if_neg hc]
      have hb := fun r => bits_spec axis c (off >>> 3) r c 0 (by omega)
      simp only [Nat.pow_zero, Nat.mod_one, Nat.mod_eq_of_lt hd] at hb
      rw [hb, hend]
      simp only [Option.bind_eq_bind, Option.bind_some]
      have hf : ∀ r, Spec.read (.mvFr axis) ((.mvFr axis, (off >>> 1) &&& 3) :: r) = some ((off >>> 1) &&& 3, r) := fun r => read_cons (.mvFr axis) hfr r
      have hh : ∀ r, Spec.read (.mvHp axis) ((.mvHp axis, off &&& 1) :: r) = some (off &&& 1, r) := fun r => read_cons (.mvHp axis) hhp r
      cases prec with
      | none =>
        rw [hfr3 rfl, hhp1 (by decide)] at hpar
        simp only [decide_false, decide_true, ne_eq, reduceCtorEq, not_true_eq_false, if_true, if_false, Bool.false_eq_true, List.nil_append, hpar]
      | low =>
        rw [hhp1 (by decide)] at hpar
        simp only [decide_false, ne_eq, reduceCtorEq, not_false_eq_true, if_true, if_false, Bool.false_eq_true, List.cons_append, List.nil_append, hf,
          Option.bind_some, hpar]
      | high =>
        simp only [decide_false, decide_true, ne_eq, reduceCtorEq, not_false_eq_true, if_true, if_false, Bool.false_eq_true, List.cons_append, List.nil_append, hf,
          hh, Option.bind_some, hpar]
  simp only [List.append_assoc]
  rw [key]
  simp only [Option.bind_some, Option.some.injEq, Prod.mk.injEq, and_true]
  exact hval _ rfl

/-- A motion vector is read back from its difference. -/
theorem writeMv_rt {mv pred : Mv} {prec : Precision} (hv : isValid mv = true) (hr : -16384 ≤ mv.1 - pred.1 ∧ mv.1 - pred.1 ≤ 16384)
    (hc : -16384 ≤ mv.2 - pred.2 ∧ mv.2 - pred.2 ≤ 16384) (fr : prec.Fits (mv.1 - pred.1)) (fc : prec.Fits (mv.2 - pred.2)) :
    ∃ l, writeMv mv pred prec = some l ∧ ∀ rest, Spec.readMv (decide (prec = .none)) (decide (prec = .high)) pred (l ++ rest) = some (mv, rest) := by
  unfold writeMv subI16
  rw [if_pos hv, if_pos (by omega), if_pos (by omega)]
  simp only [Option.bind_eq_bind, Option.bind_some]
  have emv : mv = (pred.1 + (mv.1 - pred.1), pred.2 + (mv.2 - pred.2)) := by
    ext
    · dsimp only; omega
    · dsimp only; omega
  generalize mv.1 - pred.1 = r at *
  generalize mv.2 - pred.2 = c at *
  rw [emv]
  unfold mvJoint
  dsimp only
  by_cases r0 : r = 0 <;> by_cases c0 : c = 0
  · simp only [r0, c0, if_true]
    refine ⟨_, rfl, fun rest => ?_⟩
    unfold Spec.readMv
    rw [List.cons_append, List.cons_append, read_cons .mvJoint (by decide)]
    simp
  · obtain ⟨l, h1, h2⟩ := component_rt (axis := 1) c0 hc.1 hc.2 fc
    simp only [r0, c0, if_true, if_false, h1]
    refine ⟨_, rfl, fun rest => ?_⟩
    unfold Spec.readMv
    rw [List.cons_append, List.cons_append, read_cons .mvJoint (by decide)]
    simp [h2]
  · obtain ⟨l, h1, h2⟩ := component_rt (axis := 0) r0 hr.1 hr.2 fr
    simp only [r0, c0, if_true, if_false, h1]
    refine ⟨_, rfl, fun rest => ?_⟩
    unfold Spec.readMv
    rw [List.cons_append, List.cons_append, read_cons .mvJoint (by decide)]
    simp [h2]
  · obtain ⟨l, h1, h2⟩ := component_rt (axis := 0) r0 hr.1 hr.2 fr
    obtain ⟨l', h1', h2'⟩ := component_rt (axis := 1) c0 hc.1 hc.2 fc
    simp only [r0, c0, if_false, h1, h1']
    refine ⟨_, rfl, fun rest => ?_⟩
    unfold Spec.readMv
    rw [List.cons_append, List.cons_append, List.append_assoc, read_cons .mvJoint (by decide)]
    simp [h2, h2']

end Rav1e.Mvref
