import Verif.CflSearch.Model
import Verif.CflSearch.Spec
import Verif.Block.Rt
import Mathlib.Tactic.Linarith
import Mathlib.Tactic.Positivity

/-!
# Search of the factors of prediction from luma: theorems
-/

namespace Rav1e.CflSearch

open Rav1e.Block (Cfl)

/-- The best factor with absolute value at most `n` has been found. -/
def Good (cost : Int → Nat) (n : Nat) (s : State) : Prop :=
  s.cost = cost s.alpha ∧ -(n : Int) ≤ s.alpha ∧ s.alpha ≤ n ∧ ∀ y : Int, -(n : Int) ≤ y → y ≤ n → s.cost ≤ cost y

theorem try1_le (cost : Int → Nat) (a : Int) (s : State) : (try1 cost a s).cost ≤ s.cost ∧ (try1 cost a s).cost ≤ cost a ∧
    s.count ≤ (try1 cost a s).count ∧ (cost a < s.cost → (try1 cost a s).count = s.count + 2) ∧
    ((try1 cost a s) = s ∨ (try1 cost a s) = ⟨cost a, a, s.count + 2⟩) := by
  unfold try1
  split
  · refine ⟨?_, ?_, ?_, ?_, .inr rfl⟩ <;> simp; omega
  · refine ⟨?_, ?_, ?_, ?_, .inl rfl⟩ <;> omega

theorem good_step {cost : Int → Nat} {n : Nat} {s : State} (G : Good cost n s) :
    Good cost (n + 1) (try1 cost (-((n + 1 : Nat) : Int)) (try1 cost ((n + 1 : Nat) : Int) s)) := by
  obtain ⟨g1, g2, g3, g4⟩ := G
  obtain ⟨a1, a2, a3, _, a5⟩ := try1_le cost ((n + 1 : Nat) : Int) s
  generalize try1 cost ((n + 1 : Nat) : Int) s = t at *
  obtain ⟨b1, b2, b3, _, b5⟩ := try1_le cost (-((n + 1 : Nat) : Int)) t
  generalize try1 cost (-((n + 1 : Nat) : Int)) t = u at *
  have T : t.cost = cost t.alpha ∧ -((n + 1 : Nat) : Int) ≤ t.alpha ∧ t.alpha ≤ ((n + 1 : Nat) : Int) := by
    rcases a5 with rfl | rfl
    · exact ⟨g1, by omega, by omega⟩
    · exact ⟨rfl, by dsimp only; omega, by dsimp only; omega⟩
  have U : u.cost = cost u.alpha ∧ -((n + 1 : Nat) : Int) ≤ u.alpha ∧ u.alpha ≤ ((n + 1 : Nat) : Int) := by
    rcases b5 with rfl | rfl
    · exact T
    · exact ⟨rfl, by dsimp only; omega, by dsimp only; omega⟩
  refine ⟨U.1, U.2.1, U.2.2, ?_⟩
  intro y h1 h2
  by_cases e1 : y = ((n + 1 : Nat) : Int)
  · subst e1; omega
  · by_cases e2 : y = -((n + 1 : Nat) : Int)
    · subst e2; omega
    · have := g4 y (by omega) (by omega); omega

/-- The loop finds the best factor up to where it stops, which is after at least two factors without success. -/
theorem loop_good {cost : Int → Nat} : ∀ (k n : Nat) (s : State), Good cost n s → 2 ≤ s.count →
    ∃ m, n ≤ m ∧ m ≤ n + k ∧ Good cost m (loop cost (List.range' (n + 1) k) s) ∧ (m = n + k ∨ 3 ≤ m) := by
  intro k
  induction k with
  | zero => intro n s G _; exact ⟨n, le_refl _, by omega, G, .inl (by omega)⟩
  | succ k ih =>
    intro n s G hc
    rw [List.range'_succ]
    unfold loop
    have S := good_step G
    obtain ⟨_, _, a3, _, _⟩ := try1_le cost ((n + 1 : Nat) : Int) s
    obtain ⟨_, _, b3, _, _⟩ := try1_le cost (-((n + 1 : Nat) : Int)) (try1 cost ((n + 1 : Nat) : Int) s)
    dsimp only
    split
    · rename_i h
      exact ⟨n + 1, by omega, by omega, S, .inr (by omega)⟩
    · obtain ⟨m, h1, h2, h3, h4⟩ := ih (n + 1) _ S (by omega)
      exact ⟨m, by omega, by omega, h3, by omega⟩

/-- With a cost that falls towards `m`, the loop does not stop before `m`. -/
theorem loop_reaches {cost : Int → Nat} {p : Int} (F : Spec.FallsTo cost p) : ∀ (k n : Nat) (s : State), n + k = 16 → Good cost n s →
    (n ≤ p.natAbs → 2 + 2 * n ≤ s.count) → ∃ m, p.natAbs ≤ m ∧ m ≤ 16 ∧ Good cost m (loop cost (List.range' (n + 1) k) s) := by
  obtain ⟨f1, f2, f3⟩ := F
  intro k
  induction k with
  | zero => intro n s hn G _; exact ⟨n, by omega, by omega, G⟩
  | succ k ih =>
    intro n s hn G hc
    rw [List.range'_succ]
    unfold loop
    have S := good_step G
    obtain ⟨g1, g2, g3, g4⟩ := G
    obtain ⟨a1, a2, a3, a4, a5⟩ := try1_le cost ((n + 1 : Nat) : Int) s
    obtain ⟨b1, b2, b3, b4, b5⟩ := try1_le cost (-((n + 1 : Nat) : Int)) (try1 cost ((n + 1 : Nat) : Int) s)
    have up : n + 1 ≤ p.natAbs → s.count + 2 ≤ (try1 cost (-((n + 1 : Nat) : Int)) (try1 cost ((n + 1 : Nat) : Int) s)).count := by
      intro hp
      rcases le_total 0 p with h | h
      · have := f3 s.alpha ((n + 1 : Nat) : Int) (by omega) (by omega) (.inl ⟨by omega, by omega⟩)
        have := a4 (by omega)
        omega
      · have c1 := f3 s.alpha (-((n + 1 : Nat) : Int)) (by omega) (by omega) (.inr ⟨by omega, by omega⟩)
        have c2 := f3 ((n + 1 : Nat) : Int) (-((n + 1 : Nat) : Int)) (by omega) (by omega) (.inr ⟨by omega, by omega⟩)
        have : cost (-((n + 1 : Nat) : Int)) < (try1 cost ((n + 1 : Nat) : Int) s).cost := by
          rcases a5 with e | e <;> rw [e]
          · omega
          · exact c2
        have := b4 this
        omega
    dsimp only
    split
    · rename_i h
      refine ⟨n + 1, ?_, by omega, S⟩
      by_contra hlt
      have := up (by omega)
      have := hc (by omega)
      omega
    · exact ih (n + 1) _ (by omega) S (by intro hp; have := up hp; have := hc (by omega); omega)

theorem start_good (cost : Int → Nat) : Good cost 0 ⟨cost 0, 0, 2⟩ := by
  refine ⟨rfl, by simp, by simp, ?_⟩
  intro y h1 h2
  have : y = 0 := by omega
  subst this; exact le_refl _

/-- **C72**, what is found: whatever the costs, the factor is one a stream can have, and no factor from -3 to 3 costs less. -/
theorem alpha_local (cost : Int → Nat) : -16 ≤ bestAlpha cost ∧ bestAlpha cost ≤ 16 ∧ ∀ y : Int, -3 ≤ y → y ≤ 3 → cost (bestAlpha cost) ≤ cost y := by
  obtain ⟨m, _, h2, ⟨g1, g2, g3, g4⟩, h4⟩ := loop_good 16 0 _ (start_good cost) (le_refl _)
  refine ⟨?_, ?_, ?_⟩
  · show _ ≤ (loop cost (List.range' (0 + 1) 16) ⟨cost 0, 0, 2⟩).alpha; omega
  · show (loop cost (List.range' (0 + 1) 16) ⟨cost 0, 0, 2⟩).alpha ≤ _; omega
  · intro y h5 h6
    show cost (loop cost (List.range' (0 + 1) 16) ⟨cost 0, 0, 2⟩).alpha ≤ _
    rw [← g1]
    exact g4 y (by omega) (by omega)

/-- **C72**, the early end: if the cost falls towards one factor, this factor is found although the search stops early. -/
theorem alpha_best (cost : Int → Nat) (p : Int) (F : Spec.FallsTo cost p) : bestAlpha cost = p := by
  obtain ⟨m, h1, h2, g1, g2, g3, g4⟩ := loop_reaches F 16 0 _ rfl (start_good cost) (by intro _; exact le_refl _)
  show (loop cost (List.range' (0 + 1) 16) ⟨cost 0, 0, 2⟩).alpha = p
  generalize loop cost (List.range' (0 + 1) 16) ⟨cost 0, 0, 2⟩ = s at *
  have hp := g4 p (by omega) (by omega)
  rw [g1] at hp
  obtain ⟨f1, f2, f3⟩ := F
  by_contra hne
  have := f3 s.alpha p (by omega) (by omega) (by omega)
  omega

/-- The hypothesis of `alpha_best` is met; the search ends before it has tried all factors. -/
example : Spec.FallsTo (fun y => (100 * (y + 5) ^ 2 + 7).toNat) (-5) ∧ bestAlpha (fun y => (100 * (y + 5) ^ 2 + 7).toNat) = -5 := by
  refine ⟨⟨by norm_num, by norm_num, ?_⟩, by decide +kernel⟩
  intro y z h1 h2 h3
  have a : 0 ≤ (z + 5) ^ 2 := by positivity
  have b : (z + 5) ^ 2 < (y + 5) ^ 2 := by rcases h3 with h | h <;> nlinarith
  show (100 * (z + 5) ^ 2 + 7).toNat < (100 * (y + 5) ^ 2 + 7).toNat
  omega

/-- **C72**, the limit of the early end: a better factor behind three that are no better is missed. -/
theorem alpha_missed : let cost : Int → Nat := fun y => if y = 4 then 0 else 9; bestAlpha cost = 0 ∧ cost 4 < cost (bestAlpha cost) := by
  decide +kernel

/-- **C72**, coding: prediction from luma is offered exactly for visible blocks with a factor that is not 0, and then the parameters can be
written, and a decoder reads the two factors with which the prediction was made. -/
theorem params_decoder (visible : Bool) (costU costV : Int → Nat) :
    (rdoCflAlpha visible costU costV = none ↔ visible = false ∨ (bestAlpha costU = 0 ∧ bestAlpha costV = 0)) ∧
    ∀ c, rdoCflAlpha visible costU costV = some c → ∃ s, Block.writeCflAlphas c = some s ∧
      ∀ rest, Block.Spec.readCflAlphas (s ++ rest) = some ((bestAlpha costU, bestAlpha costV), rest) := by
  obtain ⟨u1, u2, _⟩ := alpha_local costU
  obtain ⟨v1, v2, _⟩ := alpha_local costV
  unfold rdoCflAlpha
  generalize bestAlpha costU = u at *
  generalize bestAlpha costV = v at *
  constructor
  · cases visible <;> by_cases h : u = 0 ∧ v = 0 <;> simp [h]
  · intro c hc
    cases visible
    · simp at hc
    · rw [if_pos rfl] at hc
      by_cases h : u = 0 ∧ v = 0
      · rw [if_pos h] at hc; cases hc
      · rw [if_neg h] at hc
        cases hc
        have sc : ∀ a : Int, -16 ≤ a → a ≤ 16 → Block.cflAlpha (signOf a) (a.natAbs % 256) = a ∧ signOf a ≤ 2 ∧ a.natAbs % 256 ≤ 16 ∧
            (signOf a = 0 ↔ a = 0) ∧ (a.natAbs % 256 = 0 ↔ a = 0) := by
          intro a h1 h2
          have hm : a.natAbs % 256 = a.natAbs := Nat.mod_eq_of_lt (by omega)
          rw [hm]
          unfold Block.cflAlpha signOf
          rcases lt_trichotomy a 0 with h | h | h
          · simp only [if_pos h]; refine ⟨?_, ?_, ?_, ?_, ?_⟩ <;> (try simp only [reduceIte, one_ne_zero, false_iff]) <;> omega
          · subst h; simp
          · simp only [if_neg (show ¬ a < 0 by omega), if_neg (show ¬ a = 0 by omega)]; refine ⟨?_, ?_, ?_, ?_, ?_⟩ <;> (try simp only [reduceIte, OfNat.ofNat_ne_zero, OfNat.ofNat_ne_one, false_iff]) <;> omega
        obtain ⟨p1, p2, p3, p4, p5⟩ := sc u u1 u2
        obtain ⟨q1, q2, q3, q4, q5⟩ := sc v v1 v2
        have W : ∃ s, Block.writeCflAlphas (fromAlpha u v) = some s := by
          unfold Block.writeCflAlphas Block.cflIndex fromAlpha
          dsimp only
          by_cases hu : u = 0 <;> by_cases hv : v = 0
          · exact absurd ⟨hu, hv⟩ h
          · simp [p4.mpr hu, mt q4.mp hv, mt q5.mp hv]
          · simp [q4.mpr hv, mt p4.mp hu, mt p5.mp hu]
          · simp [mt q4.mp hv, mt q5.mp hv, mt p4.mp hu, mt p5.mp hu]
        obtain ⟨s, hs⟩ := W
        refine ⟨s, hs, fun rest => ?_⟩
        have R := Block.cfl_rt (c := fromAlpha u v) ⟨p2, q2, p3, q3⟩ hs rest
        rw [R]
        unfold fromAlpha
        rw [p1, q1]

/-- Prediction from luma is offered. -/
example : rdoCflAlpha true (fun y => (y - 6).natAbs) (fun y => (y + 2).natAbs) = some ⟨2, 1, 6, 2⟩ := by decide +kernel

end Rav1e.CflSearch
