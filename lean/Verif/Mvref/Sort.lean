import Verif.Mvref.Stack

/-!
# Sorting

A stable sort of the whole stack is what the decoder gets by exchanging neighbours in its two halves, because every weight in the first half is larger than
every weight in the second.
-/

namespace Rav1e.Mvref

open Spec (Entry)

def Desc (l : List Entry) : Prop := l.Pairwise fun a b => b.weight ≤ a.weight

def atW (v : Nat) (l : List Entry) : List Entry := l.filter fun e => decide (e.weight = v)

theorem mem_of_atW {l l' : List Entry} (h : ∀ v, atW v l = atW v l') {x : Entry} (hx : x ∈ l) : x ∈ l' := by
  have : x ∈ atW x.weight l := List.mem_filter.mpr ⟨hx, by simp⟩
  rw [h] at this
  exact List.mem_of_mem_filter this

/-- There is only one stable sort. -/
theorem stable_unique : ∀ {l l' : List Entry}, Desc l → Desc l' → (∀ v, atW v l = atW v l') → l = l' := by
  intro l
  induction l with
  | nil =>
    intro l' _ _ h
    cases l' with
    | nil => rfl
    | cons b l' => exact absurd (mem_of_atW (fun v => (h v).symm) (List.mem_cons_self (a := b))) (by simp)
  | cons a l ih =>
    intro l' h1 h2 h
    cases l' with
    | nil => exact absurd (mem_of_atW h (List.mem_cons_self (a := a))) (by simp)
    | cons b l' =>
      obtain ⟨a1, a2⟩ := List.pairwise_cons.mp h1
      obtain ⟨b1, b2⟩ := List.pairwise_cons.mp h2
      have e1 : b.weight ≤ a.weight := by
        rcases List.mem_cons.mp (mem_of_atW (fun v => (h v).symm) (List.mem_cons_self (a := b))) with e | e
        · rw [e]
        · exact a1 b e
      have e2 : a.weight ≤ b.weight := by
        rcases List.mem_cons.mp (mem_of_atW h (List.mem_cons_self (a := a))) with e | e
        · rw [e]
        · exact b1 a e
      have hv := h a.weight
      have f1 : atW a.weight (a :: l) = a :: atW a.weight l := by simp [atW]
      have f2 : atW a.weight (b :: l') = b :: atW a.weight l' := by simp [atW, Nat.le_antisymm e1 e2]
      rw [f1, f2] at hv
      obtain ⟨hab, hv'⟩ := List.cons.inj hv
      subst hab
      rw [ih a2 b2]
      intro v
      by_cases hva : a.weight = v
      · rw [← hva]; exact hv'
      · have := h v
        simpa [atW, List.filter_cons, hva] using this

theorem sortPass_atW (v : Nat) : ∀ (l : List Entry) (a : Entry) (idx ne : Nat), atW v (Spec.sortPass a idx ne l).1 = atW v (a :: l) := by
  intro l
  induction l with
  | nil => intro a idx ne; rfl
  | cons b l ih =>
    intro a idx ne
    rw [Spec.sortPass]
    by_cases hw : a.weight < b.weight
    · rw [if_pos hw]
      have := ih a (idx + 1) idx
      dsimp only
      unfold atW at this ⊢
      rw [List.filter_cons, this]
      simp only [List.filter_cons, decide_eq_true_eq]
      by_cases h1 : b.weight = v
      · by_cases h2 : a.weight = v
        · omega
        · simp [h1, h2]
      · simp [h1]
    · rw [if_neg hw]
      have := ih b (idx + 1) ne
      dsimp only
      unfold atW at this ⊢
      rw [List.filter_cons, this]
      simp only [List.filter_cons, decide_eq_true_eq]

/-- A pass over the entries: either nothing was exchanged, or everything from the last exchange on is in place. -/
theorem sortPass_spec : ∀ (l : List Entry) (a : Entry) (idx ne : Nat), 1 ≤ idx →
    ((Spec.sortPass a idx ne l).2 = ne ∧ (Spec.sortPass a idx ne l).1 = a :: l ∧ Desc (a :: l)) ∨
    ∃ k, (Spec.sortPass a idx ne l).2 + 1 = idx + k ∧ 1 ≤ k ∧ k ≤ l.length ∧ Desc ((Spec.sortPass a idx ne l).1.drop k) ∧
      (∀ x ∈ (Spec.sortPass a idx ne l).1.take k, ∀ y ∈ (Spec.sortPass a idx ne l).1.drop k, y.weight ≤ x.weight) ∧
      ∀ y ∈ (Spec.sortPass a idx ne l).1.drop k, y.weight ≤ a.weight := by
  intro l
  induction l with
  | nil => intro a idx ne _; exact .inl ⟨rfl, rfl, List.pairwise_singleton _ _⟩
  | cons b l ih =>
    intro a idx ne hi
    rw [Spec.sortPass]
    by_cases hw : a.weight < b.weight
    · rw [if_pos hw]
      right
      dsimp only
      rcases ih a (idx + 1) idx (by omega) with ⟨h1, h2, h3⟩ | ⟨k, h1, h2, h3, h4, h5, h6⟩
      · rw [h1, h2]
        refine ⟨1, rfl, Nat.le_refl _, by simp, h3, ?_, ?_⟩
        · intro x hx y hy
          have : x = b := by simpa using hx
          subst this
          rcases List.mem_cons.mp (show y ∈ a :: l from hy) with rfl | hy
          · omega
          · have := (List.pairwise_cons.mp h3).1 y hy; omega
        · intro y hy
          rcases List.mem_cons.mp (show y ∈ a :: l from hy) with rfl | hy
          · exact Nat.le_refl _
          · exact (List.pairwise_cons.mp h3).1 y hy
      · refine ⟨k + 1, by omega, by omega, by simp; omega, h4, ?_, h6⟩
        intro x hx y hy
        rw [List.take_succ_cons] at hx
        rcases List.mem_cons.mp hx with rfl | hx
        · have := h6 y hy; omega
        · exact h5 x hx y hy
    · rw [if_neg hw]
      dsimp only
      rcases ih b (idx + 1) ne (by omega) with ⟨h1, h2, h3⟩ | ⟨k, h1, h2, h3, h4, h5, h6⟩
      · left
        refine ⟨h1, by rw [h2], ?_⟩
        refine List.pairwise_cons.mpr ⟨?_, h3⟩
        intro y hy
        rcases List.mem_cons.mp hy with rfl | hy
        · omega
        · have := (List.pairwise_cons.mp h3).1 y hy; omega
      · right
        refine ⟨k + 1, by omega, by omega, by simp; omega, h4, ?_, ?_⟩
        · intro x hx y hy
          rw [List.take_succ_cons] at hx
          rcases List.mem_cons.mp hx with rfl | hx
          · have := h6 y hy; omega
          · exact h5 x hx y hy
        · intro y hy
          have := h6 y hy
          omega

theorem atW_append (v : Nat) (a b : List Entry) : atW v (a ++ b) = atW v a ++ atW v b := List.filter_append ..

theorem sort_spec : ∀ (n : Nat) (l : List Entry), l.length ≤ n → Desc (Spec.sort n l) ∧ ∀ v, atW v (Spec.sort n l) = atW v l := by
  intro n
  induction n with
  | zero =>
    intro l hl
    have : l = [] := List.length_eq_zero_iff.mp (by omega)
    subst this
    exact ⟨List.Pairwise.nil, fun _ => rfl⟩
  | succ n ih =>
    intro l hl
    cases l with
    | nil => exact ⟨List.Pairwise.nil, fun _ => rfl⟩
    | cons a l =>
      rw [Spec.sort]
      have hf := fun v => sortPass_atW v l a 1 0
      rcases sortPass_spec l a 1 0 (Nat.le_refl _) with ⟨h1, h2, h3⟩ | ⟨k, h1, h2, h3, h4, h5, h6⟩
      · rw [h1, h2, List.take_zero, List.drop_zero]
        have e : Spec.sort n [] = [] := by cases n <;> rfl
        rw [e, List.nil_append]
        exact ⟨h3, fun _ => rfl⟩
      · have hk : (Spec.sortPass a 1 0 l).2 = k := by omega
        rw [hk]
        obtain ⟨i1, i2⟩ := ih ((Spec.sortPass a 1 0 l).1.take k) (by
          rw [List.length_take]
          simp only [List.length_cons] at hl
          omega)
        constructor
        · refine List.pairwise_append.mpr ⟨i1, h4, ?_⟩
          intro x hx y hy
          exact h5 x (mem_of_atW i2 hx) y hy
        · intro v
          rw [atW_append, i2, ← atW_append, List.take_append_drop, hf]

theorem mergeSort_spec (l : List Entry) : Desc (l.mergeSort fun a b => decide (b.weight ≤ a.weight)) ∧
    ∀ v, atW v (l.mergeSort fun a b => decide (b.weight ≤ a.weight)) = atW v l := by
  have tr : ∀ a b c : Entry, decide (b.weight ≤ a.weight) = true → decide (c.weight ≤ b.weight) = true → decide (c.weight ≤ a.weight) = true := by
    intro a b c h1 h2
    rw [decide_eq_true_eq] at *
    omega
  have tot : ∀ a b : Entry, (decide (b.weight ≤ a.weight) || decide (a.weight ≤ b.weight)) = true := by
    intro a b
    rw [Bool.or_eq_true, decide_eq_true_eq, decide_eq_true_eq]
    omega
  constructor
  · exact (List.pairwise_mergeSort tr tot l).imp (fun h => by rwa [decide_eq_true_eq] at h)
  · intro v
    have hs : (atW v l).Sublist (l.mergeSort fun a b => decide (b.weight ≤ a.weight)) := by
      apply List.sublist_mergeSort tr tot _ List.filter_sublist
      apply List.Pairwise.imp_of_mem (R := fun _ _ => True)
      · intro a b ha hb _
        have h1 := (List.mem_filter.mp ha).2
        have h2 := (List.mem_filter.mp hb).2
        rw [decide_eq_true_eq] at h1 h2 ⊢
        omega
      · exact List.pairwise_of_forall (fun _ _ => trivial)
    have hs2 : (atW v (atW v l)).Sublist (atW v (l.mergeSort fun a b => decide (b.weight ≤ a.weight))) := hs.filter _
    have e : atW v (atW v l) = atW v l := by unfold atW; rw [List.filter_filter]; simp
    rw [e] at hs2
    have hp : (atW v (l.mergeSort fun a b => decide (b.weight ≤ a.weight))).length = (atW v l).length :=
      ((List.mergeSort_perm l _).filter _).length_eq
    exact (hs2.eq_of_length hp.symm).symm

/-- One sort instead of two. -/
theorem sort_eq {a b : List Entry} (ha : ∀ x ∈ a, 640 ≤ x.weight) (hb : ∀ x ∈ b, x.weight < 640) :
    (a ++ b).mergeSort (fun x y => decide (y.weight ≤ x.weight)) = Spec.sort a.length a ++ Spec.sort b.length b := by
  obtain ⟨m1, m2⟩ := mergeSort_spec (a ++ b)
  obtain ⟨a1, a2⟩ := sort_spec a.length a (Nat.le_refl _)
  obtain ⟨b1, b2⟩ := sort_spec b.length b (Nat.le_refl _)
  apply stable_unique m1
  · refine List.pairwise_append.mpr ⟨a1, b1, ?_⟩
    intro x hx y hy
    have := ha x (mem_of_atW a2 hx)
    have := hb y (mem_of_atW b2 hy)
    omega
  · intro v
    rw [m2, atW_append, atW_append, a2, b2]

end Rav1e.Mvref
