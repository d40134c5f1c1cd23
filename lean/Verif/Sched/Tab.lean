import Verif.Sched.Model

/-!
# Maps whose keys are an interval
-/

namespace Rav1e.Sched

namespace BMap
variable {V : Type}

theorem get_insert (m : BMap V) (i j : Nat) (v : V) :
    (m.insert i v).get j = if j = i then some v else m.get j := by
  induction m with
  | nil =>
    simp only [insert, get]
    by_cases h : i = j
    · simp [h]
    · simp [h, Ne.symm h]
  | cons p m ih =>
    obtain ⟨k, w⟩ := p
    simp only [insert]
    by_cases h1 : i < k
    · rw [if_pos h1]
      simp only [get]
      by_cases h : i = j
      · simp [h]
      · simp [h, Ne.symm h]
    · rw [if_neg h1]
      by_cases h2 : i = k
      · subst h2
        simp only [get, if_true]
        by_cases h : i = j
        · simp [h]
        · simp [h, Ne.symm h]
      · rw [if_neg h2]
        simp only [get, ih]
        by_cases h : k = j
        · subst h
          simp only [if_true]
          rw [if_neg (fun e => h2 e.symm)]
        · simp [h]

theorem get_remove (m : BMap V) (i j : Nat) :
    (m.remove i).get j = if j = i then none else m.get j := by
  induction m with
  | nil => simp [remove, get]
  | cons p m ih =>
    obtain ⟨k, w⟩ := p
    unfold remove at ih ⊢
    by_cases h : k = i
    · subst h
      simp only [List.filter_cons, bne_self_eq_false, Bool.false_eq_true, if_false, ih, get]
      by_cases hj : j = k
      · simp [hj]
      · simp [hj, Ne.symm hj]
    · have : (k != i) = true := by simp [h]
      simp only [List.filter_cons, this, if_true, get, ih]
      by_cases hj : k = j
      · subst hj; simp [h]
      · simp [hj]

theorem get_foldl_remove (ks : List Nat) (m : BMap V) (j : Nat) :
    (ks.foldl remove m).get j = if j ∈ ks then none else m.get j := by
  induction ks generalizing m with
  | nil => simp
  | cons k ks ih =>
    rw [List.foldl_cons, ih, get_remove]
    by_cases h1 : j ∈ ks
    · simp [h1]
    · by_cases h2 : j = k <;> simp [h1, h2]

/-- The map `{k ↦ f k | s ≤ k < s + n}`. -/
def tab (s n : Nat) (f : Nat → V) : BMap V :=
  (List.range' s n).map fun k => (k, f k)

theorem tab_zero (s : Nat) (f : Nat → V) : tab s 0 f = [] := rfl

theorem tab_succ (s n : Nat) (f : Nat → V) :
    tab s (n + 1) f = (s, f s) :: tab (s + 1) n f := by
  simp [tab, List.range'_succ]

theorem tab_snoc (s n : Nat) (f : Nat → V) :
    tab s (n + 1) f = tab s n f ++ [(s + n, f (s + n))] := by
  simp [tab, List.range'_concat]

theorem tab_append (s a b : Nat) (f : Nat → V) :
    tab s (a + b) f = tab s a f ++ tab (s + a) b f := by
  induction a generalizing s with
  | zero => simp [tab_zero]
  | succ a ih =>
    rw [show a + 1 + b = (a + b) + 1 by omega, tab_succ, tab_succ, ih,
      show s + 1 + a = s + (a + 1) by omega]
    rfl

theorem tab_congr (s n : Nat) (f g : Nat → V)
    (h : ∀ k, s ≤ k → k < s + n → f k = g k) : tab s n f = tab s n g := by
  unfold tab
  apply List.map_congr_left
  intro k hk
  rw [List.mem_range'_1] at hk
  rw [h k hk.1 hk.2]

theorem mem_tab {s n : Nat} {f : Nat → V} {p : Nat × V} :
    p ∈ tab s n f ↔ s ≤ p.1 ∧ p.1 < s + n ∧ p.2 = f p.1 := by
  unfold tab
  rw [List.mem_map]
  constructor
  · rintro ⟨k, hk, rfl⟩
    rw [List.mem_range'_1] at hk
    exact ⟨hk.1, hk.2, rfl⟩
  · rintro ⟨h1, h2, h3⟩
    refine ⟨p.1, by rw [List.mem_range'_1]; exact ⟨h1, h2⟩, ?_⟩
    rw [← h3]

theorem get_tab (s n : Nat) (f : Nat → V) (i : Nat) :
    (tab s n f).get i = if s ≤ i ∧ i < s + n then some (f i) else none := by
  induction n generalizing s with
  | zero => simp only [tab_zero, get]; rw [if_neg (by omega)]
  | succ n ih =>
    rw [tab_succ]
    simp only [get]
    by_cases h : s = i
    · subst h; rw [if_pos rfl, if_pos (by omega)]
    · rw [if_neg h, ih]
      by_cases h2 : s ≤ i ∧ i < s + (n + 1)
      · rw [if_pos h2, if_pos (by omega)]
      · rw [if_neg h2, if_neg (by omega)]

/-- Pointwise update. -/
def upd (f : Nat → V) (i : Nat) (v : V) : Nat → V := fun k => if k = i then v else f k

theorem upd_same (f : Nat → V) (i : Nat) (v : V) : upd f i v i = v := if_pos rfl
theorem upd_ne (f : Nat → V) (i k : Nat) (v : V) (h : k ≠ i) : upd f i v k = f k :=
  if_neg h

theorem insert_append (s a : Nat) (f : Nat → V) (i : Nat) (v : V) (m : BMap V)
    (hi : s + a ≤ i) (hm : ∀ p ∈ m, i < p.1) :
    insert (tab s a f ++ m) i v = tab s a f ++ (i, v) :: m := by
  induction a generalizing s with
  | zero =>
    rw [tab_zero]
    cases m with
    | nil => rfl
    | cons p m =>
      obtain ⟨k, w⟩ := p
      have := hm (k, w) (List.mem_cons_self ..)
      simp only [List.nil_append, insert]
      rw [if_pos this]
  | succ a ih =>
    rw [tab_succ, List.cons_append, insert, if_neg (by omega), if_neg (by omega),
      ih _ (by omega)]
    rfl

theorem insert_tab_end (s n : Nat) (f : Nat → V) (v : V) :
    insert (tab s n f) (s + n) v = tab s (n + 1) (upd f (s + n) v) := by
  have := insert_append s n f (s + n) v [] (Nat.le_refl _) (by simp)
  rw [List.append_nil] at this
  rw [this, tab_snoc, upd_same]
  congr 1
  apply tab_congr
  intro k _ h2
  rw [upd_ne]; omega

theorem insert_tab_mem (s n : Nat) (f : Nat → V) (i : Nat) (v : V)
    (h1 : s ≤ i) (h2 : i < s + n) :
    insert (tab s n f) i v = tab s n (upd f i v) := by
  induction n generalizing s with
  | zero => omega
  | succ n ih =>
    rw [tab_succ, tab_succ, insert, if_neg (by omega)]
    by_cases h : i = s
    · subst h
      rw [if_pos rfl, upd_same]
      congr 1
      apply tab_congr
      intro k hk _
      rw [upd_ne]; omega
    · rw [if_neg h, ih _ (by omega) (by omega), upd_ne _ _ _ _ (by omega)]

theorem remove_append (m₁ m₂ : BMap V) (i : Nat) :
    remove (m₁ ++ m₂) i = remove m₁ i ++ remove m₂ i := by
  unfold remove; rw [List.filter_append]

theorem remove_none (m : BMap V) (i : Nat) (h : ∀ p ∈ m, p.1 ≠ i) : remove m i = m := by
  unfold remove
  rw [List.filter_eq_self]
  intro p hp
  simpa using h p hp

theorem remove_cons_self (m : BMap V) (i : Nat) (v : V) :
    remove ((i, v) :: m) i = remove m i := by
  simp [remove]

theorem foldl_remove_tab (s n k : Nat) (f : Nat → V) (h : k ≤ n) :
    (List.range' s k).foldl remove (tab s n f) = tab (s + k) (n - k) f := by
  induction k generalizing s n with
  | zero => simp
  | succ k ih =>
    obtain ⟨n', rfl⟩ : ∃ n', n = n' + 1 := ⟨n - 1, by omega⟩
    rw [List.range'_succ, List.foldl_cons, tab_succ, remove_cons_self, remove_none,
      ih _ _ (by omega)]
    · rw [show s + 1 + k = s + (k + 1) by omega, show n' - k = n' + 1 - (k + 1) by omega]
    · intro p hp
      have := (mem_tab.1 hp).1
      omega

theorem takeWhile_tab (s a : Nat) (f : Nat → V) (m : BMap V) (q : Nat → Bool)
    (h1 : ∀ k, s ≤ k → k < s + a → q k = true) (h2 : ∀ p ∈ m, q p.1 = false) :
    (tab s a f ++ m).takeWhile (fun p => q p.1) = tab s a f ∧
    (tab s a f ++ m).dropWhile (fun p => q p.1) = m := by
  induction a generalizing s with
  | zero =>
    rw [tab_zero]
    cases m with
    | nil => exact ⟨rfl, rfl⟩
    | cons p m =>
      have := h2 p (List.mem_cons_self ..)
      simp [this]
  | succ a ih =>
    have hs := h1 s (Nat.le_refl _) (by omega)
    obtain ⟨i1, i2⟩ := ih (s + 1) (fun k a b => h1 k (by omega) (by omega))
    rw [tab_succ, List.cons_append]
    simp [hs, i1, i2]

theorem dropWhile_tab (s n m : Nat) (f : Nat → V) (h1 : s ≤ m) (h2 : m ≤ s + n) :
    (tab s n f).dropWhile (fun p => decide (p.1 < m)) = tab m (s + n - m) f := by
  have e : tab s n f = tab s (m - s) f ++ tab m (s + n - m) f := by
    have := tab_append s (m - s) (s + n - m) f
    rw [show m - s + (s + n - m) = n by omega, show s + (m - s) = m by omega] at this
    exact this
  rw [e]
  apply (takeWhile_tab s (m - s) f _ (fun k => decide (k < m)) ?_ ?_).2
  · intro k _ h; simp; omega
  · intro p hp
    have := (mem_tab.1 hp).1
    simp; omega

theorem filter_lt_tab (s n m : Nat) (f : Nat → V) (h : s + n ≤ m) :
    (tab s n f).filter (fun p => decide (p.1 < m)) = tab s n f := by
  rw [List.filter_eq_self]
  intro p hp
  have := mem_tab.1 hp
  simp; omega

theorem lastKey_tab (s n : Nat) (f : Nat → V) :
    (tab s (n + 1) f).lastKey = some (s + n) := by
  unfold lastKey; rw [tab_snoc]; simp

theorem firstKey_tab (s n : Nat) (f : Nat → V) :
    (tab s (n + 1) f).firstKey = some s := by
  unfold firstKey; rw [tab_succ]; simp

theorem rfind_tab (s n : Nat) (f : Nat → V) (q : Nat × V → Bool) (k : Nat)
    (h1 : s ≤ k) (h2 : k < s + n) (hq : q (k, f k) = true)
    (hn : ∀ j, k < j → j < s + n → q (j, f j) = false) :
    (tab s n f).reverse.find? q = some (k, f k) := by
  induction n with
  | zero => omega
  | succ n ih =>
    rw [tab_snoc, List.reverse_append, List.reverse_singleton, List.singleton_append,
      List.find?_cons]
    by_cases h : k = s + n
    · subst h; rw [hq]
    · rw [hn (s + n) (by omega) (by omega)]
      exact ih (by omega) (fun j a b => hn j a (by omega))

theorem find_tab (s n : Nat) (f : Nat → V) (q : Nat × V → Bool) (k : Nat)
    (h1 : s ≤ k) (h2 : k < s + n) (hq : q (k, f k) = true)
    (hn : ∀ j, s ≤ j → j < k → q (j, f j) = false) :
    (tab s n f).find? q = some (k, f k) := by
  induction n generalizing s with
  | zero => omega
  | succ n ih =>
    rw [tab_succ, List.find?_cons]
    by_cases h : k = s
    · subst h; rw [hq]
    · rw [hn s (Nat.le_refl _) (by omega)]
      exact ih (s + 1) (by omega) (by omega) (fun j a b => hn j (by omega) b)

theorem find_tab_none (s n : Nat) (f : Nat → V) (q : Nat × V → Bool)
    (hn : ∀ j, s ≤ j → j < s + n → q (j, f j) = false) :
    (tab s n f).find? q = none := by
  rw [List.find?_eq_none]
  intro p hp
  obtain ⟨a, b, d⟩ := mem_tab.1 hp
  have := hn p.1 a b
  rw [← d] at this
  simp [this]

end BMap
end Rav1e.Sched
