import Verif.Mc.Model

/-! # Loops that write a block -/

namespace Rav1e.Mc

variable {κ : Type} [DecidableEq κ]

/-- A row of writes. -/
theorem fillRow_ok (ok : κ → Bool) (idx : Nat → κ) (val : Nat → Option Int) (v : Nat → Int) (cols : Nat) (buf : κ → Int)
    (hok : ∀ c < cols, ok (idx c) = true) (hv : ∀ c < cols, val c = some (v c))
    (hi : ∀ c < cols, ∀ c' < cols, idx c = idx c' → c = c') :
    ∃ b', (List.range cols).foldlM (fun b c => (val c).bind (fun v => setK ok b (idx c) v)) buf = some b' ∧
      (∀ c < cols, b' (idx c) = v c) ∧ ∀ k, (∀ c < cols, k ≠ idx c) → b' k = buf k := by
  induction cols with
  | zero => exact ⟨buf, rfl, by simp, by simp⟩
  | succ n ih =>
    obtain ⟨b', h1, h2, h3⟩ := ih (fun c hc => hok c (by omega)) (fun c hc => hv c (by omega))
      (fun c hc c' hc' => hi c (by omega) c' (by omega))
    refine ⟨fun k' => if k' = idx n then v n else b' k', ?_, ?_, ?_⟩
    · rw [List.range_succ, List.foldlM_append, h1]
      simp only [Option.bind_eq_bind, Option.bind_some, List.foldlM_cons, List.foldlM_nil]
      rw [hv n (by omega)]
      simp only [Option.bind_some, setK, hok n (by omega), if_true]
      rfl
    · intro c hc
      show (if idx c = idx n then v n else b' (idx c)) = v c
      split
      · next h => rw [hi c hc n (by omega) h]
      · next h =>
        refine h2 c ?_
        rcases Nat.lt_succ_iff_lt_or_eq.mp hc with h' | h'
        · exact h'
        · exact absurd (by rw [h']) h
    · intro k hk
      show (if k = idx n then v n else b' k) = buf k
      rw [if_neg (hk n (by omega))]
      exact h3 k (fun c hc => hk c (by omega))

/-- Nested loops write every element once and leave the rest. -/
theorem fill_ok (ok : κ → Bool) (idx : Nat → Nat → κ) (val : Nat → Nat → Option Int) (v : Nat → Nat → Int) (rows cols : Nat)
    (buf : κ → Int) (hok : ∀ r < rows, ∀ c < cols, ok (idx r c) = true)
    (hv : ∀ r < rows, ∀ c < cols, val r c = some (v r c))
    (hi : ∀ r < rows, ∀ c < cols, ∀ r' < rows, ∀ c' < cols, idx r c = idx r' c' → r = r' ∧ c = c') :
    ∃ b', fill ok idx val rows cols buf = some b' ∧ (∀ r < rows, ∀ c < cols, b' (idx r c) = v r c) ∧
      ∀ k, (∀ r < rows, ∀ c < cols, k ≠ idx r c) → b' k = buf k := by
  unfold fill
  induction rows with
  | zero => exact ⟨buf, rfl, by simp, by simp⟩
  | succ n ih =>
    obtain ⟨b', h1, h2, h3⟩ := ih (fun r hr => hok r (by omega)) (fun r hr => hv r (by omega))
      (fun r hr c hc r' hr' c' hc' => hi r (by omega) c hc r' (by omega) c' hc')
    obtain ⟨b'', g1, g2, g3⟩ := fillRow_ok ok (idx n) (val n) (v n) cols b' (hok n (by omega)) (hv n (by omega))
      (fun c hc c' hc' h => (hi n (by omega) c hc n (by omega) c' hc' h).2)
    refine ⟨b'', ?_, ?_, ?_⟩
    · rw [List.range_succ, List.foldlM_append, h1]
      simp only [Option.bind_eq_bind, Option.bind_some, List.foldlM_cons, List.foldlM_nil]
      rw [g1]
      rfl
    · intro r hr c hc
      rcases Nat.lt_succ_iff_lt_or_eq.mp hr with h' | h'
      · rw [g3 _ (fun c' hc' h => ?_), h2 r h' c hc]
        have := (hi r hr c hc n (by omega) c' hc' h).1
        omega
      · subst h'; exact g2 c hc
    · intro k hk
      rw [g3 k (fun c hc => hk n (by omega) c hc), h3 k (fun r hr c hc => hk r (by omega) c hc)]

end Rav1e.Mc
