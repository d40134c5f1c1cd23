import Verif.Seg.State

/-!
# Normalised scores have a mean near 1
-/

namespace Rav1e.Seg

open Real
open Rav1e.LogExp (i64)

theorem mapM_forall₂ {α β : Type} {f : α → Option β} : ∀ {l : List α} {l' : List β}, l.mapM f = some l' → List.Forall₂ (fun x y => f x = some y) l l' := by
  intro l
  induction l with
  | nil => intro l' h; simp at h; subst h; exact List.Forall₂.nil
  | cons x l ih =>
    intro l' h
    rw [List.mapM_cons] at h
    simp only [Option.pure_def, Option.bind_eq_bind, Option.bind_eq_some_iff, Option.some.injEq] at h
    obtain ⟨y, hy, l'', hl, rfl⟩ := h
    exact List.Forall₂.cons hy (ih hl)

theorem log_round {r P : ℝ} (hr : 0 < r) (hP : 0 < P) (h : r ≤ P * (1 + 1 / 500)) : 2048 * logb 2 r ≤ 2048 * logb 2 P + 6 := by
  have h1 : logb 2 r ≤ logb 2 P + logb 2 (1 + 1 / 500) := by
    rw [← logb_mul hP.ne' (by norm_num)]
    exact logb_le_logb_of_le (by norm_num) hr h
  have h2 : logb 2 (1 + 1 / 500 : ℝ) ≤ 6 / 2048 := by
    unfold logb
    have a := log_le_sub_one_of_pos (by norm_num : (0 : ℝ) < 1 + 1 / 500)
    have b := LogExp.log_two_pos
    rw [div_le_iff₀ (by linarith)]
    linarith
  linarith

/-- The factor. -/
theorem invMean_log {l : List Nat} {vs : List Int} {m : Nat} (hl : l.mapM blog32Q11 = some vs) (hv : 0 ≤ vs.sum) (e : invMean l = some m) (hm : 256 ≤ m) :
    l.length * (2048 * logb 2 (m : ℝ)) ≤ l.length * (57344 + 1 + 6) - vs.sum := by
  unfold invMean at e
  rw [hl] at e
  simp only [Option.bind_eq_bind, Option.bind_some] at e
  split_ifs at e with h0
  · simp at e
  simp only [Option.bind_eq_some_iff, Option.some.injEq] at e
  obtain ⟨x, ex, b, eb, em⟩ := e
  obtain ⟨n, hn⟩ : ∃ n, n = l.length := ⟨_, rfl⟩
  rw [← hn] at ex h0 ⊢
  obtain ⟨V, hV⟩ : ∃ V, V = vs.sum := ⟨_, rfl⟩
  rw [← hV] at ex hv ⊢
  have ex' : x = (57344 - V.tdiv n) * 2 ^ 46 := by
    unfold i64 at ex
    split_ifs at ex
    simp only [Option.some.injEq] at ex
    rw [← ex]
    norm_num
    ring
  have hd : V.tdiv n = V / n := Int.tdiv_eq_ediv_of_nonneg hv
  rw [hd] at ex'
  have hq0 : 0 ≤ V / (n : Int) := Int.ediv_nonneg hv (by omega)
  obtain ⟨y, hy⟩ : ∃ y, y = 57344 - V / (n : Int) := ⟨_, rfl⟩
  rw [← hy] at ex'
  have hx0 : 0 ≤ x := by
    by_contra hc
    rw [(LogExp.bexp64_clamped x).1 (by omega)] at eb
    cases eb
    norm_num at em
    omega
  have hx1 : x < 31 * 2 ^ 57 := by omega
  obtain ⟨b', eb', hb⟩ := LogExp.bexp64_near x hx0 (by omega) (Or.inl hx1)
  rw [eb] at eb'
  cases eb'
  rw [if_pos hx1] at hb
  have hexp : (x : ℝ) / 2 ^ 57 = (y : ℝ) / 2048 := by
    rw [ex']
    push_cast
    norm_num
    ring
  rw [hexp] at hb
  have hmb : (m : ℝ) ≤ b := by
    have : (m : Int) ≤ b := by omega
    exact_mod_cast this
  have hm' : (256 : ℝ) ≤ m := by exact_mod_cast hm
  have hX : 0 < (2 : ℝ) ^ ((y : ℝ) / 2048) := rpow_pos_of_pos (by norm_num) _
  have hlog : logb 2 ((2 : ℝ) ^ ((y : ℝ) / 2048)) = (y : ℝ) / 2048 := logb_rpow (by norm_num) (by norm_num)
  have key := log_round (r := m) (P := (2 : ℝ) ^ ((y : ℝ) / 2048)) (by linarith) hX (by
    have := (abs_le.1 hb).2
    generalize (2 : ℝ) ^ ((y : ℝ) / 2048) = X at *
    linarith)
  rw [hlog] at key
  have hyV : (n : Int) * y ≤ n * 57344 - V + n := by
    have h1 := Int.mul_ediv_add_emod V n
    have h2 := Int.emod_lt_of_pos V (by omega : (0 : Int) < n)
    have h3 : (n : Int) * y = n * 57344 - n * (V / n) := by rw [hy]; ring
    linarith
  have hyV' : (n : ℝ) * y ≤ n * 57344 - V + n := by exact_mod_cast hyV
  have := mul_le_mul_of_nonneg_left key (Nat.cast_nonneg n : (0 : ℝ) ≤ n)
  linarith [this, hyV']

theorem sums {l : List Nat} {vs us : List Int} {C : ℝ} (h1 : List.Forall₂ (fun (s : Nat) (v : Int) => 2048 * logb 2 (s : ℝ) ≤ v + 11 / 10) l vs)
    (h2 : List.Forall₂ (fun (s : Nat) (u : Int) => (u : ℝ) ≤ 2048 * logb 2 (s : ℝ) + C) l us) : ((us.sum : Int) : ℝ) ≤ vs.sum + l.length * (C + 11 / 10) := by
  induction h1 generalizing us with
  | nil => cases h2; simp
  | cons a _ ih =>
    cases h2 with
    | cons b h2 =>
      have := ih h2
      simp only [List.sum_cons, List.length_cons]
      rw [Int.cast_add, Int.cast_add, Nat.cast_add, Nat.cast_one]
      linarith

theorem sum_nonneg' : ∀ {vs : List Int}, (∀ v ∈ vs, 0 ≤ v) → 0 ≤ vs.sum
  | [], _ => by simp
  | v :: vs, h => by
    have := sum_nonneg' (vs := vs) fun x hx => h x (by simp [hx])
    have := h v (by simp)
    simp only [List.sum_cons]
    omega

theorem forall₂_trans {α β γ : Type} {P : α → β → Prop} {Q : β → γ → Prop} {R : α → γ → Prop} (h : ∀ x y z, P x y → Q y z → R x z) :
    ∀ {a : List α} {b : List β} {c : List γ}, List.Forall₂ P a b → List.Forall₂ Q b c → List.Forall₂ R a c := by
  intro a b c h1
  induction h1 generalizing c with
  | nil => intro h2; cases h2; exact List.Forall₂.nil
  | cons p _ ih => intro h2; cases h2 with | cons q h2 => exact List.Forall₂.cons (h _ _ _ p q) (ih h2)

theorem blog32Q11_nonneg {s : Nat} {v : Int} (h0 : 0 < s) (h1 : s < 2 ^ 28) (e : blog32Q11 s = some v) : 0 ≤ v := by
  rcases Nat.lt_or_ge s 2 with h | h
  · have : s = 1 := by omega
    subst this
    have : blog32Q11 1 = some 0 := by decide +kernel
    rw [this] at e
    cases e
    exact le_refl _
  · obtain ⟨v', e', a⟩ := blog32Q11_near h0 (by omega : s < 2 ^ 32)
    rw [e] at e'
    cases e'
    have h2 : (2 : ℝ) ≤ s := by exact_mod_cast h
    have : logb 2 (2 : ℝ) ≤ logb 2 (s : ℝ) := logb_le_logb_of_le (by norm_num) (by norm_num) h2
    rw [logb_self_eq_one (by norm_num)] at this
    have b := (abs_le.1 a).1
    have : (0 : ℝ) ≤ v := by linarith
    exact_mod_cast this

/-- **C68.** Scores that were normalised have a mean near 1, if the normalisation did not make them so small that rounding matters (the factor and all scores at least 1/64). -/
theorem normalise_centered {l l' : List Nat} {m : Nat} (hs : ∀ s ∈ l, 0 < s ∧ s < 2 ^ 28) (em : invMean l = some m) (hm : 256 ≤ m) (e : normalise l = some l')
    (hl : ∀ r ∈ l', 256 ≤ r) : Centered l' ∧ ∀ r ∈ l', 0 < r ∧ r < 2 ^ 28 := by
  unfold normalise at e
  rw [em] at e
  simp only [Option.bind_eq_bind, Option.bind_some] at e
  have f1 := mapM_forall₂ e
  obtain ⟨vs, ev, fv⟩ := mapM_ok (f := blog32Q11) (l := l) (P := fun (s : Nat) (v : Int) => 0 ≤ v ∧ 2048 * logb 2 (s : ℝ) ≤ v + 11 / 10) fun s h => by
    obtain ⟨v, e, a⟩ := blog32Q11_near (hs s h).1 (by have := (hs s h).2; omega)
    exact ⟨v, e, blog32Q11_nonneg (hs s h).1 (hs s h).2 e, by have := (abs_le.1 a).1; linarith⟩
  have hr : ∀ r ∈ l', 0 < r ∧ r < 2 ^ 28 := by
    intro r h
    obtain ⟨s, -, hp⟩ := forall₂_mem f1 r h
    unfold scaleMul at hp
    simp only [Option.bind_eq_bind, Option.bind_eq_some_iff, Option.some.injEq] at hp
    obtain ⟨_, -, _, -, rfl⟩ := hp
    omega
  refine ⟨?_, hr⟩
  obtain ⟨us, eu, fu⟩ := mapM_ok (f := blog16) (l := l') (P := fun (r : Nat) (u : Int) => 256 ≤ r ∧ (u : ℝ) ≤ 2048 * logb 2 (r : ℝ) - 28672 + 11 / 10) fun r h => by
    obtain ⟨u, e, -, -, a⟩ := blog16_near (hr r h).1 (hr r h).2
    exact ⟨u, e, hl r h, by have := (abs_le.1 a).2; linarith⟩
  refine ⟨us, eu, ?_⟩
  have hM : (256 : ℝ) ≤ m := by exact_mod_cast hm
  have f2 : List.Forall₂ (fun (s : Nat) (u : Int) => (u : ℝ) ≤ 2048 * logb 2 (s : ℝ) + (2048 * logb 2 (m : ℝ) - 57344 + 6 + 11 / 10)) l us := by
    refine forall₂_trans ?_ f1 fu
    rintro s r u hp ⟨r0, hu⟩
    unfold scaleMul at hp
    simp only [Option.bind_eq_bind, Option.bind_eq_some_iff, Option.some.injEq] at hp
    obtain ⟨p, ep, p', ep', hp⟩ := hp
    have ep1 : p = s * m := by unfold Dist.chk at ep; split_ifs at ep; simpa using ep.symm
    have ep2 : p' = p + 2 ^ 13 := by unfold Dist.chk at ep'; split_ifs at ep'; simpa using ep'.symm
    rw [Nat.shiftRight_eq_div_pow] at hp
    have h1 : r * 2 ^ 14 ≤ s * m + 2 ^ 13 := by rw [← ep1]; omega
    have s0 : 0 < s := by
      by_contra hc
      rw [Nat.eq_zero_of_not_pos hc] at h1
      omega
    have h1' : (r : ℝ) * 2 ^ 14 ≤ s * m + 2 ^ 13 := by exact_mod_cast h1
    have r0' : (256 : ℝ) ≤ r := by exact_mod_cast r0
    have s0' : (0 : ℝ) < s := by exact_mod_cast s0
    have hP : (0 : ℝ) < s * m / 2 ^ 14 := by positivity
    have key := log_round (r := r) (P := (s : ℝ) * m / 2 ^ 14) (by linarith) hP (by
      have e : (s : ℝ) * m = s * m / 2 ^ 14 * 2 ^ 14 := by field_simp
      generalize (s : ℝ) * m / 2 ^ 14 = P at *
      rw [e] at h1'
      norm_num at h1' ⊢
      linarith)
    have e1 : logb 2 ((s : ℝ) * m / 2 ^ 14) = logb 2 (s : ℝ) + logb 2 (m : ℝ) - 14 := by
      rw [logb_div (by positivity) (by positivity), logb_mul s0'.ne' (by linarith), logb_pow, logb_self_eq_one (by norm_num)]
      norm_num
    rw [e1] at key
    linarith
  have S := sums (fv.imp fun _ _ h => h.2) f2
  have I := invMean_log ev (sum_nonneg' (forall₂_of_mem fv fun _ _ h => h.1)) em hm
  have len : us.length = l.length := by rw [← fu.length_eq, ← f1.length_eq]
  have : ((us.sum : Int) : ℝ) ≤ l.length * 16 := by
    have n0 : (0 : ℝ) ≤ l.length := Nat.cast_nonneg _
    linarith
  rw [len]
  exact_mod_cast this

end Rav1e.Seg
