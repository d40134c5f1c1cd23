import Verif.Sched.Slots
import Verif.Sched.Tab

/-!
# The machinery builds the schedule
-/

namespace Rav1e.Sched

open BMap

variable {F O M : Type}

/-- The frame the queue holds for input `k`. -/
def qf (sent : List (F × Option (Params O M))) (k : Nat) : Option F :=
  (sent[k]?).map (·.1)

/-- Was input `n` sent with a forced key frame? -/
def forcedAt (sent : List (F × Option (Params O M))) (n : Nat) : Bool :=
  match sent[n]? with
  | some x => Spec.forced x
  | none => false

/-- The opaque value input `n` was sent with. -/
def userAt (sent : List (F × Option (Params O M))) (n : Nat) : Option O :=
  (sent[n]?).bind fun x => x.2.bind (·.user)

/-- The T.35 messages input `n` was sent with. -/
def t35At (sent : List (F × Option (Params O M))) (n : Nat) : List M :=
  match sent[n]? with
  | some (_, some p) => p.t35
  | _ => []

/-- Is output `o` a coded frame (neither placeholder nor show-existing)? -/
def coded (c : Cfg) (K : Nat → Bool) (lim : Option Nat) (o : Nat) : Prop :=
  ∃ p, plan c K lim o = some p ∧ p.sef = false

instance (c : Cfg) (K : Nat → Bool) (lim : Option Nat) (o : Nat) :
    Decidable (coded c K lim o) :=
  match h : plan c K lim o with
  | none => isFalse (by rintro ⟨p, hp, _⟩; rw [h] at hp; cases hp)
  | some p =>
    if hs : p.sef = false then isTrue ⟨p, h, hs⟩
    else isFalse (by rintro ⟨q, hq, hs'⟩; rw [h] at hq; cases hq; exact hs hs')

/-- The input frame that `build_frame_properties` looks at for output `o`. -/
def lookIn (c : Cfg) (K : Nat → Bool) (lim : Option Nat) (o : Nat) : Nat :=
  if o = 0 then 0
  else c.inputFrameno (o - (sched c K lim (o - 1)).2) (sched c K lim (o - 1)).1

/-- The T.35 messages in the headers of output `o`: those of the frame looked at, unless an earlier output has taken
them away. -/
def t35Of (c : Cfg) (K : Nat → Bool) (lim : Option Nat) (sent : List (F × Option (Params O M))) (o : Nat) : List M :=
  match plan c K lim o with
  | none => []
  | some p => if p.shown = true ∧ ∀ k < o, lookIn c K lim k ≠ lookIn c K lim o then t35At sent (lookIn c K lim o) else []

/-- The invariant of the scheduler: what has been sent, looked at, placed and
emitted so far.  `qs`, `ds` are the first frames still held in the two queues. -/
structure Base (c : Cfg) (cut K : Nat → Bool) (lim : Option Nat)
    (sent : List (F × Option (Params O M))) (s : St F O M) (qs ds : Nat)
    (fd : Nat → Option (FD F M)) : Prop where
  count : s.frameCount = sent.length
  kagree : ∀ n, 1 ≤ n → n < sent.length → K n = (forcedAt sent n || cut n)
  flush : s.isFlushing = s.limit.isSome
  limS : ∀ l, s.limit = some l → l = sent.length ∧ lim = some l
  limN : s.limit = none → ∀ l, lim = some l → sent.length ≤ l
  frameQ : s.frameQ = tab qs (sent.length - qs + if s.isFlushing then 1 else 0) (qf sent)
  qsLe : qs ≤ sent.length
  qsFp : qs ≤ s.framesProcessed - 1
  fpLe : s.framesProcessed ≤ sent.length
  nlf : 1 ≤ s.nextLookahead
  nlfLe : s.nextLookahead ≤ max 1 sent.length
  keys : s.keyframes = 0 :: (List.range' 1 (s.nextLookahead - 1)).filter K
  forcedK : ∀ n, s.keyframesForced.contains n = forcedAt sent n
  data : s.frameData = tab ds (s.nextOutput - ds) fd
  dsLe : ds ≤ s.outputFrameno
  outLe : s.outputFrameno ≤ s.nextOutput
  planOk : ∀ o, ds ≤ o → o < s.nextOutput →
    (fd o).map (fun d => d.fi.strip) = plan c K lim o
  src : ∀ o d, ds ≤ o → o < s.nextOutput → fd o = some d →
    qf sent d.fi.input = some d.src
  gop : ∀ o, ds ≤ o → o < s.nextOutput →
    s.gopOut.get o = some (sched c K lim o).2 ∧ s.gopIn.get o = some (sched c K lim o).1
  gsLt : ∀ o, o < s.nextOutput → (sched c K lim o).1 < sent.length
  shownLe : shownBefore c K lim s.nextOutput ≤ sent.length
  shownNl : shownBefore c K lim s.nextOutput ≤ s.nextLookahead
  fp : s.framesProcessed = shownBefore c K lim s.outputFrameno
  recs : ∀ o d, s.outputFrameno ≤ o → o < s.nextOutput → fd o = some d →
    d.fi.ftype ≠ .key → (∀ k, s.outputFrameno ≤ k → k < o → ¬ coded c K lim k) →
    d.fi.recBuf = slotsAt c K lim .recon o ∧
    d.fi.signBias = signBias c.stillPicture (slotsAt c K lim .recon o) d.fi.refs
      d.fi.orderHint
  looks : ∀ o d, ds ≤ o → o < s.nextOutput → fd o = some d → d.fi.sef = false →
    d.fi.look = slotsAt c K lim .orig (o + 1)
  recsL : ∀ o d, s.outputFrameno ≤ o → o < s.nextOutput → fd o = some d →
    d.fi.sef = false → d.fi.ftype ≠ .key →
    (∃ k, s.outputFrameno ≤ k ∧ k < o ∧ coded c K lim k) →
    d.fi.recBuf = slotsAt c K lim .orig o
  recKey : ∀ o d, s.outputFrameno ≤ o → o < s.nextOutput → fd o = some d →
    d.fi.ftype = .key → d.fi.recBuf.length = 8
  opq : ∀ n, s.framesProcessed ≤ n → s.opaqueQ.get n = userAt sent n
  t35d : ∀ o d, s.outputFrameno ≤ o → o < s.nextOutput → fd o = some d → d.fi.t35 = t35Of c K lim sent o
  t35q : (s.limit.isSome = true ∧ shownBefore c K lim s.nextOutput = sent.length) ∨
    ∀ n, (∀ k < s.nextOutput, lookIn c K lim k ≠ n) → (s.t35Q.get n).getD [] = t35At sent n
  t35gone : ∀ n, (∃ k < s.nextOutput, lookIn c K lim k = n) → (s.t35Q.get n).getD [] = []
  lookLt : s.limit = none → ∀ o < s.nextOutput, lookIn c K lim o < sent.length

theorem Base.lookOr {c : Cfg} {cut K : Nat → Bool} {lim : Option Nat} {sent : List (F × Option (Params O M))}
    {s : St F O M} {qs ds : Nat} {fd : Nat → Option (FD F M)} (h : Base c cut K lim sent s qs ds fd) (o : Nat)
    (ho : o < s.nextOutput) : s.isFlushing = true ∨ lookIn c K lim o < sent.length := by
  cases hl : s.limit with
  | none => exact Or.inr (h.lookLt hl o ho)
  | some l => left; rw [h.flush, hl]; rfl

/-- Something coded is still waiting, or nothing was placed yet. -/
def Waiting (c : Cfg) (K : Nat → Bool) (lim : Option Nat) (s : St F O M) : Prop :=
  (s.nextOutput = 0 ∧ s.outputFrameno = 0) ∨
  ∃ o, s.outputFrameno ≤ o ∧ o < s.nextOutput ∧ coded c K lim o

/-- The key frame decisions cover every frame the lookahead condition lets the
scheduler place. -/
def Known (c : Cfg) (sent : List (F × Option (Params O M))) (s : St F O M) : Prop :=
  ∀ i, needsMoreFrameQ c s i = false →
    (∀ x, x ≤ i → x < sent.length → x < s.nextLookahead) ∧
    (s.limit = none → i < sent.length)

/-! ## Small facts -/

theorem exists_last (P : Nat → Prop) [DecidablePred P] (n a : Nat) (h : a < n) (ha : P a) :
    ∃ k, a ≤ k ∧ k < n ∧ P k ∧ ∀ j, k < j → j < n → ¬ P j := by
  induction n with
  | zero => omega
  | succ n ih =>
    by_cases hn : P n
    · exact ⟨n, by omega, by omega, hn, fun j _ _ => by omega⟩
    · have : a < n := by
        rcases Nat.lt_or_ge a n with h' | h'
        · exact h'
        · have : a = n := by omega
          subst this; exact absurd ha hn
      obtain ⟨k, h1, h2, h3, h4⟩ := ih this
      refine ⟨k, h1, by omega, h3, fun j hj1 hj2 => ?_⟩
      by_cases hjn : j = n
      · subst hjn; exact hn
      · exact h4 j hj1 (by omega)

theorem prevInp_last (c : Cfg) (K : Nat → Bool) (lim : Option Nat) (o k : Nat) (hk : k < o)
    (h1 : (plan c K lim k).isSome) (h2 : ∀ j, k < j → j < o → plan c K lim j = none) :
    prevInp c K lim o = inp c K lim k := by
  induction o with
  | zero => omega
  | succ o ih =>
    rw [prevInp]
    by_cases h : k = o
    · subst h; rw [if_pos h1]
    · rw [h2 o (by omega) (by omega)]
      simp only [Option.isSome_none, Bool.false_eq_true, if_false]
      exact ih (by omega) (fun j a b => h2 j a (by omega))

theorem slotsAt_keep (c : Cfg) (K : Nat → Bool) (lim : Option Nat) (pic : Nat → Pic)
    (a b : Nat) (h : a ≤ b) (hn : ∀ k, a ≤ k → k < b → ¬ coded c K lim k) :
    slotsAt c K lim pic b = slotsAt c K lim pic a := by
  induction b with
  | zero => have : a = 0 := by omega
            subst this; rfl
  | succ b ih =>
    by_cases hab : a = b + 1
    · subst hab; rfl
    · rw [slotsAt]
      have hb := hn b (by omega) (by omega)
      cases hp : plan c K lim b with
      | none => exact ih (by omega) (fun k x y => hn k x (by omega))
      | some p =>
        simp only
        cases hs : p.sef with
        | true =>
          simp only [if_true]
          exact ih (by omega) (fun k x y => hn k x (by omega))
        | false => exact absurd ⟨p, hp, hs⟩ hb

theorem find_sorted (l : List Nat) (hl : l.Pairwise (· < ·)) (p : Nat → Bool) :
    match l.find? p with
    | none => ∀ x ∈ l, p x = false
    | some k => k ∈ l ∧ p k = true ∧ ∀ x ∈ l, p x = true → k ≤ x := by
  induction l with
  | nil => simp
  | cons a l ih =>
    rw [List.pairwise_cons] at hl
    rw [List.find?_cons]
    cases ha : p a with
    | true =>
      simp only
      refine ⟨List.mem_cons_self .., ha, ?_⟩
      intro x hx _
      rcases List.mem_cons.1 hx with h | h
      · omega
      · have := hl.1 x h; omega
    | false =>
      simp only
      have ih := ih hl.2
      cases hf : l.find? p with
      | none =>
        rw [hf] at ih
        simp only at ih ⊢
        intro x hx
        rcases List.mem_cons.1 hx with h | h
        · rw [h]; exact ha
        · exact ih x h
      | some k =>
        rw [hf] at ih
        simp only at ih ⊢
        refine ⟨List.mem_cons_of_mem _ ih.1, ih.2.1, ?_⟩
        intro x hx hpx
        rcases List.mem_cons.1 hx with h | h
        · rw [h, ha] at hpx; cases hpx
        · exact ih.2.2 x h hpx

section
variable {c : Cfg} {cut K : Nat → Bool} {lim : Option Nat}
  {sent : List (F × Option (Params O M))} {s : St F O M} {qs ds : Nat}
  {fd : Nat → Option (FD F M)}

theorem Base.dsNo (h : Base c cut K lim sent s qs ds fd) : ds ≤ s.nextOutput :=
  Nat.le_trans h.dsLe h.outLe

theorem Base.hasFrame (h : Base c cut K lim sent s qs ds fd) (i : Nat) :
    hasFrame s i = decide (qs ≤ i ∧ i < sent.length) := by
  unfold Sched.hasFrame
  rw [h.frameQ, get_tab]
  by_cases h1 : qs ≤ i ∧ i < sent.length
  · have : qs ≤ i ∧ i < qs + (sent.length - qs + if s.isFlushing then 1 else 0) := by
      constructor
      · exact h1.1
      · split <;> omega
    rw [if_pos this]
    unfold qf
    rw [List.getElem?_eq_getElem h1.2]
    simp [h1]
  · simp only [h1, decide_false]
    by_cases h2 : qs ≤ i ∧ i < qs + (sent.length - qs + if s.isFlushing then 1 else 0)
    · rw [if_pos h2]
      have : sent.length ≤ i := by
        apply Nat.le_of_not_lt; intro h3; exact h1 ⟨h2.1, h3⟩
      unfold qf
      rw [List.getElem?_eq_none this]
      rfl
    · rw [if_neg h2]

theorem keys_sorted (K : Nat → Bool) (n : Nat) :
    (0 :: (List.range' 1 n).filter K).Pairwise (· < ·) := by
  rw [List.pairwise_cons]
  constructor
  · intro x hx
    have := (List.mem_filter.1 hx).1
    rw [List.mem_range'_1] at this
    omega
  · exact List.Pairwise.filter _ List.pairwise_lt_range'

/-- What the code computes as the next key frame agrees with the final schedule
as far as it matters. -/
theorem Base.nextKey (h : Base c cut K lim sent s qs ds fd) (hv : c.Valid)
    (gs i : Nat) (hgs : gs < sent.length)
    (hk : ∀ x, x ≤ i → x < sent.length → x < s.nextLookahead)
    (hl : s.limit = none → i < sent.length) :
    nk c K lim gs ≤ nextKeyframe c s gs ∧
    (nk c K lim gs ≤ i → nextKeyframe c s gs = nk c K lim gs) := by
  have hsrt := find_sorted s.keyframes (by rw [h.keys]; exact keys_sorted K _)
    (fun k => decide (gs < k))
  have hnl := nk_le c K lim hv.maxKey gs
  have hmem : ∀ k, k ∈ s.keyframes → gs < k → K k = true ∧ k < s.nextLookahead := by
    intro k hk1 hk2
    rw [h.keys] at hk1
    rcases List.mem_cons.1 hk1 with e | e
    · omega
    · have e' := List.mem_filter.1 e
      have e'' := e'.1
      rw [List.mem_range'_1] at e''
      exact ⟨e'.2, by omega⟩
  have hmem' : ∀ k, gs < k → K k = true → k < s.nextLookahead → k ∈ s.keyframes := by
    intro k h1 h2 h3
    rw [h.keys]
    apply List.mem_cons_of_mem
    apply List.mem_filter.2
    refine ⟨?_, h2⟩
    rw [List.mem_range'_1]; omega
  -- the limit component
  have hlimit : nk c K lim gs ≤ (match s.limit with
      | some l => min (gs + c.maxKey) l | none => gs + c.maxKey) := by
    cases hlim : s.limit with
    | none => exact hnl
    | some l =>
      obtain ⟨e1, e2⟩ := h.limS l hlim
      have := nk_le_lim c K lim gs l (by omega) e2
      simp only; omega
  have hge : nk c K lim gs ≤ nextKeyframe c s gs := by
    unfold nextKeyframe
    cases hf : s.keyframes.find? (fun k => decide (gs < k)) with
    | none => exact hlimit
    | some k =>
      rw [hf] at hsrt
      simp only [decide_eq_true_eq] at hsrt
      have := nk_le_key c K lim gs k hsrt.2.1 (hmem k hsrt.1 hsrt.2.1).1
      simp only
      exact Nat.le_min.2 ⟨this, hlimit⟩
  refine ⟨hge, fun hi => Nat.le_antisymm ?_ hge⟩
  have hgt := nk_gt c K lim gs
  -- the three reasons for a boundary
  have hviaLimit : (match s.limit with
      | some l => min (gs + c.maxKey) l | none => gs + c.maxKey) ≤ nk c K lim gs →
      nextKeyframe c s gs ≤ nk c K lim gs := by
    intro hle
    unfold nextKeyframe
    cases hf : s.keyframes.find? (fun k => decide (gs < k)) with
    | none => exact hle
    | some k => exact Nat.le_trans (Nat.min_le_right _ _) hle
  have hviaKey : K (nk c K lim gs) = true → nk c K lim gs < sent.length →
      nextKeyframe c s gs ≤ nk c K lim gs := by
    intro hK hlt
    have hin := hmem' _ hgt hK (hk _ hi hlt)
    unfold nextKeyframe
    cases hf : s.keyframes.find? (fun k => decide (gs < k)) with
    | none =>
      rw [hf] at hsrt
      have := hsrt _ hin
      simp at this; omega
    | some k =>
      rw [hf] at hsrt
      simp only [decide_eq_true_eq] at hsrt
      exact Nat.le_trans (Nat.min_le_left _ _) (hsrt.2.2 _ hin hgt)
  cases hlim : s.limit with
  | none =>
    rcases nk_is c K lim hv.maxKey gs with e | e | e
    · exact hviaKey e (Nat.lt_of_le_of_lt hi (hl hlim))
    · have := h.limN hlim _ e
      have := hl hlim
      omega
    · apply hviaLimit; rw [hlim]; simp only; omega
  | some l =>
    obtain ⟨e1, e2⟩ := h.limS l hlim
    have hnkl := nk_le_lim c K lim gs l (by omega) e2
    by_cases heq : nk c K lim gs = l
    · apply hviaLimit; rw [hlim]; simp only; omega
    · rcases nk_is c K lim hv.maxKey gs with e | e | e
      · exact hviaKey e (by omega)
      · exact absurd (Option.some.inj (e2.symm.trans e)).symm heq
      · apply hviaLimit; rw [hlim]; simp only; omega

/-- `get_previous_fi` finds the last placed frame. -/
theorem Base.previousFi (h : Base c cut K lim sent s qs ds fd) (hv : c.Valid)
    (hw : Waiting c K lim s) (h0 : s.nextOutput ≠ 0) :
    ∃ fi, previousFi s s.nextOutput = some fi ∧
      fi.input = prevInp c K lim s.nextOutput := by
  have hdn := h.dsNo
  rcases hw with hw | ⟨o', h1, h2, p, hp, hs⟩
  · exact absurd hw.1 h0
  · have hd := h.dsLe
    obtain ⟨k, k1, k2, k3, k4⟩ := exists_last (fun o => (plan c K lim o).isSome = true)
      s.nextOutput o' h2 (by rw [hp]; rfl)
    have hpk := h.planOk k (by omega) k2
    have hfk : ∃ d, fd k = some d := by
      cases hfd : fd k with
      | none => rw [hfd] at hpk; rw [← hpk] at k3; simp at k3
      | some d => exact ⟨d, rfl⟩
    obtain ⟨d, hfd⟩ := hfk
    refine ⟨d.fi, ?_, ?_⟩
    · unfold Sched.previousFi
      rw [h.data, filter_lt_tab _ _ _ _ (by omega),
        rfind_tab ds _ fd _ k (by omega) (by omega)]
      · simp [hfd]
      · simp [hfd]
      · intro j hj1 hj2
        have hpj := h.planOk j (by omega) (by omega)
        have := k4 j hj1 (by omega)
        cases hfj : fd j with
        | none => rfl
        | some d' => rw [hfj] at hpj; rw [← hpj] at this; simp at this
    · rw [prevInp_last c K lim s.nextOutput k k2 k3]
      · rw [hfd] at hpk
        have := (plan_facts c K lim hv hpk.symm).1
        exact this
      · intro j hj1 hj2
        have := k4 j hj1 hj2
        cases hpj : plan c K lim j with
        | none => rfl
        | some _ => rw [hpj] at this; simp at this

/-- `get_previous_coded_fi` finds a coded frame, which carries the lookahead
reference buffers for the next position. -/
theorem Base.previousCoded (h : Base c cut K lim sent s qs ds fd)
    (hw : Waiting c K lim s) (h0 : s.nextOutput ≠ 0) :
    ∃ fi, previousCodedFi s s.nextOutput = some fi ∧
      fi.look = slotsAt c K lim .orig s.nextOutput := by
  have hdn := h.dsNo
  rcases hw with hw | ⟨o', h1, h2, hc⟩
  · exact absurd hw.1 h0
  · have hd := h.dsLe
    obtain ⟨k, k1, k2, ⟨p, k3, k3'⟩, k4⟩ :=
      exists_last (coded c K lim) s.nextOutput o' h2 hc
    have hpk := h.planOk k (by omega) k2
    have hfk : ∃ d, fd k = some d := by
      cases hfd : fd k with
      | none => rw [hfd, k3] at hpk; cases hpk
      | some d => exact ⟨d, rfl⟩
    obtain ⟨d, hfd⟩ := hfk
    have hsef : d.fi.sef = false := by
      rw [hfd, k3] at hpk
      simp only [Option.map_some, Option.some.injEq] at hpk
      rw [← hpk] at k3'; exact k3'
    refine ⟨d.fi, ?_, ?_⟩
    · unfold previousCodedFi
      rw [h.data, filter_lt_tab _ _ _ _ (by omega),
        rfind_tab ds _ fd _ k (by omega) (by omega)]
      · simp [hfd]
      · simp [hfd, hsef]
      · intro j hj1 hj2
        have hpj := h.planOk j (by omega) (by omega)
        have := k4 j hj1 (by omega)
        cases hfj : fd j with
        | none => rfl
        | some d' =>
          rw [hfj] at hpj
          simp only
          cases hs' : d'.fi.sef with
          | true => rfl
          | false => exact absurd ⟨d'.fi.strip, hpj.symm, hs'⟩ this
    · rw [h.looks k d (by omega) k2 hfd hsef]
      exact (slotsAt_keep c K lim .orig (k + 1) s.nextOutput (by omega)
        (fun j a b => k4 j (by omega) b)).symm

end
end Rav1e.Sched
