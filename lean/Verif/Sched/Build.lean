import Verif.Sched.Inv

/-!
# Building one frame
-/

namespace Rav1e.Sched

open BMap

variable {F O M : Type}

theorem inter_some (c : Cfg) (prev : FI M) (gs g n : Nat) (t : List M)
    (h : c.inputFrameno g gs < n) :
    ∃ fi, newInterFrame c prev gs g n t = some fi ∧ fi.input = c.inputFrameno g gs ∧
      fi.look = prev.look ∧ fi.recBuf = prev.recBuf ∧ fi.ftype ≠ .key ∧
      fi.t35 = (if fi.shown then t else []) := by
  unfold newInterFrame
  rw [if_neg (by omega)]
  refine ⟨_, rfl, rfl, rfl, rfl, ?_, rfl⟩
  simp only
  split <;> simp

theorem inter_none (c : Cfg) (prev : FI M) (gs g n : Nat) (t : List M)
    (h : n ≤ c.inputFrameno g gs) : newInterFrame c prev gs g n t = none := by
  unfold newInterFrame
  rw [if_pos h]

/-- The three things that can be placed at a position after the first. -/
inductive NextPos (c : Cfg) (K : Nat → Bool) (lim : Option Nat) (o gs go i : Nat) : Prop
  /-- a new key frame -/
  | key : nk c K lim gs ≤ i →
      (c.reorder = false ∨
        ((o - go - 1) % c.gol = 0 ∧ prevInp c K lim o = nk c K lim gs - 1)) →
      sched c K lim o = (nk c K lim gs, o) → shownBefore c K lim o = nk c K lim gs →
      NextPos c K lim o gs go i
  /-- a placeholder -/
  | hole : nk c K lim gs ≤ i → c.reorder = true →
      ¬ ((o - go - 1) % c.gol = 0 ∧ prevInp c K lim o = nk c K lim gs - 1) →
      sched c K lim o = (gs, go) → plan c K lim o = none → NextPos c K lim o gs go i
  /-- an inter frame -/
  | inter : i < nk c K lim gs → sched c K lim o = (gs, go) →
      inp c K lim o = i → shownBefore c K lim o ≤ i →
      (∀ (M : Type) (prev : FI M) (n : Nat) (t : List M), i < n →
        (newInterFrame c prev gs (o - go) n t).map FI.strip = plan c K lim o) →
      NextPos c K lim o gs go i

theorem nextPos (c : Cfg) (K : Nat → Bool) (lim : Option Nat) (hv : c.Valid) (o : Nat) :
    ∃ gs go, sched c K lim o = (gs, go) ∧ go ≤ o ∧ gs < lookIn c K lim (o + 1) ∧
      lookIn c K lim (o + 1) = c.inputFrameno (o + 1 - go) gs ∧
      NextPos c K lim (o + 1) gs go (lookIn c K lim (o + 1)) := by
  cases hr : c.reorder with
  | true =>
    obtain ⟨gs, go, j, idx, p⟩ := posR c K lim hv hr o
    obtain ⟨pos, lt, sch, ent, ent0, shown, prev⟩ := id p
    simp only [Nat.add_sub_cancel] at sch
    have hgt := nk_gt c K lim gs
    obtain ⟨_, _, hgol, _⟩ := dimsR c hr
    have hi : lookIn c K lim (o + 1) = gs + 4 * j + off idx := by
      unfold lookIn
      rw [if_neg (by omega), Nat.add_sub_cancel, sch]
      simp only
      rw [show o + 1 - go = 6 * j + idx + 1 by omega]
      exact inputR c hr gs j idx lt
    have hlook : lookIn c K lim (o + 1) = c.inputFrameno (o + 1 - go) gs := by
      unfold lookIn
      rw [if_neg (by omega), Nat.add_sub_cancel, sch]
    have hoff : 1 ≤ off idx := by
      rcases (by omega : idx = 0 ∨ idx = 1 ∨ idx = 2 ∨ idx = 3 ∨ idx = 4 ∨ idx = 5) with
        h | h | h | h | h | h <;> subst h <;> decide
    refine ⟨gs, go, sch, by omega, by omega, hlook, ?_⟩
    rw [hi]
    have hmod : (o + 1 - go - 1) % c.gol = idx := by rw [hgol]; omega
    rcases p.step c K lim hv hr with ⟨⟨h0, hle⟩, hs, _⟩ | ⟨hlt, hs, _⟩
    · subst h0
      refine .key (by simp only [off]; omega) (Or.inr ⟨hmod, ?_⟩) hs ?_
      · rw [prev]; simp only [lastR]; generalize nk c K lim gs = n at *; omega
      · rw [shown]; generalize nk c K lim gs = n at *; omega
    · have hp := plan_R c K lim hv hr hs pos lt
      by_cases hlti : gs + 4 * j + off idx < nk c K lim gs
      · rw [if_pos hlti] at hp
        refine .inter hlti hs (inp_R c K lim hr hs pos lt) ?_ ?_
        · rw [shown]
          generalize nk c K lim gs = n at *
          rcases (by omega : idx = 0 ∨ idx = 1 ∨ idx = 2 ∨ idx = 3 ∨ idx = 4 ∨ idx = 5) with
            h | h | h | h | h | h <;> subst h <;> simp only [off] at * <;> omega
        · intro M prev n t hn
          rw [show o + 1 - go = 6 * j + idx + 1 by omega,
            inter_R c hv hr prev gs j idx n lt t, if_pos hn, hp]
      · rw [if_neg hlti] at hp
        refine .hole (by omega) hr ?_ hs hp
        rintro ⟨h1, h2⟩
        rw [hmod] at h1
        subst h1
        rw [prev] at h2
        simp only [lastR] at h2
        generalize nk c K lim gs = n at *
        omega
  | false =>
    obtain ⟨gs, go, k, p⟩ := posL c K lim hr o
    obtain ⟨pos, lt, sch, ent, shown, prev⟩ := id p
    simp only [Nat.add_sub_cancel] at sch
    have hgt := nk_gt c K lim gs
    have hlook : lookIn c K lim (o + 1) = c.inputFrameno (o + 1 - go) gs := by
      unfold lookIn
      rw [if_neg (by omega), Nat.add_sub_cancel, sch]
    have hi : lookIn c K lim (o + 1) = gs + k := by
      rw [hlook, show o + 1 - go = k by omega]
      exact inputL c hr gs k
    refine ⟨gs, go, sch, by omega, by omega, hlook, ?_⟩
    rw [hi]
    rcases p.step c K lim hr with ⟨h0, hs, _⟩ | ⟨hlt, hs, _⟩
    · exact .key (by omega) (Or.inl hr) hs (by omega)
    · have hp := plan_L c K lim hr hs pos lt
      rw [if_pos hlt] at hp
      refine .inter hlt hs (inp_L c K lim hr hs pos) (by omega) ?_
      intro M prev n t hn
      rw [show o + 1 - go = k by omega, inter_L c hr prev gs k n lt t, if_pos hn, hp]

/-- What placing a frame does to the state, and what it yields. -/
structure Built (c : Cfg) (K : Nat → Bool) (lim : Option Nat)
    (sent : List (F × Option (Params O M))) (s s' : St F O M) (qs : Nat)
    (r : Option (Option (FI M))) : Prop where
  same : s' = { s with gopOut := s'.gopOut, gopIn := s'.gopIn, t35Q := s'.t35Q }
  gopOut : ∀ k, k ≠ s.nextOutput → s'.gopOut.get k = s.gopOut.get k
  gopIn : ∀ k, k ≠ s.nextOutput → s'.gopIn.get k = s.gopIn.get k
  stop : r = none → s.limit.isSome = true → shownBefore c K lim s.nextOutput = sent.length
  here : ∀ x, r = some x → s'.gopOut.get s.nextOutput = some (sched c K lim s.nextOutput).2 ∧
    s'.gopIn.get s.nextOutput = some (sched c K lim s.nextOutput).1 ∧
    (sched c K lim s.nextOutput).1 < sent.length ∧
    x.map FI.strip = plan c K lim s.nextOutput
  frame : ∀ fi, r = some (some fi) →
    (qs ≤ fi.input ∧ fi.input < sent.length ∧ fi.input < s.nextLookahead) ∧
    (fi.ftype = .key → fi.look = RefSet.empty ∧ fi.recBuf = RefSet.empty) ∧
    (fi.ftype ≠ .key → s.nextOutput ≠ 0 ∧
      fi.look = slotsAt c K lim .orig s.nextOutput) ∧
    fi.t35 = (if fi.shown then (s.t35Q.get (lookIn c K lim s.nextOutput)).getD [] else [])
  t35 : r = none → s'.t35Q = s.t35Q ∨ (s.limit.isSome = true ∧
    s'.t35Q = s.t35Q.remove (lookIn c K lim s.nextOutput))
  t35here : ∀ x, r = some x → s'.t35Q = s.t35Q.remove (lookIn c K lim s.nextOutput)
  lookHere : ∀ x, r = some x → s.limit = none → lookIn c K lim s.nextOutput < sent.length

section
variable {c : Cfg} {cut K : Nat → Bool} {lim : Option Nat}
  {sent : List (F × Option (Params O M))} {s : St F O M} {qs ds : Nat}
  {fd : Nat → Option (FD F M)}

theorem Base.contains (h : Base c cut K lim sent s qs ds fd) (n : Nat) :
    s.keyframes.contains n = true ↔ n = 0 ∨ (K n = true ∧ n < s.nextLookahead) := by
  rw [List.contains_iff_mem, h.keys, List.mem_cons, List.mem_filter, List.mem_range'_1]
  have := h.nlf
  constructor
  · rintro (h | ⟨h1, h2⟩)
    · exact Or.inl h
    · exact Or.inr ⟨h2, by omega⟩
  · rintro (h | ⟨h1, h2⟩)
    · exact Or.inl h
    · rcases Nat.eq_zero_or_pos n with e | e
      · exact Or.inl e
      · exact Or.inr ⟨by omega, h1⟩

/-- In a flushed state nothing more is awaited. -/
theorem Base.flushed_more (h : Base c cut K lim sent s qs ds fd)
    (hl : s.limit.isSome = true) (i : Nat) : needsMoreFrameQ c s i = false := by
  obtain ⟨l, hl'⟩ := Option.isSome_iff_exists.1 hl
  obtain ⟨e1, e2⟩ := h.limS l hl'
  have hf : s.isFlushing = true := by rw [h.flush, hl]
  have hq := h.frameQ
  rw [hf, if_pos rfl] at hq
  have hqs := h.qsLe
  unfold needsMoreFrameQ needsMoreFrames
  rw [hq, lastKey_tab, hl']
  simp only [Option.getD_some, Bool.and_eq_false_iff, decide_eq_false_iff_not]
  right; omega

theorem build_spec (h : Base c cut K lim sent s qs ds fd) (hv : c.Valid)
    (hw : Waiting c K lim s) (hk : Known c sent s) :
    ∃ s' r, buildFrame c s s.nextOutput = .ok (s', r) ∧
      Built c K lim sent s s' qs r := by
  have hnlf := h.nlf
  rcases Nat.eq_zero_or_pos s.nextOutput with h0 | hpos
  · -- the first frame
    have hlook : lookIn c K lim s.nextOutput = 0 := by unfold lookIn; rw [if_pos h0]
    have hsch : sched c K lim s.nextOutput = (0, s.nextOutput) := by rw [h0]; rfl
    have hqs0 : qs = 0 := by
      have h1 := h.qsFp
      have h2 := h.fp
      have h3 : s.outputFrameno = 0 := by have := h.outLe; omega
      rw [h3] at h2; simp only [shownBefore] at h2
      omega
    rw [show buildFrame c s s.nextOutput = buildFrame c s 0 by rw [h0]]
    unfold buildFrame
    simp only [pure, Except.pure, bind, Except.bind, Nat.sub_zero, Cfg.inputFrameno,
      if_true, Nat.lt_irrefl, if_false]
    rw [show (needsMoreFrameQ c { s with
      gopOut := s.gopOut.insert 0 0, gopIn := s.gopIn.insert 0 0 } 0) =
      needsMoreFrameQ c s 0 from rfl]
    cases hm : needsMoreFrameQ c s 0 with
    | true =>
      refine ⟨_, _, rfl, ⟨rfl, ?_, ?_, ?_, ?_, ?_, fun _ => Or.inl rfl, by simp, by simp⟩⟩
      · intro k hk; simp only [get_insert]; rw [if_neg (by omega)]
      · intro k hk; simp only [get_insert]; rw [if_neg (by omega)]
      · intro _ hl
        rw [h.flushed_more hl] at hm; cases hm
      · simp
      · simp
    | false =>
      simp only [Bool.false_eq_true, if_false]
      unfold buildTail
      rw [show (Sched.hasFrame ({ s with
          gopOut := s.gopOut.insert 0 0, gopIn := s.gopIn.insert 0 0,
          t35Q := s.t35Q.remove 0 } : St F O M) 0) = Sched.hasFrame s 0 from rfl,
        h.hasFrame 0, hqs0]
      by_cases hlen : 0 < sent.length
      · simp only [Nat.le_refl, hlen, and_self, decide_true, Bool.not_true,
          Bool.false_eq_true, if_false, (h.contains 0).2 (Or.inl rfl), if_true, get_insert,
          orPanic, bind, Except.bind, Nat.sub_zero]
        refine ⟨_, _, rfl, ⟨rfl, ?_, ?_, by simp, ?_, ?_, ?_, ?_, fun _ _ _ => by rw [hlook]; exact hlen⟩⟩
        · intro k hk; simp only [get_insert]; rw [if_neg (by omega), if_neg (by omega)]
        · intro k hk; simp only [get_insert]; rw [if_neg (by omega), if_neg (by omega)]
        · intro x hx
          simp only [Option.some.injEq] at hx
          subst hx
          refine ⟨?_, ?_, ?_, ?_⟩
          · simp only [get_insert, h0, if_true]; rfl
          · simp only [get_insert, h0, if_true]; rfl
          · rw [hsch]; exact hlen
          · rw [plan_key c K lim hsch]; rfl
        · intro fi hfi
          simp only [Option.some.injEq] at hfi
          subst hfi
          refine ⟨⟨by omega, hlen, hnlf⟩, fun _ => ⟨rfl, rfl⟩, fun hc => absurd rfl hc, ?_⟩
          rw [hlook]; rfl
        · simp
        · intro x _; rw [hlook]
      · simp only [hlen, and_false, decide_false, Bool.not_false, if_true]
        refine ⟨_, _, rfl, ⟨rfl, ?_, ?_, ?_, ?_, ?_, ?_, ?_, by simp⟩⟩
        · intro k hk; simp only [get_insert]; rw [if_neg (by omega)]
        · intro k hk; simp only [get_insert]; rw [if_neg (by omega)]
        · intro _ _; rw [h0]; simp only [shownBefore]; omega
        · simp
        · simp
        · intro _
          right
          refine ⟨?_, by rw [hlook]⟩
          cases hl : s.limit with
          | some l => rfl
          | none => have := (hk 0 hm).2 hl; omega
        · simp
  · -- a later frame
    obtain ⟨o, ho⟩ : ∃ o, s.nextOutput = o + 1 := ⟨s.nextOutput - 1, by omega⟩
    have hdo : ds ≤ o := by
      rcases hw with hw | ⟨o', h1, h2, _⟩
      · omega
      · have := h.dsLe; omega
    obtain ⟨gs, go, hsch, hgo, hgsi, hlook, np⟩ := nextPos c K lim hv o
    have hgsl : gs < sent.length := by
      have := h.gsLt o (by omega); rw [hsch] at this; exact this
    obtain ⟨hg1, hg2⟩ := h.gop o hdo (by omega)
    rw [hsch] at hg1 hg2
    simp only at hg1 hg2
    obtain ⟨pf, hpf, hpin⟩ := h.previousFi hv hw (by omega)
    obtain ⟨pc, hpc, hpl⟩ := h.previousCoded hw (by omega)
    have hqsS : qs ≤ shownBefore c K lim (o + 1) := by
      have h1 := h.qsFp
      have h2 := h.fp
      have h3 := shownBefore_mono c K lim h.outLe
      rw [ho] at h3; omega
    rw [ho] at hpf hpin hpc hpl
    have hng : o + 1 ≠ 0 := by omega
    have hg0 : 0 < o + 1 - go := by omega
    rw [ho]
    unfold buildFrame
    rw [if_neg hng]
    simp only [Nat.add_sub_cancel, hg1, hg2, orPanic, pure, Except.pure, bind, Except.bind]
    rw [← hlook]
    generalize hi : lookIn c K lim (o + 1) = i at *
    rw [show (needsMoreFrameQ c { s with
      gopOut := s.gopOut.insert (o + 1) go, gopIn := s.gopIn.insert (o + 1) gs } i) =
      needsMoreFrameQ c s i from rfl]
    cases hm : needsMoreFrameQ c s i with
    | true =>
      simp only [if_true]
      refine ⟨_, _, rfl, ⟨rfl, ?_, ?_, ?_, ?_, ?_, fun _ => Or.inl rfl, by simp, by simp⟩⟩
      · intro k hk; simp only [get_insert]; rw [if_neg (by omega)]
      · intro k hk; simp only [get_insert]; rw [if_neg (by omega)]
      · intro _ hl
        rw [h.flushed_more hl] at hm; cases hm
      · simp
      · simp
    | false =>
      simp only [Bool.false_eq_true, if_false, hg0, if_true]
      obtain ⟨hk1, hk2⟩ := hk i hm
      obtain ⟨hn1, hn2⟩ := h.nextKey hv gs i hgsl hk1 hk2
      rw [show (nextKeyframe c ({ s with
          gopOut := s.gopOut.insert (o + 1) go, gopIn := s.gopIn.insert (o + 1) gs,
          t35Q := s.t35Q.remove i } : St F O M) gs) = nextKeyframe c s gs from rfl,
        show (Sched.previousFi ({ s with
          gopOut := s.gopOut.insert (o + 1) go, gopIn := s.gopIn.insert (o + 1) gs,
          t35Q := s.t35Q.remove i } : St F O M) (o + 1)) = Sched.previousFi s (o + 1) from rfl,
        hpf]
      simp only
      cases np with
      | key hle hcond hs hsh =>
        have hnk := hn2 hle
        rw [hnk, if_pos hle, hpin]
        have hc : (!c.reorder || ((o + 1 - go - 1) % c.gol == 0 &&
            prevInp c K lim (o + 1) == nk c K lim gs - 1)) = true := by
          rcases hcond with e | ⟨e1, e2⟩
          · rw [e]; rfl
          · rw [e1, e2]; simp
        rw [if_pos hc]
        rw [show (Sched.hasFrame ({ s with
          gopOut := s.gopOut.insert (o + 1) go, gopIn := s.gopIn.insert (o + 1) gs,
          t35Q := s.t35Q.remove i } : St F O M) (nk c K lim gs)) =
            Sched.hasFrame s (nk c K lim gs) from rfl, h.hasFrame]
        by_cases hlen : nk c K lim gs < sent.length
        · have hqn : qs ≤ nk c K lim gs := by omega
          simp only [hqn, hlen, and_self, decide_true, Bool.not_true, Bool.false_eq_true,
            if_false]
          unfold buildTail
          rw [show (Sched.hasFrame ({ s with
            gopOut := (s.gopOut.insert (o + 1) go).insert (o + 1) (o + 1),
            gopIn := (s.gopIn.insert (o + 1) gs).insert (o + 1) (nk c K lim gs),
            t35Q := s.t35Q.remove i } : St F O M) (nk c K lim gs)) =
              Sched.hasFrame s (nk c K lim gs) from rfl, h.hasFrame]
          simp only [hqn, hlen, and_self, decide_true, Bool.not_true, Bool.false_eq_true,
            if_false]
          have hfin : ∀ (a b : BMap Nat),
              (∀ k, k ≠ o + 1 → a.get k = s.gopOut.get k) →
              (∀ k, k ≠ o + 1 → b.get k = s.gopIn.get k) →
              a.get (o + 1) = some (o + 1) → b.get (o + 1) = some (nk c K lim gs) →
              Built c K lim sent s { s with gopOut := a, gopIn := b, t35Q := s.t35Q.remove i }
                qs (some (some (newKeyFrame (nk c K lim gs) ((s.t35Q.get i).getD [])))) := by
            intro a b ha hb ha' hb'
            refine ⟨rfl, ?_, ?_, by simp, ?_, ?_, ?_, ?_, fun _ _ hl => by rw [ho, hi]; exact hk2 hl⟩
            · rw [ho]; exact ha
            · rw [ho]; exact hb
            · intro x hx
              simp only [Option.some.injEq] at hx
              subst hx
              rw [ho, hs]
              refine ⟨ha', hb', hlen, ?_⟩
              rw [plan_key c K lim hs]; rfl
            · intro fi hfi
              simp only [Option.some.injEq] at hfi
              subst hfi
              refine ⟨⟨hqn, hlen, hk1 _ hle hlen⟩, fun _ => ⟨rfl, rfl⟩, fun hc => absurd rfl hc, ?_⟩
              rw [ho, hi]; rfl
            · simp
            · intro x _; rw [ho, hi]
          cases s.keyframes.contains (nk c K lim gs) with
          | true =>
            simp only [if_true, get_insert, orPanic, bind, Except.bind, Nat.sub_self]
            refine ⟨_, _, rfl, hfin _ _ ?_ ?_ ?_ ?_⟩
            · intro k hk; simp only [get_insert]; rw [if_neg hk, if_neg hk, if_neg hk]
            · intro k hk; simp only [get_insert]; rw [if_neg hk, if_neg hk, if_neg hk]
            · simp only [get_insert, if_true]
            · simp only [get_insert, if_true]
          | false =>
            simp only [Bool.false_eq_true, if_false, if_true, get_insert, orPanic, bind,
              Except.bind, Nat.sub_self]
            refine ⟨_, _, rfl, hfin _ _ ?_ ?_ ?_ ?_⟩
            · intro k hk; simp only [get_insert]; rw [if_neg hk, if_neg hk]
            · intro k hk; simp only [get_insert]; rw [if_neg hk, if_neg hk]
            · simp only [get_insert, if_true]
            · simp only [get_insert, if_true]
        · simp only [hlen, and_false, decide_false, Bool.not_false, if_true]
          refine ⟨_, _, rfl, ⟨rfl, ?_, ?_, ?_, ?_, ?_, ?_, ?_, by simp⟩⟩
          · intro k hk; rw [ho] at hk; simp only [get_insert]; rw [if_neg hk]
          · intro k hk; rw [ho] at hk; simp only [get_insert]; rw [if_neg hk]
          · intro _ hl
            obtain ⟨l, hl'⟩ := Option.isSome_iff_exists.1 hl
            obtain ⟨e1, e2⟩ := h.limS l hl'
            have := nk_le_lim c K lim gs l (by omega) e2
            rw [ho, hsh]; omega
          · simp
          · simp
          · intro _
            right
            refine ⟨?_, by rw [ho, hi]⟩
            cases hl : s.limit with
            | some l => rfl
            | none => have := hk2 hl; omega
          · simp
      | hole hle hr hcond hs hp =>
        have hnk := hn2 hle
        rw [hnk, if_pos hle, hpin]
        have hc : ¬ (!c.reorder || ((o + 1 - go - 1) % c.gol == 0 &&
            prevInp c K lim (o + 1) == nk c K lim gs - 1)) = true := by
          rw [hr]
          simp only [Bool.not_true, Bool.false_or, Bool.and_eq_true, beq_iff_eq]
          exact hcond
        rw [if_neg hc]
        rw [show (Sched.previousCodedFi ({ s with
          gopOut := s.gopOut.insert (o + 1) go, gopIn := s.gopIn.insert (o + 1) gs,
          t35Q := s.t35Q.remove i } : St F O M) (o + 1)) =
            Sched.previousCodedFi s (o + 1) from rfl, hpc]
        simp only
        rw [inter_none c pc gs (o + 1 - go) (nk c K lim gs) _ (by rw [← hlook]; exact hle)]
        refine ⟨_, _, rfl, ⟨rfl, ?_, ?_, by simp, ?_, by simp, ?_, ?_, fun _ _ hl => by rw [ho, hi]; exact hk2 hl⟩⟩
        · intro k hk; rw [ho] at hk; simp only [get_insert]; rw [if_neg hk]
        · intro k hk; rw [ho] at hk; simp only [get_insert]; rw [if_neg hk]
        · intro x hx
          simp only [Option.some.injEq] at hx
          subst hx
          rw [ho, hs]
          simp only [get_insert, if_true, hgsl, true_and]
          rw [hp]; rfl
        · simp
        · intro x _; rw [ho, hi]
      | inter hlt hs hinp hsh hplan =>
        have hni : ¬ nextKeyframe c s gs ≤ i := by omega
        rw [if_neg hni]
        unfold buildTail
        rw [show (Sched.hasFrame ({ s with
          gopOut := s.gopOut.insert (o + 1) go, gopIn := s.gopIn.insert (o + 1) gs,
          t35Q := s.t35Q.remove i } : St F O M) i) =
            Sched.hasFrame s i from rfl, h.hasFrame]
        have hqi : qs ≤ i := by omega
        by_cases hlen : i < sent.length
        · have hcont : s.keyframes.contains i = false := by
            cases hcc : s.keyframes.contains i with
            | false => rfl
            | true =>
              rcases (h.contains i).1 hcc with e | ⟨e, _⟩
              · omega
              · have := (nk_before c K lim gs i hgsi hlt).1
                rw [e] at this; cases this
          have hgne : ¬ (o + 1 - go = 0) := by omega
          simp only [hqi, hlen, and_self, decide_true, Bool.not_true, Bool.false_eq_true,
            if_false, hcont, get_insert, if_true, orPanic, bind, Except.bind, hgne]
          rw [show (Sched.previousCodedFi ({ s with
            gopOut := s.gopOut.insert (o + 1) go, gopIn := s.gopIn.insert (o + 1) gs,
            t35Q := s.t35Q.remove i } : St F O M) (o + 1)) =
              Sched.previousCodedFi s (o + 1) from rfl, hpc]
          simp only
          rw [show (nextKeyframe c ({ s with
            gopOut := s.gopOut.insert (o + 1) go, gopIn := s.gopIn.insert (o + 1) gs,
            t35Q := s.t35Q.remove i } : St F O M) gs) = nextKeyframe c s gs from rfl]
          obtain ⟨fi, e1, e2, e3, e4, e5, e6⟩ := inter_some c pc gs (o + 1 - go)
            (nextKeyframe c s gs) ((s.t35Q.get i).getD []) (by rw [← hlook]; omega)
          have hstrip := hplan M pc (nextKeyframe c s gs) ((s.t35Q.get i).getD []) (by omega)
          rw [e1] at hstrip ⊢
          simp only
          refine ⟨_, _, rfl, ⟨rfl, ?_, ?_, by simp, ?_, ?_, ?_, ?_, fun _ _ hl => by rw [ho, hi]; exact hk2 hl⟩⟩
          · intro k hk; rw [ho] at hk; simp only [get_insert]; rw [if_neg hk]
          · intro k hk; rw [ho] at hk; simp only [get_insert]; rw [if_neg hk]
          · intro x hx
            simp only [Option.some.injEq] at hx
            subst hx
            rw [ho, hs]
            simp only [get_insert, if_true, hgsl, true_and]
            exact hstrip
          · intro f hf
            simp only [Option.some.injEq] at hf
            subst hf
            rw [e2, ← hlook]
            refine ⟨⟨hqi, hlen, hk1 i (Nat.le_refl _) hlen⟩, fun hc => absurd hc e5,
              fun _ => ⟨by omega, ?_⟩, ?_⟩
            · rw [e3, hpl, ho]
            · rw [e6, ho, hi]
          · simp
          · intro x _; rw [ho, hi]
        · simp only [hlen, and_false, decide_false, Bool.not_false, if_true]
          refine ⟨_, _, rfl, ⟨rfl, ?_, ?_, ?_, ?_, ?_, ?_, ?_, by simp⟩⟩
          · intro k hk; rw [ho] at hk; simp only [get_insert]; rw [if_neg hk]
          · intro k hk; rw [ho] at hk; simp only [get_insert]; rw [if_neg hk]
          · intro _ hl
            exfalso
            obtain ⟨l, hl'⟩ := Option.isSome_iff_exists.1 hl
            obtain ⟨e1, e2⟩ := h.limS l hl'
            have := nk_le_lim c K lim gs l (by omega) e2
            omega
          · simp
          · simp
          · intro _
            right
            refine ⟨?_, by rw [ho, hi]⟩
            cases hl : s.limit with
            | some l => rfl
            | none => have := hk2 hl; omega
          · simp

end
end Rav1e.Sched
