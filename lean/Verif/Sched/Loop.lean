import Verif.Sched.Build

/-!
# Placing as many frames as the lookahead allows
-/

namespace Rav1e.Sched

open BMap

variable {F O M : Type}

/-- The part of the state the placement loop leaves alone. -/
def SameOuter (s s' : St F O M) : Prop :=
  s' = { s with frameData := s'.frameData, gopOut := s'.gopOut, gopIn := s'.gopIn,
                t35Q := s'.t35Q, nextOutput := s'.nextOutput }

theorem SameOuter.refl (s : St F O M) : SameOuter s s := rfl

theorem SameOuter.trans {s s' s'' : St F O M} (h : SameOuter s s') (h' : SameOuter s' s'') :
    SameOuter s s'' := by
  unfold SameOuter at *
  rw [h', h]

section
variable {c : Cfg} {cut K : Nat → Bool} {lim : Option Nat}
  {sent : List (F × Option (Params O M))} {s : St F O M} {qs ds : Nat}
  {fd : Nat → Option (FD F M)}

theorem lookIn_low (hr : c.reorder = false) (o : Nat) :
    lookIn c K lim o = shownBefore c K lim o := by
  cases o with
  | zero => rfl
  | succ o =>
    obtain ⟨gs, go, k, p⟩ := posL c K lim hr o
    have hs := p.sch
    simp only [Nat.add_sub_cancel] at hs
    unfold lookIn
    rw [if_neg (by omega), Nat.add_sub_cancel, hs, p.shown]
    simp only
    rw [inputL c hr]
    have := p.pos; omega

theorem qf_some {i : Nat} (h : i < sent.length) : ∃ f, qf sent i = some f := by
  unfold qf; rw [List.getElem?_eq_getElem h]; exact ⟨_, rfl⟩

/-- Record the frame (or placeholder) `v` at the next position. -/
theorem Base.extend (h : Base c cut K lim sent s qs ds fd) (hv : c.Valid)
    (hw : Waiting c K lim s) {s' : St F O M} {x : Option (FI M)}
    (hb : Built c K lim sent s s' qs (some x)) (v : Option (FD F M))
    (v1 : v.map (fun d => d.fi.strip) = x.map FI.strip)
    (v2 : ∀ d, v = some d → qf sent d.fi.input = some d.src)
    (v3 : ∀ d, v = some d → d.fi.sef = false →
      d.fi.look = slotsAt c K lim .orig (s.nextOutput + 1))
    (v4 : ∀ d, v = some d → d.fi.sef = false → d.fi.ftype ≠ .key →
      d.fi.recBuf = slotsAt c K lim .orig s.nextOutput)
    (v5 : ∀ d, v = some d → ∃ fi, x = some fi ∧ d.fi.t35 = fi.t35)
    (v6 : ∀ d, v = some d → d.fi.ftype = .key → d.fi.recBuf.length = 8) :
    Base c cut K lim sent
      { s' with frameData := s'.frameData.insert s.nextOutput v,
                nextOutput := s.nextOutput + 1 } qs ds (upd fd s.nextOutput v) ∧
    Waiting c K lim { s' with frameData := s'.frameData.insert s.nextOutput v,
                              nextOutput := s.nextOutput + 1 } := by
  have hdn := h.dsNo
  have hol := h.outLe
  have hplan : v.map (fun d => d.fi.strip) = plan c K lim s.nextOutput := by
    rw [v1]; exact (hb.here x rfl).2.2.2
  have hne : s.nextOutput ≠ 0 → ∃ o, s.outputFrameno ≤ o ∧ o < s.nextOutput ∧
      coded c K lim o := by
    intro h0
    rcases hw with hw | hw
    · exact absurd hw.1 h0
    · exact hw
  obtain ⟨gh1, gh2, gh3, -⟩ := hb.here x rfl
  -- the new frame, if any
  have hnew : ∀ d, v = some d → ∃ p, plan c K lim s.nextOutput = some p ∧
      p = d.fi.strip ∧ d.fi.input < sent.length ∧ d.fi.input < s.nextLookahead := by
    intro d hd
    rw [hd] at hplan
    refine ⟨_, hplan.symm, rfl, ?_⟩
    obtain ⟨fi, hx, _⟩ := v5 d hd
    have hfr := (hb.frame fi (by rw [hx])).1
    rw [hd, hx] at v1
    simp only [Option.map_some, Option.some.injEq] at v1
    have : d.fi.input = fi.input := congrArg (FI.input (M := Unit)) v1
    omega
  have hshown : shownBefore c K lim (s.nextOutput + 1) ≤ sent.length ∧
      shownBefore c K lim (s.nextOutput + 1) ≤ s.nextLookahead := by
    have hs1 := h.shownLe
    have hs2 := h.shownNl
    rw [shownBefore]
    cases hp : plan c K lim s.nextOutput with
    | none => simp only; omega
    | some p =>
      simp only
      cases hd : v with
      | none => rw [hd, hp] at hplan; cases hplan
      | some d =>
        obtain ⟨p', e1, e2, e3, e4⟩ := hnew d hd
        rw [hp] at e1
        cases e1
        obtain ⟨f1, f2, f3, -⟩ := plan_facts c K lim hv hp
        have : p.input = d.fi.input := by rw [e2]; rfl
        cases hs : p.shown with
        | true =>
          have := f3 hs
          simp only [if_true]; omega
        | false => simp only [Bool.false_eq_true, if_false]; omega
  have hsame := hb.same
  have hg1 := hb.gopOut
  have hg2 := hb.gopIn
  have ht := hb.t35here x rfl
  have hw' : Waiting c K lim ({ s' with
      frameData := s'.frameData.insert s.nextOutput v
      nextOutput := s.nextOutput + 1 } : St F O M) := by
    right
    rw [hsame]
    simp only
    rcases Nat.eq_zero_or_pos s.nextOutput with h0 | hpos
    · refine ⟨0, by omega, by omega, ?_⟩
      exact ⟨_, plan_key c K lim (gs := 0) rfl, rfl⟩
    · obtain ⟨o, h1, h2, h3⟩ := hne (by omega)
      exact ⟨o, h1, by omega, h3⟩
  refine ⟨?_, hw'⟩
  generalize hG1 : s'.gopOut = G1 at *
  generalize hG2 : s'.gopIn = G2 at *
  generalize hT : s'.t35Q = T at *
  subst hsame
  have hupd : ∀ o, o < s.nextOutput → upd fd s.nextOutput v o = fd o :=
    fun o ho => upd_ne _ _ _ _ (by omega)
  refine
    { count := h.count, kagree := h.kagree, flush := h.flush, limS := h.limS,
      limN := h.limN, frameQ := h.frameQ, qsLe := h.qsLe, qsFp := h.qsFp, fpLe := h.fpLe,
      nlf := h.nlf, nlfLe := h.nlfLe, keys := h.keys, forcedK := h.forcedK,
      data := ?_, dsLe := h.dsLe, outLe := by simp only; omega, planOk := ?_, src := ?_,
      gop := ?_, gsLt := ?_, shownLe := hshown.1, shownNl := hshown.2, fp := h.fp,
      recs := ?_, looks := ?_, recsL := ?_, recKey := ?_, opq := h.opq, t35d := ?_, t35q := ?_, t35gone := ?_
      lookLt := ?_ }
  · simp only
    rw [h.data]
    have := insert_tab_end ds (s.nextOutput - ds) fd v
    rw [show ds + (s.nextOutput - ds) = s.nextOutput by omega] at this
    rw [this, show s.nextOutput - ds + 1 = s.nextOutput + 1 - ds by omega]
  · intro o h1 h2
    simp only at h2
    by_cases ho : o = s.nextOutput
    · subst ho; rw [upd_same]; exact hplan
    · rw [hupd o (by omega)]; exact h.planOk o h1 (by omega)
  · intro o d h1 h2 hd
    simp only at h2
    by_cases ho : o = s.nextOutput
    · subst ho; rw [upd_same] at hd; exact v2 d hd
    · rw [hupd o (by omega)] at hd; exact h.src o d h1 (by omega) hd
  · intro o h1 h2
    simp only at h2 ⊢
    by_cases ho : o = s.nextOutput
    · subst ho; exact ⟨gh1, gh2⟩
    · rw [hg1 o ho, hg2 o ho]; exact h.gop o h1 (by omega)
  · intro o h2
    simp only at h2
    by_cases ho : o = s.nextOutput
    · subst ho; exact gh3
    · exact h.gsLt o (by omega)
  · intro o d h1 h2 hd hk hc
    simp only at h1 h2 hc
    by_cases ho : o = s.nextOutput
    · subst ho
      rw [upd_same] at hd
      exfalso
      rcases Nat.eq_zero_or_pos s.nextOutput with h0 | hpos
      · obtain ⟨p, e1, e2, -⟩ := hnew d hd
        rw [h0, plan_key c K lim (gs := 0) rfl] at e1
        cases e1
        exact hk (congrArg (FI.ftype (M := Unit)) e2).symm
      · obtain ⟨o, x1, x2, x3⟩ := hne (by omega)
        exact hc o x1 x2 x3
    · rw [hupd o (by omega)] at hd; exact h.recs o d h1 (by omega) hd hk hc
  · intro o d h1 h2 hd hs
    simp only at h2
    by_cases ho : o = s.nextOutput
    · subst ho; rw [upd_same] at hd; exact v3 d hd hs
    · rw [hupd o (by omega)] at hd; exact h.looks o d h1 (by omega) hd hs
  · intro o d h1 h2 hd hs hk hc
    simp only at h1 h2 hc
    by_cases ho : o = s.nextOutput
    · subst ho; rw [upd_same] at hd; exact v4 d hd hs hk
    · rw [hupd o (by omega)] at hd; exact h.recsL o d h1 (by omega) hd hs hk hc
  · intro o d h1 h2 hd hk
    simp only at h1 h2
    by_cases ho : o = s.nextOutput
    · subst ho; rw [upd_same] at hd; exact v6 d hd hk
    · rw [hupd o (by omega)] at hd; exact h.recKey o d h1 (by omega) hd hk
  · intro o d h1 h2 hd
    simp only at h1 h2
    by_cases ho : o = s.nextOutput
    · subst ho
      rw [upd_same] at hd
      obtain ⟨fi, hx, ht35⟩ := v5 d hd
      have hfr := (hb.frame fi (by rw [hx])).2.2.2
      obtain ⟨p, e1, e2, e3, -⟩ := hnew d hd
      have hsh : p.shown = fi.shown := by
        rw [hd, hx] at v1
        simp only [Option.map_some, Option.some.injEq] at v1
        rw [e2, v1]; rfl
      rw [ht35, hfr]
      unfold t35Of
      rw [e1]
      simp only
      rw [← hsh]
      cases hs : p.shown with
      | false => simp
      | true =>
        have hin := (plan_facts c K lim hv e1).2.2.1 hs
        have hpd : p.input = d.fi.input := by rw [e2]; rfl
        rcases h.t35q with ⟨_, hq⟩ | hq
        · omega
        · simp only [if_true, true_and]
          split
          · rename_i hk
            exact hq _ hk
          · rename_i hk
            refine h.t35gone _ (Classical.byContradiction fun hne => hk fun k h1 h2 => hne ⟨k, h1, h2⟩)
    · rw [hupd o (by omega)] at hd; exact h.t35d o d h1 (by omega) hd
  · rcases h.t35q with ⟨q1, q2⟩ | hq
    · left
      refine ⟨q1, ?_⟩
      have hmono := shownBefore_mono c K lim (Nat.le_succ s.nextOutput)
      exact Nat.le_antisymm hshown.1 (q2 ▸ hmono)
    · right
      intro n hn
      simp only at hn ⊢
      rw [ht, get_remove, if_neg (fun e => hn s.nextOutput (by omega) e.symm)]
      exact hq n (fun k hk => hn k (by omega))
  · intro n hn
    obtain ⟨k, hk1, hk2⟩ := hn
    simp only at hk1 ⊢
    rw [ht, get_remove]
    by_cases e : n = lookIn c K lim s.nextOutput
    · rw [if_pos e]; rfl
    · rw [if_neg e]
      refine h.t35gone n ⟨k, ?_, hk2⟩
      rcases Nat.lt_or_ge k s.nextOutput with hh | hh
      · exact hh
      · have : k = s.nextOutput := by omega
        subst this
        exact absurd hk2.symm e
  · intro hl o h2
    simp only at hl h2
    by_cases ho : o = s.nextOutput
    · subst ho; exact hb.lookHere x rfl hl
    · exact h.lookLt hl o (by omega)

/-- Nothing was placed. -/
theorem Base.stay (h : Base c cut K lim sent s qs ds fd)
    (hw : Waiting c K lim s) {s' : St F O M}
    (hb : Built c K lim sent s s' qs none) :
    Base c cut K lim sent s' qs ds fd ∧ Waiting c K lim s' := by
  have hsame := hb.same
  have hg1 := hb.gopOut
  have hg2 := hb.gopIn
  have ht := hb.t35 rfl
  have hst := hb.stop rfl
  generalize hG1 : s'.gopOut = G1 at *
  generalize hG2 : s'.gopIn = G2 at *
  generalize hT : s'.t35Q = T at *
  subst hsame
  refine ⟨?_, hw⟩
  exact
    { count := h.count, kagree := h.kagree, flush := h.flush, limS := h.limS,
      limN := h.limN, frameQ := h.frameQ, qsLe := h.qsLe, qsFp := h.qsFp, fpLe := h.fpLe,
      nlf := h.nlf, nlfLe := h.nlfLe, keys := h.keys, forcedK := h.forcedK,
      data := h.data, dsLe := h.dsLe, outLe := h.outLe, planOk := h.planOk, src := h.src,
      gop := by
        intro o h1 h2
        simp only at h2 ⊢
        rw [hg1 o (by omega), hg2 o (by omega)]; exact h.gop o h1 h2
      gsLt := h.gsLt, shownLe := h.shownLe, shownNl := h.shownNl, fp := h.fp,
      recs := h.recs, looks := h.looks, recsL := h.recsL, recKey := h.recKey, opq := h.opq, t35d := h.t35d,
      t35q := by
        rcases h.t35q with hq | hq
        · exact Or.inl hq
        · rcases ht with e | ⟨e1, e⟩
          · right
            intro n hn
            simp only
            rw [e]; exact hq n hn
          · exact Or.inl ⟨e1, hst e1⟩
      t35gone := by
        intro n hn
        simp only at hn ⊢
        rcases ht with e | ⟨e1, e⟩
        · rw [e]; exact h.t35gone n hn
        · rw [e, get_remove]
          split
          · rfl
          · exact h.t35gone n hn
      lookLt := h.lookLt }

theorem Known.congr {s s' : St F O M} (h : Known c sent s)
    (h1 : s'.frameQ = s.frameQ) (h2 : s'.limit = s.limit)
    (h3 : s'.nextLookahead = s.nextLookahead) : Known c sent s' := by
  unfold Known needsMoreFrameQ needsMoreFrames at *
  rw [h1, h2, h3]; exact h

/-- One iteration of the placement loop. -/
theorem advance (h : Base c cut K lim sent s qs ds fd) (hv : c.Valid)
    (hw : Waiting c K lim s) (hk : Known c sent s) :
    (∃ s', setFrame c s s.nextOutput = .ok (s', false) ∧ SameOuter s s' ∧
      Base c cut K lim sent s' qs ds fd ∧ Waiting c K lim s' ∧
      s'.nextOutput = s.nextOutput ∧
      (s.limit.isSome = true → shownBefore c K lim s.nextOutput = sent.length)) ∨
    (∃ s1 s2 fd', setFrame c s s.nextOutput = .ok (s1, true) ∧
      s1.nextOutput = s.nextOutput ∧
      lookaheadMvs s1 s.nextOutput = .ok s2 ∧ s2.nextOutput = s.nextOutput ∧
      SameOuter s { s2 with nextOutput := s.nextOutput + 1 } ∧
      Base c cut K lim sent { s2 with nextOutput := s.nextOutput + 1 } qs ds fd' ∧
      Waiting c K lim { s2 with nextOutput := s.nextOutput + 1 }) := by
  obtain ⟨s', r, hbf, hb⟩ := build_spec h hv hw hk
  have hdn := h.dsNo
  cases r with
  | none =>
    left
    obtain ⟨b1, b2⟩ := h.stay hw hb
    refine ⟨s', ?_, ?_, b1, b2, ?_, hb.stop rfl⟩
    · unfold setFrame; rw [hbf]; rfl
    · rw [hb.same]; rfl
    · rw [hb.same]
  | some x =>
    right
    have hq : s'.frameQ = s.frameQ := by rw [hb.same]
    have hfd : s'.frameData = s.frameData := by rw [hb.same]
    have hno : s'.nextOutput = s.nextOutput := by rw [hb.same]
    have hof : s'.outputFrameno = s.outputFrameno := by rw [hb.same]
    cases x with
    | none =>
      obtain ⟨b1, b2⟩ := h.extend hv hw hb none rfl (by simp) (by simp) (by simp) (by simp)
        (by simp)
      refine ⟨{ s' with frameData := s'.frameData.insert s.nextOutput none },
        { s' with frameData := s'.frameData.insert s.nextOutput none }, _, ?_, hno, ?_, hno,
        ?_, b1, b2⟩
      · unfold setFrame; rw [hbf]; rfl
      · unfold lookaheadMvs
        simp only [get_insert, if_true, orPanic, bind, Except.bind]
      · unfold SameOuter; rw [hb.same]
    | some fi =>
      obtain ⟨⟨i1, i2, -⟩, hkey, hint, ht35⟩ := hb.frame fi rfl
      obtain ⟨f, hf⟩ := qf_some i2
      have hget : s'.frameQ.get fi.input = some (some f) := by
        rw [hq, h.frameQ, get_tab, if_pos, hf]
        constructor
        · exact i1
        · split <;> omega
      have hset : setFrame c s s.nextOutput =
          .ok ({ s' with frameData := s'.frameData.insert s.nextOutput (some ⟨fi, f⟩) },
            true) := by
        unfold setFrame; rw [hbf]
        simp only [bind, Except.bind]
        rw [hget]
      cases hsef : fi.sef with
      | true =>
        obtain ⟨b1, b2⟩ := h.extend hv hw hb (some ⟨fi, f⟩) rfl
          (by intro d hd; cases hd; exact hf)
          (by intro d hd hs; cases hd; rw [hsef] at hs; cases hs)
          (by intro d hd hs; cases hd; rw [hsef] at hs; cases hs)
          (by intro d hd; cases hd; exact ⟨fi, rfl, rfl⟩)
          (by intro d hd hty; cases hd; rw [(hkey hty).2]; rfl)
        refine ⟨_, { s' with frameData := s'.frameData.insert s.nextOutput (some ⟨fi, f⟩) }, _,
          hset, hno, ?_, hno, ?_, b1, b2⟩
        · unfold lookaheadMvs
          simp only [get_insert, if_true, orPanic, bind, Except.bind, hsef]
        · unfold SameOuter; rw [hb.same]
      | false =>
        have hplan := (hb.here _ rfl).2.2.2
        simp only [Option.map_some] at hplan
        let fi' : FI M := { fi with
            recBuf := if s'.outputFrameno = s.nextOutput then fi.recBuf else fi.look
            look := fi.look.refresh fi.refresh (fi.asRef s.nextOutput (.orig fi.input)) }
        obtain ⟨b1, b2⟩ := h.extend hv hw hb (some ⟨fi', f⟩) rfl
          (by intro d hd; cases hd; exact hf)
          (by
            intro d hd hs
            cases hd
            simp only [fi']
            rw [slotsAt, ← hplan]
            simp only [FI.strip, hsef, Bool.false_eq_true, if_false, FI.asRef]
            by_cases hty : fi.ftype = .key
            · rw [(hkey hty).1]
              have hrf := (plan_facts c K lim hv hplan.symm).2.2.2.2.2.1 hty
              have : fi.refresh = 255 := hrf.2.2.1
              rw [this]
              exact RefSet.refresh_all _ _ rfl (slotsAt_length ..) _
            · rw [(hint hty).2])
          (by
            intro d hd hs hty
            cases hd
            simp only [fi'] at hty ⊢
            obtain ⟨hn0, hl⟩ := hint hty
            rw [if_neg, hl]
            rw [hof]
            rcases hw with hw | ⟨o, h1, h2, -⟩
            · omega
            · omega)
          (by intro d hd; cases hd; exact ⟨fi, rfl, rfl⟩)
          (by
            intro d hd hty
            cases hd
            simp only [fi'] at hty ⊢
            rw [(hkey hty).2, (hkey hty).1]
            split <;> rfl)
        refine ⟨_, { s' with frameData := s'.frameData.insert s.nextOutput (some ⟨fi', f⟩) }, _,
          hset, hno, ?_, hno, ?_, b1, b2⟩
        · unfold lookaheadMvs
          simp only [get_insert, if_true, orPanic, bind, Except.bind, hsef,
            Bool.false_eq_true, if_false]
          rw [hfd, h.data]
          have e := fun v => insert_tab_end ds (s.nextOutput - ds) fd (v : Option (FD F M))
          rw [show ds + (s.nextOutput - ds) = s.nextOutput by omega] at e
          rw [e, insert_tab_mem _ _ _ _ _ (by omega) (by omega), e]
          congr 2
          apply tab_congr
          intro k hk1 hk2
          unfold upd
          split
          · simp only [fi', hsef]
          · rfl
        · unfold SameOuter; rw [hb.same]

/-- The whole loop of `compute_frame_invariants`. -/
theorem loop (hv : c.Valid) (n : Nat) : ∀ (s : St F O M) (fd : Nat → Option (FD F M)),
    Base c cut K lim sent s qs ds fd → Waiting c K lim s → Known c sent s →
    7 * sent.length + 9 ≤ n + s.nextOutput →
    ∃ s' fd', frameInvariants c n s = .ok s' ∧ SameOuter s s' ∧
      Base c cut K lim sent s' qs ds fd' ∧ Waiting c K lim s' ∧
      (s.limit.isSome = true → shownBefore c K lim s'.nextOutput = sent.length) := by
  induction n with
  | zero =>
    intro s fd h hw hk hn
    exfalso
    have h1 := (sched_le c K lim hv s.nextOutput).2.1
    have h2 := h.shownLe
    omega
  | succ n ih =>
    intro s fd h hw hk hn
    rcases advance h hv hw hk with ⟨s', e, hs, hb, hw', hno, hend⟩ |
      ⟨s1, s2, fd', e1, e2, e3, e4, hs, hb, hw'⟩
    · refine ⟨s', fd, ?_, hs, hb, hw', ?_⟩
      · unfold frameInvariants; rw [e]; rfl
      · rw [hno]; exact hend
    · have hk' : Known c sent { s2 with nextOutput := s.nextOutput + 1 } := by
        apply hk.congr
        · rw [hs]
        · rw [hs]
        · rw [hs]
      obtain ⟨s', fd'', x1, x2, x3, x4, x5⟩ := ih _ _ hb hw' hk' (by simp only; omega)
      refine ⟨s', fd'', ?_, hs.trans x2, x3, x4, ?_⟩
      · unfold frameInvariants; rw [e1]
        simp only [bind, Except.bind, if_true]
        rw [e2, e3]
        simp only
        rw [e4]; exact x1
      · intro hl
        apply x5
        have : ({ s2 with nextOutput := s.nextOutput + 1 } : St F O M).limit = s.limit := by
          rw [hs]
        rw [this]; exact hl

end
end Rav1e.Sched
