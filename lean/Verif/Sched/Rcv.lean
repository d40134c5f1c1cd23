import Verif.Sched.Receive

/-!
# What each `receive_packet` call does, in terms of the schedule
-/

namespace Rav1e.Sched

open BMap

variable {F O M : Type}

/-- The bitstream unit for the frame at output `o`. -/
def obuOf (c : Cfg) (K : Nat → Bool) (lim : Option Nat) (o : Nat) (p : FI Unit) : Obu M :=
  if p.sef then .showExisting p.slot
  else .frame p.ftype p.shown (p.orderHint % 64) p.refresh p.refs p.primary p.input
    (if p.ftype = .key then ⟨[], []⟩
     else ⟨p.refs.map (slotsAt c K lim .recon o).at,
       signBias c.stillPicture (slotsAt c K lim .recon o) p.refs p.orderHint⟩)

/-- All units for the frame at output `o`: sequence header, metadata, frame. -/
def unitsOf (c : Cfg) (K : Nat → Bool) (lim : Option Nat) (o : Nat) (p : FI Unit)
    (t35 : List M) : List (Obu M) :=
  (if p.ftype = .key then [.seqHdr] else []) ++ t35.map .t35 ++ [obuOf c K lim o p]

/-- The possible effects of one call. -/
inductive Rcv (c : Cfg) (K : Nat → Bool) (lim : Option Nat)
    (sent : List (F × Option (Params O M))) (ready : Bool) (s s' : St F O M) :
    Res F O M → Prop
  /-- everything was delivered -/
  | limit : s' = s → s.isFlushing = true → s.framesProcessed = sent.length →
      Rcv c K lim sent ready s s' .limitReached
  /-- nothing happens for now -/
  | wait (r : Res F O M) :
      (r = .needMoreData ∧ s.isFlushing = false ∧ needsMoreFi c s = true ∨ r = .notReady ∧ ready = false) →
      s'.packetData = s.packetData → s'.framesProcessed = s.framesProcessed →
      s.outputFrameno ≤ s'.outputFrameno →
      (∀ k, s.outputFrameno ≤ k → k < s'.outputFrameno → plan c K lim k = none) →
      Rcv c K lim sent ready s s' r
  /-- a hidden frame is encoded -/
  | hidden (o : Nat) (p : FI Unit) (t : List M) :
      plan c K lim o = some p → p.sef = false → p.shown = false →
      s.outputFrameno ≤ o →
      (∀ k, s.outputFrameno ≤ k → k < o → plan c K lim k = none) →
      s'.outputFrameno = o + 1 → s'.framesProcessed = s.framesProcessed →
      s'.packetData = s.packetData ++ unitsOf c K lim o p t →
      t = t35Of c K lim sent o → (s.isFlushing = true ∨ lookIn c K lim o < sent.length) →
      Rcv c K lim sent ready s s' .encoded
  /-- a packet comes out -/
  | shown (o : Nat) (p : FI Unit) (t : List M) (f : F) :
      plan c K lim o = some p → p.shown = true → p.input = s.framesProcessed →
      s.outputFrameno ≤ o →
      (∀ k, s.outputFrameno ≤ k → k < o → plan c K lim k = none) →
      s'.outputFrameno = o + 1 → s'.framesProcessed = s.framesProcessed + 1 →
      s'.packetData = [.td] →
      t = t35Of c K lim sent o → (s.isFlushing = true ∨ lookIn c K lim o < sent.length) →
      qf sent p.input = some f →
      Rcv c K lim sent ready s s' (.packet ⟨s.packetData ++ unitsOf c K lim o p t,
        some (.recon p.input), some f, p.input, p.ftype, userAt sent p.input⟩)

section
variable {c : Cfg} {cut K : Nat → Bool} {lim : Option Nat}
  {sent : List (F × Option (Params O M))} {s : St F O M} {qs ds : Nat}
  {fd : Nat → Option (FD F M)}

/-- The lookahead window, on tables. -/
def window (a n : Nat) (fd : Nat → Option (FD F M)) : List (Nat × FD F M) :=
  ((tab a n fd).filterMap (fun p => p.2.map fun d => (p.1, d))).filter
    (fun p => !p.2.fi.sef)

theorem mem_window {a n : Nat} {fd : Nat → Option (FD F M)} {p : Nat × FD F M} :
    p ∈ window a n fd ↔ a ≤ p.1 ∧ p.1 < a + n ∧ fd p.1 = some p.2 ∧ p.2.fi.sef = false := by
  unfold window
  rw [List.mem_filter, List.mem_filterMap]
  constructor
  · rintro ⟨⟨q, hq, he⟩, hs⟩
    obtain ⟨h1, h2, h3⟩ := mem_tab.1 hq
    cases hq2 : q.2 with
    | none => rw [hq2] at he; cases he
    | some d =>
      rw [hq2] at he
      simp only [Option.map_some, Option.some.injEq] at he
      subst he
      refine ⟨h1, h2, ?_, by simpa using hs⟩
      rw [← h3, hq2]
  · rintro ⟨h1, h2, h3, h4⟩
    refine ⟨⟨(p.1, fd p.1), mem_tab.2 ⟨h1, h2, rfl⟩, ?_⟩, by simp [h4]⟩
    rw [h3]; rfl

theorem window_cons {a n : Nat} {fd : Nat → Option (FD F M)} {d : FD F M}
    (h : fd a = some d) (hs : d.fi.sef = false) :
    window a (n + 1) fd = (a, d) :: window (a + 1) n fd := by
  unfold window
  rw [tab_succ, List.filterMap_cons]
  simp [h, hs]

theorem window_two (a n : Nat) (fd : Nat → Option (FD F M))
    (h : 2 ≤ (window a n fd).length) :
    ∃ x y d e, a ≤ x ∧ x < y ∧ y < a + n ∧ fd x = some d ∧ d.fi.sef = false ∧
      fd y = some e ∧ e.fi.sef = false := by
  induction n generalizing a with
  | zero => simp [window, tab_zero] at h
  | succ n ih =>
    by_cases hc : ∃ d, fd a = some d ∧ d.fi.sef = false
    · obtain ⟨d, hd, hs⟩ := hc
      rw [window_cons hd hs] at h
      simp only [List.length_cons] at h
      cases hw : window (a + 1) n fd with
      | nil => rw [hw] at h; simp at h
      | cons p l =>
        have : p ∈ window (a + 1) n fd := by rw [hw]; exact List.mem_cons_self ..
        obtain ⟨h1, h2, h3, h4⟩ := mem_window.1 this
        exact ⟨a, p.1, d, p.2, Nat.le_refl _, by omega, by omega, hd, hs, h3, h4⟩
    · have e : window a (n + 1) fd = window (a + 1) n fd := by
        unfold window
        rw [tab_succ, List.filterMap_cons]
        cases hfa : fd a with
        | none => rfl
        | some d =>
          have : d.fi.sef = true := by
            cases hs : d.fi.sef with
            | true => rfl
            | false => exact absurd ⟨d, hfa, hs⟩ hc
          simp [this]
      rw [e] at h
      obtain ⟨x, y, d, e', h1, h2, h3, h4⟩ := ih (a + 1) h
      exact ⟨x, y, d, e', by omega, h2, by omega, h4⟩

theorem Base.lookahead (h : Base c cut K lim sent s qs ds fd) :
    rdoLookahead c s =
      (window s.outputFrameno (s.nextOutput - s.outputFrameno) fd).take
        (c.rdoLookahead + 1) := by
  have h1 := h.dsLe
  have h2 := h.outLe
  unfold rdoLookahead window
  rw [h.data, dropWhile_tab _ _ _ _ h1 (by omega),
    show ds + (s.nextOutput - ds) - s.outputFrameno = s.nextOutput - s.outputFrameno by omega]

/-- The assertions of `compute_block_importances` hold. -/
theorem Base.importances (h : Base c cut K lim sent s qs ds fd) (hv : c.Valid) {d : FD F M}
    (ho : s.outputFrameno < s.nextOutput) (hd : fd s.outputFrameno = some d) :
    importancesOk c s = true := by
  have hdl := h.dsLe
  have hget : s.frameData.get s.outputFrameno = some (some d) := by
    rw [h.data, get_tab, if_pos (by omega), hd]
  unfold importancesOk
  rw [hget]
  simp only
  cases hs : d.fi.sef with
  | true => rfl
  | false =>
    simp only [Bool.false_eq_true, if_false]
    have hcoded : coded c K lim s.outputFrameno := ⟨_, h.fd_some hdl ho hd, hs⟩
    rw [h.lookahead, show s.nextOutput - s.outputFrameno =
      (s.nextOutput - s.outputFrameno - 1) + 1 by omega, window_cons hd hs, List.take_succ_cons]
    simp only [beq_self_eq_true, Bool.true_and, List.tail_cons, List.all_eq_true]
    rintro ⟨o, e⟩ hm
    obtain ⟨h1, h2, h3, h4⟩ := mem_window.1 (List.mem_of_mem_take hm)
    simp only at h1 h2 h3 h4
    have hon : o < s.nextOutput := by omega
    have hp := h.fd_some (by omega) hon h3
    by_cases hk : e.fi.ftype = .key
    · simp [hk]
    · have hrec := h.recsL o e (by omega) hon h3 h4 hk
        ⟨s.outputFrameno, Nat.le_refl _, by omega, hcoded⟩
      obtain ⟨r1, r2, r3⟩ := refs_lt c K lim hv hp
      have r1' : ∀ r ∈ e.fi.refs, r < 6 := r1
      have r3' : e.fi.refs.eraseDups.length ≤ 3 := r3
      obtain ⟨f1, f2, -⟩ := plan_facts c K lim hv hp
      have f2' : shownBefore c K lim o ≤ e.fi.input := f2
      have hqi : qs ≤ e.fi.input := by
        have := h.qsFp
        have := h.fp
        have := shownBefore_mono c K lim (show s.outputFrameno ≤ o by omega)
        omega
      have hil : e.fi.input < sent.length := by
        have hq := h.src o e (by omega) hon h3
        apply Nat.lt_of_not_le
        intro hle
        unfold qf at hq; rw [List.getElem?_eq_none hle] at hq; cases hq
      rw [Bool.or_eq_true]
      right
      rw [Bool.and_eq_true, Bool.and_eq_true]
      refine ⟨⟨?_, by simpa using r3'⟩, ?_⟩
      · rw [h.hasFrame]; simp [hqi, hil]
      · rw [List.all_eq_true]
        intro r hr
        obtain ⟨o', ho'⟩ : ∃ o', o = o' + 1 := ⟨o - 1, by omega⟩
        obtain ⟨x, p, x1, x2, x3, x4, -, -⟩ := slotsAt_held c K lim .orig hv o' r
          (by have := r1' r hr; omega)
        rw [hrec, ho', x1]
        simp only [Bool.and_eq_true, bne_iff_ne, ne_eq]
        refine ⟨by omega, ?_⟩
        rw [h.data, get_tab]
        by_cases hin : ds ≤ x.outputFrameno ∧ x.outputFrameno < ds + (s.nextOutput - ds)
        · rw [if_pos hin]
          have hpx := h.planOk x.outputFrameno hin.1 (by omega)
          rw [x3] at hpx
          cases hfx : fd x.outputFrameno with
          | none => rw [hfx] at hpx; cases hpx
          | some d' =>
            rw [hfx] at hpx
            simp only [Option.map_some, Option.some.injEq] at hpx
            simp only
            have : d'.fi.sef = p.sef := by rw [← hpx]; rfl
            rw [this, x4]; rfl
        · rw [if_neg hin]

/-- The units of a frame. -/
theorem Base.units (h : Base c cut K lim sent s qs ds fd) {d : FD F M}
    (ho : s.outputFrameno < s.nextOutput) (hd : fd s.outputFrameno = some d) :
    (d.fi.sef = true → sefObus d.fi =
      unitsOf c K lim s.outputFrameno d.fi.strip d.fi.t35) ∧
    (d.fi.sef = false → frameObus d.fi =
      unitsOf c K lim s.outputFrameno d.fi.strip d.fi.t35) := by
  constructor
  · intro hs
    unfold sefObus unitsOf obuOf
    simp only [FI.strip, hs, if_true]
  · intro hs
    unfold frameObus unitsOf obuOf
    simp only [FI.strip, hs, Bool.false_eq_true, if_false]
    by_cases hk : d.fi.ftype = .key
    · simp only [hk, if_true]
    · simp only [hk, if_false]
      obtain ⟨e1, e2⟩ := h.recs _ d (Nat.le_refl _) ho hd hk (fun k a b => by omega)
      rw [e1, e2]

/-- Finalizing a packet. -/
theorem Base.fin {s : St F O M} (h : Base c cut K lim sent
      { s with packetData := [.td], framesProcessed := s.framesProcessed + 1 } qs ds fd)
    (hds : ds < s.nextOutput) (hu : s.opaqueQ.get s.framesProcessed = userAt sent s.framesProcessed)
    (r : Option Pic) (src : F) (ty : FrameType) :
    ∃ qs' ds' s', finalize s r src s.framesProcessed ty =
        (s', .packet ⟨s.packetData, r, some src, s.framesProcessed, ty,
          userAt sent s.framesProcessed⟩) ∧
      Base c cut K lim sent s' qs' ds' fd ∧ s'.packetData = [.td] ∧
      s'.framesProcessed = s.framesProcessed + 1 ∧ s'.outputFrameno = s.outputFrameno ∧
      s'.nextOutput = s.nextOutput ∧ s'.isFlushing = s.isFlushing ∧
      s'.nextLookahead = s.nextLookahead := by
  obtain ⟨qs', ds', hb⟩ := h.gc s.framesProcessed rfl hds
  have hgc : ∀ (t : St F O M) i, ∃ a b d e, garbageCollect t i =
      { t with frameQ := a, frameData := b, gopOut := d, gopIn := e } := by
    intro t i
    unfold garbageCollect
    simp only
    split
    · exact ⟨_, _, _, _, rfl⟩
    · split
      · exact ⟨_, _, _, _, rfl⟩
      · exact ⟨_, _, _, _, rfl⟩
  obtain ⟨a, b, d, e, hg⟩ := hgc
    { s with packetData := [.td], framesProcessed := s.framesProcessed + 1 } s.framesProcessed
  rw [hg] at hb
  refine ⟨qs', ds', { s with
      packetData := [.td], framesProcessed := s.framesProcessed + 1
      frameQ := a, frameData := b, gopOut := d, gopIn := e
      opaqueQ := s.opaqueQ.remove s.framesProcessed }, ?_, ?_, rfl, rfl, rfl, rfl, rfl, rfl⟩
  · unfold finalize
    simp only
    rw [hg]
    simp only
    rw [hu]
  · exact { hb with
      opq := by
        intro n hn
        simp only at hn ⊢
        rw [get_remove, if_neg (by omega)]
        exact hb.opq n hn }

/-- Encoding a frame. -/
theorem Base.encode (h : Base c cut K lim sent s qs ds fd) (hv : c.Valid) {d : FD F M}
    (ho : s.outputFrameno < s.nextOutput) (hd : fd s.outputFrameno = some d)
    (hs : d.fi.sef = false) :
    ∃ m fd', (encodeNormal c s s.outputFrameno d =
        if d.fi.shown then finalize { s with
            packetData := s.packetData ++ frameObus d.fi
            frameData := m
            outputFrameno := s.outputFrameno + 1 }
          (some (.recon d.fi.input)) d.src d.fi.input d.fi.ftype
        else ({ s with
            packetData := s.packetData ++ frameObus d.fi
            frameData := m
            outputFrameno := s.outputFrameno + 1 }, .encoded)) ∧
      ∀ pd, Base c cut K lim sent { s with
        packetData := pd, frameData := m, outputFrameno := s.outputFrameno + 1
        framesProcessed := s.framesProcessed + if d.fi.shown then 1 else 0 } qs ds fd' := by
  refine ⟨_, _, rfl, fun pd => h.emitNormal hv ho hd hs pd _ _ rfl ?_⟩
  rw [h.data]
  exact emit_data _ _ _ _ h.dsLe ho _ _ c

/-- One call of `receive_packet`. -/
theorem receive_inv (h : Base c cut K lim sent s qs ds fd) (hv : c.Valid)
    (ht : Timing c K lim sent s) (ready : Bool) :
    ∃ qs' ds' fd', Base c cut K lim sent (receive c ready s).1 qs' ds' fd' ∧
      Timing c K lim sent (receive c ready s).1 ∧
      (receive c ready s).1.isFlushing = s.isFlushing ∧
      Rcv c K lim sent ready s (receive c ready s).1 (receive c ready s).2 := by
  have hdl := h.dsLe
  have hol := h.outLe
  unfold receive
  by_cases hdone : doneProcessing s = true
  · rw [if_pos hdone]
    refine ⟨qs, ds, fd, h, ht, rfl, .limit rfl ?_ ?_⟩
    · rw [h.flush]
      unfold doneProcessing at hdone
      cases hl : s.limit with
      | none => rw [hl] at hdone; cases hdone
      | some l => rfl
    · unfold doneProcessing at hdone
      cases hl : s.limit with
      | none => rw [hl] at hdone; cases hdone
      | some l =>
        rw [hl] at hdone
        have := (h.limS l hl).1
        simp only [beq_iff_eq] at hdone
        omega
  · rw [if_neg hdone]
    by_cases hmore : needsMoreFi c s = true
    · rw [if_pos hmore]
      refine ⟨qs, ds, fd, h, ht, rfl, .wait _ (Or.inl ⟨rfl, ?_, hmore⟩) rfl rfl (Nat.le_refl _)
        (fun k a b => by simp only at b; omega)⟩
      cases hfl : s.isFlushing with
      | false => rfl
      | true =>
        exfalso
        have hls := h.flush
        rw [hfl] at hls
        obtain ⟨l, hl⟩ := Option.isSome_iff_exists.1 hls.symm
        have hle := (h.limS l hl).1
        have hnl := (ht.2 hfl).1
        unfold needsMoreFi needsMoreFrames at hmore
        rw [hl] at hmore
        simp only [Bool.and_eq_true, decide_eq_true_eq] at hmore
        omega
    · rw [if_neg hmore]
      have hdrop : s.frameData.dropWhile (fun p => decide (p.1 < s.outputFrameno)) =
          tab s.outputFrameno (s.nextOutput - s.outputFrameno) fd := by
        rw [h.data, dropWhile_tab _ _ _ _ hdl (by omega),
          show ds + (s.nextOutput - ds) - s.outputFrameno = s.nextOutput - s.outputFrameno by
            omega]
      by_cases hex : ∃ k, s.outputFrameno ≤ k ∧ k < s.nextOutput ∧ (fd k).isSome = true
      · -- the first frame that is not a placeholder
        have hfirst : ∃ o, s.outputFrameno ≤ o ∧ o < s.nextOutput ∧ (fd o).isSome = true ∧
            ∀ j, s.outputFrameno ≤ j → j < o → fd j = none := by
          obtain ⟨k, k1, k2, k3⟩ := hex
          have : ∀ m, ∀ k, k ≤ s.outputFrameno + m → s.outputFrameno ≤ k →
              k < s.nextOutput → (fd k).isSome = true → ∃ o, s.outputFrameno ≤ o ∧
              o < s.nextOutput ∧ (fd o).isSome = true ∧
              ∀ j, s.outputFrameno ≤ j → j < o → fd j = none := by
            intro m
            induction m with
            | zero => intro k a b d e; exact ⟨k, b, d, e, fun j x y => by omega⟩
            | succ m ih =>
              intro k a b d e
              by_cases hj : ∃ j, s.outputFrameno ≤ j ∧ j < k ∧ (fd j).isSome = true
              · obtain ⟨j, j1, j2, j3⟩ := hj
                exact ih j (by omega) j1 (by omega) j3
              · refine ⟨k, b, d, e, fun j x y => ?_⟩
                cases hfj : fd j with
                | none => rfl
                | some z => exact absurd ⟨j, x, y, by rw [hfj]; rfl⟩ hj
          exact this k k (by omega) k1 k2 k3
        obtain ⟨o, o1, o2, o3, o4⟩ := hfirst
        obtain ⟨d, hd⟩ := Option.isSome_iff_exists.1 o3
        rw [hdrop, find_tab s.outputFrameno (s.nextOutput - s.outputFrameno) fd _ o o1 (by omega)
          (by exact o3) (by intro j a b; simp [o4 j a b])]
        simp only [hd]
        have hholes : ∀ k, s.outputFrameno ≤ k → k < o → plan c K lim k = none :=
          fun k a b => (h.fd_none (by omega) (by omega)).1 (o4 k a b)
        have hsk := h.skip o o1 (by omega) hholes
        -- what is still waiting afterwards
        have hwait : s.isFlushing = false → ∃ y, o < y ∧ y < s.nextOutput ∧ coded c K lim y := by
          intro hfl
          have hl : s.limit = none := by
            have := h.flush; rw [hfl] at this
            cases hl : s.limit with
            | none => rfl
            | some l => rw [hl] at this; cases this
          have hlen : c.rdoLookahead + 1 ≤ (rdoLookahead c s).length := by
            apply Nat.le_of_not_lt
            intro hlt
            apply hmore
            unfold needsMoreFi needsMoreFrames
            rw [hl]; simpa using hlt
          rw [h.lookahead, List.length_take] at hlen
          have hL := hv.lookahead
          obtain ⟨x, y, dx, dy, w1, w2, w3, w4, w5, w6, w7⟩ :=
            window_two s.outputFrameno (s.nextOutput - s.outputFrameno) fd (by omega)
          have hox : o ≤ x := by
            apply Nat.le_of_not_lt
            intro hlt
            rw [o4 x w1 hlt] at w4; cases w4
          exact ⟨y, by omega, by omega, _, h.fd_some (by omega) (by omega) w6, w7⟩
        have hp := h.fd_some (by omega) o2 hd
        obtain ⟨f1, f2, f3, f4, f5, f6, f7, f8, -⟩ := plan_facts c K lim hv hp
        have hq := h.src o d (by omega) o2 hd
        have hil : d.fi.input < sent.length := by
          apply Nat.lt_of_not_le
          intro hle
          unfold qf at hq; rw [List.getElem?_eq_none hle] at hq; cases hq
        have hfpo : s.framesProcessed = shownBefore c K lim o := hsk.fp
        have hneed : needsMoreFrames { s with outputFrameno := o } d.fi.input = true := by
          unfold needsMoreFrames
          simp only
          cases hl : s.limit with
          | none => rfl
          | some l =>
            have := (h.limS l hl).1
            simp only [decide_eq_true_eq]; omega
        rw [hneed]
        simp only [Bool.not_true, Bool.false_eq_true, if_false]
        rw [hsk.importances hv (d := d) o2 hd]
        simp only [Bool.not_true, Bool.and_false, Bool.false_eq_true, if_false]
        -- encode_packet
        unfold encodePacket
        have hget : ({ s with outputFrameno := o } : St F O M).frameData.get o =
            some (some d) := by
          simp only
          rw [h.data, get_tab, if_pos (by omega), hd]
        rw [hget]
        simp only
        have htim : ∀ (s' : St F O M), s'.nextOutput = s.nextOutput →
            s'.isFlushing = s.isFlushing → s'.nextLookahead = s.nextLookahead →
            s'.outputFrameno ≤ o + 1 → Timing c K lim sent s' := by
          intro s' e1 e2 e3 e4
          constructor
          · intro hf
            rw [e2] at hf
            refine ⟨by rw [e3]; exact (ht.1 hf).1, ?_⟩
            obtain ⟨y, y1, y2, y3⟩ := hwait hf
            right
            exact ⟨y, by omega, by omega, y3⟩
          · intro hf
            rw [e2] at hf
            rw [e3, e1]; exact ht.2 hf
        have hhas : Sched.hasFrame { s with outputFrameno := o } d.fi.input = true := by
          rw [hsk.hasFrame]
          have hqi : qs ≤ d.fi.input := by
            have h1 := h.qsFp
            have f2' : shownBefore c K lim o ≤ d.fi.input := f2
            omega
          simp [hqi, hil]
        cases hrdy : ready with
        | false =>
          have : ∀ (x y : St F O M × Res F O M), (if d.fi.sef = true then
              (if (!false) = true then (({ s with outputFrameno := o } : St F O M), Res.notReady)
                else x)
            else if Sched.hasFrame { s with outputFrameno := o } d.fi.input = true then
              (if (!false) = true then (({ s with outputFrameno := o } : St F O M), Res.notReady)
                else y)
            else ({ s with outputFrameno := o }, Res.needMoreData)) =
              (({ s with outputFrameno := o } : St F O M), Res.notReady) := by
            intro x y
            rw [hhas]; simp
          rw [this]
          refine ⟨qs, ds, fd, hsk, htim _ rfl rfl rfl (by simp only; omega), rfl,
            .wait _ (Or.inr ⟨rfl, rfl⟩) rfl rfl o1 hholes⟩
        | true =>
          cases hs : d.fi.sef with
          | true =>
            simp only [Bool.not_true, Bool.false_eq_true, if_false, if_true]
            have hsh : d.fi.shown = true := f7 hs
            have hin : d.fi.input = s.framesProcessed := by
              rw [hfpo]; exact f3 hsh
            have hnk : d.fi.ftype ≠ .key := by
              intro hk
              have : d.fi.sef = false := (f6 hk).1
              rw [hs] at this; cases this
            obtain ⟨u1, -⟩ := hsk.units (d := d) o2 hd
            obtain ⟨o', q, z1, -⟩ := sef_right c K lim .recon hv hp hs
            have hrec := (hsk.recs o d (Nat.le_refl _) o2 hd hnk
              (fun k a b => by simp only at a; omega)).1
            have he := hsk.emitSef hv (d := d) o2 hd hs [.td]
            unfold encodeSef
            simp only
            rw [u1 hs, hrec, show d.fi.slot = d.fi.strip.slot from rfl, z1, hin]
            have hfin := Base.fin (s := { s with
                packetData := s.packetData ++ unitsOf c K lim o d.fi.strip d.fi.t35
                outputFrameno := o + 1 }) (sent := sent) (by exact he)
              (by simp only; omega)
              (h.opq _ (Nat.le_refl _)) (some (.recon d.fi.strip.input)) d.src d.fi.ftype
            obtain ⟨qs', ds', s', e1, e2, e3, e4, e5, e6, e7, e8⟩ := hfin
            simp only at e1 e4 e5 e6 e7 e8
            simp only [Option.map_some]
            rw [e1]
            refine ⟨qs', ds', fd, e2, htim s' e6 e7 e8 (by omega), e7, ?_⟩
            have hh := Rcv.shown (s := s) (s' := s') (ready := true) o d.fi.strip d.fi.t35 d.src
              hp hsh hin o1 hholes e5 e4 e3 (h.t35d o d o1 o2 hd) (h.lookOr o o2) hq
            have hin' : d.fi.strip.input = s.framesProcessed := hin
            rw [hin'] at hh ⊢
            exact hh
          | false =>
            simp only [Bool.not_true, Bool.false_eq_true, if_false, hhas, if_true]
            obtain ⟨-, u2⟩ := hsk.units (d := d) o2 hd
            obtain ⟨m, fd', en, he⟩ := hsk.encode hv (d := d) o2 hd hs
            simp only at en
            rw [en, u2 hs]
            cases hsh : d.fi.shown with
            | true =>
              have hin : d.fi.input = s.framesProcessed := by
                rw [hfpo]; exact f3 hsh
              simp only [if_true]
              have he' := he [.td]
              rw [hsh] at he'
              simp only [if_true] at he'
              obtain ⟨qs', ds', s', e1, e2, e3, e4, e5, e6, e7, e8⟩ :=
                Base.fin (s := { s with
                  packetData := s.packetData ++ unitsOf c K lim o d.fi.strip d.fi.t35
                  frameData := m
                  outputFrameno := o + 1 }) (sent := sent) (by exact he')
                (by simp only; omega) (h.opq _ (Nat.le_refl _)) (some (.recon d.fi.input))
                d.src d.fi.ftype
              simp only at e1 e4 e5 e6 e7 e8
              have hin' : d.fi.strip.input = s.framesProcessed := hin
              rw [hin] at e1 ⊢
              rw [e1]
              refine ⟨qs', ds', _, e2, htim s' e6 e7 e8 (by omega), e7, ?_⟩
              have hh := Rcv.shown (s := s) (s' := s') (ready := true) o d.fi.strip d.fi.t35 d.src
                hp hsh hin o1 hholes e5 e4 e3 (h.t35d o d o1 o2 hd) (h.lookOr o o2) hq
              rw [hin'] at hh
              exact hh
            | false =>
              simp only [Bool.false_eq_true, if_false]
              have he' := he (s.packetData ++ unitsOf c K lim o d.fi.strip d.fi.t35)
              rw [hsh] at he'
              simp only [Bool.false_eq_true, if_false, Nat.add_zero] at he'
              refine ⟨qs, ds, _, he', htim _ rfl rfl rfl (Nat.le_refl _), trivial, ?_⟩
              exact .hidden o d.fi.strip d.fi.t35 hp hs hsh o1 hholes rfl rfl rfl
                (h.t35d o d o1 o2 hd) (h.lookOr o o2)
      · -- only placeholders are left: everything was shown
        have hnone : ∀ k, s.outputFrameno ≤ k → k < s.nextOutput → fd k = none := by
          intro k a b
          cases hfk : fd k with
          | none => rfl
          | some z => exact absurd ⟨k, a, b, by rw [hfk]; rfl⟩ hex
        rw [hdrop, find_tab_none _ _ _ _ (by
          intro j a b
          simp [hnone j a (by omega)])]
        exfalso
        cases hfl : s.isFlushing with
        | false =>
          have hl : s.limit = none := by
            have := h.flush; rw [hfl] at this
            cases hl : s.limit with
            | none => rfl
            | some l => rw [hl] at this; cases this
          have hlen : c.rdoLookahead + 1 ≤ (rdoLookahead c s).length := by
            apply Nat.le_of_not_lt
            intro hlt
            apply hmore
            unfold needsMoreFi needsMoreFrames
            rw [hl]; simpa using hlt
          rw [h.lookahead, List.length_take] at hlen
          have hL := hv.lookahead
          obtain ⟨x, y, dx, dy, w1, w2, w3, w4, w5, w6, w7⟩ :=
            window_two s.outputFrameno (s.nextOutput - s.outputFrameno) fd (by omega)
          rw [hnone x w1 (by omega)] at w4; cases w4
        | true =>
          apply hdone
          have hls := h.flush
          rw [hfl] at hls
          obtain ⟨l, hl⟩ := Option.isSome_iff_exists.1 hls.symm
          have hle := (h.limS l hl).1
          have hend := (ht.2 hfl).2
          rw [shownBefore_hole hol (fun k a b =>
            (h.fd_none (by omega) b).1 (hnone k a b)), ← h.fp] at hend
          unfold doneProcessing
          rw [hl]; simp only [beq_iff_eq]; omega

end
end Rav1e.Sched
