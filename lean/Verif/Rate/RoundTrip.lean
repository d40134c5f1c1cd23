import Verif.Rate.SecondPass
/-
C29: the two-pass data round trip.
-/
namespace Rav1e.Rate

/-! ## Frames -/

theorem advance_sync {s : Bool} {F : Int} {ms : List Metrics} (bx : Int → Int) {E : Nat} {rest : List Nat} {r : Rc}
    (h : Sync s F ms rest E r) (hF : F < 1073741824) (hr : r.ready2 = true) (a b : Int)
    (hab : a + b = r.nencoded + r.nsef + 1) :
    ∃ r', Rc.advance bx { r with nencoded := a, nsef := b } = some r' ∧ Sync s (F + 1) ms rest (E + 1) r' ∧
      r'.lively (E + 1) ms.length := by
  obtain ⟨r1, e1, hi, hp⟩ := advance_pre bx h.inv hF h.pass h.act hr a b hab
  obtain ⟨s1, s2, s3, s4, s5, s6, s7, s8, s9⟩ := hp.same
  have hE : E < ms.length := by
    have := h.cur hr
    by_contra hx
    rw [List.getElem?_eq_none (by omega)] at this
    simp at this
  have hc : r.cur = ms[E] := by
    have := h.cur hr
    rw [List.getElem?_eq_getElem hE] at this
    exact (Option.some.inj this).symm
  have hdrop : ms.drop E = r.cur :: ms.drop (E + 1) := by rw [hc]; exact List.drop_eq_getElem_cons hE
  have hlen := h.len
  have hheld : E + 1 + r1.held = E + r.held := by
    by_cases hr0 : r.ring = []
    · have : r1.held = 0 := by unfold Rc.held; rw [s4, if_pos hr0, hp.ready2]; rfl
      have : r.held = 1 := by unfold Rc.held; rw [if_pos hr0, hr]; rfl
      omega
    · have := (hp.win hr0).1
      rw [held_ne hr0, held_ne (by rw [s4]; exact hr0)]
      omega
  have hsy : Sync s (F + 1) ms rest (E + 1) r1 := by
    refine ⟨hi, by rw [s1]; exact h.act, by rw [s2]; exact h.pass, h.all, h.len, by rw [s6]; exact h.tot, h.key,
      by rw [s7]; exact h.ttot, ?_, ?_, ?_, by rw [s3]; exact h.fill, by rw [s3]; exact h.fill0, ?_, ?_, ?_, ?_⟩
    · rw [s8, s9, hab, h.enc]; rfl
    · have hl := hp.left
      rw [h.left, hdrop, bump_counts_cons h.inv.cur (by rw [List.length_drop]; omega)] at hl
      exact (Option.some.inj hl).symm
    · rw [s4, s5]; exact h.fit
    · rw [hheld]; exact h.hle
    · rw [hheld, s3]; exact h.data
    · intro hr1
      have hr0 : r.ring ≠ [] := by rw [← s4]; exact hr1
      obtain ⟨n1, n2⟩ := hp.win hr0
      rw [h.win hr0, hdrop, n1, List.take_succ_cons] at n2
      exact (List.cons.inj n2).2.symm
    · intro hx; rw [hp.ready2] at hx; simp at hx
  obtain ⟨r', o, e, h1, h2⟩ := in_none bx hsy
  rw [e1, e]
  exact ⟨r', rfl, h1, h2⟩

theorem ready_ready2 {r : Rc} (hp : ¬ r.pass < 2) (h : r.ready = true) : r.ready2 = true := by
  unfold Rc.ready at h
  rw [if_neg (by omega), if_neg (by omega)] at h
  split at h
  · exact h
  · simp only [Bool.and_eq_true] at h; exact h.2

/-- Fields that the synchronisation does not depend on. -/
structure Other (r r' : Rc) : Prop where
  same : r'.active = r.active ∧ r'.pass = r.pass ∧ r'.des = r.des ∧ r'.ring = r.ring ∧ r'.delay = r.delay ∧
    r'.nframesTotal = r.nframesTotal ∧ r'.totalTotal = r.totalTotal ∧ r'.nencoded = r.nencoded ∧ r'.nsef = r.nsef
  more : r'.nframesLeft = r.nframesLeft ∧ r'.nring = r.nring ∧ r'.head = r.head ∧ r'.ready2 = r.ready2 ∧
    r'.cur = r.cur ∧ r'.winNtus = r.winNtus

theorem Sync.other {s : Bool} {F G : Int} {ms : List Metrics} {rest : List Nat} {E : Nat} {r r' : Rc}
    (h : Sync s F ms rest E r) (o : Other r r') (hi : Inv s G r') : Sync s G ms rest E r' := by
  obtain ⟨⟨s1, s2, s3, s4, s5, s6, s7, s8, s9⟩, t1, t2, t3, t4, t5, -⟩ := o
  have hh : r'.held = r.held := by unfold Rc.held; rw [s4, t4, t2]
  refine ⟨hi, by rw [s1]; exact h.act, by rw [s2]; exact h.pass, h.all, h.len, by rw [s6]; exact h.tot, h.key,
    by rw [s7]; exact h.ttot, by rw [s8, s9]; exact h.enc, by rw [t1]; exact h.left, by rw [s4, s5]; exact h.fit,
    by rw [s3]; exact h.fill, by rw [s3]; exact h.fill0, by rw [hh]; exact h.hle, by rw [hh, s3]; exact h.data,
    by rw [s4, t2, t3]; exact h.win, by rw [t4, t5]; exact h.cur⟩

theorem Other.refl (r : Rc) : Other r r :=
  ⟨⟨rfl, rfl, rfl, rfl, rfl, rfl, rfl, rfl, rfl⟩, ⟨rfl, rfl, rfl, rfl, rfl, rfl⟩⟩

theorem Other.lively {r r' : Rc} (o : Other r r') {E L : Nat} (h : r.lively E L) : r'.lively E L := by
  obtain ⟨⟨s1, s2, s3, s4, s5, s6, s7, s8, s9⟩, t1, t2, t3, t4, t5, t6⟩ := o
  unfold Rc.lively at *
  rw [t4, s4, s5, t6, t1, t2]
  exact h

theorem tail_other {r : Rc} (fti : Nat) (shown : Bool) (ls bits : Int) {r' : Rc}
    (h : (r.record fti shown ls).settle bits fti shown = some r') : Other r r' := by
  have h1 : Other r (r.record fti shown ls) := by
    unfold Rc.record; split
    · exact ⟨⟨rfl, rfl, rfl, rfl, rfl, rfl, rfl, rfl, rfl⟩, ⟨rfl, rfl, rfl, rfl, rfl, rfl⟩⟩
    · exact Other.refl r
  generalize r.record fti shown ls = r1 at h h1
  unfold Rc.settle at h
  obtain ⟨n, -, rfl⟩ := Option.map_eq_some_iff.1 h
  exact ⟨h1.same, h1.more⟩

theorem update_sync {s : Bool} {F : Int} {ms : List Metrics} (bx : Int → Int) {E : Nat} {rest : List Nat} {r : Rc}
    (h : Sync s F ms rest E r) (hF : F < 1073741824) (hr : r.ready = true) {bits : Int} {fti : Nat} {shown : Bool}
    (ls : Int) (hb : 0 < bits) (hf : fti ≤ 4) (h4 : fti = 4 → bits = 24 ∧ shown = true) :
    ∃ r', r.update bx bits fti shown ls = some r' ∧ Sync s (F + 1) ms rest (E + 1) r' ∧
      r'.lively (E + 1) ms.length := by
  have hr2 := ready_ready2 h.pass hr
  have h3 := h.inv.pass3
  have hp := h.pass
  have main : ∀ a b, a + b = r.nencoded + r.nsef + 1 → ∃ r',
      ((Rc.special bx { r with nencoded := a, nsef := b }).bind fun r =>
        (r.record fti shown ls).settle (if fti ≠ 4 ∧ bits ≤ 0 then 0 else bits) fti shown) = some r' ∧
      Sync s (F + 1) ms rest (E + 1) r' ∧ r'.lively (E + 1) ms.length := by
    intro a b hab
    obtain ⟨r1, e1, h1, l1⟩ := advance_sync bx h hF hr2 a b hab
    unfold Rc.special
    rw [if_pos (by dsimp only; omega), e1, Option.bind_some]
    obtain ⟨r', e', i'⟩ := settle_inv (record_inv h1.inv fti shown ls) (if fti ≠ 4 ∧ bits ≤ 0 then 0 else bits) hf shown
    have ho := tail_other fti shown ls _ e'
    exact ⟨r', e', h1.other ho i', ho.lively l1⟩
  unfold Rc.update Rc.count
  simp only [Option.bind_eq_bind]
  by_cases e4 : fti = 4
  · rw [if_pos e4, if_pos (h4 e4), Option.bind_some]; exact main _ _ (by omega)
  · rw [if_neg e4, if_neg (by omega), Option.bind_some]; exact main _ _ (by omega)

theorem out_other (bx : Int → Int) (r : Rc) (done : Bool) : Other r (r.twopassOut bx done).1 := by
  unfold Rc.twopassOut Rc.emitFrame
  dsimp only
  split
  · split
    · exact ⟨(Other.refl r).same, (Other.refl r).more⟩
    · split <;> exact ⟨(Other.refl r).same, (Other.refl r).more⟩
  · split
    · exact ⟨(Other.refl r).same, (Other.refl r).more⟩
    · exact Other.refl r

theorem receive_other {bx : Int → Int} {r r' : Rc} {done : Bool} {x : Option RcData}
    (h : r.receivePassData bx done = some (r', x)) : Other r r' := by
  unfold Rc.receivePassData Rc.emitFrame at h
  dsimp only at h
  split at h
  · injection h with h; injection h with h h'; subst h; exact ⟨(Other.refl r).same, (Other.refl r).more⟩
  · split at h
    · injection h with h; injection h with h h'; subst h; exact Other.refl r
    · split at h
      · rename_i heq
        split at heq
        · simp at heq
        · injection heq with q1 q2; injection h with h; injection h with h h'
          subst h; subst q1; exact ⟨(Other.refl r).same, (Other.refl r).more⟩
      · simp at h

/-- A call other than passing data. -/
def Op.Plain (o : Op) : Prop := o.Valid ∧ o.isFeed = false ∧ o.isSend = false

theorem step_sync {s : Bool} {F : Int} {ms : List Metrics} (bx : Int → Int) {E : Nat} {rest : List Nat} {r : Rc}
    (h : Sync s F ms rest E r) (hF : F < 1073741824) {o : Op} (ho : o.Plain) :
    ∃ r', step bx r o = some r' ∧ Sync s (F + 1) ms rest (E + (frameOf r o).length) r' ∧
      (r.lively E ms.length → r'.lively (E + (frameOf r o).length) ms.length) ∧ ((frameOf r o).length = 1 → ms[E]? = some r.cur) := by
  obtain ⟨r', e, hi⟩ := step_inv bx h.inv hF o ho.1 (fun hx => by rw [ho.2.1] at hx; simp at hx)
    fun hx => by rw [ho.2.2] at hx; simp at hx
  have hm : F ≤ F + 1 := by omega
  have plain : ∀ r', Inv s (F + 1) r' → Other r r' → frameOf r o = [] →
      Sync s (F + 1) ms rest (E + (frameOf r o).length) r' ∧
        (r.lively E ms.length → r'.lively (E + (frameOf r o).length) ms.length) ∧ ((frameOf r o).length = 1 → ms[E]? = some r.cur) := by
    intro r' hi hot hfr
    rw [hfr]
    exact ⟨h.other hot hi, hot.lively, fun hx => by simp at hx⟩
  cases o with
  | feed b => simp [Op.Plain, Op.isFeed] at ho
  | send b => simp [Op.Plain, Op.isSend] at ho
  | need =>
    obtain ⟨r1, x, e1, h1, l1⟩ := in_none bx h
    rw [step, e1] at e
    have : r1 = r' := Option.some.inj e
    subst this
    exact ⟨r1, by rw [step, e1]; rfl, h1.other (Other.refl r1) hi, fun _ => l1, fun hx => by simp [frameOf] at hx⟩
  | required done =>
    refine ⟨r', e, plain r' hi ?_ rfl⟩
    simp only [step] at e
    obtain ⟨n, -, rfl⟩ := Option.map_eq_some_iff.1 e
    exact Other.refl r
  | out done =>
    refine ⟨r', e, plain r' hi ?_ rfl⟩
    simp only [step] at e
    rw [← Option.some.inj e]
    exact out_other bx r done
  | receive done =>
    refine ⟨r', e, plain r' hi ?_ rfl⟩
    simp only [step] at e
    obtain ⟨⟨r1, x⟩, e1, rfl⟩ := Option.map_eq_some_iff.1 e
    exact receive_other e1
  | frame bits fti shown ls =>
    by_cases hr : (r.active && r.ready) = true
    · simp only [step, frameOf]
      rw [if_pos hr, if_pos hr]
      simp only [Bool.and_eq_true] at hr
      obtain ⟨r1, e1, h1, l1⟩ := update_sync bx h hF hr.2 ls ho.1.1 ho.1.2.1 ho.1.2.2
      exact ⟨r1, e1, h1, fun _ => l1, fun _ => h.cur (ready_ready2 h.pass hr.2)⟩
    · have hfr : frameOf r (.frame bits fti shown ls) = [] := by simp only [frameOf]; rw [if_neg hr]
      refine ⟨r', e, plain r' hi ?_ hfr⟩
      simp only [step] at e
      rw [if_neg hr] at e
      rw [← Option.some.inj e]
      exact Other.refl r

/-! ## The client -/

/-- What the user of the second pass does: passes the next `n` bytes of the file to `twopass_in` (it may use fewer;
the rest is passed again), passes the next record to `rc_send_pass_data` if `rc_second_pass_data_required` asks
for one and there is one, or makes another call. -/
inductive Act where
  | feed (n : Nat)
  | packet
  | call (o : Op)

/-- The encoder, the part of the file that it has not consumed, and, for every frame that was encoded, the metrics
that the encoder used for it. -/
structure Client where
  rc : Rc
  rest : List Nat
  seen : List Metrics

/-- `none` is a panic, `some none` an error. -/
def Client.act (bx : Int → Int) (c : Client) : Act → Option (Option Client)
  | .feed n =>
    match c.rc.twopassIn bx (some (c.rest.take n)) with
    | none => none
    | some (_, none) => some none
    | some (r, some k) => some (some { c with rc := r, rest := c.rest.drop k })
  | .packet =>
    match c.rc.dataRequired false with
    | none => none
    | some 0 => some (some c)
    | some (_ + 1) =>
      if c.rest = [] then some (some c) else
      match c.rc.sendPacket bx (c.rest.take 8) with
      | none => none
      | some (_, false) => some none
      | some (r, true) => some (some { c with rc := r, rest := c.rest.drop 8 })
  | .call o =>
    (step bx c.rc o).map fun r => some { c with rc := r, seen := c.seen ++ (frameOf c.rc o).map fun _ => c.rc.cur }

def Client.run (bx : Int → Int) : Client → List Act → Option (Option Client)
  | c, [] => some (some c)
  | c, a :: as =>
    match c.act bx a with
    | some (some c) => c.run bx as
    | x => x

/-- In every run of consecutive frames there are at most eight more hidden than shown ones. -/
def Balanced (ms : List Metrics) : Prop :=
  ∀ i n, ((ms.drop i).take n).countP (!·.shown) ≤ ((ms.drop i).take n).countP (·.shown) + 8

/-- What holds throughout a second pass. -/
structure CSync (s : Bool) (F : Int) (ms : List Metrics) (c : Client) : Prop where
  sync : Sync s F ms c.rest c.seen.length c.rc
  seen : c.seen = ms.take c.seen.length

theorem call_sync {s : Bool} {F : Int} {ms : List Metrics} (bx : Int → Int) {c : Client} (h : CSync s F ms c)
    (hF : F < 1073741824) {o : Op} (ho : o.Plain) :
    ∃ c', c.act bx (.call o) = some (some c') ∧ CSync s (F + 1) ms c' ∧
      (c.rc.lively c.seen.length ms.length → c'.rc.lively c'.seen.length ms.length) := by
  obtain ⟨r', e, h1, h2, h3⟩ := step_sync bx h.sync hF ho
  have hl := frameOf_length c.rc o
  refine ⟨_, by rw [Client.act, e]; rfl, ⟨?_, ?_⟩, ?_⟩
  · dsimp only; rw [List.length_append, List.length_map]; exact h1
  · dsimp only
    rw [List.length_append, List.length_map]
    by_cases hx : (frameOf c.rc o).length = 1
    · have hc := h3 hx
      obtain ⟨x, hx'⟩ : ∃ x, frameOf c.rc o = [x] := List.length_eq_one_iff.1 hx
      rw [hx', List.length_singleton, List.take_add_one, hc, ← h.seen]
      rfl
    · have hx' : frameOf c.rc o = [] := List.eq_nil_of_length_eq_zero (by omega)
      rw [hx', List.length_nil, Nat.add_zero, ← h.seen]
      simp
  · dsimp only; rw [List.length_append, List.length_map]; exact h2

theorem CSync.mono {s : Bool} {F G : Int} {ms : List Metrics} {c : Client} (h : CSync s F ms c) (hg : F ≤ G) :
    CSync s G ms c := ⟨h.sync.other (Other.refl _) (h.sync.inv.mono hg), h.seen⟩

theorem drop_consumed {b b' later : List Nat} (h : b' <:+ b) :
    (b ++ later).drop (b.length - b'.length) = b' ++ later := by
  obtain ⟨t, rfl⟩ := h
  rw [List.length_append, Nat.add_sub_cancel, List.append_assoc, List.drop_left]

theorem feed_sync {F : Int} {ms : List Metrics} (bx : Int → Int) {c : Client} (h : CSync false F ms c) (n : Nat) :
    ∃ c', c.act bx (.feed n) = some (some c') ∧ CSync false F ms c' ∧ c'.seen = c.seen ∧
      (c.rest.length ≤ n → c'.rc.ready2 = true ∨ c.seen.length = ms.length) := by
  have hs := h.sync
  have hc : c.rest = c.rest.take n ++ c.rest.drop n := (List.take_append_drop n c.rest).symm
  rw [hc] at hs
  obtain ⟨r', b', e, f⟩ := in_some bx hs
  refine ⟨{ c with rc := r', rest := c.rest.drop ((c.rest.take n).length - b'.length) }, by rw [Client.act, e],
    ⟨?_, h.seen⟩, rfl, fun hn => f.live (List.drop_eq_nil_of_le hn)⟩
  dsimp only
  have := drop_consumed (later := c.rest.drop n) f.suff
  rw [List.take_append_drop] at this
  rw [this]
  exact f.sync

theorem packet_sync {F : Int} {ms : List Metrics} (bx : Int → Int) {c : Client} (h : CSync true F ms c)
    (hl : c.rc.lively c.seen.length ms.length) :
    ∃ c', c.act bx .packet = some (some c') ∧ CSync true F ms c' ∧ c'.seen = c.seen ∧
      c'.rc.lively c'.seen.length ms.length ∧
      (c.seen.length < ms.length → c.rc.ready2 = false → c'.rc.ready2 = true ∨ c'.rc.held = c.rc.held + 1) := by
  obtain ⟨r, rest, seen⟩ := c
  have hs := h.sync
  dsimp only at hs hl
  have h0 := hs.fill0 rfl
  have hdat := hs.data
  rw [h0, List.take_zero, List.nil_append] at hdat
  unfold Client.act
  dsimp only
  unfold Rc.dataRequired
  rw [if_neg (by simp)]
  have hls := hs.lsum
  -- what happens when a record is sent
  have send : rest ≠ [] → ∃ m, ∃ hx : seen.length + r.held < ms.length, m = ms[seen.length + r.held] ∧
      recs (ms.drop (seen.length + r.held + 1)) = rest.drop 8 ∧ MOk m ∧
      ∃ d, DesOk d ∧ r.sendPacket bx (rest.take 8) = Rc.accept bx { r with des := { d with pos := 8, fill := 0 } } m := by
    intro hne
    have hx : seen.length + r.held < ms.length := by
      by_contra hx
      rw [hdat, List.drop_eq_nil_of_le (by omega)] at hne
      exact hne rfl
    rw [recs_drop hx] at hdat
    have ht : rest.take 8 = recordBytes ms[seen.length + r.held] := by
      rw [hdat, List.take_left' (record_length _)]
    have hd : rest.drop 8 = recs (ms.drop (seen.length + r.held + 1)) := by
      rw [hdat, List.drop_left' (record_length _)]
    have hm := hs.all _ (List.getElem_mem hx)
    refine ⟨_, hx, rfl, hd.symm, hm, ?_⟩
    obtain ⟨d, e, hdo, hf, -, htk⟩ := bufferFill_ok (goal := packetSz) (by decide) (rest.take 8) r.des hs.inv.des
    have hlen : (rest.take 8).length = 8 := by rw [ht, record_length]
    rw [h0, hlen] at hf
    have hf8 : d.fill = 8 := by simpa [packetSz] using hf
    have hbuf : d.buf.take 8 = recordBytes ms[seen.length + r.held] := by
      rw [hf8, h0] at htk
      rw [htk, ht]
      simp only [List.take_zero, List.nil_append, packetSz]
      rw [List.take_of_length_le (by rw [record_length])]
    refine ⟨d, hdo, ?_⟩
    unfold Rc.sendPacket
    simp only [Option.bind_eq_bind]
    rw [if_neg (by rw [hlen]; simp [packetSz]), e, Option.bind_some]
    dsimp only
    rw [parse_record hm hdo hbuf, Option.bind_some]
  by_cases hr : r.ring = []
  · unfold Rc.framesNeeded
    rw [if_neg (by simp [hs.act]), if_pos hr]
    cases hr2 : r.ready2 with
    | true =>
      exact ⟨_, rfl, h, rfl, hl, fun _ hx => by simp at hx⟩
    | false =>
      have eh : r.held = 0 := by unfold Rc.held; rw [if_pos hr, hr2]; rfl
      by_cases hne : rest = []
      · refine ⟨⟨r, rest, seen⟩, ?_, h, rfl, hl, ?_⟩
        · simp only [Bool.false_eq_true, if_false, Option.map_some]
          exact if_pos hne
        · intro hlt _
          rw [hne, eh] at hdat
          have := congrArg List.length hdat
          rw [recs_length, List.length_drop] at this
          simp at this
          omega
      · obtain ⟨m, hx, hmx, hdr, hm, d, hd, e⟩ := send hne
        unfold Rc.accept at e
        rw [if_pos hr] at e
        simp only [Bool.false_eq_true, if_false, Option.map_some]
        refine ⟨{ rc := { r with des := { d with pos := 8, fill := 0 }, cur := m, ready2 := true }, rest := rest.drop 8,
                   seen := seen }, ?_, ⟨?_, h.seen⟩, rfl, fun _ _ hy => absurd hr hy, fun _ _ => Or.inl rfl⟩
        · rw [show ((1 : Int).toNat) = 0 + 1 from rfl]
          dsimp only
          rw [if_neg hne, e]
        · dsimp only
          have hinv : Inv true F { r with des := { d with pos := 8, fill := 0 } } :=
            hs.inv.des8 ⟨hd.len, Nat.zero_le _⟩ (Nat.zero_le _)
          have e1 : Rc.held { r with des := { d with pos := 8, fill := 0 }, cur := m, ready2 := true } = 1 := by
            unfold Rc.held; rw [if_pos hr]; rfl
          rw [eh, Nat.add_zero] at hx hdr
          refine { hs with inv := hinv.set_cur hm.fti fun e => absurd hr e, fill := ?_, fill0 := fun _ => rfl,
                           hle := ?_, data := ?_, cur := ?_ }
          · show (0 : Nat) < 8; omega
          · rw [e1]; omega
          · rw [e1, hdr]; simp
          · intro _; simp only [eh, Nat.add_zero] at hmx; rw [hmx]; exact List.getElem?_eq_getElem hx
  · rw [hs.inv.framesNeeded hs.act hr]
    have eh := held_ne hr
    generalize hk : max 0 (min (r.delay - r.winNtus) (r.nframesLeft.sum - r.nring)) = k
    rw [Option.map_some]
    cases hkn : k.toNat with
    | zero =>
      dsimp only
      refine ⟨_, rfl, h, rfl, hl, fun hlt hx => ?_⟩
      have := hl hlt hx hr
      omega
    | succ n =>
      dsimp only
      by_cases hne : rest = []
      · rw [if_pos hne]
        refine ⟨_, rfl, h, rfl, hl, ?_⟩
        intro hlt _
        rw [hne, eh] at hdat
        have := congrArg List.length hdat
        rw [recs_length, List.length_drop] at this
        simp at this
        omega
      · obtain ⟨m, hx, hmx, hdr, hm, d, hd, e⟩ := send hne
        rw [if_neg hne, e]
        have hh : Sync true F ms rest seen.length { r with des := { d with pos := 8, fill := 0 } } :=
          hs.des (d := { d with pos := 8, fill := 0 }) ⟨hd.len, Nat.zero_le _⟩ (show (0 : Nat) < 8 by omega)
            (fun _ => rfl) hdat
        have f := hs.inv.fin hr
        have hwt := f.winT
        rw [hs.win hr] at hwt
        have hfit := hs.fit hr seen.length r.nring (by rw [← hwt]; omega)
        rw [eh] at hx hdr
        have hn' : r.nring < r.ring.length := by
          rw [List.length_take, List.length_drop] at hfit; omega
        have hmx : m = ms[seen.length + r.nring] := by simp only [eh] at hmx; exact hmx
        subst hmx
        have hpi := pushed_inv bx hh.inv hr (Or.inl rfl) hm.fti hn' (by dsimp only; omega)
        have hsy := hh.pushed (bx := bx) hr hn' hx hpi (d := { d with pos := 8, fill := 0 })
          ⟨hd.len, Nat.zero_le _⟩ (show (0 : Nat) < 8 by omega) (fun _ => rfl) (rest' := rest.drop 8)
          (by rw [← hdr, Nat.add_assoc]; rfl)
        unfold Rc.accept
        simp only [Option.bind_eq_bind]
        rw [if_neg hr, hh.inv.framesNeeded hs.act hr, Option.bind_some]
        dsimp only
        rw [hk, if_pos (by omega), push_eq bx (hh.inv.fin hr) hm.fti, if_neg (by dsimp only; omega), Option.bind_some]
        dsimp only
        have hp7 := pushed_ring (bx := bx) (m := ms[seen.length + r.nring])
          (r := { r with des := { d with pos := 8, fill := 0 } }) hr
        generalize hr3 : ({ r with des := { d with pos := 8, fill := 0 } } : Rc).pushed bx ms[seen.length + r.nring] = r3
        have hsy3 : Sync true F ms (rest.drop 8) seen.length r3 := by rw [← hr3]; exact hsy
        have hne3 : r3.ring ≠ [] := by rw [← hr3]; exact hp7
        have en : r3.nring = r.nring + 1 := by rw [← hr3]; rfl
        have ed : r3.delay = r.delay := by rw [← hr3]; rfl
        have el : r3.nframesLeft = r.nframesLeft := by rw [← hr3]; rfl
        have ew : r3.winNtus ≤ r.winNtus + 1 := by
          rw [← hr3]; simp only [Rc.pushed]; split <;> omega
        by_cases hk1 : k = 1
        · rw [if_pos hk1]
          obtain ⟨c, ec, hc⟩ := hsy3.ready hne3 (by omega)
          rw [ec, Option.bind_some]
          exact ⟨_, rfl, ⟨hc, h.seen⟩, rfl, fun _ hx => by simp at hx, fun _ _ => Or.inl rfl⟩
        · rw [if_neg hk1]
          refine ⟨_, rfl, ⟨hsy3, h.seen⟩, rfl, fun _ _ _ => ?_, fun _ _ => Or.inr ?_⟩
          · dsimp only; rw [en, ed, el]; push_cast; omega
          · dsimp only; rw [held_ne hne3, eh, en]

/-! ## The start -/

theorem summary_ok {bx : Int → Int} {exp : List Int} {ms : List Metrics} (h : SOk bx exp ms) :
    SumOk (summaryOf bx exp ms) := by
  have hs : (counts ms).sum = ms.length := counts_sum fun m hm => (h.all m hm).fti
  have hlen := h.len
  refine ⟨?_, ?_, ?_, rfl, ?_, ?_, ?_, h.elen, rfl⟩
  · obtain ⟨m, hm, hsh⟩ := h.shown
    have : 0 < ms.countP (·.shown) := List.countP_pos_iff.2 ⟨m, hm, hsh⟩
    show 1 ≤ shownCount ms
    unfold shownCount; omega
  · show shownCount ms ≤ (counts ms).sum
    rw [hs]; exact shown_le ms
  · show (counts ms).sum < _
    rw [hs]; omega
  · intro n hn
    simp only [summaryOf, counts, List.mem_cons, List.not_mem_nil, or_false] at hn
    rcases hn with rfl | rfl | rfl | rfl | rfl <;> exact Int.natCast_nonneg _
  · intro n hn
    simp only [summaryOf, List.map_cons, List.map_nil, List.mem_cons, List.not_mem_nil, or_false] at hn
    rcases hn with rfl | rfl | rfl | rfl
    · exact (h.sums 0 (by omega)).1
    · exact (h.sums 1 (by omega)).1
    · exact (h.sums 2 (by omega)).1
    · exact (h.sums 3 (by omega)).1
  · exact hs.symm

/-- The state of a second pass that has no data yet. -/
structure Fresh (s : Bool) (F : Int) (r : Rc) : Prop where
  inv : Inv s F r
  act : r.active = true
  pass : ¬ r.pass < 2
  ready2 : r.ready2 = false
  nring : r.nring = 0
  enc : r.nencoded + r.nsef = 0
  ring : r.ring ≠ [] → r.delay * 2 + 8 ≤ r.ring.length

theorem balanced_fit {ms : List Metrics} (h : Balanced ms) {d : Int} {i n : Nat}
    (hs : shownCount ((ms.drop i).take n) < d) : (((ms.drop i).take n).length : Int) < d * 2 + 8 := by
  have hb := h i n
  have hl := List.length_eq_countP_add_countP (fun m : Metrics => m.shown) (l := (ms.drop i).take n)
  have e : ((ms.drop i).take n).countP (fun a => decide ¬ (a.shown = true)) =
      ((ms.drop i).take n).countP (!·.shown) := by
    congr 1; funext a; cases a.shown <;> rfl
  rw [e] at hl
  unfold shownCount at hs
  omega

theorem setup_sync {s : Bool} {F : Int} {bx : Int → Int} {exp : List Int} {ms : List Metrics} (h : SOk bx exp ms)
    (hk : ∃ m ∈ ms, m.fti = 0) {r : Rc} (hr : Fresh s F r) (hb : r.ring ≠ [] → Balanced ms)
    {d : Des} (hd : DesOk d) (hf : d.fill = 0) :
    Sync s F ms (recs ms) 0 (({ r with des := d } : Rc).setupSecond (summaryOf bx exp ms)) ∧
      (({ r with des := d } : Rc).setupSecond (summaryOf bx exp ms)).lively 0 ms.length := by
  have hso := summary_ok h
  have hi : Inv s F { r with des := d } := hr.inv.des8 hd (by omega)
  have hi := setup_inv hi hr.pass hso hr.ready2 (fun _ => hr.nring) (by dsimp only; omega)
  have hlen := h.len
  have hkey : 0 < (counts ms).headD 0 := by
    obtain ⟨m, hm, h0⟩ := hk
    have : 0 < ms.countP (·.fti = 0) := List.countP_pos_iff.2 ⟨m, hm, by simpa using h0⟩
    show 0 < ((ms.countP (·.fti = 0) : Nat) : Int)
    omega
  have hsum : (counts ms).sum = ms.length := counts_sum fun m hm => (h.all m hm).fti
  have hnt : (1 : Int) ≤ shownCount ms := hso.ntus
  have hmp : 0 < ms.length := by have := shown_le ms; omega
  have key : ∀ r1 : Rc, Inv s F r1 → r1.active = true → r1.pass = r.pass → r1.nframesTotal = counts ms →
      r1.totalTotal = ms.length → r1.nencoded + r1.nsef = 0 → r1.nframesLeft = counts ms →
      (r.ring = [] ∨ r1.delay ≤ r.delay) → r1.ring = r.ring → r1.des = d → r1.ready2 = false → r1.nring = 0 →
      Sync s F ms (recs ms) 0 r1 := by
    intro r1 q0 q1 q2 q3 q4 q5 q6 q7 q8 q9 q10 q11
    have hh : r1.held = 0 := by
      unfold Rc.held; rw [q10, q11]; split <;> rfl
    refine ⟨q0, q1, by rw [q2]; exact hr.pass, h.all, by omega, q3, hkey, q4, by rw [q5]; rfl, by rw [q6]; rfl, ?_,
      by rw [q9, hf]; omega, by rw [q9, hf]; simp, by omega, by rw [hh, q9, hf]; rfl, ?_, ?_⟩
    · intro hne i n hs
      rw [q8] at hne ⊢
      have h1 := hr.ring hne
      have h2 := balanced_fit (hb hne) hs
      rcases q7 with q7 | q7
      · exact absurd q7 hne
      · omega
    · intro _; rw [q11]; rfl
    · intro hx; rw [q10] at hx; simp at hx
  unfold Rc.setupSecond at hi ⊢
  dsimp only at hi ⊢
  by_cases hre : r.ring = []
  · rw [if_pos hre] at hi ⊢
    exact ⟨key _ hi hr.act rfl rfl hsum hr.enc rfl (Or.inl hre) rfl rfl hr.ready2 hr.nring,
      fun _ _ hy => absurd hre hy⟩
  · rw [if_neg hre] at hi ⊢
    have hdl := hr.inv.delay
    refine ⟨key _ hi hr.act rfl rfl hsum hr.enc rfl (Or.inr (by dsimp only; omega)) rfl rfl hr.ready2 hr.nring, ?_⟩
    intro _ _ _
    have hw : r.winNtus = 0 := by
      rw [(hr.inv.fin hre).winT, hr.nring]; rfl
    have e : (summaryOf bx exp ms).nframes.sum = ms.length := hsum
    have e2 : (summaryOf bx exp ms).ntus = shownCount ms := rfl
    dsimp only
    rw [hw, hr.nring, e, e2]
    push_cast
    omega

theorem new_fresh (s : Bool) {c : Cfg} (hc : CfgOk c) (hb : 0 < c.bitrate) (emit : Bool) :
    let r := if emit then (Rc.new c).initFirst else Rc.new c
    Fresh s 0 { r.initSecond with ready2 := false } ∧ (r.initSecond.ring ≠ [] → c.delay.isSome) ∧
      r.initSecond.des = Des.new ∧ r.initSecond.nframesTotal = List.replicate 5 0 ∧
      r.initSecond.ready2 = false ∧ r.pass < 2 := by
  have hi := start_inv s hc (x := none) (by simp) emit
  unfold Rc.start at hi
  dsimp only at hi ⊢
  have hp : (if emit = true then (Rc.new c).initFirst else Rc.new c).pass < 2 := by
    cases emit
    · show (0 : Nat) < 2; omega
    · show (0 + 1 : Nat) < 2; omega
  have e : ∀ r : Rc, r.pass < 2 → r.initSecond = { r with
      pass := r.pass + 2
      ring := if r.delaySet then r.ring ++ List.replicate (r.delay.toNat * 2 + 8 - r.ring.length) Metrics.new
              else r.ring } := fun r hp => by
    unfold Rc.initSecond; rw [if_pos (by omega)]
  have hinv := initSecond_inv hi hp
  rw [e _ hp] at hinv ⊢
  have dly : 0 ≤ (Rc.new c).delay := by unfold Rc.new; dsimp only; omega
  have hact : decide (0 < c.bitrate) = true := by simpa using hb
  refine ⟨⟨hinv, ?_, by dsimp only; omega, rfl, ?_, ?_, ?_⟩, ?_, ?_, ?_, ?_, hp⟩
  · cases emit <;> exact hact
  · cases emit <;> rfl
  · cases emit <;> rfl
  · intro hne
    have main : ∀ r : Rc, 0 ≤ r.delay → r.ring = [] → (if r.delaySet = true then r.ring ++
        List.replicate (r.delay.toNat * 2 + 8 - r.ring.length) Metrics.new else r.ring) ≠ [] →
        r.delay * 2 + 8 ≤ (((if r.delaySet = true then r.ring ++
        List.replicate (r.delay.toNat * 2 + 8 - r.ring.length) Metrics.new else r.ring) : List Metrics).length : Int) := by
      intro r hd hr hn
      rw [hr] at hn ⊢
      by_cases hs : r.delaySet = true
      · rw [if_pos hs, List.nil_append, List.length_replicate, List.length_nil]; omega
      · rw [if_neg hs] at hn; exact absurd rfl hn
    cases emit
    · exact main (Rc.new c) dly rfl hne
    · exact main (Rc.new c) dly rfl hne
  · intro hne
    by_contra hx
    have hx : c.delay.isSome = false := by simpa using hx
    apply hne
    have : (Rc.new c).delaySet = false := hx
    cases emit
    · simp only [Bool.false_eq_true, if_false]; rw [this]; rfl
    · simp only [if_true]
      have h2 : (Rc.new c).initFirst.delaySet = false := this
      rw [h2]; rfl
  · cases emit <;> rfl
  · cases emit <;> rfl
  · cases emit <;> rfl

theorem start_sync (s : Bool) {bx : Int → Int} {exp : List Int} {ms : List Metrics} (h : SOk bx exp ms)
    (hk : ∃ m ∈ ms, m.fti = 0) {c : Cfg} (hc : CfgOk c) (hb : 0 < c.bitrate) (hbal : c.delay.isSome → Balanced ms)
    (emit : Bool) :
    CSync s 0 ms ⟨Rc.start c (some (summaryOf bx exp ms)) emit, recs ms, []⟩ ∧
      (Rc.start c (some (summaryOf bx exp ms)) emit).lively 0 ms.length := by
  obtain ⟨hf, hd, hdes, -, hr2, -⟩ := new_fresh s hc hb false
  simp only [Bool.false_eq_true, if_false] at hf hd hdes hr2
  rw [unready_eq hr2] at hf
  have e : ({ (Rc.new c).initSecond with des := Des.new } : Rc) = (Rc.new c).initSecond := by
    rw [← hdes]
  have hs := setup_sync h hk hf (fun hne => hbal (hd hne)) (d := Des.new) ⟨rfl, Nat.zero_le _⟩ rfl
  rw [e] at hs
  have hi := start_inv s hc (x := some (summaryOf bx exp ms)) (fun y hy => by
    rw [← Option.some.inj hy]; exact summary_ok h) emit
  unfold Rc.start at hi ⊢
  dsimp only at hi ⊢
  obtain ⟨h1, h2⟩ := hs
  generalize (Rc.new c).initSecond.setupSecond (summaryOf bx exp ms) = r at *
  cases emit with
  | false => exact ⟨⟨h1, rfl⟩, h2⟩
  | true =>
    refine ⟨⟨?_, rfl⟩, h2⟩
    have hp := h1.pass
    exact { h1 with inv := hi, pass := by simp only [if_true, Rc.initFirst]; omega }

/-- Before the summary is complete. -/
structure Pre (F : Int) (bx : Int → Int) (exp : List Int) (ms : List Metrics) (c : Client) : Prop where
  fresh : Fresh false F c.rc
  tot : c.rc.nframesTotal = List.replicate 5 0
  fill : c.rc.des.fill < 68
  data : c.rc.des.buf.take c.rc.des.fill ++ c.rest = summaryBytes bx exp ms ++ recs ms
  seen : c.seen = []
  bal : c.rc.ring ≠ [] → Balanced ms

theorem Fresh.other {s : Bool} {F G : Int} {r r' : Rc} (h : Fresh s F r) (o : Other r r') (hi : Inv s G r') :
    Fresh s G r' := by
  obtain ⟨⟨s1, s2, s3, s4, s5, s6, s7, s8, s9⟩, t1, t2, t3, t4, t5, -⟩ := o
  exact ⟨hi, by rw [s1]; exact h.act, by rw [s2]; exact h.pass, by rw [t4]; exact h.ready2, by rw [t2]; exact h.nring,
    by rw [s8, s9]; exact h.enc, by rw [s4, s5]; exact h.ring⟩

theorem call_pre {F : Int} {exp : List Int} {ms : List Metrics} (bx : Int → Int) {c : Client} (h : Pre F bx exp ms c)
    (hF : F < 1073741824) {o : Op} (ho : o.Plain) :
    ∃ c', c.act bx (.call o) = some (some c') ∧ Pre (F + 1) bx exp ms c' := by
  obtain ⟨r, rest, seen⟩ := c
  have hf := h.fresh
  dsimp only at hf
  obtain ⟨r', e, hi⟩ := step_inv bx hf.inv hF o ho.1 (fun hx => by rw [ho.2.1] at hx)
    fun hx => by rw [ho.2.2] at hx; simp at hx
  have hnr : (r.active && r.ready) = false := by
    cases hr : r.ready with
    | false => simp
    | true => have := ready_ready2 hf.pass hr; rw [hf.ready2] at this; simp at this
  have hfr : frameOf r o = [] := by
    cases o <;> simp only [frameOf]
    rw [hnr]; simp
  have hot : Other r r' := by
    cases o with
    | feed b => simp [Op.Plain, Op.isFeed] at ho
    | send b => simp [Op.Plain, Op.isSend] at ho
    | need =>
      simp only [step, Rc.twopassIn] at e
      rw [initSecond_ge hf.pass, if_pos (by rw [h.tot]; rfl), unready_eq hf.ready2] at e
      rw [← Option.some.inj e]
      exact Other.refl r
    | required done =>
      simp only [step] at e
      obtain ⟨n, -, rfl⟩ := Option.map_eq_some_iff.1 e
      exact Other.refl r
    | out done =>
      simp only [step] at e
      rw [← Option.some.inj e]
      exact out_other bx r done
    | receive done =>
      simp only [step] at e
      obtain ⟨⟨r1, x⟩, e1, rfl⟩ := Option.map_eq_some_iff.1 e
      exact receive_other e1
    | frame bits fti shown ls =>
      simp only [step] at e
      rw [hnr] at e
      rw [← Option.some.inj e]
      exact Other.refl r
  refine ⟨⟨r', rest, seen⟩, ?_, ?_⟩
  · unfold Client.act
    dsimp only
    rw [e, hfr, Option.map_some, List.map_nil, List.append_nil]
  · have hd := hot.same.2.2.1
    exact ⟨hf.other hot hi, by rw [hot.same.2.2.2.2.2.1]; exact h.tot, by rw [hd]; exact h.fill,
      by rw [hd]; exact h.data, h.seen, by rw [hot.same.2.2.2.1]; exact h.bal⟩

theorem parseSummaryIn_full {r : Rc} {b b' : List Nat} {d d2 : Des} {x : Summary}
    (e : bufferFill headerSz b r.des = some (d, b')) (hge : headerSz ≤ d.fill)
    (ep : parseSummary { d with pos := 0 } = some (some x, d2)) :
    r.parseSummaryIn b = some ({ ({ r with des := d2 } : Rc).setupSecond x with
      des := { (({ r with des := d2 } : Rc).setupSecond x).des with fill := 0 } }, some b') := by
  unfold Rc.parseSummaryIn
  simp only [Option.bind_eq_bind]
  rw [e, Option.bind_some]
  dsimp only
  rw [if_pos hge, ep]
  rfl

theorem parseSummaryIn_short {r : Rc} {b b' : List Nat} {d : Des}
    (e : bufferFill headerSz b r.des = some (d, b')) (hge : ¬ headerSz ≤ d.fill) :
    r.parseSummaryIn b = some ({ r with des := d }, some b') := by
  unfold Rc.parseSummaryIn
  simp only [Option.bind_eq_bind]
  rw [e, Option.bind_some]
  dsimp only
  rw [if_neg hge]

theorem setup_fill (r : Rc) (d : Des) (x : Summary) :
    ({ ({ r with des := d } : Rc).setupSecond x with
      des := { (({ r with des := d } : Rc).setupSecond x).des with fill := 0 } } : Rc) =
    ({ r with des := { d with fill := 0 } } : Rc).setupSecond x := by
  unfold Rc.setupSecond; dsimp only; split <;> rfl

theorem feed_pre {F : Int} {exp : List Int} {ms : List Metrics} (bx : Int → Int) (hs : SOk bx exp ms)
    (hk : ∃ m ∈ ms, m.fti = 0) {c : Client} (h : Pre F bx exp ms c) (n : Nat) :
    ∃ c', c.act bx (.feed n) = some (some c') ∧ c'.seen = [] ∧
      ((Pre F bx exp ms c' ∧ n < c.rest.length) ∨
        (CSync false F ms c' ∧ (c.rest.length ≤ n → c'.rc.ready2 = true))) := by
  obtain ⟨r, rest, seen⟩ := c
  have hf := h.fresh
  have hfill := h.fill
  have hdat := h.data
  have hsn := h.seen
  dsimp only at hf hfill hdat hsn ⊢
  subst hsn
  have hl68 := summaryBytes_length (bx := bx) (ms := ms) hs.elen
  have hrl : r.des.fill + rest.length = 68 + 8 * ms.length := by
    have := congrArg List.length hdat
    rw [List.length_append, List.length_append, List.length_take, hl68, recs_length, hf.inv.des.len] at this
    omega
  obtain ⟨d, e, hd, hdf, -, ht⟩ := bufferFill_ok (goal := headerSz) (by decide) (rest.take n) r.des hf.inv.des
  have hsz : headerSz = 68 := rfl
  rw [hsz] at hdf ht
  have e : bufferFill headerSz (rest.take n) r.des = some (d, (rest.take n).drop (68 - r.des.fill)) := e
  have hall : d.buf.take d.fill ++ ((rest.take n).drop (68 - r.des.fill) ++ rest.drop n) =
      summaryBytes bx exp ms ++ recs ms := by
    rw [ht, List.append_assoc, ← List.append_assoc ((rest.take n).take _), List.take_append_drop,
      List.take_append_drop, hdat]
  rw [List.length_take] at hdf
  unfold Client.act
  dsimp only
  unfold Rc.twopassIn
  simp only [Option.bind_eq_bind]
  rw [initSecond_ge hf.pass, if_pos (by rw [h.tot]; rfl), unready_eq hf.ready2]
  by_cases hge : 68 ≤ d.fill
  · have h68 : d.fill = 68 := by omega
    rw [h68] at hall
    obtain ⟨q1, q2⟩ := List.append_inj hall (by rw [List.length_take, hl68, hd.len]; rfl)
    have hbuf : d.buf = summaryBytes bx exp ms := by rw [← q1, List.take_of_length_le (by rw [hd.len])]
    rw [parseSummaryIn_full e hge (parse_summary hs hbuf), Option.bind_some]
    dsimp only
    obtain ⟨hsy, -⟩ := setup_sync hs hk hf h.bal (d := { d with pos := 68, fill := 0 }) ⟨hd.len, Nat.zero_le _⟩ rfl
    rw [setup_fill]
    rw [← q2] at hsy
    obtain ⟨r', b', et, hfed⟩ := tail_some bx hsy (rest.take n).length
    rw [et]
    have hsuf : b' <:+ rest.take n := hfed.suff.trans (List.drop_suffix _ _)
    have hdc := drop_consumed (later := rest.drop n) hsuf
    rw [List.take_append_drop] at hdc
    refine ⟨_, rfl, rfl, Or.inr ⟨⟨?_, rfl⟩, ?_⟩⟩
    · dsimp only; rw [hdc]; exact hfed.sync
    · intro hn
      dsimp only
      rcases hfed.live (List.drop_eq_nil_of_le hn) with hx | hx
      · exact hx
      · obtain ⟨m, hm, -⟩ := hk
        have := List.length_pos_of_mem hm
        omega
  · rw [parseSummaryIn_short e hge, Option.bind_some]
    dsimp only
    have hnil : (rest.take n).drop (68 - r.des.fill) = [] := by
      apply List.drop_eq_nil_of_le
      rw [List.length_take]; omega
    rw [hnil, List.nil_append] at hall
    unfold Rc.twopassTail
    rw [if_neg (by dsimp only; rw [h.tot]; decide)]
    have hi : Inv false F { r with des := d } :=
      hf.inv.des_set hd (fun hx => by simp at hx) fun _ hx => by
        rw [h.tot] at hx; exact absurd hx (by decide)
    have hn : n < rest.length := by omega
    have hlt : (rest.take n).length - ([] : List Nat).length = n := by
      rw [List.length_take, List.length_nil]; omega
    rw [hnil]
    dsimp only
    rw [hlt]
    refine ⟨_, rfl, rfl, Or.inl ⟨⟨{ hf with inv := hi }, h.tot, ?_, hall, rfl, h.bal⟩, hn⟩⟩
    dsimp only; omega

/-- The ways of passing data. -/
def Act.Bytes : Act → Prop
  | .feed _ => True
  | .packet => False
  | .call o => o.Plain

def Act.Packets : Act → Prop
  | .feed _ => False
  | .packet => True
  | .call o => o.Plain

theorem run_bytes {F : Int} {exp : List Int} {ms : List Metrics} (bx : Int → Int) (hs : SOk bx exp ms)
    (hk : ∃ m ∈ ms, m.fti = 0) (acts : List Act) {c : Client} (h : Pre F bx exp ms c ∨ CSync false F ms c)
    (ha : ∀ a ∈ acts, a.Bytes) (hF : F + acts.length ≤ 1073741824) :
    ∃ c', c.run bx acts = some (some c') ∧
      (Pre (F + acts.length) bx exp ms c' ∨ CSync false (F + acts.length) ms c') := by
  induction acts generalizing F c with
  | nil => exact ⟨c, rfl, by simpa using h⟩
  | cons a acts ih =>
    rw [List.length_cons] at hF ⊢
    push_cast at hF ⊢
    have one : ∃ c', c.act bx a = some (some c') ∧ (Pre (F + 1) bx exp ms c' ∨ CSync false (F + 1) ms c') := by
      have ha := ha a List.mem_cons_self
      cases a with
      | packet => exact ha.elim
      | call o =>
        rcases h with h | h
        · obtain ⟨c', e, h'⟩ := call_pre bx h (by omega) ha
          exact ⟨c', e, Or.inl h'⟩
        · obtain ⟨c', e, h', -⟩ := call_sync bx h (by omega) ha
          exact ⟨c', e, Or.inr h'⟩
      | feed n =>
        rcases h with h | h
        · obtain ⟨c', e, -, h' | h'⟩ := feed_pre bx hs hk h n
          · have hf := h'.1.fresh
            exact ⟨c', e, Or.inl { h'.1 with fresh := { hf with inv := hf.inv.mono (by omega) } }⟩
          · exact ⟨c', e, Or.inr (h'.1.mono (by omega))⟩
        · obtain ⟨c', e, h', -⟩ := feed_sync bx h n
          exact ⟨c', e, Or.inr (h'.mono (by omega))⟩
    obtain ⟨c1, e1, h1⟩ := one
    obtain ⟨c2, e2, h2⟩ := ih h1 (fun x hx => ha x (List.mem_cons_of_mem _ hx)) (by omega)
    refine ⟨c2, by rw [Client.run, e1]; exact e2, ?_⟩
    have e : F + ((acts.length : Int) + 1) = F + 1 + acts.length := by ring
    rw [e]; exact h2

theorem run_packets {F : Int} {ms : List Metrics} (bx : Int → Int) (acts : List Act) {c : Client}
    (h : CSync true F ms c) (hl : c.rc.lively c.seen.length ms.length)
    (ha : ∀ a ∈ acts, a.Packets) (hF : F + acts.length ≤ 1073741824) :
    ∃ c', c.run bx acts = some (some c') ∧ CSync true (F + acts.length) ms c' ∧
      c'.rc.lively c'.seen.length ms.length := by
  induction acts generalizing F c with
  | nil => exact ⟨c, rfl, by simpa using h, hl⟩
  | cons a acts ih =>
    rw [List.length_cons] at hF ⊢
    push_cast at hF ⊢
    have one : ∃ c', c.act bx a = some (some c') ∧ CSync true (F + 1) ms c' ∧
        c'.rc.lively c'.seen.length ms.length := by
      have ha := ha a List.mem_cons_self
      cases a with
      | feed n => exact ha.elim
      | call o =>
        obtain ⟨c', e, h', l'⟩ := call_sync bx h (by omega) ha
        exact ⟨c', e, h', l' hl⟩
      | packet =>
        obtain ⟨c', e, h', -, l', -⟩ := packet_sync bx h hl
        exact ⟨c', e, h'.mono (by omega), l'⟩
    obtain ⟨c1, e1, h1, l1⟩ := one
    obtain ⟨c2, e2, h2, l2⟩ := ih h1 l1 (fun x hx => ha x (List.mem_cons_of_mem _ hx)) (by omega)
    refine ⟨c2, by rw [Client.run, e1]; exact e2, ?_, l2⟩
    have e : F + ((acts.length : Int) + 1) = F + 1 + acts.length := by ring
    rw [e]; exact h2

/-- After data was passed and pending data of the first pass was taken, the next frame is encoded. -/
theorem out_ready {s : Bool} {F : Int} {ms : List Metrics} (bx : Int → Int) {c : Client} (h : CSync s F ms c)
    (hF : F < 1073741824) (hr : c.rc.ready2 = true) :
    ∃ c', c.act bx (.call (.out false)) = some (some c') ∧ c'.seen = c.seen ∧
      (c'.rc.active && c'.rc.ready) = true := by
  have hs := h.sync
  have hp := hs.pass; have hp3 := hs.inv.pass3; have hen := hs.inv.enc
  have ho := out_other bx c.rc false
  refine ⟨_, rfl, by simp [frameOf], ?_⟩
  dsimp only
  rw [ho.same.1, hs.act, Bool.true_and]
  have hp1 : (c.rc.twopassOut bx false).1.pass1Retrieved = true := by
    unfold Rc.twopassOut
    cases hx : c.rc.pass1Retrieved with
    | true => rw [if_neg (by simp), if_neg (by simp)]; exact hx
    | false =>
      rw [if_pos (by simp)]
      split
      · rfl
      · unfold Rc.emitFrame; dsimp only; rw [p31, if_neg (by omega)]
  unfold Rc.ready
  rw [ho.same.2.1, ho.more.2.2.2.1, if_neg (by omega), if_neg (by omega), hr, hp1]
  simp

/-- Sending records until none is required makes the encoder ready. -/
theorem packets_live {F : Int} {ms : List Metrics} (bx : Int → Int) (n : Nat) {c : Client}
    (h : CSync true F ms c) (hl : c.rc.lively c.seen.length ms.length) (hE : c.seen.length < ms.length)
    (hn : ms.length - (c.seen.length + c.rc.held) ≤ n) :
    ∃ k c', k ≤ n + 1 ∧ c.run bx (List.replicate k .packet) = some (some c') ∧ c'.seen = c.seen ∧ CSync true F ms c' ∧
      c'.rc.ready2 = true := by
  induction n generalizing c with
  | zero =>
    cases hr : c.rc.ready2 with
    | true => exact ⟨0, c, by omega, rfl, rfl, h, hr⟩
    | false =>
      obtain ⟨c', e, h', s', l', m'⟩ := packet_sync bx h hl
      refine ⟨1, c', by omega, by simp [Client.run, e], s', h', ?_⟩
      rcases m' hE hr with m | m
      · exact m
      · have := h'.sync.hle; rw [s'] at this; omega
  | succ n ih =>
    cases hr : c.rc.ready2 with
    | true => exact ⟨0, c, by omega, rfl, rfl, h, hr⟩
    | false =>
      obtain ⟨c', e, h', s', l', m'⟩ := packet_sync bx h hl
      rcases m' hE hr with m | m
      · exact ⟨1, c', by omega, by simp [Client.run, e], s', h', m⟩
      · obtain ⟨k, c2, hk, e2, s2, h2, r2⟩ := ih h' l' (by rw [s']; exact hE) (by rw [s']; omega)
        refine ⟨k + 1, c2, by omega, ?_, by rw [s2, s'], h2, r2⟩
        rw [List.replicate_succ, Client.run, e]
        exact e2

theorem CSync.prefix {s : Bool} {F : Int} {ms : List Metrics} {c : Client} (h : CSync s F ms c) : c.seen <+: ms := by
  rw [h.seen]; exact List.take_prefix _ _

theorem CSync.lt {s : Bool} {F : Int} {ms : List Metrics} {c : Client} (h : CSync s F ms c) (hne : c.seen ≠ ms) :
    c.seen.length < ms.length := by
  have := h.sync.hle
  by_contra hx
  apply hne
  rw [h.seen, List.take_of_length_le (by omega)]

theorem summaryFromSlice_bytes {bx : Int → Int} {exp : List Int} {ms : List Metrics} (h : SOk bx exp ms) :
    summaryFromSlice (summaryBytes bx exp ms) = some (some (summaryOf bx exp ms)) := by
  obtain ⟨d, e, hd, hf, hp, ht⟩ := bufferFill_ok (goal := headerSz) (by decide) (summaryBytes bx exp ms) Des.new
    ⟨rfl, by decide⟩
  have hl := summaryBytes_length (bx := bx) (ms := ms) h.elen
  have h68 : d.fill = 68 := by rw [hf, hl]; rfl
  have hb : d.buf = summaryBytes bx exp ms := by
    rw [h68, List.take_of_length_le (by rw [hd.len])] at ht
    rw [ht]
    show [] ++ (summaryBytes bx exp ms).take 68 = _
    rw [List.nil_append, List.take_of_length_le (by rw [hl])]
  have hd0 : { d with pos := 0 } = d := by
    have : d.pos = 0 := hp
    cases d; simp only at this; rw [this]
  have ep := parse_summary h hb
  rw [hd0] at ep
  unfold summaryFromSlice
  simp only [Option.bind_eq_bind]
  rw [e, Option.bind_some]
  dsimp only
  rw [ep]
  rfl

/-! ## C29 -/

/-- The next frame can be encoded after some calls that encode none. -/
def Client.canGoOn (bx : Int → Int) (c : Client) (calls : List Act) : Prop :=
  ∃ c', c.run bx (calls ++ [.call (.out false)]) = some (some c') ∧ c'.seen = c.seen ∧
    (c'.rc.active && c'.rc.ready) = true

/-- **C29**. Take the data of any finished first pass: the bytes it returned and the summary at the end. The
summary is accepted. A second pass (which may itself emit data) that is given

1. the summary in its configuration, and the records through `twopass_in` in pieces of any size, or
2. the summary and the records as one stream through `twopass_in` in pieces of any size, or
3. the summary in its configuration and the records one by one,

with frames encoded and other calls made in between in any order, never fails, and it uses for its frames exactly
the metrics of the first pass, in order. As long as it has encoded fewer frames than the first pass, passing the
rest of the data makes it ready for the next frame; so it gets through all of them. -/
theorem two_pass_round_trip (bx : Int → Int) {c1 c2 : Cfg} (hb1 : 0 < c1.bitrate) (hb2 : 0 < c2.bitrate)
    (hc2 : CfgOk c2) (ops : List Op) (ho : ∀ o ∈ ops, o.InFirst) (hl : ops.length ≤ 2 ^ 30)
    (r1 : Rc) (hr1 : run bx (Rc.start c1 none true) ops = some r1) (hret : r1.pass1Retrieved = true)
    (ms : List Metrics) (hms : ms = frames bx (Rc.start c1 none true) ops)
    (data : List Nat) (hdata : data = outputs bx (Rc.start c1 none true) ops)
    (hs : SOk bx c1.exp ms) (hk : ∃ m ∈ ms, m.fti = 0) (hbal : c2.delay.isSome → Balanced ms)
    (emit : Bool) (acts : List Act) (hn : acts.length + ms.length < 2 ^ 30) :
    ∃ b sm, (r1.twopassOut bx true).2 = some b ∧ summaryFromSlice b = some (some sm) ∧
      ((∀ a ∈ acts, a.Bytes) → ∃ c, Client.run bx ⟨Rc.start c2 (some sm) emit, data, []⟩ acts = some (some c) ∧
        c.seen <+: ms ∧ (c.seen ≠ ms → c.canGoOn bx [.feed c.rest.length])) ∧
      ((∀ a ∈ acts, a.Bytes) →
        ∃ c, Client.run bx ⟨Rc.start c2 none emit, b ++ data, []⟩ (.call .need :: acts) = some (some c) ∧
        c.seen <+: ms ∧ (c.seen ≠ ms → c.canGoOn bx [.feed c.rest.length])) ∧
      ((∀ a ∈ acts, a.Packets) → ∃ c, Client.run bx ⟨Rc.start c2 (some sm) emit, data, []⟩ acts = some (some c) ∧
        c.seen <+: ms ∧ (c.seen ≠ ms → ∃ k, k ≤ ms.length + 1 ∧ c.canGoOn bx (List.replicate k .packet))) := by
  have e30 : (2 : Nat) ^ 30 = 1073741824 := by norm_num
  rw [e30] at hn
  obtain ⟨r, e, f1, -, f3⟩ := first_pass bx hb1 ops ho hl
  rw [hr1] at e
  have e := Option.some.inj e
  subst e
  rw [← hms] at f1 f3
  have hd : data = recs ms := by rw [hdata]; exact f1 hret
  have hsum := (f3 hret hs).1
  have goOn : ∀ (F : Int) (c : Client), CSync false F ms c → F < 1073741824 → c.seen ≠ ms →
      c.canGoOn bx [.feed c.rest.length] := by
    intro F c h hF hne
    obtain ⟨c', e', h', s', l'⟩ := feed_sync bx h c.rest.length
    have hr : c'.rc.ready2 = true := by
      rcases l' (le_refl _) with l | l
      · exact l
      · have := h.lt hne; omega
    obtain ⟨c2, e2, s2, r2⟩ := out_ready bx h' hF hr
    exact ⟨c2, by simp [Client.run, e', e2], by rw [s2, s'], r2⟩
  refine ⟨_, _, hsum, summaryFromSlice_bytes hs, ?_, ?_, ?_⟩
  · intro ha
    obtain ⟨h0, -⟩ := start_sync false hs hk hc2 hb2 hbal emit
    rw [← hd] at h0
    obtain ⟨c, ec, h | h⟩ := run_bytes bx hs hk acts (Or.inr h0) ha (by omega)
    · refine ⟨c, ec, by rw [h.seen]; exact List.nil_prefix, ?_⟩
      intro hne
      obtain ⟨c', e', s', h' | h'⟩ := feed_pre bx hs hk h c.rest.length
      · omega
      · obtain ⟨c2, e2, s2, r2⟩ := out_ready bx h'.1 (by omega) (h'.2 (le_refl _))
        exact ⟨c2, by simp [Client.run, e', e2], by rw [s2, s', h.seen], r2⟩
    · exact ⟨c, ec, h.prefix, goOn _ c h (by omega)⟩
  · intro ha
    obtain ⟨hf, hdl, hdes, htot, hr2, hp2⟩ := new_fresh false hc2 hb2 emit
    have hst : Rc.start c2 none emit = if emit = true then (Rc.new c2).initFirst else Rc.new c2 := rfl
    rw [hst]
    dsimp only at hf hdl hdes htot hr2 hp2
    generalize (if emit = true then (Rc.new c2).initFirst else Rc.new c2) = r0 at *
    have hneed : Client.act bx ⟨r0, summaryBytes bx c1.exp ms ++ data, []⟩ (.call .need) =
        some (some ⟨{ r0.initSecond with ready2 := false }, summaryBytes bx c1.exp ms ++ data, []⟩) := by
      unfold Client.act
      dsimp only
      simp only [step, Rc.twopassIn]
      rw [if_pos (by rw [htot]; rfl)]
      rfl
    have hpre : Pre 0 bx c1.exp ms ⟨{ r0.initSecond with ready2 := false }, summaryBytes bx c1.exp ms ++ data, []⟩ := by
      refine ⟨hf, htot, ?_, ?_, rfl, fun hne => hbal (hdl hne)⟩
      · dsimp only; rw [hdes]; decide
      · dsimp only; rw [hdes, hd]; rfl
    obtain ⟨c, ec, h⟩ := run_bytes bx hs hk acts (Or.inl hpre) ha (by omega)
    refine ⟨c, by rw [Client.run, hneed]; exact ec, ?_⟩
    rcases h with h | h
    · refine ⟨by rw [h.seen]; exact List.nil_prefix, fun hne => ?_⟩
      obtain ⟨c', e', s', h' | h'⟩ := feed_pre bx hs hk h c.rest.length
      · omega
      · obtain ⟨c2, e2, s2, r2⟩ := out_ready bx h'.1 (by omega) (h'.2 (le_refl _))
        exact ⟨c2, by simp [Client.run, e', e2], by rw [s2, s', h.seen], r2⟩
    · exact ⟨h.prefix, goOn _ c h (by omega)⟩
  · intro ha
    obtain ⟨h0, l0⟩ := start_sync true hs hk hc2 hb2 hbal emit
    rw [← hd] at h0
    obtain ⟨c, ec, h, l⟩ := run_packets bx acts h0 l0 ha (by omega)
    refine ⟨c, ec, h.prefix, fun hne => ?_⟩
    obtain ⟨k, c', hk', e', s', h', r'⟩ := packets_live bx ms.length h l (h.lt hne) (by omega)
    obtain ⟨c2, e2, s2, r2⟩ := out_ready bx h' (by omega) r'
    refine ⟨k, hk', c2, ?_, by rw [s2, s'], r2⟩
    have app : ∀ (as : List Act) (c c' : Client), c.run bx as = some (some c') → ∀ bs, c.run bx (as ++ bs) = c'.run bx bs := by
      intro as
      induction as with
      | nil => intro c c' h bs; rw [← Option.some.inj (Option.some.inj h)]; rfl
      | cons a as ih =>
        intro c c' h bs
        rw [Client.run] at h
        rw [List.cons_append, Client.run]
        cases ha : c.act bx a with
        | none => rw [ha] at h; simp at h
        | some x =>
          cases x with
          | none => rw [ha] at h; simp at h
          | some c1 => rw [ha] at h; exact ih c1 c' h bs
    rw [app _ _ _ e']
    simp [Client.run, e2]

/-! ### The hypotheses can be met -/

theorem exMetrics_balanced : Balanced exMetrics := by
  intro i n
  have h : (List.take n (exMetrics.drop i)).length ≤ 3 := by
    rw [List.length_take, List.length_drop]
    have : exMetrics.length = 3 := rfl
    omega
  have := List.countP_le_length (p := (!·.shown)) (l := List.take n (exMetrics.drop i))
  omega

/-- The theorem applies to a first pass of three frames and to second passes with and without a finite buffer. -/
example (delay : Option Int) (hd : delay = none ∨ delay = some 12) (emit : Bool) (acts : List Act)
    (hn : acts.length + 3 < 2 ^ 30) :=
  two_pass_round_trip (fun x => x.natAbs) (c1 := exCfg none) (c2 := exCfg delay) (by decide) (by
      show (0 : Int) < 1000000; decide)
    ⟨fun d h => by
      rcases hd with rfl | rfl
      · simp [exCfg] at h
      · simp only [exCfg, Option.some.injEq] at h; omega⟩
    exFirst (by
      intro o ho
      simp only [exFirst, List.mem_cons, List.not_mem_nil, or_false] at ho
      rcases ho with rfl | rfl | rfl | rfl | rfl | rfl | rfl | rfl | rfl <;> simp [Op.InFirst, Op.Valid])
    (by decide) ((run (fun x => x.natAbs) (Rc.start (exCfg none) none true) exFirst).getD (Rc.new (exCfg none)))
    (by decide +kernel) (by decide +kernel) exMetrics (by decide +kernel) _ rfl exMetrics_ok
    ⟨⟨5, 0, true⟩, by simp [exMetrics], rfl⟩ (fun _ => exMetrics_balanced) emit acts hn

/-- The file of `exMetrics`: the summary, then the records. -/
def exFile : List Nat := summaryBytes (fun x => x.natAbs) [1, 1, 1, 1] exMetrics ++ recs exMetrics

def seenOf (x : Option (Option Client)) : List Metrics := match x with
  | some (some c) => c.seen
  | _ => []

/-- The file in pieces, some of them smaller than a record, with an attempt to encode too early. -/
example : seenOf (Client.run (fun x => x.natAbs) ⟨Rc.start (exCfg (some 12)) none false, exFile, []⟩
    [.call .need, .feed 50, .call (.frame 900 0 true 5), .feed 21, .feed 7, .call (.frame 900 0 true 5), .feed 100,
     .call (.frame 900 0 true 5), .call .need, .feed 100, .call (.frame 900 1 false 5), .feed 0,
     .call (.frame 24 4 true 0)]) = exMetrics := by decide +kernel

/-- Record by record. -/
example : seenOf (Client.run (fun x => x.natAbs)
    ⟨Rc.start (exCfg (some 12)) (some (summaryOf (fun x => x.natAbs) [1, 1, 1, 1] exMetrics)) false, recs exMetrics, []⟩
    [.packet, .packet, .packet, .packet, .call (.frame 900 0 true 5), .packet, .call (.frame 900 1 false 5), .packet,
     .call (.frame 24 4 true 0)]) = exMetrics := by decide +kernel

end Rav1e.Rate
