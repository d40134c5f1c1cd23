import Verif.Chan.Model

/-!
# The channel API delivers what the direct API delivers

For every schedule of the application and the worker.  Hypotheses: the configuration is valid and not for a still
picture, every item sent contains a frame, fewer than `c.maxFrames` (`i32::MAX`) frames are sent and the application
does not drop the receiver before the end.
-/

namespace Rav1e.Chan

open Rav1e.Sched
open Rav1e.Sched.Spec (packets accepted requested)

variable {F O M : Type}

/-- The frame the worker holds. -/
def Worker.held : Worker F O M → List (Input F O M)
  | .busy f => [f]
  | _ => []

/-- Steps of the worker other than calls of the encoder. -/
def Worker.cost : Worker F O M → Nat
  | .idle => 0
  | .busy _ => 1
  | .draining => 1
  | .done => 2
  | .dead => 0

/-- How far the worker has come, against the calls `ops` of the direct API that put the encoder in the same state. -/
def Worker.At (w : Worker F O M) (ch : Ch F O M) (ops : List (Op F O M)) : Prop :=
  match w with
  | .idle => ops.any Op.isFlush = false
  | .busy _ => ops.any Op.isFlush = false
  | .draining => ops.any Op.isFlush = true ∧ ch.sending = false ∧ ch.frames = []
  | .done => ops.any Op.isFlush = true ∧ ch.sending = false ∧ ch.frames = [] ∧
      ch.inner.framesProcessed = (wanted false false 0 ops).length
  | .dead => False

structure Inv (c : Cfg) (cut : Nat → Bool) (ch : Ch F O M) (fs : List (Input F O M)) (got : List (Packet F O M))
    (works : Nat) (ops : List (Op F O M)) : Prop where
  state : (run c cut Sched.init ops).1 = ch.inner
  pks : packets (outcomes c cut ops) = got ++ ch.packets
  split : ∃ done, fs = done ++ ch.worker.held ++ ch.frames ∧ wanted false false 0 ops = Spec.asFrames done ∧
    done.length = (wanted false false 0 ops).length
  count : ch.count = fs.length
  listening : ch.listening = true
  pos : ch.worker.At ch ops
  works : works ≤ 2 * (wanted false false 0 ops).length + ch.worker.cost + (got ++ ch.packets).length +
    (outcomes c cut ops).countP Res.isEncoded

/-- Is this a step of the worker? -/
def Ev.isWork : Ev F O M → Bool
  | .work => true
  | _ => false

section
variable {c : Cfg} {cut : Nat → Bool}

theorem inv_create : Inv c cut (create : Ch F O M) [] [] 0 [] := by
  refine ⟨rfl, rfl, ⟨[], rfl, rfl, rfl⟩, rfl, rfl, rfl, ?_⟩
  simp [create]

theorem run_snoc (s : St F O M) (ops : List (Op F O M)) (op : Op F O M) :
    run c cut s (ops ++ [op]) = ((Sched.step c cut (run c cut s ops).1 op).1,
      (run c cut s ops).2 ++ [(Sched.step c cut (run c cut s ops).1 op).2]) := by
  rw [run_append']; rfl

theorem outcomes_snoc (ops : List (Op F O M)) (op : Op F O M) :
    outcomes c cut (ops ++ [op]) = outcomes c cut ops ++ [(Sched.step c cut (run c cut Sched.init ops).1 op).2] := by
  unfold outcomes; rw [run_snoc]

theorem wanted_receive (ops : List (Op F O M)) (b : Bool) :
    wanted false false 0 (ops ++ [.receive b]) = wanted false false 0 ops :=
  wanted_receives false false 0 ops [b]

theorem wanted_send (ops : List (Op F O M)) (f : F) (p : Option (Params O M)) (h : ops.any Op.isFlush = false) :
    wanted false false 0 (ops ++ [.send f p]) = wanted false false 0 ops ++ [(f, p)] :=
  wanted_more false 0 ops [(f, p)] h (fun e => by cases e)

theorem asFrames_append (a b : List (Input F O M)) : Spec.asFrames (a ++ b) = Spec.asFrames a ++ Spec.asFrames b :=
  List.filterMap_append

theorem asFrames_length (l : List (Input F O M)) (h : ∀ x ∈ l, x.1.isSome = true) : (Spec.asFrames l).length = l.length := by
  induction l with
  | nil => rfl
  | cons x l ih =>
    obtain ⟨x, p⟩ := x
    have hx := h (x, p) (List.mem_cons_self ..)
    cases x with
    | none => cases hx
    | some f =>
      show ((f, p) :: Spec.asFrames l).length = _
      rw [List.length_cons, List.length_cons, ih (fun y hy => h y (List.mem_cons_of_mem _ hy))]

theorem packets_snoc (rs : List (Res F O M)) (r : Res F O M) : packets (rs ++ [r]) = packets rs ++ packets [r] := by
  unfold packets; rw [List.filterMap_append]

theorem history0 (hv : c.Valid) (hs : c.stillPicture = false) (ops : List (Op F O M))
    (hmax : (wanted false false 0 ops).length < c.maxFrames) :
    ∃ (K : Nat → Bool) (lim : Option Nat) (A : List (F × Option (Params O M))),
      A = accepted ops (outcomes c cut ops) ∧ K = requested A cut ∧
      A = wanted false false 0 ops ∧
      lim = (if ops.any Op.isFlush then some A.length else none) ∧
      (∃ qs ds fd, Base c cut K lim A (run c cut Sched.init ops).1 qs ds fd) ∧
      Timing c K lim A (run c cut Sched.init ops).1 ∧
      (run c cut Sched.init ops).1.isFlushing = ops.any Op.isFlush ∧
      Hist c K lim A (run c cut Sched.init ops).1 (packets (outcomes c cut ops)) ∧
      (∀ r ∈ outcomes c cut ops, r.sound = true) := by
  have := history' c cut ops hv (by rw [hs]; exact hmax)
  rw [hs] at this
  exact this

/-- A call of `receive_packet` inside the worker: what it can return. -/
theorem receive_cases (hv : c.Valid) (hs : c.stillPicture = false) (ops : List (Op F O M))
    (hmax : (wanted false false 0 ops).length < c.maxFrames) :
    (ops.any Op.isFlush = false → needsMoreFi c (run c cut Sched.init ops).1 = false →
      (receive c true (run c cut Sched.init ops).1).2 = .encoded ∨
      ∃ p, (receive c true (run c cut Sched.init ops).1).2 = .packet p) ∧
    (ops.any Op.isFlush = true →
      (receive c true (run c cut Sched.init ops).1).2 = .encoded ∨
      ((receive c true (run c cut Sched.init ops).1).2 = .limitReached ∧
        (receive c true (run c cut Sched.init ops).1).1 = (run c cut Sched.init ops).1 ∧
        (run c cut Sched.init ops).1.framesProcessed = (wanted false false 0 ops).length) ∨
      ∃ p, (receive c true (run c cut Sched.init ops).1).2 = .packet p) := by
  obtain ⟨K, lim, A, hA, hK, hw, hl, ⟨_, _, _, hb⟩, ht, hfl, hh, -⟩ := history0 (cut := cut) hv hs ops hmax
  obtain ⟨_, _, _, -, -, -, hr⟩ := receive_inv hb hv ht true
  rw [← hfl, ← hw]
  generalize (run c cut Sched.init ops).1 = s at *
  generalize receive c true s = x at hr
  obtain ⟨s', r⟩ := x
  simp only at hr ⊢
  cases hr with
  | limit e h e2 => exact ⟨fun hf => (by rw [hf] at h; cases h), fun _ => Or.inr (Or.inl ⟨rfl, e, e2⟩)⟩
  | wait r h =>
    rcases h with ⟨e, h1, h2⟩ | ⟨e, h⟩
    · exact ⟨fun _ hn => (by rw [hn] at h2; cases h2), fun hf => (by rw [hf] at h1; cases h1)⟩
    · cases h
  | hidden => exact ⟨fun _ _ => Or.inl rfl, fun _ => Or.inl rfl⟩
  | shown => exact ⟨fun _ _ => Or.inr ⟨_, rfl⟩, fun _ => Or.inr (Or.inr ⟨_, rfl⟩)⟩

/-- A call of the direct API does not crash. -/
theorem step_sound (hv : c.Valid) (hs : c.stillPicture = false) (ops : List (Op F O M)) (op : Op F O M)
    (hmax : (wanted false false 0 (ops ++ [op])).length < c.maxFrames) (e : Crash) :
    (Sched.step c cut (run c cut Sched.init ops).1 op).2 ≠ .crash e := by
  obtain ⟨K, lim, A, -, -, -, -, -, -, -, -, h⟩ := history0 (cut := cut) hv hs (ops ++ [op]) hmax
  intro he
  have := h (.crash e) (by rw [outcomes_snoc, he]; simp)
  cases this

theorem state_facts (hv : c.Valid) (hs : c.stillPicture = false) (ops : List (Op F O M))
    (hmax : (wanted false false 0 ops).length < c.maxFrames) :
    (run c cut Sched.init ops).1.frameCount = (wanted false false 0 ops).length ∧
    (run c cut Sched.init ops).1.isFlushing = ops.any Op.isFlush ∧
    (packets (outcomes c cut ops)).length = (run c cut Sched.init ops).1.framesProcessed ∧
    (packets (outcomes c cut ops)).length ≤ (wanted false false 0 ops).length := by
  obtain ⟨K, lim, A, hA, hK, hw, hl, ⟨_, _, _, hb⟩, ht, hfl, hh, -⟩ := history0 (cut := cut) hv hs ops hmax
  rw [← hw]
  exact ⟨hb.count, hfl, hh.len, by rw [hh.len]; exact hb.fpLe⟩

/-- One step preserves the invariant. -/
theorem step_inv (hv : c.Valid) (hs : c.stillPicture = false) {ch ch' : Ch F O M} {fs : List (Input F O M)}
    {got : List (Packet F O M)} {w : Nat} {ops : List (Op F O M)} {e : Ev F O M} {o : Out F O M}
    (h : Inv c cut ch fs got w ops) (hst : step c cut ch e = some (ch', o)) (he : e ≠ .hangUp)
    (hsome : ∀ x ∈ fs ++ Spec.sentFrames [e] [o], x.1.isSome = true)
    (hmax : (fs ++ Spec.sentFrames [e] [o]).length < c.maxFrames) :
    ∃ ops', Inv c cut ch' (fs ++ Spec.sentFrames [e] [o]) (got ++ Spec.received [o])
      (w + [e].countP Ev.isWork) ops' := by
  obtain ⟨i1, i2, ⟨dn, i3, i3', i3''⟩, i4, i5, i6, i7⟩ := h
  have hwl : (wanted false false 0 ops).length < c.maxFrames := by
    rw [List.length_append, i3, List.length_append, List.length_append] at hmax
    omega
  cases e with
  | hangUp => exact absurd rfl he
  | close =>
    simp only [step] at hst
    split at hst
    · rename_i hopen
      simp only [Option.some.injEq, Prod.mk.injEq] at hst
      obtain ⟨rfl, rfl⟩ := hst
      refine ⟨ops, i1, ?_, ⟨dn, ?_, i3', i3''⟩, ?_, i5, ?_, ?_⟩
      · simpa [Spec.received] using i2
      · simpa [Spec.sentFrames] using i3
      · simpa [Spec.sentFrames] using i4
      · revert i6
        cases hw : ch.worker with
        | draining => exact fun h => ⟨h.1, rfl, h.2.2⟩
        | done => exact fun h => ⟨h.1, rfl, h.2.2⟩
        | _ => exact id
      · simpa [Spec.received, Ev.isWork] using i7
    · cases hst
  | recv =>
    simp only [step, i5, Bool.not_true, Bool.false_eq_true, if_false] at hst
    cases hq : ch.packets with
    | nil =>
      rw [hq] at hst
      simp only at hst
      split at hst
      · simp only [Option.some.injEq, Prod.mk.injEq] at hst
        obtain ⟨rfl, rfl⟩ := hst
        refine ⟨ops, i1, ?_, ⟨dn, ?_, i3', i3''⟩, ?_, i5, i6, ?_⟩
        · simpa [Spec.received] using i2
        · simpa [Spec.sentFrames] using i3
        · simpa [Spec.sentFrames] using i4
        · simpa [Spec.received, Ev.isWork] using i7
      · cases hst
    | cons p rest =>
      rw [hq] at hst i2 i7
      simp only [Option.some.injEq, Prod.mk.injEq] at hst
      obtain ⟨rfl, rfl⟩ := hst
      refine ⟨ops, i1, ?_, ⟨dn, ?_, i3', i3''⟩, ?_, rfl, ?_, ?_⟩
      · simpa [Spec.received] using i2
      · simpa [Spec.sentFrames] using i3
      · simpa [Spec.sentFrames] using i4
      · revert i6
        cases hw : ch.worker <;> simp [Worker.At]
      · simpa [Spec.received, Ev.isWork] using i7
  | send f =>
    have hnr : ∀ {x : Out F O M}, x = .sent ∨ x = .refused → Spec.received [x] = [] := by
      rintro x (rfl | rfl) <;> rfl
    simp only [step] at hst
    split at hst
    · cases hst
    · rename_i hopen
      have hrest : ch.count < c.maxFrames := by
        rw [i4]; rw [List.length_append] at hmax; omega
      rw [if_neg (by omega)] at hst
      split at hst
      · simp only [Option.some.injEq, Prod.mk.injEq] at hst
        obtain ⟨rfl, rfl⟩ := hst
        refine ⟨ops, i1, ?_, ⟨dn, ?_, i3', i3''⟩, ?_, i5, i6, ?_⟩
        · simpa [Spec.received] using i2
        · simpa [Spec.sentFrames] using i3
        · simpa [Spec.sentFrames] using i4
        · simpa [Spec.received, Ev.isWork] using i7
      · rename_i hg
        split at hst
        · simp only [Option.some.injEq, Prod.mk.injEq] at hst
          obtain ⟨rfl, rfl⟩ := hst
          refine ⟨ops, i1, ?_, ⟨dn, ?_, i3', i3''⟩, ?_, i5, ?_, ?_⟩
          · simpa [Spec.received] using i2
          · simp only [Spec.sentFrames]; rw [i3]; simp
          · simp only [Spec.sentFrames]; rw [i4]; simp
          · revert i6
            cases hw : ch.worker with
            | draining => intro h; rw [hw] at hg; simp [Worker.At] at h; rw [h.2.1] at hopen; simp at hopen
            | done => rw [hw] at hg; simp [Worker.gone] at hg
            | _ => simp [Worker.At]
          · simpa [Spec.received, Ev.isWork] using i7
        · cases hst
  | work =>
    have hout : o = .silent := by
      simp only [step] at hst
      obtain ⟨y, _, hy⟩ := Option.map_eq_some_iff.1 hst
      cases hy; rfl
    subst hout
    have hw : work c cut ch = some ch' := by
      simp only [step] at hst
      obtain ⟨y, hy1, hy⟩ := Option.map_eq_some_iff.1 hst
      cases hy; exact hy1
    have hsf : Spec.sentFrames [(.work : Ev F O M)] [.silent] = [] := rfl
    have hrc : Spec.received [(.silent : Out F O M)] = [] := rfl
    rw [hsf, List.append_nil] at hmax hsome ⊢
    rw [hrc, List.append_nil, show [(.work : Ev F O M)].countP Ev.isWork = 1 from rfl]
    clear hst he hsf hrc
    unfold work at hw
    obtain ⟨q1, q2, q3, q4⟩ := state_facts (cut := cut) hv hs ops hwl
    rw [i1] at q1 q2 q3
    -- a successful call of `receive_packet`
    have hrecv : ∀ s r, receive c true ch.inner = (s, r) → (r = .encoded ∨ ∃ p, r = .packet p) →
        (∃ p, r = .packet p ∧ ch' = deliver { ch with inner := s } p) ∨ (r = .encoded ∧ ch' = { ch with inner := s }) →
        (∀ ops', ops'.any Op.isFlush = ops.any Op.isFlush → ch.worker.At ch ops → ∀ ch', ch'.sending = ch.sending →
          ch'.frames = ch.frames → ch.worker.At ch' ops') →
        ∃ ops', Inv c cut ch' fs got (w + 1) ops' := by
      intro s r hr _ hcase hat
      have hrun : run c cut Sched.init (ops ++ [.receive true]) = (s, (outcomes c cut ops) ++ [r]) := by
        rw [run_snoc, i1]
        show ((receive c true ch.inner).1, _ ++ [(receive c true ch.inner).2]) = _
        rw [hr]; rfl
      have hany : (ops ++ [Op.receive true]).any Op.isFlush = ops.any Op.isFlush := by simp [Op.isFlush]
      have houts : outcomes c cut (ops ++ [.receive true]) = outcomes c cut ops ++ [r] := by
        unfold outcomes at hrun ⊢; rw [hrun]
      rcases hcase with ⟨p, rfl, rfl⟩ | ⟨rfl, rfl⟩
      · unfold deliver
        simp only [i5, if_true]
        refine ⟨ops ++ [Op.receive true], by rw [hrun], ?_, ⟨dn, i3, by rw [wanted_receive]; exact i3', by
          rw [wanted_receive]; exact i3''⟩, i4, rfl, hat _ hany i6 _ rfl rfl, ?_⟩
        · rw [houts, packets_snoc, i2]; simp [packets]
        · rw [wanted_receive, houts, List.countP_append]
          simp only [List.length_append, List.length_singleton] at i7 ⊢
          omega
      · refine ⟨ops ++ [Op.receive true], by rw [hrun], ?_, ⟨dn, i3, by rw [wanted_receive]; exact i3', by
          rw [wanted_receive]; exact i3''⟩, i4, i5, hat _ hany i6 _ rfl rfl, ?_⟩
        · rw [houts, packets_snoc, i2]; simp [packets]
        · rw [wanted_receive, houts, List.countP_append]
          have : [(.encoded : Res F O M)].countP Res.isEncoded = 1 := rfl
          rw [this]
          simp only
          omega
    cases hwk : ch.worker with
    | done => rw [hwk] at hw; cases hw
    | dead => rw [hwk] at i6; exact i6.elim
    | idle =>
      rw [hwk] at hw i6 i7
      have hfl0 : ops.any Op.isFlush = false := i6
      simp only at hw
      cases hq : ch.frames with
      | cons f rest =>
        rw [hq] at hw
        simp only [Option.some.injEq] at hw
        subst hw
        refine ⟨ops, i1, i2, ⟨dn, ?_, i3', i3''⟩, i4, i5, i6, ?_⟩
        · rw [i3, hwk, hq]; simp [Worker.held]
        · simp only [Worker.cost] at i7 ⊢; omega
      | nil =>
        rw [hq] at hw
        simp only at hw
        split at hw
        · cases hw
        · rename_i hclosed
          have hw0 := wanted_flush false false 0 ops
          have hstep : Sched.step c cut (run c cut Sched.init ops).1 (.flush : Op F O M) =
              match sendInner c cut { ch.inner with limit := some ch.inner.frameCount, isFlushing := true } none none with
              | .ok s'' => (s'', .accepted)
              | .error e => ({ ch.inner with limit := some ch.inner.frameCount, isFlushing := true }, .crash e) := by
            rw [i1]
            simp only [Sched.step, send]
            rw [if_neg (by rw [q2, hfl0]; simp)]
            rfl
          have hns := step_sound (cut := cut) hv hs ops .flush (by rw [hw0]; exact hwl)
          rw [hstep] at hns
          generalize sendInner c cut { ch.inner with limit := some ch.inner.frameCount, isFlushing := true } none none = r
            at hstep hw hns
          cases r with
          | error e => exact absurd rfl (hns e)
          | ok s =>
            simp only [Option.some.injEq] at hw hstep
            subst hw
            have houts : outcomes c cut (ops ++ [.flush]) = outcomes c cut ops ++ [.accepted] := by
              rw [outcomes_snoc, hstep]
            refine ⟨ops ++ [Op.flush], by rw [run_snoc, hstep], ?_, ⟨dn, ?_, by rw [hw0]; exact i3', by
              rw [hw0]; exact i3''⟩, i4, i5, ?_, ?_⟩
            · rw [houts, packets_snoc, i2]; simp [packets]
            · rw [i3, hwk, hq]; simp [Worker.held]
            · refine ⟨by simp [Op.isFlush], by simpa using hclosed, rfl⟩
            · rw [hw0, houts, List.countP_append]
              simp only [Worker.cost] at i7 ⊢
              omega
    | busy f =>
      rw [hwk] at hw
      simp only at hw
      have hfl0 : ops.any Op.isFlush = false := by rw [hwk] at i6; exact i6
      split at hw
      · -- the frame goes to the encoder
        obtain ⟨x, p⟩ := f
        have hx := hsome (x, p) (by rw [i3, hwk]; simp [Worker.held])
        cases x with
        | none => cases hx
        | some x =>
          have hlen : (wanted false false 0 ops).length + 1 < c.maxFrames := by
            rw [i3, hwk] at hmax
            simp only [Worker.held, List.length_append, List.length_singleton] at hmax
            omega
          have hw0 := wanted_send ops x p hfl0
          have hstep : Sched.step c cut (run c cut Sched.init ops).1 (.send x p : Op F O M) =
              match sendInner c cut ch.inner (some x) p with
              | .ok s'' => (s'', .accepted)
              | .error e => (ch.inner, .crash e) := by
            rw [i1]
            simp only [Sched.step, send]
            rw [if_neg (by rw [q2, hfl0, hs]; simp), if_neg (by rw [q1]; omega)]
            rfl
          have hns := step_sound (cut := cut) hv hs ops (.send x p) (by
            rw [hw0, List.length_append, List.length_singleton]; exact hlen)
          rw [hstep] at hns
          simp only at hw
          generalize sendInner c cut ch.inner (some x) p = r at hstep hw hns
          cases r with
          | error e => exact absurd rfl (hns e)
          | ok s =>
            simp only [Option.some.injEq] at hw hstep
            subst hw
            have houts : outcomes c cut (ops ++ [.send x p]) = outcomes c cut ops ++ [.accepted] := by
              rw [outcomes_snoc, hstep]
            refine ⟨ops ++ [Op.send x p], by rw [run_snoc, hstep], ?_, ⟨dn ++ [(some x, p)], ?_, ?_, ?_⟩, i4, i5, ?_, ?_⟩
            · rw [houts, packets_snoc, i2]; simp [packets]
            · rw [i3, hwk]; simp [Worker.held]
            · rw [hw0, i3', asFrames_append]; rfl
            · rw [hw0, List.length_append, List.length_append, i3'']; rfl
            · show (ops ++ [Op.send x p]).any Op.isFlush = false
              rw [List.any_append, hfl0]; rfl
            · rw [hw0, houts, List.countP_append]
              rw [hwk] at i7
              simp only [Worker.cost, List.length_append, List.length_singleton] at i7 ⊢
              omega
      · rename_i hnm
        have hnm' : needsMoreFi c ch.inner = false := by simpa using hnm
        have hc := (receive_cases (cut := cut) hv hs ops hwl).1 hfl0 (by rw [i1]; exact hnm')
        rw [i1] at hc
        cases hr : receive c true ch.inner with
        | mk s r =>
          rw [hr] at hw hc
          simp only at hw hc
          refine hrecv s r hr hc ?_ ?_
          · rcases hc with rfl | ⟨p, rfl⟩
            · exact Or.inr ⟨rfl, (by rw [hwk]; exact (Option.some.inj hw).symm)⟩
            · exact Or.inl ⟨p, rfl, (by rw [hwk]; exact (Option.some.inj hw).symm)⟩
          · rw [hwk]
            intro ops' e1 _ ch' _ _
            show ops'.any Op.isFlush = false
            rw [e1, hfl0]
    | draining =>
      rw [hwk] at hw
      simp only at hw
      have hat : ops.any Op.isFlush = true ∧ ch.sending = false ∧ ch.frames = [] := by rw [hwk] at i6; exact i6
      have hc := (receive_cases (cut := cut) hv hs ops hwl).2 hat.1
      rw [i1] at hc
      cases hr : receive c true ch.inner with
      | mk s r =>
        rw [hr] at hw hc
        simp only at hw hc
        rcases hc with rfl | ⟨rfl, hs', hfp⟩ | ⟨p, rfl⟩
        · refine hrecv s _ hr (Or.inl rfl) (Or.inr ⟨rfl, (by rw [hwk]; exact (Option.some.inj hw).symm)⟩) ?_
          rw [hwk]
          intro ops' e1 _ ch' e2 e3
          exact ⟨by rw [e1]; exact hat.1, by rw [e2]; exact hat.2.1, by rw [e3]; exact hat.2.2⟩
        · simp only [Option.some.injEq] at hw
          subst hw
          refine ⟨ops, by rw [i1]; exact hs'.symm, i2, ⟨dn, ?_, i3', i3''⟩, i4, i5, ?_, ?_⟩
          · rw [i3, hwk]; rfl
          · exact ⟨hat.1, hat.2.1, hat.2.2, by rw [hs']; exact hfp⟩
          · rw [hwk] at i7
            simp only [Worker.cost] at i7 ⊢
            omega
        · refine hrecv s _ hr (Or.inr ⟨p, rfl⟩) (Or.inl ⟨p, rfl, (by rw [hwk]; exact (Option.some.inj hw).symm)⟩) ?_
          rw [hwk]
          intro ops' e1 _ ch' e2 e3
          exact ⟨by rw [e1]; exact hat.1, by rw [e2]; exact hat.2.1, by rw [e3]; exact hat.2.2⟩

theorem exec_cons (ch ch' : Ch F O M) (e : Ev F O M) (es : List (Ev F O M)) (os : List (Out F O M))
    (h : exec c cut ch (e :: es) = some (ch', os)) :
    ∃ ch1 o os', step c cut ch e = some (ch1, o) ∧ exec c cut ch1 es = some (ch', os') ∧ os = o :: os' := by
  simp only [exec, Option.bind_eq_bind] at h
  obtain ⟨⟨ch1, o⟩, h1, h2⟩ := Option.bind_eq_some_iff.1 h
  obtain ⟨⟨ch2, os'⟩, h3, h4⟩ := Option.bind_eq_some_iff.1 h2
  simp only [pure, Option.some.injEq, Prod.mk.injEq] at h4
  obtain ⟨rfl, rfl⟩ := h4
  exact ⟨ch1, o, os', h1, h3, rfl⟩

theorem sentFrames_cons (e : Ev F O M) (es : List (Ev F O M)) (o : Out F O M) (os : List (Out F O M)) :
    Spec.sentFrames (e :: es) (o :: os) = Spec.sentFrames [e] [o] ++ Spec.sentFrames es os := by
  cases e <;> cases o <;> simp [Spec.sentFrames]

theorem received_cons (o : Out F O M) (os : List (Out F O M)) :
    Spec.received (o :: os) = Spec.received [o] ++ Spec.received os := by
  unfold Spec.received; rw [← List.filterMap_append]; rfl

/-- Once the end has been reported, nothing changes any more. -/
theorem ended_stays {ch ch' : Ch F O M} {e : Ev F O M} {o : Out F O M} (h : ch.worker.gone = true ∧ ch.packets = [])
    (hst : step c cut ch e = some (ch', o)) : ch'.worker.gone = true ∧ ch'.packets = [] := by
  cases e with
  | send f =>
    simp only [step] at hst
    split at hst
    · cases hst
    · split at hst
      · cases hst; exact h
      · rw [if_pos h.1] at hst; cases hst; exact h
  | close =>
    simp only [step] at hst
    split at hst
    · cases hst; exact h
    · cases hst
  | recv =>
    simp only [step, h.2] at hst
    split at hst
    · cases hst
    · rw [if_pos h.1] at hst; cases hst; exact h
  | hangUp =>
    simp only [step] at hst
    split at hst
    · cases hst; exact h
    · cases hst
  | work =>
    simp only [step] at hst
    obtain ⟨y, h1, h2⟩ := Option.map_eq_some_iff.1 hst
    obtain ⟨h3, h4⟩ := h
    unfold work at h1
    cases hw : ch.worker with
    | done => rw [hw] at h1; cases h1
    | dead => rw [hw] at h1; cases h1
    | _ => rw [hw] at h3; simp [Worker.gone] at h3

theorem ended_is {ch ch' : Ch F O M} {e : Ev F O M} (hst : step c cut ch e = some (ch', .ended)) :
    ch'.worker.gone = true ∧ ch'.packets = [] := by
  cases e with
  | send f =>
    simp only [step] at hst
    repeat' split at hst
    all_goals cases hst
  | close =>
    simp only [step] at hst
    split at hst <;> cases hst
  | hangUp =>
    simp only [step] at hst
    split at hst <;> cases hst
  | work =>
    simp only [step] at hst
    obtain ⟨y, h1, h2⟩ := Option.map_eq_some_iff.1 hst
    cases h2
  | recv =>
    simp only [step] at hst
    split at hst
    · cases hst
    · split at hst
      · cases hst
      · rename_i hq
        split at hst
        · rename_i hg
          cases hst; exact ⟨hg, hq⟩
        · cases hst

theorem exec_inv (hv : c.Valid) (hs : c.stillPicture = false) (es : List (Ev F O M)) (ch ch' : Ch F O M)
    (fs : List (Input F O M)) (got : List (Packet F O M)) (w : Nat) (ops : List (Op F O M)) (os : List (Out F O M))
    (h : Inv c cut ch fs got w ops) (hx : exec c cut ch es = some (ch', os)) (he : .hangUp ∉ es)
    (hsome : ∀ x ∈ fs ++ Spec.sentFrames es os, x.1.isSome = true)
    (hmax : (fs ++ Spec.sentFrames es os).length < c.maxFrames) :
    (∃ ops', Inv c cut ch' (fs ++ Spec.sentFrames es os) (got ++ Spec.received os)
      (w + es.countP Ev.isWork) ops') ∧
    (.ended ∈ os ∨ ch.worker.gone = true ∧ ch.packets = [] → ch'.worker.gone = true ∧ ch'.packets = []) := by
  induction es generalizing ch fs got w ops os with
  | nil =>
    simp only [exec, Option.some.injEq, Prod.mk.injEq] at hx
    obtain ⟨rfl, rfl⟩ := hx
    refine ⟨⟨ops, ?_⟩, by simp⟩
    simpa [Spec.sentFrames, Spec.received] using h
  | cons e es ih =>
    obtain ⟨ch1, o, os', h1, h2, rfl⟩ := exec_cons ch ch' e es os hx
    rw [sentFrames_cons, ← List.append_assoc] at hsome hmax ⊢
    obtain ⟨ops1, i⟩ := step_inv hv hs h h1 (fun q => he (by rw [q]; simp))
      (fun x hx => hsome x (List.mem_append_left _ hx))
      (by rw [List.length_append] at hmax; omega)
    obtain ⟨⟨ops2, j⟩, k⟩ := ih ch1 _ _ _ ops1 os' i h2 (fun q => he (List.mem_cons_of_mem _ q)) hsome hmax
    refine ⟨⟨ops2, ?_⟩, ?_⟩
    · rw [received_cons, List.countP_cons, ← List.append_assoc,
        show w + (es.countP Ev.isWork + if e.isWork = true then 1 else 0) =
          w + [e].countP Ev.isWork + es.countP Ev.isWork by rw [List.countP_singleton]; omega]
      exact j
    · intro q
      apply k
      rcases q with q | q
      · rcases List.mem_cons.1 q with q | q
        · subst q; exact Or.inr (ended_is h1)
        · exact Or.inl q
      · exact Or.inr (ended_stays q h1)

/-- What a worker has delivered is what the direct API gives for the frames it has been sent. -/
theorem inv_direct (hv : c.Valid) (hs : c.stillPicture = false) {ch : Ch F O M} {fs : List (Input F O M)}
    {got : List (Packet F O M)} {w : Nat} {ops' : List (Op F O M)} (h : Inv c cut ch fs got w ops')
    (hsome : ∀ x ∈ fs, x.1.isSome = true) (hmax : fs.length < c.maxFrames)
    (ops : List (Op F O M)) (hops : ops.countP Op.isSend < c.maxFrames)
    (hf : ops.any Op.isFlush = true) (hA : accepted ops (outcomes c cut ops) = Spec.asFrames fs)
    (rdy : List Bool) (hr : 3 * fs.length ≤ rdy.count true) :
    got <+: packets (outcomes c cut (ops ++ rdy.map .receive)) ∧
    (ch.worker.gone = true ∧ ch.packets = [] → got = packets (outcomes c cut (ops ++ rdy.map .receive))) := by
  have hfl := asFrames_length _ hsome
  have hlen : (accepted ops (outcomes c cut ops)).length = (fs).length := by rw [hA, hfl]
  have hd := (drain c cut ops hv hops hf rdy (by rw [hlen]; exact hr)).1
  obtain ⟨dn, d1, d2, d3⟩ := h.split
  have hwle : (wanted false false 0 ops').length ≤ (fs).length := by
    rw [d1, List.length_append, List.length_append]; omega
  have hwl : (wanted false false 0 ops').length < c.maxFrames := by omega
  obtain ⟨q1, q2, q3, q4⟩ := state_facts (cut := cut) hv hs ops' hwl
  -- a direct history that ends flushed, for both
  have hw0 : wanted false false 0 ops = Spec.asFrames (fs) := by
    have := accepted_exactly c cut ops hv hops
    rw [hs] at this
    rw [← this, hA]
  have hwd : wanted c.stillPicture false 0 (ops ++ rdy.map .receive) = Spec.asFrames (fs) := by
    rw [wanted_receives, hs, hw0]
  -- the history inside the channel, with the frames it has not taken yet
  have hagree : ∀ (n : Nat) (pk pk' : Packet F O M), (packets (outcomes c cut ops'))[n]? = some pk →
      (packets (outcomes c cut (ops ++ rdy.map .receive)))[n]? = some pk' → pk = pk' := by
    intro n pk pk' e1 e2
    rcases Bool.eq_false_or_eq_true (ops'.any Op.isFlush) with hfl' | hfl'
    · -- everything has been taken
      have hall : wanted false false 0 ops' = Spec.asFrames (fs) := by
        have := h.pos
        rw [d1, asFrames_append, asFrames_append, ← d2]
        cases hw : ch.worker with
        | idle => rw [hw] at this; exact absurd (hfl'.symm.trans this) (by simp)
        | busy f => rw [hw] at this; exact absurd (hfl'.symm.trans this) (by simp)
        | draining => rw [hw] at this; rw [this.2.2]; simp [Worker.held, Spec.asFrames]
        | done => rw [hw] at this; rw [this.2.2.1]; simp [Worker.held, Spec.asFrames]
        | dead => rw [hw] at this; exact this.elim
      refine packets_flushed c cut hv ops' (ops ++ rdy.map .receive) hfl' (by rw [List.any_append, hf]; rfl) ?_ ?_ n pk pk'
        e1 e2
      · rw [hwd, hs, hall]
      · rw [hs]; exact hwl
    · -- some frames may still be on their way
      have hmore : wanted false false 0 (ops' ++ sends (Spec.asFrames (ch.worker.held ++ ch.frames)) ++ [Op.flush]) =
          Spec.asFrames (fs) := by
        rw [wanted_flush, wanted_more false 0 ops' _ hfl' (fun e => by cases e), d2, d1, List.append_assoc,
          asFrames_append dn]
      refine packets_flushed c cut hv (ops' ++ sends (Spec.asFrames (ch.worker.held ++ ch.frames)) ++ [Op.flush])
        (ops ++ rdy.map .receive) (by simp [Op.isFlush]) (by rw [List.any_append, hf]; rfl) ?_ ?_ n pk pk'
        (packets_extend c cut Sched.init _ [Op.flush] (packets_extend c cut Sched.init ops' _ e1)) e2
      · rw [hwd, hs, hmore]
      · rw [hs, hmore, hfl]; exact hmax
  have hpre : packets (outcomes c cut ops') <+: packets (outcomes c cut (ops ++ rdy.map .receive)) := by
    rcases agree_prefix _ _ hagree with q | q
    · exact q
    · have := q.eq_of_length_le (by rw [hd, hlen]; omega)
      rw [this]
      exact List.prefix_rfl
  have hrec : got <+: packets (outcomes c cut (ops ++ rdy.map .receive)) :=
    (List.prefix_append (got) ch.packets).trans (h.pks ▸ hpre)
  refine ⟨hrec, ?_⟩
  rintro ⟨g1, g2⟩
  apply hrec.eq_of_length
  have hp := h.pks
  rw [g2, List.append_nil] at hp
  rw [hd, hlen, ← hp, q3, h.state]
  have hpos := h.pos
  cases hw : ch.worker with
  | done =>
    rw [hw] at hpos
    rw [hpos.2.2.2]
    rw [d1, hw, hpos.2.2.1]
    simp [Worker.held, d3]
  | dead => rw [hw] at hpos; exact hpos.elim
  | _ => rw [hw] at g1; simp [Worker.gone] at g1

/-- How many steps a worker has made. -/
theorem inv_works (hv : c.Valid) (hs : c.stillPicture = false) {ch : Ch F O M} {fs : List (Input F O M)}
    {got : List (Packet F O M)} {w : Nat} {ops : List (Op F O M)} (h : Inv c cut ch fs got w ops)
    (hmax : fs.length < c.maxFrames) : w ≤ 5 * fs.length + 4 := by
  obtain ⟨dn, d1, d2, d3⟩ := h.split
  have hw := h.works
  have hheld : ch.worker.cost ≤ ch.worker.held.length + 2 := by
    cases ch.worker <;> simp [Worker.cost, Worker.held]
  have hle : fs.length = (wanted false false 0 ops).length + ch.worker.held.length +
      ch.frames.length := by
    rw [d1, List.length_append, List.length_append, d3]
  have hwl : (wanted false false 0 ops).length < c.maxFrames := by omega
  obtain ⟨q1, q2, q3, q4⟩ := state_facts (cut := cut) hv hs ops hwl
  have he := encoded_bound' c cut ops hv (by rw [hs]; exact hwl)
  rw [← h.pks] at hw
  omega

end

/-! ## Theorems -/

section
variable (c : Cfg) (cut : Nat → Bool) (hv : c.Valid) (hs : c.stillPicture = false)
  (es : List (Ev F O M)) (os : List (Out F O M)) (ch : Ch F O M)
  (hx : exec c cut create es = some (ch, os)) (he : .hangUp ∉ es)
  (hsome : ∀ x ∈ Spec.sentFrames es os, x.1.isSome = true)
  (hmax : (Spec.sentFrames es os).length < c.maxFrames)
include hv hs hx he hsome hmax

/-- **C44**: under no schedule does the worker panic: none of its `todo!`, `unreachable!` and `unwrap` is reached, and
the encoder inside does not panic. -/
theorem worker_never_panics : ch.worker ≠ .dead := by
  obtain ⟨⟨ops, h⟩, -⟩ := exec_inv hv hs es create ch [] [] 0 [] os inv_create hx he (by simpa using hsome)
    (by simpa using hmax)
  intro hd
  have := h.pos
  rw [hd] at this
  exact this

/-- **C44**: under every schedule the packets received from the channel are the first of those that the direct API
gives for the same frames, whatever calls are made to it (`ops`: any history of the direct API in which the same frames
are accepted, the encoder is flushed and everything is received); and when the channel reports the end, they are
all of them. -/
theorem channel_delivers_direct (ops : List (Op F O M)) (hops : ops.countP Op.isSend < c.maxFrames)
    (hf : ops.any Op.isFlush = true) (hA : accepted ops (outcomes c cut ops) = Spec.asFrames (Spec.sentFrames es os))
    (rdy : List Bool) (hr : 3 * (Spec.sentFrames es os).length ≤ rdy.count true) :
    Spec.received os <+: packets (outcomes c cut (ops ++ rdy.map .receive)) ∧
    (.ended ∈ os → Spec.received os = packets (outcomes c cut (ops ++ rdy.map .receive))) := by
  obtain ⟨⟨ops', h⟩, hend⟩ := exec_inv hv hs es create ch [] [] 0 [] os inv_create hx he (by simpa using hsome)
    (by simpa using hmax)
  simp only [List.nil_append] at h
  obtain ⟨h1, h2⟩ := inv_direct hv hs h hsome hmax ops hops hf hA rdy hr
  exact ⟨h1, fun q => h2 (hend (Or.inl q))⟩

/-- **C44**: there is no deadlock.  While the application has not dropped the sender, either the worker can go on or the
application can send; after that the worker can go on until it has finished; and then every receive returns at
once. -/
theorem no_deadlock :
    (ch.sending = true → (work c cut ch).isSome = true ∨
      ∀ f, ∃ ch', step c cut ch (.send f) = some (ch', .sent)) ∧
    (ch.sending = false → (work c cut ch).isSome = true ∨ ch.worker = .done) ∧
    (ch.worker = .done → ∃ ch' o, step c cut ch .recv = some (ch', o)) := by
  obtain ⟨⟨ops, h⟩, -⟩ := exec_inv hv hs es create ch [] [] 0 [] os inv_create hx he (by simpa using hsome)
    (by simpa using hmax)
  simp only [List.nil_append] at h
  have hpos := h.pos
  have hbusy : ∀ f, ch.worker = .busy f → (work c cut ch).isSome = true := by
    intro f hw
    unfold work
    rw [hw]
    simp only
    split
    · split <;> rfl
    · split <;> rfl
  have hdrain : ch.worker = .draining → (work c cut ch).isSome = true := by
    intro hw
    unfold work
    rw [hw]
    simp only
    split <;> rfl
  have hidle : ch.worker = .idle → ch.frames ≠ [] ∨ ch.sending = false → (work c cut ch).isSome = true := by
    intro hw hq
    unfold work
    rw [hw]
    simp only
    split
    · rfl
    · rename_i hq'
      rcases hq with q | q
      · exact absurd hq' q
      · rw [if_neg (by rw [q]; simp)]
        split <;> rfl
  refine ⟨?_, ?_, ?_⟩
  · intro ho
    cases hw : ch.worker with
    | idle =>
      by_cases hq : ch.frames = []
      · right
        intro f
        simp only [step, ho, Bool.not_true, Bool.false_eq_true, if_false]
        have hcl := hv.lookahead
        rw [if_neg (by rw [h.count]; omega), if_neg (by rw [hw]; simp [Worker.gone]), if_pos (by
          rw [hq]; unfold capacity; simp; omega)]
        exact ⟨_, rfl⟩
      · exact Or.inl (hidle hw (Or.inl hq))
    | busy f => exact Or.inl (hbusy f hw)
    | draining => exact Or.inl (hdrain hw)
    | done => rw [hw] at hpos; rw [hpos.2.1] at ho; cases ho
    | dead => rw [hw] at hpos; exact hpos.elim
  · intro ho
    cases hw : ch.worker with
    | idle => exact Or.inl (hidle hw (Or.inr ho))
    | busy f => exact Or.inl (hbusy f hw)
    | draining => exact Or.inl (hdrain hw)
    | done => exact Or.inr rfl
    | dead => rw [hw] at hpos; exact hpos.elim
  · intro hw
    simp only [step, h.listening, Bool.not_true, Bool.false_eq_true, if_false, hw, Worker.gone, if_true]
    split
    · exact ⟨_, _, rfl⟩
    · exact ⟨_, _, rfl⟩

/-- **C44**: the worker does not run forever: it takes at most five steps per frame and four more.  With
`no_deadlock`: after the sender has been dropped, the worker finishes, under every schedule that lets it run. -/
theorem worker_terminates : es.countP Ev.isWork ≤ 5 * (Spec.sentFrames es os).length + 4 := by
  obtain ⟨⟨ops, h⟩, -⟩ := exec_inv hv hs es create ch [] [] 0 [] os inv_create hx he (by simpa using hsome)
    (by simpa using hmax)
  simp only [List.nil_append, Nat.zero_add] at h
  exact inv_works hv hs h hmax

end
end Rav1e.Chan
