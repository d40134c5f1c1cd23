import Verif.Sched.Hist

/-!
# Whole histories
-/

namespace Rav1e.Sched

open Spec

variable {F O M : Type}

/-- Is this call a `send_frame` with a frame? -/
def Op.isSend : Op F O M → Bool
  | .send _ _ => true
  | _ => false

/-- Is this call a flush? -/
def Op.isFlush : Op F O M → Bool
  | .flush => true
  | _ => false

section
variable {c : Cfg} {cut : Nat → Bool}

theorem accepted_nil (rs : List (Res F O M)) : accepted ([] : List (Op F O M)) rs = [] := by
  cases rs <;> rfl

theorem base_init (K : Nat → Bool) (lim : Option Nat) :
    Base c cut K lim ([] : List (F × Option (Params O M))) init 0 0 (fun _ => none) := by
  constructor <;> simp [init, shownBefore, forcedAt, userAt, t35At, BMap.tab, BMap.get]

theorem timing_init (K : Nat → Bool) (lim : Option Nat) :
    Timing c K lim ([] : List (F × Option (Params O M))) init := by
  refine ⟨fun _ => ⟨?_, Or.inl ⟨rfl, rfl⟩⟩, ?_⟩
  · simp [init]
  · simp [init]

theorem qf_append {a b : List (F × Option (Params O M))} {n : Nat} {f : F}
    (h : qf a n = some f) : qf (a ++ b) n = some f := by
  unfold qf at *
  cases ha : a[n]? with
  | none => rw [ha] at h; cases h
  | some x =>
    have : n < a.length := by
      rcases Nat.lt_or_ge n a.length with h' | h'
      · exact h'
      · rw [List.getElem?_eq_none h'] at ha; cases ha
    rw [List.getElem?_append_left this]; exact h

theorem qf_lt {a : List (F × Option (Params O M))} {n : Nat} {f : F}
    (h : qf a n = some f) : n < a.length := by
  rcases Nat.lt_or_ge n a.length with h' | h'
  · exact h'
  · unfold qf at h; rw [List.getElem?_eq_none h'] at h; cases h

theorem userAt_append {a b : List (F × Option (Params O M))} {n : Nat} (h : n < a.length) :
    userAt (a ++ b) n = userAt a n := by
  unfold userAt; rw [List.getElem?_append_left h]

theorem t35At_append {a b : List (F × Option (Params O M))} {n : Nat} (h : n < a.length) :
    t35At (a ++ b) n = t35At a n := by
  unfold t35At; rw [List.getElem?_append_left h]

theorem forcedAt_append {a b : List (F × Option (Params O M))} {n : Nat} (h : n < a.length) :
    forcedAt (a ++ b) n = forcedAt a n := by
  unfold forcedAt; rw [List.getElem?_append_left h]

/-- A `receive` step, seen from the whole history. -/
theorem hist_receive {K : Nat → Bool} {lim : Option Nat}
    {sent rest : List (F × Option (Params O M))} {s s' : St F O M} {ready : Bool}
    {r : Res F O M} {pks : List (Packet F O M)} (hv : c.Valid)
    (h : Hist c K lim (sent ++ rest) s pks) (hfl : s.isFlushing = true → rest = [])
    (hr : Rcv c K lim sent ready s s' r) :
    Hist c K lim (sent ++ rest) s' (pks ++ packets [r]) := by
  cases hr with
  | limit e _ _ => rw [e]; simpa [packets] using h
  | wait r h0 h1 h2 h3 h4 =>
    have : packets [r] = [] := by
      rcases h0 with ⟨e, _⟩ | ⟨e, _⟩ <;> rw [e] <;> rfl
    rw [this, List.append_nil]
    exact h.same h1 h2 h3 h4
  | hidden o p t hp hs hsh ho hn h1 h2 h3 ht hlk =>
    have : packets [(.encoded : Res F O M)] = [] := rfl
    rw [this, List.append_nil]
    have hlk' := hlk.symm.imp_right hfl
    exact h.hidden hv (ht.trans (t35Of_append c K lim hlk').symm) hp hsh ho hn h1 h2 h3
  | shown o p t f hp hsh hi ho hn h1 h2 h3 ht hlk hf =>
    have hlt := qf_lt hf
    have := h.shown (f := f) (t := t) hv hp hsh hi ho hn h1 h2 h3
      (ht.trans (t35Of_append c K lim (hlk.symm.imp_right hfl)).symm) (qf_append hf)
    rw [userAt_append hlt] at this
    exact this

/-- The results a history can contain. -/
def Res.sound : Res F O M → Bool
  | .crash _ => false
  | _ => true

theorem accepted_cons (op : Op F O M) (ops : List (Op F O M)) (r : Res F O M)
    (rs : List (Res F O M)) :
    accepted (op :: ops) (r :: rs) = accepted [op] [r] ++ accepted ops rs := by
  cases op <;> cases r <;> rfl

theorem packets_cons (r : Res F O M) (rs : List (Res F O M)) :
    packets (r :: rs) = packets [r] ++ packets rs := by
  unfold packets
  rw [← List.filterMap_append]; rfl

theorem run_cons (s : St F O M) (op : Op F O M) (ops : List (Op F O M)) :
    run c cut s (op :: ops) = ((run c cut (step c cut s op).1 ops).1,
      (step c cut s op).2 :: (run c cut (step c cut s op).1 ops).2) := rfl

/-- The frames the encoder must accept: those sent before the first flush, and only
one of them for a still picture. -/
def wanted (still : Bool) : Bool → Nat → List (Op F O M) → List (F × Option (Params O M))
  | _, _, [] => []
  | fl, n, .send f p :: ops =>
    if fl || (still && decide (0 < n)) then wanted still fl n ops
    else (f, p) :: wanted still fl (n + 1) ops
  | _, n, .flush :: ops => wanted still true n ops
  | fl, n, .receive _ :: ops => wanted still fl n ops

theorem wanted_flushing (still : Bool) (n : Nat) (ops : List (Op F O M)) :
    wanted still true n ops = [] := by
  induction ops with
  | nil => rfl
  | cons op ops ih => cases op <;> simp [wanted, ih]

/-- `Err(Encoded)`. -/
def Res.isEncoded : Res F O M → Bool
  | .encoded => true
  | _ => false

/-- Hidden frames and packets: what one call adds. -/
theorem rcv_hid {K : Nat → Bool} {lim : Option Nat} {sent : List (F × Option (Params O M))} {s s' : St F O M}
    {ready : Bool} {r : Res F O M} (hv : c.Valid) (hr : Rcv c K lim sent ready s s' r) :
    [r].countP Res.isEncoded + hid c K lim s.outputFrameno ≤
      2 * (packets [r]).length + hid c K lim s'.outputFrameno := by
  cases hr with
  | limit e _ _ => rw [e]; simp [packets, Res.isEncoded]
  | wait r h0 h1 h2 h3 h4 =>
    rw [hid_hole c K lim h3 h4]
    rcases h0 with ⟨e, _⟩ | ⟨e, _⟩ <;> rw [e] <;> simp [packets, Res.isEncoded]
  | hidden o p t hp hs hsh ho hn h1 h2 h3 ht hlk =>
    rw [h1, hid, hp]
    simp only [hsh, Bool.false_eq_true, if_false]
    rw [hid_hole c K lim ho hn]
    simp [packets, Res.isEncoded]; omega
  | shown o p t f hp hsh hi ho hn h1 h2 h3 ht hlk hf =>
    have := hid_le c K lim hv s.outputFrameno
    simp [packets, Res.isEncoded]; omega

/-- The whole run. -/
theorem run_inv (hv : c.Valid) (K : Nat → Bool) (lim : Option Nat)
    (A : List (F × Option (Params O M)))
    (ops : List (Op F O M)) (s : St F O M) (sent : List (F × Option (Params O M)))
    (qs ds : Nat) (fd : Nat → Option (FD F M)) (pks : List (Packet F O M))
    (hb : Base c cut K lim sent s qs ds fd) (ht : Timing c K lim sent s)
    (hA : A = sent ++ wanted c.stillPicture s.isFlushing sent.length ops)
    (hK : ∀ n, 1 ≤ n → n < A.length → K n = (forcedAt A n || cut n))
    (hlim : lim = if s.isFlushing || ops.any Op.isFlush then some A.length else none)
    (hmax : A.length < c.maxFrames)
    (hh : Hist c K lim A s pks) :
    (∃ qs' ds' fd', Base c cut K lim A (run c cut s ops).1 qs' ds' fd') ∧
    Timing c K lim A (run c cut s ops).1 ∧
    (run c cut s ops).1.isFlushing = (s.isFlushing || ops.any Op.isFlush) ∧
    Hist c K lim A (run c cut s ops).1 (pks ++ packets (run c cut s ops).2) ∧
    (∀ r ∈ (run c cut s ops).2, r.sound = true) ∧
    accepted ops (run c cut s ops).2 =
      wanted c.stillPicture s.isFlushing sent.length ops ∧
    (run c cut s ops).2.countP Res.isEncoded + hid c K lim s.outputFrameno ≤
      2 * (packets (run c cut s ops).2).length + hid c K lim (run c cut s ops).1.outputFrameno := by
  induction ops generalizing s sent qs ds fd pks with
  | nil =>
    simp only [run, accepted_nil, wanted, List.append_nil] at hA ⊢
    subst hA
    refine ⟨⟨qs, ds, fd, hb⟩, ht, by simp, by simpa [packets] using hh, by simp, trivial, by simp [packets]⟩
  | cons op ops ih =>
    rw [run_cons]
    simp only
    have key : ∀ (sent' : List (F × Option (Params O M))) qs' ds' fd',
        A = sent' ++ wanted c.stillPicture (s.isFlushing || op.isFlush) sent'.length ops →
        accepted [op] [(step c cut s op).2] ++
          wanted c.stillPicture (s.isFlushing || op.isFlush) sent'.length ops =
          wanted c.stillPicture s.isFlushing sent.length (op :: ops) →
        Base c cut K lim sent' (step c cut s op).1 qs' ds' fd' →
        Timing c K lim sent' (step c cut s op).1 →
        ((step c cut s op).1.isFlushing = (s.isFlushing || op.isFlush)) →
        Hist c K lim A (step c cut s op).1 (pks ++ packets [(step c cut s op).2]) →
        ((step c cut s op).2.sound = true) →
        [(step c cut s op).2].countP Res.isEncoded + hid c K lim s.outputFrameno ≤
          2 * (packets [(step c cut s op).2]).length + hid c K lim (step c cut s op).1.outputFrameno →
        (∃ qs' ds' fd', Base c cut K lim A (run c cut (step c cut s op).1 ops).1 qs' ds' fd') ∧
        Timing c K lim A (run c cut (step c cut s op).1 ops).1 ∧
        (run c cut (step c cut s op).1 ops).1.isFlushing =
          (s.isFlushing || (op :: ops).any Op.isFlush) ∧
        Hist c K lim A (run c cut (step c cut s op).1 ops).1
          (pks ++ packets ((step c cut s op).2 :: (run c cut (step c cut s op).1 ops).2)) ∧
        (∀ r ∈ (step c cut s op).2 :: (run c cut (step c cut s op).1 ops).2,
          r.sound = true) ∧
        accepted (op :: ops) ((step c cut s op).2 :: (run c cut (step c cut s op).1 ops).2) =
          wanted c.stillPicture s.isFlushing sent.length (op :: ops) ∧
        ((step c cut s op).2 :: (run c cut (step c cut s op).1 ops).2).countP Res.isEncoded +
            hid c K lim s.outputFrameno ≤
          2 * (packets ((step c cut s op).2 :: (run c cut (step c cut s op).1 ops).2)).length +
            hid c K lim (run c cut (step c cut s op).1 ops).1.outputFrameno := by
      intro sent' qs' ds' fd' h0 h1 h2 h3 h4 h6 h7 h8
      obtain ⟨i1, i2, i3, i4, i5, i6, i7⟩ := ih (step c cut s op).1 sent' qs' ds' fd'
        (pks ++ packets [(step c cut s op).2]) h2 h3
        (by rw [h4]; exact h0)
        (by rw [hlim, h4, List.any_cons, Bool.or_assoc])
        h6
      refine ⟨i1, i2, ?_, ?_, ?_, ?_, ?_⟩
      · rw [i3, h4, List.any_cons, Bool.or_assoc]
      · rw [packets_cons, ← List.append_assoc]; exact i4
      · intro r hr
        rcases List.mem_cons.1 hr with e | e
        · rw [e]; exact h7
        · exact i5 r e
      · rw [accepted_cons, i6, h4]; exact h1
      · rw [packets_cons, List.length_append, List.countP_cons]
        rw [List.countP_singleton] at h8
        omega
    cases op with
    | receive ready =>
      obtain ⟨qs', ds', fd', b, t, e, r⟩ := receive_inv hb hv ht ready
      have e0 : ∀ r : Res F O M, accepted [Op.receive ready] [r] = [] := fun r => by
        cases r <;> rfl
      simp only [wanted] at hA
      refine key sent qs' ds' fd' ?_ ?_ b t ?_ ?_ ?_ (rcv_hid hv r)
      · simpa [Op.isFlush] using hA
      · rw [e0]; simp [Op.isFlush, wanted]
      · rw [show step c cut s (.receive ready) = receive c ready s from rfl, e]
        simp [Op.isFlush]
      · rw [hA] at hh ⊢
        exact hist_receive hv hh (fun h => by rw [h, wanted_flushing]) r
      · show (receive c ready s).2.sound = true
        generalize receive c ready s = x at r
        obtain ⟨s', y⟩ := x
        cases r with
        | wait r h0 => rcases h0 with ⟨e, _⟩ | ⟨e, _⟩ <;> simp only at e <;> rw [e] <;> rfl
        | _ => rfl
    | flush =>
      simp only [wanted, wanted_flushing, List.append_nil] at hA
      have hl : lim = some A.length := by rw [hlim]; simp [Op.isFlush]
      rcases Bool.eq_false_or_eq_true s.isFlushing with hf | hf
      · have e : step c cut s (.flush : Op F O M) = (s, .accepted) := by simp [step, send, hf]
        rw [e] at key ⊢
        refine key sent qs ds fd ?_ ?_ hb ht ?_ ?_ rfl (Nat.le_refl _)
        · simp [hf, wanted_flushing, hA]
        · simp [hf, wanted_flushing, accepted]
        · simp [hf]
        · simpa [packets] using hh
      · obtain ⟨s', fd', h1, h2, h3, h4, h5, h6, h7⟩ :=
          flush_inv hb hv ht hf (by rw [hl, hA])
        have e : step c cut s (.flush : Op F O M) = (s', .accepted) := by
          simp [step, send, hf, h1]
        rw [e] at key ⊢
        refine key sent qs ds fd' ?_ ?_ h2 h3 ?_ ?_ rfl (by simp only [h6]; exact Nat.le_refl _)
        · simp [Op.isFlush, wanted_flushing, hA]
        · simp [Op.isFlush, wanted_flushing, accepted, wanted]
        · simp [Op.isFlush, h4]
        · have := hh.same h5 h7 (Nat.le_of_eq h6.symm) (fun k a b => by omega)
          simpa [packets] using this
    | send f p =>
      have hfl : (Op.send f p : Op F O M).isFlush = false := rfl
      have hcnt := hb.count
      by_cases hrej : (s.isFlushing || (c.stillPicture && decide (0 < s.frameCount))) = true
      · have e : step c cut s (.send f p) = (s, .enoughData) := by
          simp only [step, send]; rw [if_pos hrej]
        rw [e] at key ⊢
        rw [hcnt] at hrej
        refine key sent qs ds fd ?_ ?_ hb ht ?_ ?_ rfl (Nat.le_refl _)
        · rw [hA, wanted, if_pos hrej, hfl, Bool.or_false]
        · rw [wanted, if_pos hrej, hfl, Bool.or_false]; rfl
        · simp [Op.isFlush]
        · simpa [packets] using hh
      · have hnf : s.isFlushing = false := by
          cases h : s.isFlushing with
          | false => rfl
          | true => rw [h] at hrej; simp at hrej
        have hcm : ¬ s.frameCount = c.maxFrames - 1 := by
          rw [hb.count]
          rw [hcnt] at hrej
          have h := congrArg List.length hA
          rw [wanted, if_neg hrej, List.length_append, List.length_cons] at h
          omega
        have hrej' := hrej
        rw [hcnt] at hrej'
        rw [wanted, if_neg hrej'] at hA
        have hA' : A = (sent ++ [(f, p)]) ++
            wanted c.stillPicture s.isFlushing (sent.length + 1) ops := by
          rw [hA]; simp
        have hlen : (sent ++ [(f, p)]).length = sent.length + 1 := by simp
        obtain ⟨s', fd', h1, h2, h3, h4, h5, h6, h7⟩ :=
          send_frame_inv hb hv ht hnf f p
            (by
              intro n hn1 hn2
              rw [hK n hn1 (by rw [hA', List.length_append]; omega), hA',
                forcedAt_append hn2])
            (by
              intro l hl
              rw [hlim] at hl
              split at hl
              · cases hl
                have := congrArg List.length hA'
                rw [List.length_append (as := sent ++ [(f, p)])] at this
                omega
              · cases hl)
        have e : step c cut s (.send f p) = (s', .accepted) := by
          simp only [step, send]
          rw [if_neg hrej, if_neg hcm, h1]
        rw [e] at key ⊢
        refine key (sent ++ [(f, p)]) qs ds fd' ?_ ?_ h2 h3 ?_ ?_ rfl (by simp only [h6]; exact Nat.le_refl _)
        · rw [hfl, Bool.or_false, hlen]; exact hA'
        · rw [wanted, if_neg hrej', hfl, Bool.or_false, hlen]; rfl
        · simp [Op.isFlush, h4, hnf]
        · have := hh.same h5 h7 (Nat.le_of_eq h6.symm) (fun k a b => by omega)
          simpa [packets] using this
end
end Rav1e.Sched
