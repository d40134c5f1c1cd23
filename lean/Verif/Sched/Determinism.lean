import Verif.Sched.Theorems

/-!
# The packets depend on the frames only

Two histories that give the encoder the same frames give the same packets: when
`receive_packet` is called, how often it finds the rate controller not ready, when the
encoder is flushed and which frames are refused makes no difference.  And packets that
have come out are not affected by frames sent later.

The pixels of the reconstruction and the bits inside a frame are not part of the scheduler
model (`Basis` and the header fields are): what is determined here is which units a packet
consists of, with the fields the scheduler chooses, and what the application sees of it.
-/

namespace Rav1e.Sched

open Spec

variable {F O M : Type}

section
variable {c : Cfg} {K : Nat → Bool} {lim : Option Nat}
  {A : List (F × Option (Params O M))} {s s' : St F O M} {pks pks' : List (Packet F O M)}

theorem shownBefore_lt {a b : Nat} {p : FI Unit} (hp : plan c K lim a = some p) (hs : p.shown = true) (h : a < b) :
    shownBefore c K lim a < shownBefore c K lim b := by
  have h1 := shownBefore_mono (c := c) (K := K) (lim := lim) (show a + 1 ≤ b from h)
  have h2 : shownBefore c K lim (a + 1) = shownBefore c K lim a + 1 := by
    rw [shownBefore, hp]; simp [hs]
  omega

/-- An input frame is displayed at one output only. -/
theorem shown_unique (hv : c.Valid) {o o' : Nat} {p p' : FI Unit} (hp : plan c K lim o = some p) (hs : p.shown = true)
    (hp' : plan c K lim o' = some p') (hs' : p'.shown = true) (h : p.input = p'.input) : o = o' := by
  have h1 := (plan_facts c K lim hv hp).2.2.1 hs
  have h2 := (plan_facts c K lim hv hp').2.2.1 hs'
  rcases Nat.lt_trichotomy o o' with e | e | e
  · have := shownBefore_lt hp hs e; omega
  · exact e
  · have := shownBefore_lt hp' hs' e; omega

theorem pk_unique (hv : c.Valid) (h : Hist c K lim A s pks) (h' : Hist c K lim A s' pks') (n : Nat)
    {pk pk' : Packet F O M} (e : pks[n]? = some pk) (e' : pks'[n]? = some pk') : pk = pk' := by
  obtain ⟨o, p, t, pre, f, hp, hs, hi, e1, hf, -, -, -, rfl, rfl⟩ := h.pk n pk e
  obtain ⟨o', p', t', pre', f', hp', hs', hi', e1', hf', -, -, -, rfl, rfl⟩ := h'.pk n pk' e'
  have := shown_unique hv hp hs hp' hs' (hi.trans hi'.symm)
  subst this
  rw [hp] at hp'; cases hp'
  rw [hf] at hf'; cases hf'
  rw [e1, e1']
end

theorem agree_prefix {α : Type} (l l' : List α) (h : ∀ (n : Nat) (x x' : α), l[n]? = some x → l'[n]? = some x' → x = x') :
    l <+: l' ∨ l' <+: l := by
  induction l generalizing l' with
  | nil => exact Or.inl (List.nil_prefix)
  | cons a l ih =>
    cases l' with
    | nil => exact Or.inr (List.nil_prefix)
    | cons b l' =>
      have e : a = b := h 0 a b rfl rfl
      subst e
      rcases ih l' (fun n x x' h1 h2 => h (n + 1) x x' h1 h2) with q | q
      · exact Or.inl ((List.prefix_cons_inj a).2 q)
      · exact Or.inr ((List.prefix_cons_inj a).2 q)

section
variable (c : Cfg) (cut : Nat → Bool)

theorem packets_append (s : St F O M) (a b : List (Op F O M)) :
    packets (run c cut s (a ++ b)).2 = packets (run c cut s a).2 ++ packets (run c cut (run c cut s a).1 b).2 := by
  rw [run_append']; simp [packets]

theorem wanted_flush (still fl : Bool) (n : Nat) (ops : List (Op F O M)) :
    wanted still fl n (ops ++ [.flush]) = wanted still fl n ops := by
  induction ops generalizing fl n with
  | nil => rfl
  | cons op ops ih => cases op <;> simp [wanted, ih]

theorem wanted_still (fl : Bool) (n : Nat) (hn : 0 < n) (ops : List (Op F O M)) :
    wanted true fl n ops = [] := by
  induction ops generalizing fl with
  | nil => rfl
  | cons op ops ih => cases op <;> simp [wanted, ih, hn]

/-- All frames of a list. -/
def sends (l : List (F × Option (Params O M))) : List (Op F O M) := l.map (fun x => .send x.1 x.2)

theorem wanted_sends (still : Bool) (n : Nat) (l : List (F × Option (Params O M)))
    (h : still = true → n + l.length ≤ 1) : wanted still false n (sends l) = l := by
  induction l generalizing n with
  | nil => rfl
  | cons x l ih =>
    simp only [List.length_cons] at h
    simp only [sends, List.map_cons, wanted, Bool.false_or]
    rw [if_neg]
    · have := ih (n + 1) (fun e => by have := h e; omega)
      simp only [sends] at this
      rw [this]
    · intro e
      simp only [Bool.and_eq_true, decide_eq_true_eq] at e
      have := h e.1
      omega

theorem wanted_more (still : Bool) (n : Nat) (ops : List (Op F O M)) (l : List (F × Option (Params O M)))
    (hf : ops.any Op.isFlush = false)
    (h : still = true → n + (wanted still false n ops).length + l.length ≤ 1 ∨ l = []) :
    wanted still false n (ops ++ sends l) = wanted still false n ops ++ l := by
  induction ops generalizing n with
  | nil =>
    rcases (Classical.em (l = [])) with e | e
    · subst e; rfl
    · simp only [List.nil_append, wanted]
      exact wanted_sends still n l (fun hs => by
        rcases h hs with q | q
        · simpa [wanted] using q
        · exact absurd q e)
  | cons op ops ih =>
    rw [List.any_cons, Bool.or_eq_false_iff] at hf
    cases op with
    | flush => simp [Op.isFlush] at hf
    | receive r =>
      simp only [List.cons_append, wanted] at h ⊢
      exact ih n hf.2 h
    | send f p =>
      simp only [List.cons_append]
      rw [wanted, wanted]
      rw [wanted] at h
      split
      · rename_i e
        rw [if_pos e] at h
        exact ih n hf.2 h
      · rename_i e
        rw [if_neg e] at h
        rw [ih (n + 1) hf.2 (fun hs => by
          rcases h hs with q | q
          · left; simp only [List.length_cons] at q; omega
          · exact Or.inr q), List.cons_append]

/-- The packets of a history, looked up in a longer history. -/
theorem packets_extend (s : St F O M) (a b : List (Op F O M)) {n : Nat} {pk : Packet F O M}
    (h : (packets (run c cut s a).2)[n]? = some pk) : (packets (run c cut s (a ++ b)).2)[n]? = some pk := by
  rw [packets_append]
  have : n < (packets (run c cut s a).2).length := by
    rcases Nat.lt_or_ge n (packets (run c cut s a).2).length with q | q
    · exact q
    · rw [List.getElem?_eq_none q] at h; cases h
  rw [List.getElem?_append_left this]; exact h

/-- The core: flushed histories with the same wanted frames. -/
theorem packets_flushed (hv : c.Valid) (a b : List (Op F O M)) (ha : a.any Op.isFlush = true)
    (hb : b.any Op.isFlush = true)
    (hw : wanted c.stillPicture false 0 a = wanted c.stillPicture false 0 b)
    (hmax : (wanted c.stillPicture false 0 a).length < c.maxFrames) (n : Nat) (pk pk' : Packet F O M)
    (h : (packets (outcomes c cut a))[n]? = some pk) (h' : (packets (outcomes c cut b))[n]? = some pk') : pk = pk' := by
  obtain ⟨K, lim, A, -, hK, hA, hl, -, -, -, hh, -⟩ := history' c cut a hv hmax
  obtain ⟨K', lim', A', -, hK', hA', hl', -, -, -, hh', -⟩ := history' c cut b hv (hw ▸ hmax)
  rw [ha, if_pos rfl] at hl
  rw [hb, if_pos rfl] at hl'
  subst hl hl' hK hK' hA hA'
  rw [← hw] at hh'
  exact pk_unique hv hh hh' n h h'

/-- **C50**: two histories in which the encoder accepted the same frames give the same packets, as far as both have
delivered them: one list of packets is a prefix of the other.  The order of the calls, the calls that found nothing or
the rate controller not ready, the moment of the flush, and the frames that were refused do not matter. -/
theorem packets_determined_by_frames (hv : c.Valid) (ops ops' : List (Op F O M))
    (hmax : ops.countP Op.isSend < c.maxFrames) (hmax' : ops'.countP Op.isSend < c.maxFrames)
    (h : accepted ops (outcomes c cut ops) = accepted ops' (outcomes c cut ops')) :
    packets (outcomes c cut ops) <+: packets (outcomes c cut ops') ∨
    packets (outcomes c cut ops') <+: packets (outcomes c cut ops) := by
  rw [accepted_exactly c cut ops hv hmax, accepted_exactly c cut ops' hv hmax'] at h
  apply agree_prefix
  intro n pk pk' e e'
  refine packets_flushed c cut hv (ops ++ [Op.flush]) (ops' ++ [Op.flush]) (by simp [Op.isFlush]) (by simp [Op.isFlush])
    ?_ ?_ n pk pk' (packets_extend c cut init ops [.flush] e) (packets_extend c cut init ops' [.flush] e')
  · rw [wanted_flush, wanted_flush, h]
  · rw [wanted_flush]; exact Nat.lt_of_le_of_lt (wanted_le _ _ _ _) hmax

/-- **C50**: after a flush and enough calls to `receive_packet`, the packets are the same, whatever happened before. -/
theorem drained_packets_equal (hv : c.Valid) (ops ops' : List (Op F O M))
    (hmax : ops.countP Op.isSend < c.maxFrames) (hmax' : ops'.countP Op.isSend < c.maxFrames)
    (hf : ops.any Op.isFlush = true) (hf' : ops'.any Op.isFlush = true)
    (h : accepted ops (outcomes c cut ops) = accepted ops' (outcomes c cut ops')) (rdy rdy' : List Bool)
    (hr : 3 * (accepted ops (outcomes c cut ops)).length ≤ rdy.count true)
    (hr' : 3 * (accepted ops' (outcomes c cut ops')).length ≤ rdy'.count true) :
    packets (outcomes c cut (ops ++ rdy.map .receive)) = packets (outcomes c cut (ops' ++ rdy'.map .receive)) := by
  have l1 := (drain c cut ops hv hmax hf rdy hr).1
  have l2 := (drain c cut ops' hv hmax' hf' rdy' hr').1
  have hc : ∀ (x : List (Op F O M)) (r : List Bool), (x ++ r.map (Op.receive)).countP Op.isSend = x.countP Op.isSend := by
    intro x r
    rw [List.countP_append]
    have : (r.map (Op.receive (F := F) (O := O) (M := M))).countP Op.isSend = 0 := by
      rw [List.countP_eq_zero]
      intro y hy
      obtain ⟨b, _, rfl⟩ := List.mem_map.1 hy
      simp [Op.isSend]
    omega
  have hl : (packets (outcomes c cut (ops ++ rdy.map .receive))).length =
      (packets (outcomes c cut (ops' ++ rdy'.map .receive))).length := by rw [l1, l2, h]
  have := packets_determined_by_frames c cut hv (ops ++ rdy.map .receive) (ops' ++ rdy'.map .receive)
    (by rw [hc]; exact hmax) (by rw [hc]; exact hmax') (by
      rw [accepted_exactly c cut _ hv (by rw [hc]; exact hmax), accepted_exactly c cut _ hv (by rw [hc]; exact hmax'),
        wanted_receives, wanted_receives, ← accepted_exactly c cut _ hv hmax, ← accepted_exactly c cut _ hv hmax', h])
  rcases this with q | q
  · exact q.eq_of_length hl
  · exact (q.eq_of_length hl.symm).symm

/-- **C50**: packets that have come out before the flush do not depend on frames sent later: any history that begins
with the same frames and goes on with others gives the same packets, as far as it has delivered them. -/
theorem packets_ignore_later_frames (hv : c.Valid) (ops ops' : List (Op F O M))
    (hmax : ops.countP Op.isSend < c.maxFrames) (hmax' : ops'.countP Op.isSend < c.maxFrames)
    (hnf : ops.any Op.isFlush = false)
    (h : accepted ops (outcomes c cut ops) <+: accepted ops' (outcomes c cut ops')) :
    packets (outcomes c cut ops) <+: packets (outcomes c cut ops') ∨
    packets (outcomes c cut ops') <+: packets (outcomes c cut ops) := by
  rw [accepted_exactly c cut ops hv hmax, accepted_exactly c cut ops' hv hmax'] at h
  obtain ⟨rest, hrest⟩ := h
  have hstill : ∀ x : List (Op F O M), c.stillPicture = true → (wanted c.stillPicture false 0 x).length ≤ 1 := by
    intro x hs
    rw [hs]
    induction x with
    | nil => simp [wanted]
    | cons op x ih =>
      cases op with
      | send f p => rw [wanted, if_neg (by simp), List.length_cons, wanted_still false 1 (by omega)]; simp
      | flush => rw [wanted, wanted_flushing]; simp
      | receive r => rw [wanted]; exact ih
  have hw : wanted c.stillPicture false 0 (ops ++ sends rest) = wanted c.stillPicture false 0 ops' := by
    rw [wanted_more c.stillPicture 0 ops rest hnf, hrest]
    intro hs
    have := hstill ops' hs
    rw [← hrest, List.length_append] at this
    left; omega
  apply agree_prefix
  intro n pk pk' e e'
  refine packets_flushed c cut hv (ops ++ sends rest ++ [Op.flush]) (ops' ++ [Op.flush]) (by simp [Op.isFlush])
    (by simp [Op.isFlush]) ?_ ?_ n pk pk'
    (packets_extend c cut init _ [.flush] (packets_extend c cut init ops (sends rest) e))
    (packets_extend c cut init ops' [.flush] e')
  · rw [wanted_flush, wanted_flush, hw]
  · rw [wanted_flush, hw]; exact Nat.lt_of_le_of_lt (wanted_le _ _ _ _) hmax'

/-! ## Where metadata goes, with and without reordering -/

theorem messages_append (a b : List (Obu M)) : messages (a ++ b) = messages a ++ messages b := List.filterMap_append

theorem messages_units {K : Nat → Bool} {lim : Option Nat} (o : Nat) (p : FI Unit) (t : List M) :
    messages (unitsOf c K lim o p t) = t := by
  have hobu : messages [(obuOf c K lim o p : Obu M)] = [] := by
    unfold obuOf; split <;> rfl
  have ht : ∀ l : List M, messages (l.map .t35) = l := by
    intro l
    induction l with
    | nil => rfl
    | cons x l ih =>
      unfold messages at *
      rw [List.map_cons, List.filterMap_cons]
      simp only
      rw [ih]
  simp only [unitsOf]
  rw [messages_append, messages_append, hobu, ht]
  split <;> simp [messages]

theorem messages_pend {K : Nat → Bool} {lim : Option Nat} (o : Nat) :
    messages (pend c K lim o : List (Obu M)) = [] := by
  induction o with
  | zero => rfl
  | succ o ih =>
    rw [pend]
    split
    · exact ih
    · split
      · rfl
      · rw [messages_append, ih, messages_units]; rfl

/-- **C21, with or without reordering**: every packet carries the messages of one frame or none, and no frame's
messages are in two packets.  (`from` says whose messages packet `n` carries.) -/
theorem t35_never_invented_or_repeated (ops : List (Op F O M)) (hv : c.Valid)
    (hmax : ops.countP Op.isSend < c.maxFrames) :
    ∃ «from» : Nat → Option Nat,
      (∀ n m i, «from» n = some i → «from» m = some i → n = m) ∧
      (c.reorder = false → ∀ n, «from» n = some n) ∧
      «from» 0 = some 0 ∧
      ∀ (n : Nat) (pk : Packet F O M), (packets (outcomes c cut ops))[n]? = some pk →
        messages pk.data = match «from» n with
          | none => []
          | some i => match (accepted ops (outcomes c cut ops))[i]? with
            | some (_, some params) => params.t35
            | _ => [] := by
  obtain ⟨K, lim, A, hA, -, -, -, -, -, -, hh, -⟩ := history c cut ops hv hmax
  classical
  let src : Nat → Option Nat := fun n =>
    if h : ∃ o p, plan c K lim o = some p ∧ p.shown = true ∧ p.input = n ∧
        ∀ k < o, lookIn c K lim k ≠ lookIn c K lim o
    then some (lookIn c K lim h.choose) else none
  have hsrc : ∀ n o p, plan c K lim o = some p → p.shown = true → p.input = n →
      src n = if ∀ k < o, lookIn c K lim k ≠ lookIn c K lim o then some (lookIn c K lim o) else none := by
    intro n o p h1 h2 h3
    simp only [src]
    split
    · rename_i h
      obtain ⟨p', q1, q2, q3, q4⟩ := h.choose_spec
      have e := shown_unique hv h1 h2 q1 q2 (h3.trans q3.symm)
      rw [← e] at q4 ⊢
      rw [if_pos q4]
    · rename_i h
      rw [if_neg]
      intro hk
      exact h ⟨o, p, h1, h2, h3, hk⟩
  have hinv : ∀ n i, src n = some i → ∃ o p, plan c K lim o = some p ∧ p.shown = true ∧ p.input = n ∧
      (∀ k < o, lookIn c K lim k ≠ lookIn c K lim o) ∧ lookIn c K lim o = i := by
    intro n i h
    simp only [src] at h
    split at h
    · rename_i hx
      obtain ⟨p', q1, q2, q3, q4⟩ := hx.choose_spec
      exact ⟨_, p', q1, q2, q3, q4, Option.some.inj h⟩
    · cases h
  refine ⟨src, ?_, ?_, ?_, ?_⟩
  · intro n m i h1 h2
    obtain ⟨o, p, a1, a2, a3, a4, a5⟩ := hinv n i h1
    obtain ⟨o', p', b1, b2, b3, b4, b5⟩ := hinv m i h2
    have : o = o' := by
      rcases Nat.lt_trichotomy o o' with e | e | e
      · exact absurd (a5.trans b5.symm) (b4 o e)
      · exact e
      · exact absurd (b5.trans a5.symm) (a4 o' e)
    subst this
    rw [a1] at b1; cases b1
    rw [← a3, b3]
  · intro hr n
    obtain ⟨p, h1, h2⟩ := plan_low c K lim hr n
    have h3 := (plan_facts c K lim hv h1).2.2.1 h2
    rw [shownBefore_low c K lim hr] at h3
    rw [hsrc n n p h1 h2 h3]
    simp only [lookIn_low hr, shownBefore_low c K lim hr]
    rw [if_pos (fun k hk => by omega)]
  · have h1 := plan_key c K lim (o := 0) (gs := 0) rfl
    rw [hsrc 0 0 _ h1 rfl rfl, if_pos (fun k hk => by omega)]; rfl
  · intro n pk hpk
    rw [← hA]
    obtain ⟨o, p, t, pre, f, hp, hs, hi, e1, hf, -, -, -, rfl, rfl⟩ := hh.pk n pk hpk
    rw [hsrc n o p hp hs hi, e1]
    simp only [List.cons_append]
    have hcons : ∀ l : List (Obu M), messages (.td :: l) = messages l := fun l => rfl
    rw [hcons, messages_append, messages_pend, messages_units, List.nil_append]
    unfold t35Of
    rw [hp]
    by_cases hk : ∀ k < o, lookIn c K lim k ≠ lookIn c K lim o
    · rw [if_pos hk]
      simp only
      rw [if_pos ⟨hs, hk⟩]
      unfold t35At
      cases hx : A[lookIn c K lim o]? with
      | none => rfl
      | some x =>
        obtain ⟨a, b⟩ := x
        cases b <;> rfl
    · rw [if_neg hk]
      simp only
      rw [if_neg (fun q => hk q.2)]

end
end Rav1e.Sched
