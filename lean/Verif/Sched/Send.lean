import Verif.Sched.Loop

/-!
# Sending frames and flushing keep the invariant
-/

namespace Rav1e.Sched

open BMap

variable {F O M : Type}

/-- How far the key frame decisions have got between two API calls. -/
def Timing (c : Cfg) (K : Nat → Bool) (lim : Option Nat)
    (sent : List (F × Option (Params O M))) (s : St F O M) : Prop :=
  (s.isFlushing = false → s.nextLookahead = max 1 (sent.length - 1 - c.keyDist) ∧
    Waiting c K lim s) ∧
  (s.isFlushing = true → s.nextLookahead = max 1 sent.length ∧
    shownBefore c K lim s.nextOutput = sent.length)

section
variable {c : Cfg} {cut K : Nat → Bool} {lim : Option Nat}
  {sent : List (F × Option (Params O M))} {s : St F O M} {qs ds : Nat}
  {fd : Nat → Option (FD F M)}

/-- The key frame decision for one more frame. -/
theorem Base.place (h : Base c cut K lim sent s qs ds fd)
    (hlt : s.nextLookahead < sent.length) :
    Base c cut K lim sent (keyframePlacement cut s) qs ds fd := by
  have h1 := h.nlf
  have hK : (s.keyframesForced.contains s.nextLookahead || cut s.nextLookahead) =
      K s.nextLookahead := by
    rw [h.forcedK, h.kagree _ h1 hlt]
  exact
    { count := h.count, kagree := h.kagree, flush := h.flush, limS := h.limS,
      limN := h.limN, frameQ := h.frameQ, qsLe := h.qsLe, qsFp := h.qsFp, fpLe := h.fpLe,
      nlf := by simp only [keyframePlacement]; omega
      nlfLe := by simp only [keyframePlacement]; omega
      keys := by
        simp only [keyframePlacement]
        rw [hK, h.keys, show s.nextLookahead + 1 - 1 = (s.nextLookahead - 1) + 1 by omega,
          List.range'_concat, List.filter_append,
          show 1 + 1 * (s.nextLookahead - 1) = s.nextLookahead by omega]
        cases hk : K s.nextLookahead with
        | true => simp [hk]
        | false => simp [hk]
      forcedK := h.forcedK, data := h.data, dsLe := h.dsLe, outLe := h.outLe,
      planOk := h.planOk, src := h.src, gop := h.gop, gsLt := h.gsLt,
      shownLe := h.shownLe
      shownNl := by have := h.shownNl; simp only [keyframePlacement]; omega
      fp := h.fp, recs := h.recs, looks := h.looks, recsL := h.recsL, recKey := h.recKey, opq := h.opq,
      t35d := h.t35d, t35q := h.t35q, t35gone := h.t35gone, lookLt := h.lookLt }

theorem Base.placeLoop (n : Nat) : ∀ (s : St F O M),
    Base c cut K lim sent s qs ds fd → s.nextLookahead + n ≤ sent.length →
    Base c cut K lim sent (placementLoop cut (n + 1) s) qs ds fd ∧
    placementLoop cut (n + 1) s = { s with
      keyframes := (placementLoop cut (n + 1) s).keyframes,
      nextLookahead := s.nextLookahead + n } := by
  induction n with
  | zero => intro s h _; exact ⟨h, rfl⟩
  | succ n ih =>
    intro s h hn
    have := ih (keyframePlacement cut s) (h.place (by omega))
      (by simp only [keyframePlacement]; omega)
    rw [placementLoop]
    refine ⟨this.1, ?_⟩
    rw [this.2]
    simp only [keyframePlacement]
    congr 1
    omega

theorem getElem?_snoc {α : Type} (l : List α) (x : α) (n : Nat) :
    (l ++ [x])[n]? = if n = l.length then some x else l[n]? := by
  by_cases h : n < l.length
  · rw [if_neg (by omega), List.getElem?_append_left h]
  · rw [List.getElem?_append_right (by omega)]
    by_cases h' : n = l.length
    · subst h'; simp
    · rw [if_neg h', List.getElem?_eq_none (l := l) (by omega)]
      simp; omega

/-- The state after the frame has been queued, before anything is computed. -/
def queued (s : St F O M) (f : F) (p : Option (Params O M)) : St F O M :=
  let s1 := { s with
    frameCount := s.frameCount + 1
    frameQ := s.frameQ.insert s.frameCount (some f) }
  match p with
  | none => s1
  | some p => { s1 with
      keyframesForced := if p.forceKey then s.frameCount :: s.keyframesForced
        else s.keyframesForced
      opaqueQ := match p.user with
        | some op => s.opaqueQ.insert s.frameCount op
        | none => s.opaqueQ
      t35Q := s.t35Q.insert s.frameCount p.t35 }

theorem queued_same (s : St F O M) (f : F) (p : Option (Params O M)) :
    queued s f p = { s with
      frameCount := s.frameCount + 1
      frameQ := s.frameQ.insert s.frameCount (some f)
      keyframesForced := (queued s f p).keyframesForced
      opaqueQ := (queued s f p).opaqueQ
      t35Q := (queued s f p).t35Q } := by
  cases p <;> rfl

theorem Base.push (h : Base c cut K lim sent s qs ds fd) (hnf : s.isFlushing = false)
    (f : F) (p : Option (Params O M))
    (hK : ∀ n, 1 ≤ n → n < (sent ++ [(f, p)]).length →
      K n = (forcedAt (sent ++ [(f, p)]) n || cut n))
    (hL : ∀ l, lim = some l → (sent ++ [(f, p)]).length ≤ l) :
    Base c cut K lim (sent ++ [(f, p)]) (queued s f p) qs ds fd := by
  have hlen : (sent ++ [(f, p)]).length = sent.length + 1 := by simp
  have hcnt := h.count
  have hlim : s.limit = none := by
    have := h.flush; rw [hnf] at this
    cases hl : s.limit with
    | none => rfl
    | some l => rw [hl] at this; cases this
  have hqs := h.qsLe
  have hqf : ∀ k, k ≠ sent.length → qf (sent ++ [(f, p)]) k = qf sent k := by
    intro k hk; unfold qf; rw [getElem?_snoc, if_neg hk]
  have hsrc : ∀ i y, qf sent i = some y → i < sent.length := by
    intro i y hy
    apply Nat.lt_of_not_le
    intro hle
    unfold qf at hy; rw [List.getElem?_eq_none hle] at hy; cases hy
  have hFo : (queued s f p).keyframesForced.contains = forcedAt (sent ++ [(f, p)]) := by
    funext n
    have hn := h.forcedK n
    unfold forcedAt at hn ⊢
    rw [getElem?_snoc]
    have hnone : n = sent.length → s.keyframesForced.contains n = false := by
      intro e; rw [hn, List.getElem?_eq_none (by omega)]
    cases p with
    | none =>
      simp only [queued]
      by_cases e : n = sent.length
      · rw [if_pos e, hnone e]; rfl
      · rw [if_neg e]; exact hn
    | some p =>
      simp only [queued, hcnt]
      by_cases e : n = sent.length
      · rw [if_pos e]
        cases hfk : p.forceKey with
        | true => simp [Spec.forced, hfk, e]
        | false =>
          simp only [Bool.false_eq_true, if_false, Spec.forced, hfk]
          exact hnone e
      · rw [if_neg e]
        cases hfk : p.forceKey with
        | true =>
          simp only [if_true, List.contains_cons]
          rw [hn]
          have : (n == sent.length) = false := by simpa using e
          rw [this]; rfl
        | false =>
          simp only [Bool.false_eq_true, if_false]
          exact hn
  have hOp : ∀ n, s.framesProcessed ≤ n →
      (queued s f p).opaqueQ.get n = userAt (sent ++ [(f, p)]) n := by
    intro n hn
    have hold := h.opq n hn
    have hfl := h.fpLe
    unfold userAt at hold ⊢
    rw [getElem?_snoc]
    have hnone : n = sent.length → s.opaqueQ.get n = none := by
      intro e; rw [hold, List.getElem?_eq_none (by omega)]; rfl
    cases p with
    | none =>
      simp only [queued]
      by_cases e : n = sent.length
      · rw [if_pos e, hnone e]; rfl
      · rw [if_neg e]; exact hold
    | some p =>
      simp only [queued, hcnt]
      cases hu : p.user with
      | none =>
        simp only
        by_cases e : n = sent.length
        · rw [if_pos e, hnone e]; simp [hu]
        · rw [if_neg e]; exact hold
      | some op =>
        simp only [get_insert]
        by_cases e : n = sent.length
        · rw [if_pos e, if_pos e]; simp [hu]
        · rw [if_neg e, if_neg e]; exact hold
  have hlook := h.lookLt hlim
  have hT : ∀ n, (∀ k < s.nextOutput, lookIn c K lim k ≠ n) →
      ((queued s f p).t35Q.get n).getD [] = t35At (sent ++ [(f, p)]) n := by
    intro n hn
    have hold : (s.t35Q.get n).getD [] = t35At sent n := by
      rcases h.t35q with ⟨e, -⟩ | hq
      · rw [hlim] at e; cases e
      · exact hq n hn
    unfold t35At at hold ⊢
    rw [getElem?_snoc]
    cases p with
    | none =>
      simp only [queued]
      by_cases e : n = sent.length
      · rw [if_pos e, hold, List.getElem?_eq_none (by omega)]
      · rw [if_neg e]; exact hold
    | some p =>
      simp only [queued, hcnt, get_insert]
      by_cases e : n = sent.length
      · rw [if_pos e, if_pos e]; rfl
      · rw [if_neg e, if_neg e]; exact hold
  have hG : ∀ n, (∃ k < s.nextOutput, lookIn c K lim k = n) → ((queued s f p).t35Q.get n).getD [] = [] := by
    intro n hn
    have hold := h.t35gone n hn
    cases p with
    | none => exact hold
    | some p =>
      obtain ⟨k, hk1, hk2⟩ := hn
      have := hlook k hk1
      simp only [queued, hcnt, get_insert]
      rw [if_neg (by omega)]; exact hold
  have hT35 : ∀ n, n ≠ sent.length → t35At (sent ++ [(f, p)]) n = t35At sent n := by
    intro n hn; unfold t35At; rw [getElem?_snoc, if_neg hn]
  have hsame := queued_same s f p
  generalize queued s f p = s1 at *
  generalize s1.keyframesForced = A at *
  generalize s1.opaqueQ = B at *
  generalize s1.t35Q = C at *
  subst hsame
  exact
    { count := by simp only; omega
      kagree := hK, flush := h.flush
      limS := by intro l hl; simp only at hl; rw [hlim] at hl; cases hl
      limN := fun _ => hL
      frameQ := by
        simp only
        rw [h.frameQ, hnf, hcnt]
        simp only [Bool.false_eq_true, if_false, Nat.add_zero]
        have := insert_tab_end qs (sent.length - qs) (qf sent) (some f)
        rw [show qs + (sent.length - qs) = sent.length by omega] at this
        rw [this, hlen, show sent.length + 1 - qs = sent.length - qs + 1 by omega]
        apply tab_congr
        intro k h1 h2
        unfold upd
        by_cases e : k = sent.length
        · rw [if_pos e]; unfold qf; rw [getElem?_snoc, if_pos e]; rfl
        · rw [if_neg e, hqf k e]
      qsLe := by omega
      qsFp := h.qsFp
      fpLe := by have := h.fpLe; simp only; omega
      nlf := h.nlf
      nlfLe := by have := h.nlfLe; simp only; omega
      keys := h.keys
      forcedK := fun n => congrFun hFo n
      data := h.data, dsLe := h.dsLe, outLe := h.outLe, planOk := h.planOk
      src := by
        intro o d h1 h2 hd
        have := h.src o d h1 h2 hd
        have hl := hsrc _ _ this
        rw [hqf _ (by omega)]; exact this
      gop := h.gop
      gsLt := by intro o ho; have := h.gsLt o ho; omega
      shownLe := by have := h.shownLe; simp only; omega
      shownNl := h.shownNl, fp := h.fp, recs := h.recs, looks := h.looks, recsL := h.recsL, recKey := h.recKey
      opq := hOp
      t35d := by
        intro o d h1 h2 hd
        rw [h.t35d o d h1 h2 hd]
        unfold t35Of
        have := hlook o h2
        rw [hT35 _ (by omega)]
      t35q := Or.inr hT
      t35gone := hG
      lookLt := by intro _ o ho; have := hlook o ho; omega }

/-- `send_frame` with a frame. -/
theorem send_frame_inv (h : Base c cut K lim sent s qs ds fd) (hv : c.Valid)
    (ht : Timing c K lim sent s) (hnf : s.isFlushing = false)
    (f : F) (p : Option (Params O M))
    (hK : ∀ n, 1 ≤ n → n < (sent ++ [(f, p)]).length →
      K n = (forcedAt (sent ++ [(f, p)]) n || cut n))
    (hL : ∀ l, lim = some l → (sent ++ [(f, p)]).length ≤ l) :
    ∃ s' fd', sendInner c cut s (some f) p = .ok s' ∧
      Base c cut K lim (sent ++ [(f, p)]) s' qs ds fd' ∧
      Timing c K lim (sent ++ [(f, p)]) s' ∧ s'.isFlushing = false ∧
      s'.packetData = s.packetData ∧ s'.outputFrameno = s.outputFrameno ∧
      s'.framesProcessed = s.framesProcessed := by
  have hlen : (sent ++ [(f, p)]).length = sent.length + 1 := by simp
  obtain ⟨hn, hw⟩ := ht.1 hnf
  have hb := h.push hnf f p hK hL
  have hqs := h.qsLe
  have hsm := queued_same s f p
  have hlim : (queued s f p).limit = none := by
    have h1 : (queued s f p).limit = s.limit := by rw [hsm]
    have := h.flush; rw [hnf] at this
    rw [h1]
    cases hl : s.limit with
    | none => rfl
    | some l => rw [hl] at this; cases this
  have hfl : (queued s f p).isFlushing = false := by rw [hsm]; exact hnf
  have hnl : (queued s f p).nextLookahead = s.nextLookahead := by rw [hsm]
  have hw1 : Waiting c K lim (queued s f p) := by
    have e1 : (queued s f p).nextOutput = s.nextOutput := by rw [hsm]
    have e2 : (queued s f p).outputFrameno = s.outputFrameno := by rw [hsm]
    unfold Waiting at hw ⊢
    rw [e1, e2]; exact hw
  have hneed : ∀ i, needsMoreFrameQ c (queued s f p) i =
      decide (sent.length < i + c.keyDist + 1) := by
    intro i
    unfold needsMoreFrameQ needsMoreFrames
    rw [hlim, hb.frameQ, hfl, hlen]
    simp only [Bool.false_eq_true, if_false, Nat.add_zero, Bool.and_true]
    rw [show sent.length + 1 - qs = (sent.length - qs) + 1 by omega, lastKey_tab,
      Option.getD_some, show qs + (sent.length - qs) = sent.length by omega]
  -- the state when the loop starts
  have hmid : ∃ s2, (if !needsMoreFrameQ c (queued s f p) (queued s f p).nextLookahead then
        keyframePlacement cut (queued s f p) else queued s f p) = s2 ∧
      Base c cut K lim (sent ++ [(f, p)]) s2 qs ds fd ∧
      s2 = { queued s f p with keyframes := s2.keyframes, nextLookahead := s2.nextLookahead } ∧
      s2.nextLookahead = max 1 (sent.length - c.keyDist) := by
    refine ⟨_, rfl, ?_⟩
    rw [hneed, hnl]
    by_cases hc : sent.length < s.nextLookahead + c.keyDist + 1
    · rw [decide_eq_true hc]
      simp only [Bool.not_true, Bool.false_eq_true, if_false]
      refine ⟨hb, trivial, ?_⟩
      rw [hnl]; omega
    · rw [decide_eq_false hc]
      simp only [Bool.not_false, if_true]
      refine ⟨hb.place (by omega), rfl, ?_⟩
      simp only [keyframePlacement, hnl]; omega
  obtain ⟨s2, e2, b2, same2, n2⟩ := hmid
  have hk2 : Known c (sent ++ [(f, p)]) s2 := by
    intro i hi
    have : needsMoreFrameQ c s2 i = needsMoreFrameQ c (queued s f p) i := by
      rw [same2]; rfl
    rw [this, hneed] at hi
    simp only [decide_eq_false_iff_not] at hi
    constructor
    · intro x hx _; omega
    · intro _; omega
  have hw2 : Waiting c K lim s2 := by
    rw [same2]; exact hw1
  obtain ⟨s', fd', x1, x2, x3, x4, x5⟩ := loop hv (loopFuel s2) s2 fd b2 hw2 hk2
    (by unfold loopFuel; rw [b2.count]; omega)
  have hfl2 : s2.isFlushing = false := by rw [same2]; exact hfl
  have hfl' : s'.isFlushing = false := by rw [x2]; exact hfl2
  refine ⟨s', fd', ?_, x3, ⟨?_, ?_⟩, hfl', ?_, ?_, ?_⟩
  · rw [← x1, ← e2]
    unfold sendInner
    cases p <;> rfl
  · intro _
    refine ⟨?_, x4⟩
    rw [x2]; simp only; rw [n2, hlen]; omega
  · intro hc; rw [hfl'] at hc; cases hc
  · rw [x2, same2, hsm]
  · rw [x2, same2, hsm]
  · rw [x2, same2, hsm]

theorem filterMap_tab (a n : Nat) (g : Nat → Option F)
    (h : ∀ k, a ≤ k → k < a + n → (g k).isSome = true) :
    ((tab a n g).filterMap (·.2)).length = n := by
  induction n generalizing a with
  | zero => rfl
  | succ n ih =>
    rw [tab_succ]
    obtain ⟨x, hx⟩ := Option.isSome_iff_exists.1 (h a (Nat.le_refl _) (by omega))
    rw [List.filterMap_cons]
    simp only [hx, List.length_cons]
    rw [ih (a + 1) (fun k h1 h2 => h k (by omega) (by omega))]

/-- The flag is set and the end marker queued. -/
theorem Base.close (h : Base c cut K lim sent s qs ds fd) (hnf : s.isFlushing = false)
    (hL : lim = some sent.length) :
    Base c cut K lim sent { s with
      limit := some s.frameCount
      isFlushing := true
      frameQ := s.frameQ.insert s.frameCount none } qs ds fd := by
  have hqs := h.qsLe
  have hcnt := h.count
  exact
    { count := h.count, kagree := h.kagree, flush := rfl
      limS := by
        intro l hl
        simp only [Option.some.injEq] at hl
        rw [← hl, hcnt]; exact ⟨rfl, hL⟩
      limN := by intro hl; cases hl
      frameQ := by
        simp only
        rw [h.frameQ, hnf, hcnt]
        simp only [Bool.false_eq_true, if_false, Nat.add_zero, if_true]
        have := insert_tab_end qs (sent.length - qs) (qf sent) none
        rw [show qs + (sent.length - qs) = sent.length by omega] at this
        rw [this]
        apply tab_congr
        intro k h1 h2
        unfold upd
        by_cases e : k = sent.length
        · rw [if_pos e]; unfold qf; rw [List.getElem?_eq_none (by omega)]; rfl
        · rw [if_neg e]
      qsLe := h.qsLe, qsFp := h.qsFp, fpLe := h.fpLe,
      nlf := h.nlf, nlfLe := h.nlfLe, keys := h.keys, forcedK := h.forcedK,
      data := h.data, dsLe := h.dsLe, outLe := h.outLe, planOk := h.planOk, src := h.src,
      gop := h.gop, gsLt := h.gsLt, shownLe := h.shownLe, shownNl := h.shownNl, fp := h.fp,
      recs := h.recs, looks := h.looks, recsL := h.recsL, recKey := h.recKey, opq := h.opq, t35d := h.t35d,
      t35q := by
        rcases h.t35q with ⟨e, -⟩ | hq
        · have := h.flush
          rw [hnf, e] at this; cases this
        · exact Or.inr hq
      t35gone := h.t35gone
      lookLt := by intro hl; cases hl }

/-- `flush`. -/
theorem flush_inv (h : Base c cut K lim sent s qs ds fd) (hv : c.Valid)
    (ht : Timing c K lim sent s) (hnf : s.isFlushing = false)
    (hL : lim = some sent.length) :
    ∃ s' fd', sendInner c cut { s with limit := some s.frameCount, isFlushing := true }
        none none = .ok s' ∧
      Base c cut K lim sent s' qs ds fd' ∧
      Timing c K lim sent s' ∧ s'.isFlushing = true ∧
      s'.packetData = s.packetData ∧ s'.outputFrameno = s.outputFrameno ∧
      s'.framesProcessed = s.framesProcessed := by
  obtain ⟨hn, hw⟩ := ht.1 hnf
  have hb := h.close hnf hL
  have hqs := h.qsLe
  have hqf := h.qsFp
  have hnl := h.nlf
  have hnlL := h.nlfLe
  have hfpn : s.framesProcessed ≤ s.nextLookahead := by
    have h1 := h.fp
    have h2 := shownBefore_mono c K lim h.outLe
    have h3 := h.shownNl
    omega
  generalize hs1 : ({ s with
      limit := some s.frameCount
      isFlushing := true
      frameQ := s.frameQ.insert s.frameCount none } : St F O M) = s1 at *
  have hneed : needsMoreFrameQ c s1 s1.nextLookahead = false :=
    hb.flushed_more (by rw [← hs1]; rfl) _
  have hnl1 : s1.nextLookahead = s.nextLookahead := by rw [← hs1]
  have hframes : ((s1.frameQ.dropWhile
        (fun p => decide (p.1 < s1.nextLookahead - 1))).filterMap (·.2)).length =
      sent.length - (s.nextLookahead - 1) := by
    have hfl : s1.isFlushing = true := by rw [← hs1]
    rw [hb.frameQ, hfl, if_pos rfl, hnl1, dropWhile_tab _ _ _ _ (by omega) (by omega),
      show qs + (sent.length - qs + 1) - (s.nextLookahead - 1) =
        (sent.length - (s.nextLookahead - 1)) + 1 by omega,
      tab_snoc, List.filterMap_append, List.length_append, filterMap_tab]
    · simp only [List.filterMap_cons, List.filterMap_nil]
      have : qf sent (s.nextLookahead - 1 + (sent.length - (s.nextLookahead - 1))) = none := by
        unfold qf; rw [List.getElem?_eq_none (by omega)]; rfl
      rw [this]; rfl
    · intro k h1 h2
      obtain ⟨x, hx⟩ := qf_some (sent := sent) (i := k) (by omega)
      rw [hx]; rfl
  have hloop : ∃ s2, placementLoop cut (sent.length - (s.nextLookahead - 1)) s1 = s2 ∧
      Base c cut K lim sent s2 qs ds fd ∧
      s2 = { s1 with keyframes := s2.keyframes, nextLookahead := s2.nextLookahead } ∧
      s2.nextLookahead = max 1 sent.length := by
    refine ⟨_, rfl, ?_⟩
    by_cases h0 : sent.length = 0
    · rw [h0, Nat.zero_sub, placementLoop]
      · refine ⟨hb, rfl, ?_⟩
        rw [hnl1]; omega
      · intro n hn; cases hn
    · obtain ⟨y1, y2⟩ := Base.placeLoop (cut := cut) (sent.length - s.nextLookahead) s1 hb
        (by omega)
      rw [show sent.length - (s.nextLookahead - 1) = sent.length - s.nextLookahead + 1 by omega]
      refine ⟨y1, ?_, ?_⟩
      · generalize placementLoop cut (sent.length - s.nextLookahead + 1) s1 = t at *
        rw [y2]
      · rw [y2]; simp only; omega
  obtain ⟨s2, e2, b2, same2, n2⟩ := hloop
  have hlim2 : s2.limit.isSome = true := by rw [same2, ← hs1]; rfl
  have hk2 : Known c sent s2 := by
    intro i _
    constructor
    · intro x _ hx; omega
    · intro hl; rw [hl] at hlim2; cases hlim2
  have hw2 : Waiting c K lim s2 := by rw [same2, ← hs1]; exact hw
  obtain ⟨s', fd', x1, x2, x3, x4, x5⟩ := loop hv (loopFuel s2) s2 fd b2 hw2 hk2
    (by unfold loopFuel; rw [b2.count]; omega)
  have hfl' : s'.isFlushing = true := by rw [x2, same2, ← hs1]
  refine ⟨s', fd', ?_, x3, ⟨?_, ?_⟩, hfl', ?_, ?_, ?_⟩
  · rw [← x1, ← e2, ← hframes]
    unfold sendInner
    simp only [Option.isSome_none, Bool.false_eq_true, if_false, Option.isNone_none, if_true]
    rw [hnl1] at hneed
    rw [hs1, hneed]
    simp only [Bool.not_false, if_true]
    rw [← hs1]
  · intro hc; rw [hfl'] at hc; cases hc
  · intro _
    refine ⟨?_, x5 hlim2⟩
    rw [x2]; simp only; rw [n2]
  · rw [x2, same2, ← hs1]
  · rw [x2, same2, ← hs1]
  · rw [x2, same2, ← hs1]

end
end Rav1e.Sched
