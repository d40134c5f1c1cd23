import Verif.Sched.Determinism

/-!
# Concrete runs: the hypotheses are met, and where the code falls short
-/

namespace Rav1e.Sched

open Spec

/-- Default-like settings with frame reordering. -/
def exR : Cfg := { lowLatency := false, multirefSpeed := false, switchInterval := 0, maxKey := 7,
                   rdoLookahead := 3, stillPicture := false, errorResilient := false,
                   temporalRdo := true }

/-- Low latency with switch frames. -/
def exL : Cfg := { exR with lowLatency := true, switchInterval := 3 }

/-- A still picture. -/
def exS : Cfg := { exR with stillPicture := true, lowLatency := true }

theorem exR_valid : exR.Valid := ⟨by decide, by decide, by decide⟩
theorem exL_valid : exL.Valid := ⟨by decide, by decide, by decide⟩
theorem exS_valid : exS.Valid := ⟨by decide, by decide, by decide⟩

/-- Frame `i`, with opaque value `100 + i` and one metadata message `200 + i`; frame 4 is
a forced key frame. -/
def exSend (i : Nat) : Op Nat Nat Nat := .send i (some ⟨i == 4, some (100 + i), [200 + i]⟩)

/-- Sends `n` frames with calls to `receive` in between, flushes, tries to send one more,
and drains. -/
def exOps (n : Nat) : List (Op Nat Nat Nat) :=
  (List.range n).flatMap (fun i => [exSend i, .receive true, .receive (i % 2 == 0)]) ++
    [.flush, exSend n] ++ List.replicate (3 * n + 2) (.receive true)

def exCut (n : Nat) : Bool := n == 9

/-- The hypotheses of all theorems hold for these runs, and the runs are not trivial:
13 packets, with key frames at 0, 4 (forced), 9 (scene cut). -/
example : (exOps 13).countP Op.isSend < exR.maxFrames ∧
    (packets (outcomes exR exCut (exOps 13))).map (fun p => (p.input, p.ftype == .key, p.user)) =
      (List.range 13).map (fun i => (i, [0, 4, 9].contains i, some (100 + i))) := by
  decide +kernel

example : (packets (outcomes exL exCut (exOps 13))).map
      (fun p => (p.input, p.ftype, messages p.data)) =
    (List.range 13).map (fun i => (i,
      (if [0, 4, 9].contains i then FrameType.key else if [3, 7, 12].contains i then .switch
        else .inter), [200 + i])) := by
  decide +kernel

/-- The maximum interval of 7 frames shows on a longer run. -/
example : ((packets (outcomes exR (fun _ => false) (exOps 13))).filter
    (fun p => p.ftype == .key)).map (·.input) = [0, 4, 11] := by decide +kernel

/-- With reordering there are hidden frames and show-existing-frame units. -/
example : ((stream (packets (outcomes exR exCut (exOps 13)))).filter
      (fun u => match u with | .showExisting _ => true | _ => false)).length = 4 ∧
    ((stream (packets (outcomes exR exCut (exOps 13)))).filter
      (fun u => match u with | .frame _ false _ _ _ _ _ _ => true | _ => false)).length = 4 := by
  decide +kernel

/-- Draining: the hypotheses of `drain`. -/
example : ([exSend 0, exSend 1, .flush] : List (Op Nat Nat Nat)).any Op.isFlush = true ∧
    3 * (accepted [exSend 0, exSend 1, .flush]
      (outcomes exR exCut [exSend 0, exSend 1, .flush])).length ≤
      [true, false, true, true, true, false, true, true].count true := by
  decide +kernel

/-- The still picture encoder refuses the second frame. -/
example : outcomes exS exCut [exSend 0, exSend 1] = [.accepted, .enoughData] := by
  decide +kernel

/-- The same nine frames in two different histories, one that asks for packets early and often, one that only sends:
the hypotheses of `packets_determined_by_frames` and `drained_packets_equal`.  Nine packets come out in the first, none
in the second before the drain. -/
def exBatch (n : Nat) : List (Op Nat Nat Nat) := (List.range n).map exSend ++ [.flush, exSend n, .flush]

example : accepted (exOps 9) (outcomes exR exCut (exOps 9)) = accepted (exBatch 9) (outcomes exR exCut (exBatch 9)) ∧
    (packets (outcomes exR exCut (exOps 9))).length = 9 ∧ packets (outcomes exR exCut (exBatch 9)) = [] ∧
    packets (outcomes exR exCut (exOps 9)) =
      packets (outcomes exR exCut (exBatch 9 ++ (List.replicate 30 true).map .receive)) := by
  decide +kernel

/-- An unflushed history and a longer one, both with packets: the hypotheses of `packets_ignore_later_frames`. -/
example : let ops := ((List.range 12).flatMap (fun i => [exSend i, .receive true]) : List (Op Nat Nat Nat))
    ops.any Op.isFlush = false ∧
    (accepted ops (outcomes exR exCut ops)).isPrefixOf (accepted (exOps 13) (outcomes exR exCut (exOps 13))) ∧
    0 < (packets (outcomes exR exCut ops)).length := by
  decide +kernel

/-! ## Shortcomings of the code -/

/-- **C21 fails with frame reordering**: the messages sent with frame 3 and with the key
frame 4 are not in their packets.  Hidden frames drop the messages of the frame they
code, and the second key frame carries those of a later frame. -/
theorem t35_lost_with_reordering :
    ((packets (outcomes exR exCut (exOps 13))).map (fun p => messages p.data)) ≠
      (List.range 13).map (fun i => [200 + i]) ∧
    ((packets (outcomes exR exCut (exOps 13)))[4]?).map (fun p => messages p.data) =
      some [208] := by
  decide +kernel

/-! ### Endless loops

Two situations make `compute_frame_invariants` create key frames for the same input
frame forever: a maximum key frame interval of 0, which `Config::validate` accepts, and
the frame with number `i32::MAX - 1`, which is queued although the limit excludes it. -/

/-- The group of pictures that starts at input `g`, which is at hand, ends at `g`. -/
structure Stuck {F O M : Type} (c : Cfg) (g : Nat) (s : St F O M) : Prop where
  low : c.reorder = false
  pos : 0 < s.nextOutput
  gopOut : s.gopOut.get (s.nextOutput - 1) = some (s.nextOutput - 1)
  gopIn : s.gopIn.get (s.nextOutput - 1) = some g
  here : hasFrame s g = true
  enough : needsMoreFrameQ c s (g + 1) = false
  next : nextKeyframe c s g = g
  prev : ∃ k d, (k, some d) ∈ s.frameData ∧ k < s.nextOutput

theorem mem_insert_self {V : Type} (m : BMap V) (i : Nat) (v : V) : (i, v) ∈ m.insert i v := by
  induction m with
  | nil => simp [BMap.insert]
  | cons p m ih =>
    obtain ⟨k, w⟩ := p
    unfold BMap.insert
    split
    · simp
    · split
      · simp
      · exact List.mem_cons_of_mem _ ih

theorem stuck_step {F O M : Type} {c : Cfg} {g : Nat} {s : St F O M} (h : Stuck c g s) :
    ∃ s1 s2, setFrame c s s.nextOutput = .ok (s1, true) ∧
      lookaheadMvs s1 s1.nextOutput = .ok s2 ∧
      Stuck c g { s2 with nextOutput := s2.nextOutput + 1 } := by
  obtain ⟨low, pos, go, gi, here, enough, next, k, d, hk, hkd⟩ := h
  obtain ⟨hr, hgil, hgol, hkd'⟩ := dimsL c low
  have hin : c.inputFrameno (s.nextOutput - (s.nextOutput - 1)) g = g + 1 := by
    rw [show s.nextOutput - (s.nextOutput - 1) = 1 by omega]
    exact inputL c low g 1
  have hprev : ∃ fi, previousFi s s.nextOutput = some fi := by
    unfold previousFi
    have : ((s.frameData.filter (fun p => decide (p.1 < s.nextOutput))).reverse.find?
        (fun p => p.2.isSome)).isSome := by
      rw [List.find?_isSome]
      exact ⟨(k, some d), by simp [hk, hkd], rfl⟩
    obtain ⟨x, hx⟩ := Option.isSome_iff_exists.1 this
    rw [hx]
    have h2 := List.find?_some hx
    obtain ⟨y, hy⟩ := Option.isSome_iff_exists.1 h2
    exact ⟨y.fi, by simp [hy]⟩
  obtain ⟨fi, hfi⟩ := hprev
  obtain ⟨f, hf⟩ : ∃ f, s.frameQ.get g = some (some f) := by
    unfold hasFrame at here
    split at here
    · exact ⟨_, by assumption⟩
    · cases here
  -- what the first call builds
  generalize ht : (s.t35Q.get (g + 1)).getD [] = t35
  have hbuild : ∃ s1, buildFrame c s s.nextOutput =
      .ok (s1, some (some (newKeyFrame g t35))) ∧
      (∃ mo mi, s1 = { s with
        gopOut := mo
        gopIn := mi
        t35Q := s.t35Q.remove (g + 1) } ∧
        mo.get s.nextOutput = some s.nextOutput ∧ mi.get s.nextOutput = some g) := by
    have hne : ¬ s.nextOutput = 0 := by omega
    have hin1 : 0 < s.nextOutput - (s.nextOutput - 1) := by omega
    unfold buildFrame
    simp only [hne, if_false, go, gi, orPanic, bind, Except.bind, pure, Except.pure, hin]
    have e1 : ∀ mo mi, needsMoreFrameQ c { s with gopOut := mo, gopIn := mi } (g + 1) = false :=
      fun _ _ => enough
    simp only [e1, Bool.false_eq_true, if_false, hin1, if_true]
    have e2 : ∀ mo mi tq, nextKeyframe c { s with gopOut := mo, gopIn := mi, t35Q := tq } g = g :=
      fun _ _ _ => next
    have e3 : ∀ mo mi tq, previousFi { s with gopOut := mo, gopIn := mi, t35Q := tq }
        s.nextOutput = some fi := fun _ _ _ => hfi
    have e4 : ∀ mo mi tq, hasFrame { s with gopOut := mo, gopIn := mi, t35Q := tq } g = true :=
      fun _ _ _ => here
    simp only [e2, e3, e4, Nat.le_add_right, if_true, low, Bool.not_false, Bool.true_or,
      Bool.not_true, Bool.false_eq_true, if_false]
    unfold buildTail
    simp only [e4, Bool.not_true, Bool.false_eq_true, if_false, bind, Except.bind]
    by_cases hc : s.keyframes.contains g
    · simp only [hc, if_true, BMap.get_insert, orPanic, Nat.sub_self, ht]
      exact ⟨_, rfl, _, _, rfl, by simp [BMap.get_insert], by simp [BMap.get_insert]⟩
    · rw [if_neg hc]
      simp only [BMap.get_insert, orPanic, Nat.sub_self, ht, if_true]
      exact ⟨_, rfl, _, _, rfl, by simp [BMap.get_insert], by simp [BMap.get_insert]⟩
  obtain ⟨s1, hb, mo, mi, he, hmo, hmi⟩ := hbuild
  have hset : setFrame c s s.nextOutput =
      .ok ({ s1 with
        frameData := s1.frameData.insert s.nextOutput (some ⟨newKeyFrame g t35, f⟩) }, true) := by
    unfold setFrame
    simp only [hb, bind, Except.bind]
    have : s1.frameQ.get (newKeyFrame g t35).input = some (some f) := by
      rw [he]; exact hf
    rw [this]
  have hlook : ∃ dd : FD F M, lookaheadMvs
      { s1 with
        frameData := s1.frameData.insert s.nextOutput (some ⟨newKeyFrame g t35, f⟩) }
        s1.nextOutput =
      .ok { s1 with
        frameData := (s1.frameData.insert s.nextOutput
          (some ⟨newKeyFrame g t35, f⟩)).insert s.nextOutput (some dd) } := by
    subst he
    unfold lookaheadMvs
    simp only [BMap.get_insert, if_true, orPanic, bind, Except.bind]
    exact ⟨_, rfl⟩
  obtain ⟨dd, hlook⟩ := hlook
  refine ⟨_, _, hset, hlook, ?_⟩
  · subst he
    refine ⟨low, by simp, ?_, ?_, here, enough, next, ?_⟩
    · simpa using hmo
    · simpa using hmi
    · exact ⟨_, _, mem_insert_self _ _ _, by simp⟩

/-- From such a state the loop never ends, whatever the fuel. -/
theorem stuck_hangs {F O M : Type} {c : Cfg} {g : Nat} (n : Nat) (s : St F O M)
    (h : Stuck c g s) : frameInvariants c n s = .error .hang := by
  induction n generalizing s with
  | zero => rfl
  | succ n ih =>
    obtain ⟨s1, s2, h1, h2, h3⟩ := stuck_step h
    unfold frameInvariants
    simp only [h1, h2, bind, Except.bind, if_true]
    exact ih _ h3

/-- `Stuck`, as a test. -/
def stuckB {F O M : Type} (c : Cfg) (g : Nat) (s : St F O M) : Bool :=
  !c.reorder && decide (0 < s.nextOutput) &&
  s.gopOut.get (s.nextOutput - 1) == some (s.nextOutput - 1) &&
  s.gopIn.get (s.nextOutput - 1) == some g && hasFrame s g &&
  !needsMoreFrameQ c s (g + 1) && nextKeyframe c s g == g &&
  s.frameData.any (fun p => p.2.isSome && decide (p.1 < s.nextOutput))

theorem stuckB_ok {F O M : Type} {c : Cfg} {g : Nat} {s : St F O M}
    (h : stuckB c g s = true) : Stuck c g s := by
  simp only [stuckB, Bool.and_eq_true, Bool.not_eq_true', decide_eq_true_eq, beq_iff_eq,
    List.any_eq_true] at h
  obtain ⟨⟨⟨⟨⟨⟨⟨h1, h2⟩, h3⟩, h4⟩, h5⟩, h6⟩, h7⟩, ⟨k, d⟩, hm, hs, hk⟩ := h
  obtain ⟨d, rfl⟩ := Option.isSome_iff_exists.1 hs
  exact ⟨h1, h2, h3, h4, h5, h6, h7, k, d, hm, hk⟩

/-- One round of the loop. -/
def nextRound {F O M : Type} (c : Cfg) (s : St F O M) : Option (St F O M) :=
  match setFrame c s s.nextOutput with
  | .ok (s1, true) =>
    match lookaheadMvs s1 s1.nextOutput with
    | .ok s2 => some { s2 with nextOutput := s2.nextOutput + 1 }
    | .error _ => none
  | _ => none

theorem hangs_of_next {F O M : Type} {c : Cfg} {s s' : St F O M} (h : nextRound c s = some s')
    (h' : ∀ n, frameInvariants c n s' = .error .hang) (n : Nat) :
    frameInvariants c n s = .error .hang := by
  cases n with
  | zero => rfl
  | succ n =>
    unfold nextRound at h
    split at h
    · rename_i s1 h1
      split at h
      · rename_i s2 h2
        cases h
        unfold frameInvariants
        simp only [h1, h2, bind, Except.bind, if_true]
        exact h' n
      · cases h
    · cases h

/-- A chain of rounds that ends in a stuck state. -/
theorem hangs_of_rounds {F O M : Type} {c : Cfg} (g k : Nat) (s : St F O M)
    (h : ((Nat.repeat (fun x => x.bind (nextRound c)) k (some s)).any (stuckB c g)) = true)
    (n : Nat) : frameInvariants c n s = .error .hang := by
  have key : ∀ k (t : Option (St F O M)),
      (Nat.repeat (fun x => x.bind (nextRound c)) k t).any (stuckB c g) = true →
      ∃ s, t = some s ∧ ∀ n, frameInvariants c n s = .error .hang := by
    intro k
    induction k with
    | zero =>
      intro t ht
      cases t with
      | none => cases ht
      | some s => exact ⟨s, rfl, fun n => stuck_hangs n s (stuckB_ok ht)⟩
    | succ k ih =>
      intro t ht
      have hcomm : ∀ k (t : Option (St F O M)),
          Nat.repeat (fun x => x.bind (nextRound c)) (k + 1) t =
          Nat.repeat (fun x => x.bind (nextRound c)) k (t.bind (nextRound c)) := by
        intro k
        induction k with
        | zero => intro t; rfl
        | succ k ihk =>
          intro t
          rw [Nat.repeat, ihk]
          rfl
      rw [hcomm] at ht
      obtain ⟨s', e, hs'⟩ := ih _ ht
      cases t with
      | none => cases e
      | some s => exact ⟨s, rfl, hangs_of_next e hs'⟩
  obtain ⟨s', e, h'⟩ := key k (some s) h
  cases e
  exact h' n

/-- Low latency with a maximum key frame interval of 0: `Config::validate`
(`api/config/mod.rs:351`) only has an upper bound, but `Config::new_inner`
(`api/config/mod.rs:215-231`) maps 0 to the largest interval before the scheduler sees
it, so no caller of the API can reach this configuration. -/
def exZero : Cfg := { exL with maxKey := 0, switchInterval := 0 }

/-- What the fifth `send_frame` hands to the loop. -/
def zeroStart : St Nat Nat Nat :=
  let s := (run exZero exCut init [exSend 0, exSend 1, exSend 2, exSend 3]).1
  keyframePlacement exCut { s with frameCount := 5, frameQ := s.frameQ.insert 4 (some 4) }

/-- **C18 needs a positive key frame interval**: without the mapping of 0 done by
`new_inner`, the fifth `send_frame` would never return; the hypothesis `0 < maxKey` of the
scheduler theorems cannot be dropped.  (`zeroStart` is what it hands to the loop, for which no amount of fuel is
enough.) -/
theorem zero_interval_hangs :
    sendInner exZero exCut (run exZero exCut init [exSend 0, exSend 1, exSend 2, exSend 3]).1
      (some 4) none = frameInvariants exZero (loopFuel zeroStart) zeroStart ∧
    ∀ fuel, frameInvariants exZero fuel zeroStart = .error .hang := by
  refine ⟨by rfl, hangs_of_rounds 0 0 zeroStart (by decide +kernel)⟩

/-- The limit on the number of frames, 5 instead of `i32::MAX`. -/
def exLimit : Cfg := { exL with maxFrames := 5 }

/-- What the `send_frame` for the last frame below the limit hands to the loop. -/
def limitStart : St Nat Nat Nat :=
  let s := (run exLimit exCut init [exSend 0, exSend 1, exSend 2, exSend 3]).1
  let s := { s with
    limit := some s.frameCount
    isFlushing := true }
  keyframePlacement exCut { s with frameCount := 5, frameQ := s.frameQ.insert 4 (some 4) }

/-- **C18 needs fewer than `i32::MAX` frames**: the `send_frame` call that reaches the
limit sets the limit to exclude the frame it then queues, and never returns. -/
theorem frame_at_limit_hangs :
    sendInner exLimit exCut
      (let s := (run exLimit exCut init [exSend 0, exSend 1, exSend 2, exSend 3]).1
       { s with
         limit := some s.frameCount
         isFlushing := true }) (some 4) none =
      frameInvariants exLimit (loopFuel limitStart) limitStart ∧
    (step exLimit exCut (run exLimit exCut init [exSend 0, exSend 1, exSend 2, exSend 3]).1
      (.send 4 none)).2 = .crash .hang ∧
    ∀ fuel, frameInvariants exLimit fuel limitStart = .error .hang := by
  refine ⟨by rfl, by decide +kernel, hangs_of_rounds 4 4 limitStart (by decide +kernel)⟩

end Rav1e.Sched
