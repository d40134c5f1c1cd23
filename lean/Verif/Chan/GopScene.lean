import Verif.Chan.Gop

/-!
# The grouping thread: sub-groups partition the frames, and groups end where the detector says
-/

namespace Rav1e.Chan.Gop

open Rav1e.Sched

variable {F O M : Type}

/-- The frames of some sub-groups. -/
def flat (E : List (SubGop F)) : List F := (E.map SubGop.frames).flatten

/-- The complete groups made of these sub-groups, and the open one. -/
def join (E : List (SubGop F)) : List (List F) × List F :=
  E.foldl (fun a x => if x.endGop then (a.1 ++ [a.2 ++ x.frames], []) else (a.1, a.2 ++ x.frames)) ([], [])

theorem flat_append (E E' : List (SubGop F)) : flat (E ++ E') = flat E ++ flat E' := by simp [flat]
theorem flat_single (x : SubGop F) : flat [x] = x.frames := by simp [flat]

theorem join_snoc (E : List (SubGop F)) (x : SubGop F) :
    join (E ++ [x]) = if x.endGop then ((join E).1 ++ [(join E).2 ++ x.frames], []) else
      ((join E).1, (join E).2 ++ x.frames) := by
  simp [join]

theorem join_flat (E : List (SubGop F)) : (join E).1.flatten ++ (join E).2 = flat E := by
  suffices h : ∀ (a : List (List F) × List F), (E.foldl (fun a x => if x.endGop then (a.1 ++ [a.2 ++ x.frames], []) else
      (a.1, a.2 ++ x.frames)) a).1.flatten ++ (E.foldl (fun a x => if x.endGop then (a.1 ++ [a.2 ++ x.frames], []) else
      (a.1, a.2 ++ x.frames)) a).2 = a.1.flatten ++ a.2 ++ flat E by
    simpa [join] using h ([], [])
  induction E with
  | nil => simp [flat]
  | cons x E ih =>
    intro a
    rw [List.foldl_cons, ih]
    split <;> simp [flat]

theorem groups_nil_cur (isCut : Nat → Bool) (i : Nat) (fs : List F) : Spec.groups isCut i [] fs = match fs with
    | [] => []
    | f :: fs => Spec.groups isCut (i + 1) [f] fs := by
  cases fs <;> simp [Spec.groups]

/-- Frames without a cut stay in the current group. -/
theorem groups_piece (isCut : Nat → Bool) (X rest : List F) (i : Nat) (U : List F)
    (h0 : U ≠ [] → X ≠ [] → isCut i = false) (h1 : ∀ p, i < p → p < i + X.length → isCut p = false) :
    Spec.groups isCut i U (X ++ rest) = Spec.groups isCut (i + X.length) (U ++ X) rest := by
  induction X generalizing i U with
  | nil => simp
  | cons f X ih =>
    rw [List.cons_append, Spec.groups, if_neg, ih]
    · rw [List.append_assoc]
      congr 1
      simp only [List.length_cons]; omega
    · intro _ hX
      apply h1 _ (by omega)
      have := List.length_pos_iff.2 hX
      simp only [List.length_cons]; omega
    · intro p hp hp'
      apply h1 p (by omega)
      simp only [List.length_cons]; omega
    · cases U with
      | nil => simp
      | cons u U => simp [h0 (by simp) (by simp)]

/-- A cut ends it. -/
theorem groups_cut (isCut : Nat → Bool) (rest : List F) (i : Nat) (U : List F) (hU : U ≠ []) (h : isCut i = true) :
    Spec.groups isCut i U rest = U :: Spec.groups isCut i [] rest := by
  cases U with
  | nil => exact absurd rfl hU
  | cons u U =>
    cases rest with
    | nil => simp [Spec.groups]
    | cons f fs => simp [Spec.groups, h]

/-- What `split` does, when it is called with enough frames. -/
theorem split_spec (c : Cfg) (newGop : Nat → Bool) (s : Scene F) (hf : s.frames ≤ pyramid c + 1)
    (hl : distance c ≤ s.lookahead.length) :
    (split c newGop s = some ({ s with frames := s.frames + 1, processed := s.processed + 1 }, none) ∧
      s.frames ≤ pyramid c ∧ newGop (s.processed + 1) = false) ∨
    split c newGop s = some (⟨s.phase, s.lookahead.drop (s.frames + 1), 0, s.processed + 1⟩,
      some ⟨s.lookahead.take (s.frames + 1), newGop (s.processed + 1)⟩) ∧
      (newGop (s.processed + 1) = false → s.frames = pyramid c + 1) := by
  unfold distance at hl
  unfold split
  simp only
  rw [if_neg (by omega)]
  split
  · have : s.frames = pyramid c + 1 := by omega
    right
    rw [if_neg (by omega), this]
    refine ⟨?_, fun _ => rfl⟩
    simp
  · split
    · rename_i h
      right
      rw [if_neg (by omega), h]
      exact ⟨rfl, fun h => by cases h⟩
    · rename_i h
      left
      exact ⟨rfl, by omega, by simpa using h⟩

/-- The state of the thread while it groups frames, after the sub-groups `E`. -/
structure Live (c : Cfg) (newGop : Nat → Bool) (la : List F) (fr pr : Nat) (E : List (SubGop F)) : Prop where
  base : (flat E).length + fr = pr
  frLe : fr ≤ pyramid c + 1
  noCut : ∀ p, (flat E).length < p → p ≤ pr → newGop p = false
  openCut : (join E).2 ≠ [] → newGop (flat E).length = false ∧ la ≠ []
  grp : ∀ isCut rest, (∀ p, p ≤ pr → isCut p = newGop p) →
    Spec.groups isCut 0 [] (flat E ++ rest) = (join E).1 ++ Spec.groups isCut (flat E).length (join E).2 rest
  bound : (flat E).length + la.length < pr + distance c

/-- After its last sub-group. -/
structure Last (c : Cfg) (newGop : Nat → Bool) (la : List F) (pr : Nat) (E : List (SubGop F)) : Prop where
  grp : Spec.groups (fun p => decide (p ≤ pr) && newGop p) 0 [] (flat E) = (join E).1
  closed : (join E).2 = []
  bound : (flat E).length < pr + distance c
  empty : la = []
  prLe : pr ≤ (flat E).length + pyramid c + 1

def Low (c : Cfg) (la : List F) (fr : Nat) : Prop := fr = 0 ∨ distance c + fr ≤ la.length + 1

/-- The sub-group that is being sent. -/
def Phase.pending : Phase F → List (SubGop F)
  | .sendR x => [x]
  | .sendF x => [x]
  | .sendL x => [x]
  | _ => []

def SInv (c : Cfg) (newGop : Nat → Bool) (s : Scene F) (E : List (SubGop F)) : Prop :=
  match s.phase with
  | .reading => Live c newGop s.lookahead s.frames s.processed E ∧ Low c s.lookahead s.frames
  | .sendR _ => Live c newGop s.lookahead s.frames s.processed E ∧ Low c s.lookahead s.frames
  | .flushing => Live c newGop s.lookahead s.frames s.processed E
  | .sendF _ => Live c newGop s.lookahead s.frames s.processed E
  | .sendL _ => Last c newGop s.lookahead s.processed E
  | .done => Last c newGop s.lookahead s.processed E
  | .dead => False

section
variable {c : Cfg} {newGop : Nat → Bool} {la : List F} {fr pr : Nat} {E : List (SubGop F)}

theorem Live.pass (h : Live c newGop la fr pr E) (hf : fr ≤ pyramid c) (hn : newGop (pr + 1) = false) :
    Live c newGop la (fr + 1) (pr + 1) E := by
  obtain ⟨h1, h2, h3, h4, h5, h6⟩ := h
  refine ⟨by omega, by omega, ?_, h4, ?_, by omega⟩
  · intro p a b
    rcases Nat.lt_or_ge pr p with q | q
    · have : p = pr + 1 := by omega
      rw [this, hn]
    · exact h3 p a q
  · intro isCut rest ha
    exact h5 isCut rest (fun p hp => ha p (by omega))

/-- One more frame in the queue; `bound` has to be given again. -/
theorem Live.more (h : Live c newGop la fr pr E) (f : F) (hb : (flat E).length + (la.length + 1) < pr + distance c) :
    Live c newGop (la ++ [f]) fr pr E := by
  obtain ⟨h1, h2, h3, h4, h5, h6⟩ := h
  exact ⟨h1, h2, h3, fun q => ⟨(h4 q).1, by simp⟩, h5, by simpa using hb⟩

theorem Live.cut (h : Live c newGop la fr pr E) (la' : List F) (hl : distance c ≤ la'.length)
    (hla : la'.length ≤ la.length + 1)
    (hn : newGop (pr + 1) = false → fr = pyramid c + 1 ∧ distance c < la'.length) :
    Live c newGop (la'.drop (fr + 1)) 0 (pr + 1) (E ++ [⟨la'.take (fr + 1), newGop (pr + 1)⟩]) := by
  obtain ⟨h1, h2, h3, h4, h5, h6⟩ := h
  have hd : distance c = pyramid c + 2 := rfl
  have hlen : (la'.take (fr + 1)).length = fr + 1 := by
    rw [List.length_take]; omega
  have hne : la'.take (fr + 1) ≠ [] := by
    intro e; rw [e] at hlen; simp at hlen
  have hfl : (flat (E ++ [⟨la'.take (fr + 1), newGop (pr + 1)⟩])).length = pr + 1 := by
    rw [flat_append, flat_single, List.length_append, hlen]; omega
  refine ⟨by rw [hfl], by simp, ?_, ?_, ?_, ?_⟩
  · intro p a b
    rw [hfl] at a
    omega
  · rw [hfl, join_snoc]
    intro hU
    rcases Bool.eq_false_or_eq_true (newGop (pr + 1)) with q | q
    · simp [q] at hU
    · refine ⟨q, ?_⟩
      obtain ⟨a, b⟩ := hn q
      intro e
      have := congrArg List.length e
      simp only [List.length_drop, List.length_nil] at this
      omega
  · intro isCut rest ha
    have hmain : Spec.groups isCut 0 [] (flat E ++ (la'.take (fr + 1) ++ rest)) = (join E).1 ++
        Spec.groups isCut (pr + 1) ((join E).2 ++ la'.take (fr + 1)) rest := by
      rw [h5 isCut _ (fun p hp => ha p (by omega)), groups_piece]
      · rw [hlen]
        rw [show (flat E).length + (fr + 1) = pr + 1 by omega]
      · intro hU _
        rw [ha _ (by omega)]
        exact (h4 hU).1
      · intro p a b
        rw [hlen] at b
        rw [ha p (by omega)]
        exact h3 p a (by omega)
    rw [hfl, join_snoc, flat_append, flat_single, List.append_assoc, hmain]
    rcases Bool.eq_false_or_eq_true (newGop (pr + 1)) with q | q
    · simp only [q, if_true]
      rw [groups_cut _ _ _ _ (by simp [hne]) (by rw [ha _ (Nat.le_refl _)]; exact q), List.append_assoc]
      rfl
    · simp only [q, Bool.false_eq_true, if_false]
  · rw [hfl]
    simp only [List.length_drop]
    omega

theorem Live.last (h : Live c newGop la fr pr E) (hl : la ≠ []) :
    Last c newGop ([] : List F) pr (E ++ [⟨la, true⟩]) := by
  obtain ⟨h1, h2, h3, h4, h5, h6⟩ := h
  have hfl : flat (E ++ [⟨la, true⟩]) = flat E ++ la := by rw [flat_append, flat_single]
  refine ⟨?_, by rw [join_snoc]; rfl, by rw [hfl, List.length_append]; exact h6, rfl, by
    rw [hfl, List.length_append]; omega⟩
  have hp := groups_piece (fun p => decide (p ≤ pr) && newGop p) la [] (flat E).length (join E).2
    (by intro hU _; simp only [(h4 hU).1, Bool.and_false])
    (by
      intro p a _
      by_cases hp : p ≤ pr
      · simp only [h3 p a hp, Bool.and_false]
      · simp [hp])
  have := h5 (fun p => decide (p ≤ pr) && newGop p) (la ++ []) (by intro p hp; simp [hp])
  rw [hp, List.append_nil] at this
  rw [hfl, join_snoc, this, Spec.groups, if_neg (by simp [hl])]
  rfl

theorem Live.finish (h : Live c newGop la fr pr E) (hl : la = []) : Last c newGop la pr E := by
  obtain ⟨h1, h2, h3, h4, h5, h6⟩ := h
  have hU : (join E).2 = [] := Classical.byContradiction fun q => (h4 q).2 hl
  refine ⟨?_, hU, by rw [hl] at h6; exact h6, hl, by omega⟩
  have := h5 (fun p => decide (p ≤ pr) && newGop p) [] (by intro p hp; simp [hp])
  rw [List.append_nil, hU, Spec.groups] at this
  simpa using this

end

/-- Past the last frame from the application. -/
def Phase.past : Phase F → Bool
  | .reading => false
  | .sendR _ => false
  | _ => true

/-- How often the thread has gone from one loop to the next. -/
def Phase.rank : Phase F → Nat
  | .reading => 0
  | .sendR _ => 0
  | .flushing => 1
  | .sendF _ => 1
  | .sendL _ => 2
  | .done => 3
  | .dead => 3

/-- A step uses up a frame, emits a sub-group, asks the detector or goes to the next loop. -/
theorem scene_count {c : Cfg} {newGop : Nat → Bool} {g g' : St F O M} (hst : sceneStep c newGop g = some g') :
    g'.frames.length + g.subs.length + g.scene.processed + g.scene.phase.rank + 1 ≤
      g.frames.length + g'.subs.length + g'.scene.processed + g'.scene.phase.rank := by
  have hsplit : ∀ s s' x, split c newGop (s : Scene F) = some (s', x) → s'.processed = s.processed + 1 ∧ s'.phase = s.phase := by
    intro s s' x h
    unfold split at h
    simp only at h
    repeat' split at h
    all_goals first | cases h; done | (cases h; exact ⟨rfl, rfl⟩)
  obtain ⟨gcount, gsend, glis, gfr, ⟨ph, la, fr, pr⟩, gsubs, gd, gfree, gst, ggops, gl, gpi, gfin, gp⟩ := g
  simp only [sceneStep] at hst
  cases ph with
  | dead => cases hst
  | done => cases hst
  | sendR x =>
    simp only at hst
    split at hst
    · cases hst; simp [Phase.rank]; omega
    · cases hst
  | sendF x =>
    simp only at hst
    split at hst
    · cases hst; simp [Phase.rank]; omega
    · cases hst
  | sendL x =>
    simp only at hst
    split at hst
    · cases hst; simp [Phase.rank]
    · cases hst
  | flushing =>
    simp only at hst
    split at hst
    · split at hst
      · cases hst; simp [Phase.rank]
      · rename_i e
        obtain ⟨a, b⟩ := hsplit _ _ _ e
        cases hst
        simp only [a, b, Phase.rank]; omega
      · rename_i e
        obtain ⟨a, b⟩ := hsplit _ _ _ e
        cases hst
        simp only [a, Phase.rank]; omega
    · split at hst <;> cases hst <;> simp [Phase.rank]
  | reading =>
    simp only at hst
    split at hst
    · split at hst
      · cases hst; simp [Phase.rank]; omega
      · split at hst
        · cases hst; simp [Phase.rank]; omega
        · rename_i e
          obtain ⟨a, b⟩ := hsplit _ _ _ e
          cases hst
          simp only [a, b, Phase.rank, List.length_cons]; omega
        · rename_i e
          obtain ⟨a, b⟩ := hsplit _ _ _ e
          cases hst
          simp only [a, Phase.rank, List.length_cons]; omega
    · cases hst; simp [Phase.rank]; omega
    · split at hst
      · cases hst
      · cases hst; simp [Phase.rank]

/-- What one step of the thread does. -/
theorem scene_step {c : Cfg} {newGop : Nat → Bool} {g g' : St F O M} {E : List (SubGop F)}
    (h : SInv c newGop g.scene E) (hst : sceneStep c newGop g = some g') (hsome : ∀ x ∈ g.frames, x.1.isSome = true) :
    ∃ E', SInv c newGop g'.scene (E ++ E') ∧
      g' = { g with frames := g'.frames, scene := g'.scene, subs := g'.subs } ∧
      flat E ++ g.scene.lookahead ++ g.frames.filterMap (·.1) =
        flat (E ++ E') ++ g'.scene.lookahead ++ g'.frames.filterMap (·.1) ∧
      g.subs ++ g.scene.phase.pending ++ E' = g'.subs ++ g'.scene.phase.pending ∧
      (∀ x ∈ g'.frames, x.1.isSome = true) ∧
      ((g.scene.phase.past = true → g.frames = [] ∧ g.sending = false) → g'.scene.phase.past = true →
        g'.frames = [] ∧ g'.sending = false) ∧ g.scene.phase ≠ .done ∧ ∀ x ∈ E', x.frames ≠ [] := by
  obtain ⟨gcount, gsend, glis, gfr, ⟨ph, la, fr, pr⟩, gsubs, gd, gfree, gst, ggops, gl, gpi, gfin, gp⟩ := g
  simp only [sceneStep] at hst
  unfold SInv at h
  cases ph with
  | dead => cases hst
  | done => cases hst
  | sendR x =>
    simp only at hst h
    split at hst
    · cases hst
      refine ⟨[], ?_, rfl, ?_, ?_, hsome, ?_⟩
      · rw [List.append_nil]; exact h
      · simp
      · simp [Phase.pending]
      · simp [Phase.past]
    · cases hst
  | sendF x =>
    simp only at hst h
    split at hst
    · cases hst
      refine ⟨[], ?_, rfl, ?_, ?_, hsome, ?_⟩
      · rw [List.append_nil]; exact h
      · simp
      · simp [Phase.pending]
      · simp [Phase.past]
    · cases hst
  | sendL x =>
    simp only at hst h
    split at hst
    · cases hst
      refine ⟨[], ?_, rfl, ?_, ?_, hsome, ?_⟩
      · rw [List.append_nil]
        exact ⟨h.grp, h.closed, h.bound, h.empty, h.prLe⟩
      · simp
      · simp [Phase.pending]
      · simp [Phase.past]
    · cases hst
  | flushing =>
    simp only at hst h
    split at hst
    · rename_i hlt
      rcases split_spec c newGop ⟨.flushing, la, fr, pr⟩ h.frLe (by simp only; omega) with ⟨e, a, b⟩ | ⟨e, a⟩
      · rw [e] at hst
        cases hst
        refine ⟨[], ?_, rfl, by simp, by simp [Phase.pending], hsome, by simp [Phase.past]⟩
        rw [List.append_nil]
        exact h.pass a b
      · rw [e] at hst
        cases hst
        refine ⟨[⟨la.take (fr + 1), newGop (pr + 1)⟩], ?_, rfl, ?_, by simp [Phase.pending], hsome, by
          simp [Phase.past]; intro e; rw [e] at hlt; simp at hlt⟩
        · exact h.cut la (by omega) (by omega) (fun q => ⟨a q, hlt⟩)
        · simp only [flat_append, flat_single, List.append_assoc]
          rw [← List.append_assoc (la.take _), List.take_append_drop]
    · split at hst
      · rename_i hem
        cases hst
        refine ⟨[], ?_, rfl, by simp, by simp [Phase.pending], hsome, by simp [Phase.past]⟩
        rw [List.append_nil]
        exact h.finish (by simpa using hem)
      · rename_i hem
        cases hst
        refine ⟨[⟨la, true⟩], ?_, rfl, ?_, by simp [Phase.pending], hsome, by
          simpa [Phase.past] using hem⟩
        · exact h.last (by simpa using hem)
        · simp [flat_append, flat_single]
  | reading =>
    obtain ⟨h, hlow⟩ := h
    simp only at hst
    split at hst
    · rename_i f p rest
      simp only at hsome
      have hsome' : ∀ x ∈ rest, x.1.isSome = true := fun x hx => hsome x (List.mem_cons_of_mem _ hx)
      split at hst
      · rename_i hlt
        cases hst
        refine ⟨[], ?_, rfl, ?_, by simp [Phase.pending], hsome', by simp [Phase.past]⟩
        · rw [List.append_nil]
          simp only [List.length_append, List.length_singleton] at hlt
          have hb := h.base
          refine ⟨h.more f (by simp only at hb ⊢; omega), ?_⟩
          rcases hlow with q | q
          · exact Or.inl q
          · exact Or.inr (by simp only [List.length_append, List.length_singleton] at q ⊢; omega)
        · simp
      · rename_i hge
        simp only [List.length_append, List.length_singleton] at hge
        rcases split_spec c newGop ⟨.reading, la ++ [f], fr, pr⟩ h.frLe (by
          simp only [List.length_append, List.length_singleton]; omega) with ⟨e, a, b⟩ | ⟨e, a⟩
        · rw [e] at hst
          cases hst
          refine ⟨[], ?_, rfl, by simp, by simp [Phase.pending], hsome', by simp [Phase.past]⟩
          rw [List.append_nil]
          have hb := h.bound
          refine ⟨(h.pass a b).more f (by simp only at hb ⊢; omega), Or.inr ?_⟩
          simp only [List.length_append, List.length_singleton]
          rcases hlow with q | q <;> simp only at q <;> omega
        · rw [e] at hst
          cases hst
          refine ⟨[⟨(la ++ [f]).take (fr + 1), newGop (pr + 1)⟩], ?_, rfl, ?_, by simp [Phase.pending], hsome',
            by simp [Phase.past]⟩
          · refine ⟨h.cut (la ++ [f]) (by simp only [List.length_append, List.length_singleton]; omega) (by simp) ?_,
              Or.inl rfl⟩
            intro q
            have := a q
            simp only at this hlow
            refine ⟨this, ?_⟩
            simp only [List.length_append, List.length_singleton]
            rcases hlow with q | q <;> omega
          · simp only [flat_append, flat_single, List.append_assoc]
            rw [← List.append_assoc ((la ++ [f]).take _), List.take_append_drop]
            simp
    · rename_i p rest
      have := hsome (none, p) (by simp)
      cases this
    · split at hst
      · cases hst
      · rename_i hs
        cases hst
        refine ⟨[], ?_, rfl, by simp, by simp [Phase.pending], hsome, ?_⟩
        · rw [List.append_nil]
          exact h
        · exact ⟨fun _ _ => ⟨rfl, by simpa using hs⟩, by simp⟩

end Rav1e.Chan.Gop
