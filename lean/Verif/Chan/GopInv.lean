import Verif.Chan.GopScene
import Verif.Chan.Theorems

/-!
# The invariant of the parallel channel
-/

namespace Rav1e.Chan.Gop

open Rav1e.Sched
open Rav1e.Sched.Spec (accepted requested)

variable {F O M : Type}

/-- Frames without parameters. -/
def bare (fs : List F) : List (Input F O M) := fs.map (fun f => (some f, none))

/-- Number packets through. -/
def renumber (ps : List (Packet F O M)) : List (Packet F O M) := ps.zipIdx.map (fun x => { x.1 with input := x.2 })

theorem renumber_snoc (ps : List (Packet F O M)) (p : Packet F O M) :
    renumber (ps ++ [p]) = renumber ps ++ [{ p with input := ps.length }] := by
  simp [renumber, List.zipIdx_append]

def upd {α : Type} (f : Nat → α) (i : Nat) (v : α) : Nat → α := fun j => if j = i then v else f j

theorem upd_same {α : Type} (f : Nat → α) (i : Nat) (v : α) : upd f i v i = v := by simp [upd]
theorem upd_other {α : Type} (f : Nat → α) (i j : Nat) (v : α) (h : j ≠ i) : upd f i v j = f j := by simp [upd, h]

theorem range_upd {α : Type} (f : Nat → α) (n : Nat) (v : α) :
    (List.range (n + 1)).map (upd f n v) = (List.range n).map f ++ [v] := by
  rw [List.range_succ, List.map_append, List.map_singleton, upd_same]
  congr 1
  apply List.map_congr_left
  intro i hi
  exact upd_other f n i v (by have := List.mem_range.1 hi; omega)

theorem countP_change (p q : Nat → Bool) (n i : Nat) (hi : i < n) (hp : p i = true) (hq : q i = false)
    (h : ∀ j, j ≠ i → p j = q j) : (List.range n).countP p = (List.range n).countP q + 1 := by
  induction n with
  | zero => omega
  | succ n ih =>
    rw [List.range_succ, List.countP_append, List.countP_append, List.countP_singleton, List.countP_singleton]
    rcases Nat.lt_or_ge i n with hlt | hge
    · rw [ih hlt, h n (by omega)]; omega
    · have : i = n := by omega
      subst this
      rw [hp, hq]
      have : (List.range i).countP p = (List.range i).countP q := by
        apply List.countP_congr
        intro j hj
        rw [h j (by have := List.mem_range.1 hj; omega)]
      simp [this]

theorem sum_upd (f : Nat → Nat) (n i : Nat) (hi : i < n) :
    ((List.range n).map (upd f i (f i + 1))).sum = ((List.range n).map f).sum + 1 := by
  induction n with
  | zero => omega
  | succ n ih =>
    rw [List.range_succ, List.map_append, List.map_append, List.sum_append, List.sum_append]
    rcases Nat.lt_or_ge i n with hlt | hge
    · rw [ih hlt]
      simp only [List.map_singleton, List.sum_singleton]
      rw [upd_other _ _ _ _ (by omega)]; omega
    · have : i = n := by omega
      subst this
      have : (List.range i).map (upd f i (f i + 1)) = (List.range i).map f := by
        apply List.map_congr_left
        intro j hj
        exact upd_other _ _ _ _ (by have := List.mem_range.1 hj; omega)
      rw [this]
      simp only [List.map_singleton, List.sum_singleton, upd_same]
      omega

/-- More frames for a worker. -/
theorem _root_.Rav1e.Chan.Inv.push {c : Cfg} {cut : Nat → Bool} {ch : Ch F O M} {fs : List F} {got : List (Packet F O M)} {w : Nat}
    {ops : List (Op F O M)} (h : Inv c cut ch (bare fs) got w ops) (hs : ch.sending = true) (X : List F) :
    Inv c cut (Gop.push ch X) (bare (fs ++ X)) got w ops := by
  obtain ⟨h1, h2, ⟨dn, h3, h3', h3''⟩, h4, h5, h6, h7⟩ := h
  refine ⟨h1, h2, ⟨dn, ?_, h3', h3''⟩, ?_, h5, ?_, h7⟩
  · unfold bare at h3 ⊢
    rw [List.map_append, h3]
    simp [Gop.push]
  · simp [Gop.push, bare, h4]
  · revert h6
    unfold Gop.push
    cases ch.worker with
    | draining => intro h; have := h.2.1; rw [hs] at this; cases this
    | done => intro h; have := h.2.1; rw [hs] at this; cases this
    | _ => exact id

theorem _root_.Rav1e.Chan.Inv.close {c : Cfg} {cut : Nat → Bool} {ch : Ch F O M} {fs : List (Input F O M)} {got : List (Packet F O M)} {w : Nat}
    {ops : List (Op F O M)} (h : Inv c cut ch fs got w ops) : Inv c cut (closeGop ch) fs got w ops := by
  obtain ⟨h1, h2, h3, h4, h5, h6, h7⟩ := h
  refine ⟨h1, h2, h3, h4, h5, ?_, h7⟩
  revert h6
  unfold closeGop
  cases ch.worker with
  | draining => intro h; exact ⟨h.1, rfl, h.2.2⟩
  | done => intro h; exact ⟨h.1, rfl, h.2.2⟩
  | _ => exact id

theorem _root_.Rav1e.Chan.Inv.take {c : Cfg} {cut : Nat → Bool} {ch : Ch F O M} {fs : List (Input F O M)} {got : List (Packet F O M)} {w : Nat}
    {ops : List (Op F O M)} (h : Inv c cut ch fs got w ops) (p : Packet F O M) (rest : List (Packet F O M))
    (hp : ch.packets = p :: rest) : Inv c cut { ch with packets := rest } fs (got ++ [p]) w ops := by
  obtain ⟨h1, h2, h3, h4, h5, h6, h7⟩ := h
  rw [hp] at h2 h7
  refine ⟨h1, by simpa using h2, h3, h4, h5, ?_, by simpa using h7⟩
  revert h6
  cases ch.worker <;> exact id

/-- `bare` frames are what the encoder is asked to code. -/
theorem bare_some (fs : List F) : ∀ x ∈ (bare fs : List (Input F O M)), x.1.isSome = true := by
  intro x hx
  obtain ⟨f, -, rfl⟩ := List.mem_map.1 hx
  rfl

theorem _root_.Rav1e.Chan.Inv.work {c : Cfg} {cut : Nat → Bool} (hv : c.Valid) (hs : c.stillPicture = false) {ch ch' : Ch F O M} {fs : List F}
    {got : List (Packet F O M)} {w : Nat} {ops : List (Op F O M)} (h : Inv c cut ch (bare fs) got w ops)
    (hm : fs.length < c.maxFrames) (hst : Chan.work c cut ch = some ch') :
    ∃ ops', Inv c cut ch' (bare fs) got (w + 1) ops' := by
  have := step_inv (e := .work) (o := .silent) (ch' := ch') hv hs h (by simp [Chan.step, hst]) (by simp) (by
    simpa [Chan.Spec.sentFrames] using bare_some fs) (by simpa [Chan.Spec.sentFrames, bare] using hm)
  simpa [Chan.Spec.sentFrames, Chan.Spec.received, Chan.Ev.isWork] using this

/-- A step of a worker does not touch the end of the queue. -/
theorem work_sending {c : Cfg} {cut : Nat → Bool} {ch ch' : Ch F O M} (hst : Chan.work c cut ch = some ch') :
    ch'.sending = ch.sending ∧ ch.worker.gone = false := by
  unfold Chan.work deliver at hst
  cases hw : ch.worker with
  | done => rw [hw] at hst; cases hst
  | dead => rw [hw] at hst; cases hst
  | idle =>
    rw [hw] at hst
    refine ⟨?_, rfl⟩
    simp only at hst
    split at hst
    · cases hst; rfl
    · split at hst
      · cases hst
      · split at hst <;> cases hst <;> rfl
  | busy f =>
    rw [hw] at hst
    refine ⟨?_, rfl⟩
    simp only at hst
    split at hst
    · split at hst <;> cases hst <;> rfl
    · split at hst
      · split at hst <;> cases hst <;> rfl
      · cases hst; rfl
      · cases hst; rfl
  | draining =>
    rw [hw] at hst
    refine ⟨?_, rfl⟩
    simp only at hst
    split at hst
    · split at hst <;> cases hst <;> rfl
    · cases hst; rfl
    · cases hst; rfl
    · cases hst; rfl

/-- Which frames the groups have got. -/
def Dispatch.At (d : Dispatch) (g : St F O M) (D : List (SubGop F)) (gfs : Nat → List F) : Prop :=
  match d with
  | .waiting => (List.range g.started).map gfs = (join D).1 ∧ (join D).2 = []
  | .serving => (List.range g.started).map gfs = (join D).1 ++ [(join D).2]
  | .done => (List.range g.started).map gfs = (join D).1 ++ [(join D).2] ∧ g.subs = [] ∧ g.scene.phase = .done

def Dispatch.busy : Dispatch → Bool
  | .done => false
  | _ => true

theorem At_congr {g g' : St F O M} {D : List (SubGop F)} {gfs : Nat → List F} (h : g.dispatch.At g D gfs)
    (e1 : g'.dispatch = g.dispatch) (e2 : g'.started = g.started) (e3 : g'.subs = g.subs) (e4 : g'.scene = g.scene) :
    g'.dispatch.At g' D gfs := by
  rw [e1]
  revert h
  cases g.dispatch <;> simp only [Dispatch.At, e2, e3, e4] <;> exact id

/-- Steps taken so far by each kind of thread. -/
structure Count where
  s : Nat
  d : Nat
  e : Nat
  g : Nat

structure GInv (c : Cfg) (newGop : Nat → Bool) (cuts : Nat → Nat → Bool) (slots : Nat) (g : St F O M)
    (xs : List (Input F O M)) (got : List (Packet F O M)) (D : List (SubGop F)) (gfs : Nat → List F)
    (gots : Nat → List (Packet F O M)) (ws : Nat → Nat) (k : Count) : Prop where
  scene : SInv c newGop g.scene (D ++ (g.subs ++ g.scene.phase.pending))
  frames : xs.filterMap (·.1) = flat (D ++ (g.subs ++ g.scene.phase.pending)) ++ g.scene.lookahead ++
    g.frames.filterMap (·.1)
  some : ∀ x ∈ g.frames, x.1.isSome = true
  past : g.scene.phase.past = true → g.frames = [] ∧ g.sending = false
  count : g.count = xs.length
  disp : g.dispatch.At g D gfs
  opn : ∀ i, i < g.started → (g.gops i).sending = (decide (i + 1 = g.started) && g.dispatch.busy)
  gop : ∀ i, i < g.started → ∃ ops, Inv c (cuts i) (g.gops i) (bare (gfs i)) (gots i) (ws i) ops
  free : g.free + (List.range g.started).countP (fun i => !(g.gops i).worker.gone) = slots
  idxLe : g.lastIdx ≤ g.started
  before : ∀ i, i < g.lastIdx → (g.gops i).worker.gone = true ∧ (g.gops i).packets = []
  after : ∀ i, g.lastIdx < i ∨ g.started ≤ i → gots i = []
  index : g.packetIndex = ((List.range (g.lastIdx + 1)).map gots).flatten.length
  recv : g.listening = true → renumber ((List.range (g.lastIdx + 1)).map gots).flatten = got ++ g.packets
  fin : g.finished = true → g.dispatch = .done ∧ g.lastIdx = g.started
  full : ∀ x ∈ D ++ (g.subs ++ g.scene.phase.pending), x.frames ≠ []
  cs : k.s + g.frames.length ≤ xs.length + (D.length + g.subs.length) + g.scene.processed + g.scene.phase.rank
  cd : k.d + (if g.dispatch.busy then 1 else 0) ≤ g.started + D.length + 1
  ce : k.e = ((List.range g.started).map ws).sum
  cg : k.g + (if g.finished then 0 else 1) ≤ g.packetIndex + g.lastIdx + 1

theorem ginv_create (c : Cfg) (newGop : Nat → Bool) (cuts : Nat → Nat → Bool) (slots : Nat) :
    GInv c newGop cuts slots (create slots : St F O M) [] [] [] (fun _ => []) (fun _ => []) (fun _ => 0) ⟨0, 0, 0, 0⟩ := by
  refine ⟨⟨⟨rfl, by simp [create], ?_, ?_, ?_, ?_⟩, Or.inl rfl⟩, rfl, by simp [create], by simp [create, Phase.past], rfl,
    ⟨rfl, rfl⟩, ?_, ?_, rfl, Nat.le_refl _, ?_, fun _ _ => rfl, rfl, fun _ => rfl, ?_, by simp [create, Phase.pending],
    by simp [create], by simp [create, Dispatch.busy], by simp [create], by simp [create]⟩
  · intro p a b; simp [create] at b; omega
  · intro h; exact absurd rfl h
  · intro isCut rest _; rfl
  · simp [create, distance, flat, Phase.pending]
  · intro i hi; simp [create] at hi
  · intro i hi; simp [create] at hi
  · intro i hi; simp [create] at hi
  · intro h; simp [create] at h

section
variable {c : Cfg} {newGop : Nat → Bool} {cuts : Nat → Nat → Bool} {slots : Nat} {g g' : St F O M}
  {xs : List (Input F O M)} {got : List (Packet F O M)} {D : List (SubGop F)} {gfs : Nat → List F}
  {gots : Nat → List (Packet F O M)} {ws : Nat → Nat} {k : Count}

theorem ginv_scene (h : GInv c newGop cuts slots g xs got D gfs gots ws k) (hst : sceneStep c newGop g = some g') :
    GInv c newGop cuts slots g' xs got D gfs gots ws { k with s := k.s + 1 } := by
  have hcount := scene_count hst
  obtain ⟨E', s1, s2, s3, s4, s5, s6, s7, s8⟩ := scene_step h.scene hst h.some
  rw [List.append_assoc D, s4] at s1
  rw [s2]
  refine ⟨s1, ?_, s5, ?_, h.count, ?_, h.opn, h.gop, h.free, h.idxLe, h.before, h.after, h.index, h.recv, h.fin,
    ?_, ?_, h.cd, h.ce, h.cg⟩
  · rw [h.frames, s3, List.append_assoc D, s4]
  · intro hp
    have := s6 h.past hp
    rw [s2] at this
    exact this
  · have := h.disp
    revert this
    cases hd : g.dispatch with
    | done =>
      intro q
      exact absurd q.2.2 s7
    | _ => exact id
  · intro x hx
    simp only at hx
    rw [← s4, ← List.append_assoc, List.mem_append] at hx
    rcases hx with hx | hx
    · exact h.full x hx
    · exact s8 x hx
  · have := h.cs
    simp only
    omega

theorem gfs_le (h : GInv c newGop cuts slots g xs got D gfs gots ws k) (i : Nat) (hi : i < g.started) :
    (gfs i).length ≤ xs.length := by
  have h1 : (gfs i).length ≤ ((List.range g.started).map gfs).flatten.length := by
    exact (List.sublist_flatten_of_mem (List.mem_map.2 ⟨i, List.mem_range.2 hi, rfl⟩)).length_le
  have h2 : ((List.range g.started).map gfs).flatten.length ≤ (flat D).length := by
    rw [← join_flat D]
    have := h.disp
    revert this
    cases g.dispatch with
    | waiting => rintro ⟨a, b⟩; rw [a, b]; simp
    | serving => intro a; rw [show (List.range g.started).map gfs = _ from a]; simp
    | done => intro a; rw [a.1]; simp
  have h3 : (flat D).length ≤ (xs.filterMap (·.1)).length := by
    rw [h.frames, flat_append]
    simp only [List.length_append]; omega
  have h4 : (xs.filterMap (·.1)).length ≤ xs.length := List.length_filterMap_le _ _
  omega

theorem ginv_dispatch (h : GInv c newGop cuts slots g xs got D gfs gots ws k) (hst : dispatchStep g = some g') :
    ∃ D' gfs' ws', GInv c newGop cuts slots g' xs got D' gfs' gots ws' { k with d := k.d + 1 } := by
  unfold dispatchStep at hst
  cases hd : g.dispatch with
  | done => rw [hd] at hst; cases hst
  | waiting =>
    rw [hd] at hst
    have hD := h.disp
    rw [hd] at hD
    obtain ⟨hD1, hD2⟩ := hD
    simp only at hst
    split at hst
    · cases hst
    · rename_i hfree
      -- the groups afterwards
      have hg : ∃ gp : Nat → Ch F O M, g' = { { g with gops := gp, free := g.free - 1 } with started := g.started + 1, dispatch := .serving } ∧ gp g.started = Chan.create ∧
          (∀ i, i + 1 < g.started → gp i = g.gops i) ∧
          (∀ i, i + 1 = g.started → gp i = closeGop (g.gops i)) := by
        cases hst
        split
        · rename_i h0
          refine ⟨_, rfl, by simp [setGop], fun i hi => by omega, fun i hi => by omega⟩
        · rename_i h0
          refine ⟨_, rfl, by simp [setGop], fun i hi => ?_, fun i hi => ?_⟩
          · simp only [setGop]
            rw [if_neg (by omega), if_neg (by omega)]
          · simp only [setGop]
            rw [if_neg (by omega), if_pos (by omega), show g.started - 1 = i by omega]
      clear hst
      obtain ⟨gp, rfl, g1, g2, g3⟩ := hg
      have hold : ∀ i, i < g.started → (gp i).worker = (g.gops i).worker ∧ (gp i).packets = (g.gops i).packets ∧
          (gp i).sending = false ∧ (∃ ops, Inv c (cuts i) (gp i) (bare (gfs i)) (gots i) (ws i) ops) := by
        intro i hi
        obtain ⟨ops, q⟩ := h.gop i hi
        rcases Nat.lt_or_ge (i + 1) g.started with hlt | hge
        · rw [g2 i hlt]
          refine ⟨rfl, rfl, ?_, ops, q⟩
          rw [h.opn i hi]
          simp; omega
        · rw [g3 i (by omega)]
          exact ⟨rfl, rfl, rfl, ops, q.close⟩
      refine ⟨D, upd gfs g.started [], upd ws g.started 0, h.scene, h.frames, h.some, h.past, h.count, ?_, ?_, ?_, ?_, ?_, ?_,
        ?_, h.index, h.recv, ?_, h.full, h.cs, ?_, ?_, h.cg⟩
      · show (List.range (g.started + 1)).map _ = _
        rw [range_upd, hD1, hD2]
      · intro i hi
        simp only at hi ⊢
        rcases Nat.lt_or_ge i g.started with hlt | hge
        · rw [(hold i hlt).2.2.1]
          simp; omega
        · have : i = g.started := by omega
          subst this
          rw [g1]
          simp [Chan.create, Dispatch.busy]
      · intro i hi
        simp only at hi ⊢
        rcases Nat.lt_or_ge i g.started with hlt | hge
        · rw [upd_other _ _ _ _ (by omega), upd_other _ _ _ _ (by omega)]
          exact (hold i hlt).2.2.2
        · have : i = g.started := by omega
          subst this
          rw [g1, upd_same, upd_same, h.after _ (Or.inr (Nat.le_refl _))]
          exact ⟨[], inv_create⟩
      · simp only
        rw [List.range_succ, List.countP_append, List.countP_singleton, g1]
        have hc : (List.range g.started).countP (fun i => !(gp i).worker.gone) =
            (List.range g.started).countP (fun i => !(g.gops i).worker.gone) := by
          apply List.countP_congr
          intro i hi
          rw [(hold i (List.mem_range.1 hi)).1]
        rw [hc]
        have := h.free
        generalize (List.range g.started).countP _ = n at this ⊢
        have he : (if (!(Chan.create : Ch F O M).worker.gone) = true then 1 else 0) = 1 := rfl
        rw [he]
        omega
      · exact Nat.le_succ_of_le h.idxLe
      · intro i hi
        have := h.before i hi
        obtain ⟨a, b, -⟩ := hold i (Nat.lt_of_lt_of_le hi h.idxLe)
        simp only [a, b]
        exact this
      · intro i hi
        apply h.after
        simp only at hi
        omega
      · intro hf
        have := (h.fin hf).1
        rw [hd] at this
        cases this
      · have := h.cd
        rw [hd] at this
        simp only [Dispatch.busy, if_true] at this ⊢
        omega
      · simp only
        rw [range_upd, List.sum_append, h.ce]
        rfl
  | serving =>
    rw [hd] at hst
    have hD := h.disp
    rw [hd] at hD
    replace hD : (List.range g.started).map gfs = (join D).1 ++ [(join D).2] := hD
    obtain ⟨n, hn⟩ : ∃ n, g.started = n + 1 := by
      have := congrArg List.length hD
      simp at this
      exact ⟨_, this⟩
    have hD' : (List.range n).map gfs = (join D).1 ∧ gfs n = (join D).2 := by
      rw [hn, List.range_succ, List.map_append] at hD
      have := List.append_inj' hD rfl
      simpa using this
    simp only at hst
    have hopen : (g.gops n).sending = true := by
      rw [h.opn n (by omega), hn, hd]; simp [Dispatch.busy]
    split at hst
    · rename_i x rest hsubs
      cases hst
      have hassoc : D ++ (g.subs ++ g.scene.phase.pending) = (D ++ [x]) ++ (rest ++ g.scene.phase.pending) := by
        rw [hsubs]; simp
      refine ⟨D ++ [x], upd gfs n (gfs n ++ x.frames), ws, ?_, ?_, h.some, h.past, h.count, ?_, ?_, ?_, ?_, h.idxLe, ?_,
        h.after, h.index, h.recv, ?_, ?_, ?_, ?_, h.ce, h.cg⟩
      · have := h.scene
        rw [hassoc] at this
        exact this
      · have := h.frames
        rw [hassoc] at this
        exact this
      · have hm : (List.range g.started).map (upd gfs n (gfs n ++ x.frames)) = (join D).1 ++ [(join D).2 ++ x.frames] := by
          rw [hn, range_upd, hD'.1, hD'.2]
        rcases Bool.eq_false_or_eq_true x.endGop with q | q
        · simp only [q, if_true]
          refine ⟨?_, ?_⟩
          · show (List.range g.started).map _ = _
            rw [join_snoc, hm, q]; rfl
          · rw [join_snoc, q]; rfl
        · simp only [q, Bool.false_eq_true, if_false]
          show (List.range g.started).map _ = _
          rw [join_snoc, hm, q]; rfl
      · intro i hi
        have := h.opn i hi
        have hb : (if x.endGop then Dispatch.waiting else .serving).busy = true := by split <;> rfl
        rw [hd] at this
        show (if i = g.started - 1 then push (g.gops (g.started - 1)) x.frames else g.gops i).sending = _
        rw [hb]
        split
        · rename_i e
          rw [← e]
          exact this
        · exact this
      · intro i hi
        replace hi : i < g.started := hi
        simp only [setGop, hn, Nat.add_sub_cancel]
        split
        · rename_i e
          subst e
          rw [upd_same]
          obtain ⟨ops, q⟩ := h.gop i hi
          exact ⟨ops, q.push hopen x.frames⟩
        · rename_i e
          rw [upd_other _ _ _ _ e]
          exact h.gop i hi
      · rw [← h.free]
        congr 1
        apply List.countP_congr
        intro i _
        simp only [setGop]
        split
        · rename_i e; rw [e]; rfl
        · rfl
      · intro i hi
        simp only [setGop]
        split
        · rename_i e; rw [← e]; exact h.before i hi
        · exact h.before i hi
      · intro hf
        have := (h.fin hf).1
        rw [hd] at this
        cases this
      · have := h.full
        rw [hassoc] at this
        exact this
      · have := h.cs
        rw [hsubs] at this
        simp only [setGop, List.length_append, List.length_cons, List.length_nil] at this ⊢
        omega
      · have := h.cd
        rw [hd] at this
        have hb : (if x.endGop then Dispatch.waiting else .serving).busy = true := by split <;> rfl
        simp only [hb]
        simp only [setGop, Dispatch.busy, if_true, List.length_append, List.length_cons, List.length_nil] at this ⊢
        omega
    · rename_i hsubs
      split at hst
      · rename_i hgone
        cases hst
        have hdone : g.scene.phase = .done := by
          have := h.scene
          unfold SInv at this
          cases hp : g.scene.phase with
          | done => rfl
          | dead => rw [hp] at this; exact this.elim
          | _ => rw [hp] at hgone; simp [Phase.gone] at hgone
        refine ⟨D, gfs, ws, h.scene, h.frames, h.some, h.past, h.count, ⟨hD, hsubs, hdone⟩, ?_, ?_, ?_, h.idxLe, ?_, h.after,
          h.index, h.recv, ?_, h.full, h.cs, ?_, h.ce, h.cg⟩
        · intro i hi
          have := h.opn i hi
          simp only [setGop, Dispatch.busy, Bool.and_false]
          split
          · rfl
          · rename_i e
            rw [this, hd]
            simp only [setGop] at hi
            simp; omega
        · intro i hi
          replace hi : i < g.started := hi
          simp only [setGop]
          obtain ⟨ops, q⟩ := h.gop i hi
          split
          · rename_i e
            rw [← e]
            exact ⟨ops, q.close⟩
          · exact ⟨ops, q⟩
        · rw [← h.free]
          congr 1
          apply List.countP_congr
          intro i _
          simp only [setGop]
          split
          · rename_i e; rw [e]; rfl
          · rfl
        · intro i hi
          simp only [setGop]
          split
          · rename_i e; rw [← e]; exact h.before i hi
          · exact h.before i hi
        · intro hf
          have := (h.fin hf).1
          rw [hd] at this
          cases this
        · have := h.cd
          rw [hd] at this
          simp only [setGop, Dispatch.busy, Bool.false_eq_true, if_true, if_false] at this ⊢
          omega
      · cases hst

theorem ginv_encode (hv : c.Valid) (hs : c.stillPicture = false) (hmax : xs.length < c.maxFrames)
    (h : GInv c newGop cuts slots g xs got D gfs gots ws k) (i : Nat) (hst : encodeStep c cuts g i = some g') :
    ∃ ws', GInv c newGop cuts slots g' xs got D gfs gots ws' { k with e := k.e + 1 } := by
  unfold encodeStep at hst
  split at hst
  · rename_i hi
    split at hst
    · cases hst
    · rename_i ch hw
      cases hst
      obtain ⟨ops, q⟩ := h.gop i hi
      obtain ⟨ops', q'⟩ := q.work hv hs (Nat.lt_of_le_of_lt (gfs_le h i hi) hmax) hw
      obtain ⟨e1, e2⟩ := work_sending hw
      refine ⟨upd ws i (ws i + 1), h.scene, h.frames, h.some, h.past, h.count, ?_, ?_, ?_, ?_, h.idxLe, ?_, h.after, h.index,
        h.recv, h.fin, h.full, h.cs, h.cd, ?_, h.cg⟩
      · exact At_congr h.disp rfl rfl rfl rfl
      · intro j hj
        simp only [setGop]
        split
        · rename_i e
          rw [e1, e]
          exact h.opn i hi
        · exact h.opn j hj
      · intro j hj
        simp only [setGop]
        split
        · rename_i e
          subst e
          rw [upd_same]
          exact ⟨_, q'⟩
        · rename_i e
          rw [upd_other _ _ _ _ e]
          exact h.gop j hj
      · have hfree := h.free
        have hpos := q'.pos
        simp only [setGop]
        cases hk : ch.worker with
        | dead => rw [hk] at hpos; exact hpos.elim
        | done =>
          simp only
          have := countP_change (fun j => !(g.gops j).worker.gone) (fun j => !(if j = i then ch else g.gops j).worker.gone)
            g.started i hi (by simp [e2]) (by simp [hk, Worker.gone]) (by intro j hj; simp [hj])
          omega
        | _ =>
          simp only
          rw [← hfree]
          congr 1
          apply List.countP_congr
          intro j _
          split
          · rename_i e; rw [e, hk, e2]; simp [Worker.gone]
          · rfl
      · intro j hj
        have := h.before j hj
        simp only [setGop]
        split
        · rename_i e
          rw [e, e2] at this
          cases this.1
        · exact this
      · simp only [setGop]
        rw [sum_upd ws g.started i hi, h.ce]
  · cases hst

theorem ginv_gather (h : GInv c newGop cuts slots g xs got D gfs gots ws k) (hst : gatherStep g = some g') :
    ∃ gots', GInv c newGop cuts slots g' xs got D gfs gots' ws { k with g := k.g + 1 } := by
  unfold gatherStep at hst
  split at hst
  · cases hst
  · rename_i hnf
    split at hst
    · rename_i hlt
      simp only at hst
      split at hst
      · rename_i p rest hp
        -- a packet
        have hk : GInv c newGop cuts slots { setGop g g.lastIdx { g.gops g.lastIdx with packets := rest } with
            packetIndex := g.packetIndex + 1
            packets := if g.listening then g.packets ++ [{ p with input := g.packetIndex }] else g.packets } xs got D gfs
            (upd gots g.lastIdx (gots g.lastIdx ++ [p])) ws { k with g := k.g + 1 } := by
          refine ⟨h.scene, h.frames, h.some, h.past, h.count, ?_, ?_, ?_, ?_, h.idxLe, ?_, ?_, ?_, ?_, h.fin, h.full, h.cs,
            h.cd, h.ce, ?_⟩
          · exact At_congr h.disp rfl rfl rfl rfl
          · intro j hj
            simp only [setGop]
            split
            · rename_i e
              rw [e]
              exact h.opn g.lastIdx hlt
            · exact h.opn j hj
          · intro j hj
            simp only [setGop]
            split
            · rename_i e
              subst e
              obtain ⟨ops, q⟩ := h.gop g.lastIdx hlt
              rw [upd_same]
              exact ⟨ops, q.take p rest hp⟩
            · rename_i e
              rw [upd_other _ _ _ _ e]
              exact h.gop j hj
          · rw [← h.free]
            congr 1
            apply List.countP_congr
            intro j _
            simp only [setGop]
            split
            · rename_i e; rw [e]
            · rfl
          · intro j hj
            simp only [setGop] at hj ⊢
            rw [if_neg (by omega)]
            exact h.before j hj
          · intro j hj
            simp only [setGop] at hj
            rw [upd_other _ _ _ _ (by omega)]
            exact h.after j hj
          · show g.packetIndex + 1 = ((List.range (g.lastIdx + 1)).map _).flatten.length
            rw [range_upd, h.index, List.range_succ]
            simp; omega
          · intro hl
            show renumber ((List.range (g.lastIdx + 1)).map _).flatten = _
            have hl' : g.listening = true := hl
            have hr := h.recv hl'
            have hi := h.index
            rw [List.range_succ, List.map_append, List.map_singleton] at hr hi
            rw [range_upd, List.flatten_append, List.flatten_singleton, ← List.append_assoc, renumber_snoc]
            rw [List.flatten_append, List.flatten_singleton] at hr hi
            rw [hr, ← hi]
            simp [hl']
          · have := h.cg
            have hf : g.finished = false := by simpa using hnf
            simp only [setGop, hf] at this ⊢
            omega
        have : g' = { setGop g g.lastIdx { g.gops g.lastIdx with packets := rest } with
            packetIndex := g.packetIndex + 1
            packets := if g.listening then g.packets ++ [{ p with input := g.packetIndex }] else g.packets } := by
          cases hst
          split <;> rfl
        rw [this]
        exact ⟨_, hk⟩
      · rename_i hp
        split at hst
        · rename_i hg
          cases hst
          have hnew : gots (g.lastIdx + 1) = [] := h.after _ (Or.inl (Nat.lt_succ_self _))
          have hflat : ((List.range (g.lastIdx + 1 + 1)).map gots).flatten =
              ((List.range (g.lastIdx + 1)).map gots).flatten := by
            rw [List.range_succ (n := g.lastIdx + 1), List.map_append, List.map_singleton, hnew]; simp
          refine ⟨gots, h.scene, h.frames, h.some, h.past, h.count, ?_, h.opn, h.gop, h.free, hlt, ?_, ?_, ?_, ?_, ?_,
            h.full, h.cs, h.cd, h.ce, ?_⟩
          · exact At_congr h.disp rfl rfl rfl rfl
          · intro j hj
            simp only at hj ⊢
            rcases Nat.lt_or_ge j g.lastIdx with q | q
            · exact h.before j q
            · have : j = g.lastIdx := by omega
              subst this
              exact ⟨hg, hp⟩
          · intro j hj
            apply h.after
            simp only at hj
            omega
          · simp only
            rw [hflat]; exact h.index
          · simp only
            rw [hflat]; exact h.recv
          · intro hf
            exact absurd hf hnf
          · have := h.cg
            simp only at this ⊢
            omega
        · cases hst
    · rename_i hge
      split at hst
      · rename_i hd
        cases hst
        refine ⟨gots, h.scene, h.frames, h.some, h.past, h.count, ?_, h.opn, h.gop, h.free, h.idxLe, h.before, h.after,
          h.index, h.recv, ?_, h.full, h.cs, h.cd, h.ce, ?_⟩
        · exact At_congr h.disp rfl rfl rfl rfl
        · intro _
          exact ⟨hd, by have := h.idxLe; simp only; omega⟩
        · have := h.cg
          have hf : g.finished = false := by simpa using hnf
          simp only [hf] at this ⊢
          simp at this ⊢
          omega
      · cases hst

/-- Count a step. -/
def Count.add (k : Count) : Ev F O M → Count
  | .scene => { k with s := k.s + 1 }
  | .dispatch => { k with d := k.d + 1 }
  | .encode _ => { k with e := k.e + 1 }
  | .gather => { k with g := k.g + 1 }
  | _ => k

/-- One step preserves the invariant. -/
theorem ginv_step (hv : c.Valid) (hs : c.stillPicture = false) {e : Ev F O M} {o : Out F O M}
    (h : GInv c newGop cuts slots g xs got D gfs gots ws k) (hst : step c newGop cuts g e = some (g', o))
    (hsome : ∀ x ∈ xs ++ Spec.sentFrames [e] [o], x.1.isSome = true)
    (hmax : (xs ++ Spec.sentFrames [e] [o]).length < c.maxFrames) :
    ∃ D' gfs' gots' ws', GInv c newGop cuts slots g' (xs ++ Spec.sentFrames [e] [o]) (got ++ Chan.Spec.received [o]) D' gfs'
      gots' ws' (k.add e) := by
  have hlen : xs.length < c.maxFrames := by rw [List.length_append] at hmax; omega
  have silent : ∀ x : Ev F O M, Spec.sentFrames [x] [(.silent : Out F O M)] = [] := by intro x; cases x <;> rfl
  have nopk : Chan.Spec.received [(.silent : Out F O M)] = [] := rfl
  cases e with
  | send f =>
    simp only [step] at hst
    split at hst
    · cases hst
    · rename_i hopen
      split at hst
      · rename_i hc
        rw [h.count] at hc; omega
      · split at hst
        · cases hst
          refine ⟨D, gfs, gots, ws, ?_⟩
          simpa [Spec.sentFrames, Chan.Spec.received, Count.add] using h
        · rename_i hng
          split at hst
          · cases hst
            have hse : Spec.sentFrames [Ev.send f] [(.sent : Out F O M)] = [f] := rfl
            have hre : Chan.Spec.received [(.sent : Out F O M)] = [] := rfl
            rw [hse] at hsome ⊢
            rw [hre, List.append_nil]
            have hnp : g.scene.phase.past = false := by
              rcases Bool.eq_false_or_eq_true g.scene.phase.past with q | q
              · have := (h.past q).2
                rw [this] at hopen
                simp at hopen
              · exact q
            refine ⟨D, gfs, gots, ws, h.scene, ?_, ?_, ?_, ?_, At_congr h.disp rfl rfl rfl rfl, h.opn, h.gop, h.free, h.idxLe,
              h.before, h.after, h.index, h.recv, h.fin, h.full, ?_, h.cd, h.ce, h.cg⟩
            · simp only
              rw [List.filterMap_append, h.frames, List.filterMap_append]
              simp
            · intro x hx
              simp only [List.mem_append, List.mem_singleton] at hx
              rcases hx with hx | hx
              · exact h.some x hx
              · exact hsome x (by simp [hx])
            · simp only
              rw [hnp]; intro q; cases q
            · simp [h.count]
            · have := h.cs
              simp only [Count.add, List.length_append, List.length_singleton]
              omega
          · cases hst
  | close =>
    simp only [step] at hst
    split at hst
    · cases hst
      rw [silent, nopk, List.append_nil, List.append_nil]
      exact ⟨D, gfs, gots, ws, h.scene, h.frames, h.some, fun q => ⟨(h.past q).1, rfl⟩, h.count,
        At_congr h.disp rfl rfl rfl rfl, h.opn, h.gop, h.free, h.idxLe, h.before, h.after, h.index, h.recv, h.fin, h.full, h.cs,
        h.cd, h.ce, h.cg⟩
    · cases hst
  | hangUp =>
    simp only [step] at hst
    split at hst
    · cases hst
      rw [silent, nopk, List.append_nil, List.append_nil]
      exact ⟨D, gfs, gots, ws, h.scene, h.frames, h.some, h.past, h.count, At_congr h.disp rfl rfl rfl rfl, h.opn,
        h.gop, h.free, h.idxLe, h.before, h.after, h.index, (fun q => by cases q), h.fin, h.full, h.cs, h.cd, h.ce, h.cg⟩
    · cases hst
  | recv =>
    simp only [step] at hst
    split at hst
    · cases hst
    · split at hst
      · rename_i p rest hp
        cases hst
        refine ⟨D, gfs, gots, ws, ?_⟩
        rw [show Spec.sentFrames [Ev.recv] [Out.packet p] = [] from rfl, List.append_nil,
          show Chan.Spec.received [Out.packet p] = [p] from rfl]
        refine ⟨h.scene, h.frames, h.some, h.past, h.count, At_congr h.disp rfl rfl rfl rfl, h.opn,
          h.gop, h.free, h.idxLe, h.before, h.after, h.index, ?_, h.fin, h.full, h.cs, h.cd, h.ce, h.cg⟩
        intro q
        rw [h.recv q, hp]
        simp
      · split at hst
        · cases hst
          refine ⟨D, gfs, gots, ws, ?_⟩
          simpa [Spec.sentFrames, Chan.Spec.received, Count.add] using h
        · cases hst
  | scene =>
    simp only [step] at hst
    obtain ⟨y, h1, h2⟩ := Option.map_eq_some_iff.1 hst
    cases h2
    rw [silent, nopk, List.append_nil, List.append_nil]
    exact ⟨D, gfs, gots, ws, ginv_scene h h1⟩
  | dispatch =>
    simp only [step] at hst
    obtain ⟨y, h1, h2⟩ := Option.map_eq_some_iff.1 hst
    cases h2
    rw [silent, nopk, List.append_nil, List.append_nil]
    obtain ⟨D', gfs', ws', q⟩ := ginv_dispatch h h1
    exact ⟨D', gfs', gots, ws', q⟩
  | encode i =>
    simp only [step] at hst
    obtain ⟨y, h1, h2⟩ := Option.map_eq_some_iff.1 hst
    cases h2
    rw [silent, nopk, List.append_nil, List.append_nil]
    obtain ⟨ws', q⟩ := ginv_encode hv hs hlen h i h1
    exact ⟨D, gfs, gots, ws', q⟩
  | gather =>
    simp only [step] at hst
    obtain ⟨y, h1, h2⟩ := Option.map_eq_some_iff.1 hst
    cases h2
    rw [silent, nopk, List.append_nil, List.append_nil]
    obtain ⟨gots', q⟩ := ginv_gather h h1
    exact ⟨D, gfs, gots', ws, q⟩

end

end Rav1e.Chan.Gop
