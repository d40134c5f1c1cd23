import Verif.LoopSyn.Flush

/-!
# CDEF indices and loop restoration units: the queue

Every superblock is written once, in raster order, and the queue is empty when the tile ends.
-/

namespace Rav1e.LoopSyn

open Av1Spec
open Ec
open Spec (Frame)

/-- What happens to the state when an entry is written. -/
abbrev flushIn (C : Cfg) (R : Rdo) (s : Lf) (e : Entry) : Option Lf := flush C R e s

/-- `check_lf_queue` writes the first entries of the queue. -/
theorem check_prefix (C : Cfg) (R : Rdo) (ready : Nat → Int) : ∀ (q : List Entry) (s s' : Lf), q.foldlM (flushIn C R) s = some s' →
    ∃ a b s1, q = a ++ b ∧ a.foldlM (flushIn C R) s = some s1 ∧ checkQueue C R ready q s = some (b, s1) := by
  intro q
  induction q with
  | nil => intro s s' _; exact ⟨[], [], s, rfl, rfl, rfl⟩
  | cons e q ih =>
    intro s s' h
    rw [checkQueue]
    by_cases hb : ((List.range C.planes).any fun p => decide (e.lru p > ready p)) = true
    · rw [if_pos hb]
      exact ⟨[], e :: q, s, rfl, rfl, rfl⟩
    · rw [if_neg hb]
      rw [List.foldlM_cons] at h
      rcases h1 : flush C R e s with _ | s1
      · rw [show flushIn C R s e = none from h1] at h
        exact absurd h (by simp)
      · rw [show flushIn C R s e = some s1 from h1] at h
        obtain ⟨a, b, s2, a1, a2, a3⟩ := ih s1 s' h
        refine ⟨e :: a, b, s2, by rw [a1]; rfl, ?_, ?_⟩
        · rw [List.foldlM_cons, show flushIn C R s e = some s1 from h1]
          exact a2
        · exact a3

/-- `check_lf_queue` writes all entries, if all are ready. -/
theorem check_all (C : Cfg) (R : Rdo) (ready : Nat → Int) : ∀ (q : List Entry) (s s' : Lf), (∀ e ∈ q, ∀ p < C.planes, e.lru p ≤ ready p) →
    q.foldlM (flushIn C R) s = some s' → checkQueue C R ready q s = some ([], s') := by
  intro q
  induction q with
  | nil => intro s s' _ h; rw [checkQueue]; simp only [List.foldlM_nil, Option.pure_def, Option.some.injEq] at h; rw [h]
  | cons e q ih =>
    intro s s' hr h
    rw [checkQueue, if_neg]
    · rw [List.foldlM_cons] at h
      rcases h1 : flush C R e s with _ | s1
      · rw [show flushIn C R s e = none from h1] at h
        exact absurd h (by simp)
      · rw [show flushIn C R s e = some s1 from h1] at h
        exact ih s1 s' (fun e he => hr e (by simp [he])) h
    · simp only [List.any_eq_true, List.mem_range, decide_eq_true_eq, not_exists, not_and]
      intro p hp hc
      have := hr e (by simp) p hp
      omega

/-! ### When units are ready -/

/-- What `last_lru_ready` and `check_queue` become. -/
theorem ready_fold (C : Cfg) (k : Nat × Nat) (ready : Nat → Int) : ∀ n,
    (∀ p, ((List.range n).foldl (readyStep C k.2 k.1) (ready, false)).1 p =
      if p < n ∧ In C p k ∧ lastSb C (C.plane p) k.2 k.1 = true then (idx C p k : Int) else ready p) ∧
    (((List.range n).foldl (readyStep C k.2 k.1) (ready, false)).2 = true ↔ ∃ p < n, In C p k → lastSb C (C.plane p) k.2 k.1 = true) := by
  intro n
  induction n with
  | zero => exact ⟨fun p => by rw [if_neg (fun h => absurd h.1 (by omega))]; rfl, by simp⟩
  | succ n ih =>
    obtain ⟨i1, i2⟩ := ih
    rw [List.range_succ, List.foldl_append, List.foldl_cons, List.foldl_nil]
    generalize (List.range n).foldl (readyStep C k.2 k.1) (ready, false) = st at *
    unfold readyStep
    rw [unitIndex_false]
    by_cases hin : In C n k
    · rw [if_pos (show k.2 / 2 ^ (C.plane n).hShift < _ ∧ k.1 / 2 ^ (C.plane n).vShift < _ from hin)]
      dsimp only
      by_cases hl : lastSb C (C.plane n) k.2 k.1 = true
      · rw [if_pos hl]
        refine ⟨fun p => ?_, ⟨fun _ => ⟨n, by omega, fun _ => hl⟩, fun _ => rfl⟩⟩
        dsimp only
        by_cases e : p = n
        · subst e
          rw [if_pos rfl, if_pos ⟨by omega, hin, hl⟩]
          rfl
        · rw [if_neg e, i1]
          by_cases hh : p < n ∧ In C p k ∧ lastSb C (C.plane p) k.2 k.1 = true
          · rw [if_pos hh, if_pos ⟨by omega, hh.2⟩]
          · rw [if_neg hh, if_neg (fun h => hh ⟨by omega, h.2⟩)]
      · rw [if_neg hl]
        refine ⟨fun p => ?_, i2.trans ⟨fun ⟨p, hp, h⟩ => ⟨p, by omega, h⟩, fun ⟨p, hp, h⟩ => ?_⟩⟩
        · rw [i1]
          by_cases e : p = n
          · subst e
            rw [if_neg (fun h => absurd h.1 (by omega)), if_neg (fun h => hl h.2.2)]
          · by_cases hh : p < n ∧ In C p k ∧ lastSb C (C.plane p) k.2 k.1 = true
            · rw [if_pos hh, if_pos ⟨by omega, hh.2⟩]
            · rw [if_neg hh, if_neg (fun h => hh ⟨by omega, h.2⟩)]
        · by_cases e : p = n
          · subst e; exact absurd (h hin) hl
          · exact ⟨p, by omega, h⟩
    · rw [if_neg (show ¬(k.2 / 2 ^ (C.plane n).hShift < _ ∧ k.1 / 2 ^ (C.plane n).vShift < _) from hin)]
      dsimp only
      refine ⟨fun p => ?_, ⟨fun _ => ⟨n, by omega, fun h => absurd h hin⟩, fun _ => rfl⟩⟩
      rw [i1]
      by_cases e : p = n
      · subst e
        rw [if_neg (fun h => absurd h.1 (by omega)), if_neg (fun h => hin h.2.1)]
      · by_cases hh : p < n ∧ In C p k ∧ lastSb C (C.plane p) k.2 k.1 = true
        · rw [if_pos hh, if_pos ⟨by omega, hh.2⟩]
        · rw [if_neg hh, if_neg (fun h => hh ⟨by omega, h.2⟩)]

/-- The last superblock of a plane that is not stretched. -/
def lastOf (C : Cfg) (p : Nat) : Nat × Nat :=
  (min ((C.plane p).rows * 2 ^ (C.plane p).vShift - 1) (C.sbH - 1), min ((C.plane p).cols * 2 ^ (C.plane p).hShift - 1) (C.sbW - 1))

/-- One direction of `lastOf`. -/
theorem last_facts {n m w F g : Nat} (hm : 0 < m) (hn : 0 < n) (hw : 0 < w) (h : n * m < w + m) (hl : w % m = 0 ∨ g + w = F) :
    min (n * m - 1) (w - 1) / m = n - 1 ∧ (min (n * m - 1) (w - 1) % m = m - 1 ∨ g + min (n * m - 1) (w - 1) = F - 1) := by
  obtain ⟨c, rfl⟩ : ∃ c, n = c + 1 := ⟨n - 1, by omega⟩
  rw [Nat.add_mul, Nat.one_mul] at *
  have hd : min (c * m + m - 1) (w - 1) / m = c := by
    rw [Nat.div_eq_iff hm]
    omega
  refine ⟨by rw [hd]; omega, ?_⟩
  by_cases hc : c * m + m - 1 ≤ w - 1
  · left
    rw [Nat.min_eq_left hc, show c * m + m - 1 = m - 1 + c * m by omega, Nat.add_mul_mod_self_right, Nat.mod_eq_of_lt (by omega)]
  · right
    rcases hl with hl | hl
    · exfalso
      obtain ⟨d, rfl⟩ := Nat.dvd_of_mod_eq_zero hl
      rw [Nat.mul_comm m d] at *
      have : d ≤ c := by
        by_contra hx
        have := Nat.mul_le_mul_right m (show c + 1 ≤ d by omega)
        rw [Nat.add_mul] at this
        omega
      have := Nat.mul_le_mul_right m this
      omega
    · omega

/-- With the last superblock that is not stretched, all units of the plane are ready. -/
theorem lastOf_facts {C : Cfg} {f : Frame} (K : CfgOk C f) {p : Nat} (hp : p < C.planes) (hr : 0 < (C.plane p).rows) (hc : 0 < (C.plane p).cols) :
    In C p (lastOf C p) ∧ idx C p (lastOf C p) = ((C.plane p).rows - 1) * (C.plane p).cols + ((C.plane p).cols - 1) ∧
    lastSb C (C.plane p) (lastOf C p).2 (lastOf C p).1 = true ∧ (lastOf C p).1 < C.sbH ∧ (lastOf C p).2 < C.sbW := by
  have P := K.plane p hp
  have F := P.facts
  have hW := K.sbW
  have hH := K.sbH
  obtain ⟨x1, x2⟩ := last_facts (Nat.two_pow_pos _) hc hW F.1.1 P.lastX
  obtain ⟨y1, y2⟩ := last_facts (Nat.two_pow_pos _) hr hH F.2.1 P.lastY
  have e1 : (lastOf C p).2 / 2 ^ (C.plane p).hShift = (C.plane p).cols - 1 := x1
  have e2 : (lastOf C p).1 / 2 ^ (C.plane p).vShift = (C.plane p).rows - 1 := y1
  refine ⟨⟨by rw [e1]; omega, by rw [e2]; omega⟩, by unfold idx; rw [e1, e2], ?_, ?_, ?_⟩
  · unfold lastSb
    simp only [Nat.shiftRight_eq_div_pow, Nat.shiftLeft_eq, Nat.one_mul, Nat.and_two_pow_sub_one_eq_mod, e1, e2]
    have a1 : decide ((C.plane p).cols - 1 ≥ (C.plane p).cols) = false := decide_eq_false (by omega)
    have a2 : decide ((C.plane p).rows - 1 ≥ (C.plane p).rows) = false := decide_eq_false (by omega)
    rw [a1, a2]
    simp only [Bool.not_false, Bool.and_true, Bool.and_eq_true, Bool.or_eq_true, decide_eq_true_eq]
    exact ⟨x2, y2⟩
  · show min _ (C.sbH - 1) < C.sbH
    omega
  · show min _ (C.sbW - 1) < C.sbW
    omega

/-- After it there are only superblocks that are stretched. -/
theorem not_in_after {C : Cfg} {p : Nat} {k : Nat × Nat} (h1 : k.1 < C.sbH) (h2 : k.2 < C.sbW) (hb : Before (lastOf C p) k) : ¬In C p k := by
  rintro ⟨i1, i2⟩
  rw [Nat.div_lt_iff_lt_mul (Nat.two_pow_pos _)] at i1 i2
  unfold Before lastOf at hb
  dsimp only at hb
  omega

/-- What is known of `last_lru_ready`. -/
structure ReadyInv (C : Cfg) (pre : List (Nat × Nat)) (ready : Nat → Int) : Prop where
  ge : ∀ p, -1 ≤ ready p
  last : ∀ p < C.planes, 0 < (C.plane p).rows → 0 < (C.plane p).cols → lastOf C p ∈ pre →
    ready p = (((C.plane p).rows - 1) * (C.plane p).cols + ((C.plane p).cols - 1) : Nat)

theorem ready_step {C : Cfg} {f : Frame} (K : CfgOk C f) {pre post : List (Nat × Nat)} {k : Nat × Nat} (hL : pairs C.sbH C.sbW = pre ++ k :: post)
    {ready : Nat → Int} (I : ReadyInv C pre ready) :
    ReadyInv C (pre ++ [k]) ((List.range C.planes).foldl (readyStep C k.2 k.1) (ready, false)).1 := by
  obtain ⟨hk1, hk2, hpre⟩ := pairs_split hL
  have F := (ready_fold C k ready C.planes).1
  refine ⟨fun p => ?_, fun p hp hr hc hm => ?_⟩
  · rw [F]
    by_cases hh : p < C.planes ∧ In C p k ∧ lastSb C (C.plane p) k.2 k.1 = true
    · rw [if_pos hh]; omega
    · rw [if_neg hh]; exact I.ge p
  · rw [F]
    obtain ⟨l1, l2, l3, _, _⟩ := lastOf_facts K hp hr hc
    rcases List.mem_append.1 hm with hm | hm
    · have := not_in_after hk1 hk2 ((hpre _).1 hm).2.2
      rw [if_neg (fun h => this h.2.1)]
      exact I.last p hp hr hc hm
    · rw [List.mem_singleton] at hm
      rw [← hm, if_pos ⟨hp, l1, l3⟩, l2]

/-- At the end of the tile every unit is ready. -/
theorem all_ready {C : Cfg} {f : Frame} (K : CfgOk C f) {ready : Nat → Int} (I : ReadyInv C (pairs C.sbH C.sbW) ready) (k : Nat × Nat) (p : Nat) (hp : p < C.planes) :
    lruOf C k.2 k.1 p ≤ ready p := by
  rw [lruOf_eq]
  by_cases hin : In C p k
  · rw [if_pos ⟨hp, hin⟩]
    have hr := Nat.zero_lt_of_lt hin.2
    have hc := Nat.zero_lt_of_lt hin.1
    obtain ⟨_, _, _, l4, l5⟩ := lastOf_facts K hp hr hc
    rw [I.last p hp hr hc (mem_pairs.2 ⟨l4, l5⟩)]
    unfold idx
    have h1 := Nat.mul_le_mul_right (C.plane p).cols (show k.1 / 2 ^ (C.plane p).vShift ≤ (C.plane p).rows - 1 by have := hin.2; omega)
    have h2 := hin.1
    dsimp only at h1 h2 ⊢
    generalize k.1 / 2 ^ (C.plane p).vShift * (C.plane p).cols = t at *
    generalize k.2 / 2 ^ (C.plane p).hShift = t2 at *
    omega
  · rw [if_neg (fun h => hin h.2)]
    exact I.ge p

/-- The queue is checked with the last superblock. -/
theorem last_checks {C : Cfg} {f : Frame} (K : CfgOk C f) {pre : List (Nat × Nat)} {k : Nat × Nat} (hL : pairs C.sbH C.sbW = pre ++ [k]) (ready : Nat → Int) :
    ((List.range C.planes).foldl (readyStep C k.2 k.1) (ready, false)).2 = true := by
  obtain ⟨hk1, hk2, hpre⟩ := pairs_split hL
  have hW := K.sbW
  have hH := K.sbH
  have hk : k = (C.sbH - 1, C.sbW - 1) := by
    have : (C.sbH - 1, C.sbW - 1) ∈ pre ++ [k] := by rw [← hL]; exact mem_pairs.2 ⟨by dsimp only; omega, by dsimp only; omega⟩
    rcases List.mem_append.1 this with h | h
    · have := ((hpre _).1 h).2.2
      unfold Before at this
      dsimp only at this
      omega
    · exact (List.mem_singleton.1 h).symm
  rw [(ready_fold C k ready C.planes).2]
  refine ⟨0, K.planesPos, fun hin => ?_⟩
  have hr := Nat.zero_lt_of_lt hin.2
  have hc := Nat.zero_lt_of_lt hin.1
  obtain ⟨_, _, l3, _, _⟩ := lastOf_facts K K.planesPos hr hc
  have e : lastOf C 0 = k := by
    obtain ⟨i1, i2⟩ := hin
    rw [Nat.div_lt_iff_lt_mul (Nat.two_pow_pos _)] at i1 i2
    rw [hk] at i1 i2 ⊢
    unfold lastOf
    dsimp only at i1 i2
    exact Prod.ext (by dsimp only; omega) (by dsimp only; omega)
  rw [← e]
  exact l3

/-! ### The main loop -/

theorem foldlM_flatMap {α β σ : Type} (g : σ → β → Option σ) (h : α → List β) : ∀ (l : List α) (s : σ),
    (l.flatMap h).foldlM g s = l.foldlM (fun s a => (h a).foldlM g s) s := by
  intro l
  induction l with
  | nil => intro s; rfl
  | cons a l ih =>
    intro s
    rw [List.flatMap_cons, List.foldlM_append, List.foldlM_cons]
    congr
    funext t
    exact ih t

/-- The main loop goes through the superblocks in raster order. -/
theorem encodeLoop_eq (C : Cfg) (R : Rdo) (sbs : Nat → Nat → List Bk) (s : Enc) :
    encodeLoop C R sbs s = (pairs C.sbH C.sbW).foldlM (fun s k => encodeOne C R sbs k.2 k.1 s) s := by
  unfold encodeLoop pairs
  rw [foldlM_flatMap]
  congr
  funext s y
  rw [List.foldlM_map]

/-- What holds in the main loop: entries are written in order, and those not yet written are in the queue. -/
structure LoopInv (C : Cfg) (R : Rdo) (sbs : Nat → Nat → List Bk) (lf0 : Lf) (pre : List (Nat × Nat)) (s : Enc) : Prop where
  queue : ∃ done, pre.map (entryOf C sbs) = done ++ s.queue ∧ done.foldlM (flushIn C R) lf0 = some s.lf
  ready : ReadyInv C pre s.ready
  last : C.delayed = false → pre = pairs C.sbH C.sbW → s.queue = []

theorem foldlM_prefix {α σ : Type} {g : σ → α → Option σ} {a b : List α} {s s' s1 : σ} (h : (a ++ b).foldlM g s = some s') (ha : a.foldlM g s = some s1) :
    b.foldlM g s1 = some s' := by
  rw [List.foldlM_append, ha] at h
  exact h

theorem foldlM_prefix_some {α σ : Type} {g : σ → α → Option σ} {a b : List α} {s s' : σ} (h : (a ++ b).foldlM g s = some s') :
    ∃ s1, a.foldlM g s = some s1 := by
  rw [List.foldlM_append] at h
  rcases h1 : a.foldlM g s with _ | s1
  · rw [h1] at h; exact absurd h (by simp)
  · exact ⟨s1, rfl⟩

theorem encode_step {C : Cfg} {f : Frame} (K : CfgOk C f) {R : Rdo} {sbs : Nat → Nat → List Bk} {lf0 lf1 : Lf}
    (hall : ((pairs C.sbH C.sbW).map (entryOf C sbs)).foldlM (flushIn C R) lf0 = some lf1) {pre post : List (Nat × Nat)} {k : Nat × Nat}
    (hL : pairs C.sbH C.sbW = pre ++ k :: post) {s : Enc} (I : LoopInv C R sbs lf0 pre s) :
    ∃ s', encodeOne C R sbs k.2 k.1 s = some s' ∧ LoopInv C R sbs lf0 (pre ++ [k]) s' := by
  obtain ⟨done, d1, d2⟩ := I.queue
  have hR := ready_step K hL I.ready
  have hmap : (pre ++ [k]).map (entryOf C sbs) = done ++ (s.queue ++ [entryOf C sbs k]) := by
    rw [List.map_append, d1]; simp
  have hq : ∃ s', (s.queue ++ [entryOf C sbs k]).foldlM (flushIn C R) s.lf = some s' := by
    have e : (pairs C.sbH C.sbW).map (entryOf C sbs) = done ++ ((s.queue ++ [entryOf C sbs k]) ++ post.map (entryOf C sbs)) := by
      rw [hL, show pre ++ k :: post = (pre ++ [k]) ++ post by simp, List.map_append, hmap, List.append_assoc]
    rw [e] at hall
    exact foldlM_prefix_some (foldlM_prefix hall d2)
  obtain ⟨s', hq⟩ := hq
  unfold encodeOne
  rcases hst : (List.range C.planes).foldl (readyStep C k.2 k.1) (s.ready, false) with ⟨ready, check⟩
  rw [hst] at hR
  dsimp only
  by_cases hc : (check && !C.delayed) = true
  · rw [if_pos hc]
    obtain ⟨a, b, s1, a1, a2, a3⟩ := check_prefix C R ready _ _ _ hq
    have a3' : checkQueue C R ready (s.queue ++ [{ x := k.2, y := k.1, lru := lruOf C k.2 k.1, recs := encodeSb C (sbs k.2 k.1) }]) s.lf = some (b, s1) := a3
    rw [a3']
    refine ⟨_, rfl, ⟨⟨done ++ a, ?_, ?_⟩, hR, fun _ he => ?_⟩⟩
    · rw [hmap, a1, List.append_assoc]
    · rw [List.foldlM_append, d2]
      exact a2
    · dsimp only
      have hready : ∀ e ∈ s.queue ++ [entryOf C sbs k], ∀ p < C.planes, e.lru p ≤ ready p := by
        intro e hm p hp
        have : e ∈ (pre ++ [k]).map (entryOf C sbs) := by rw [hmap]; exact List.mem_append_right _ hm
        obtain ⟨z, _, rfl⟩ := List.mem_map.1 this
        rw [he] at hR
        exact all_ready K hR z p hp
      have := check_all C R ready _ _ _ hready hq
      rw [a3] at this
      simp only [Option.some.injEq, Prod.mk.injEq] at this
      exact this.1
  · rw [if_neg hc]
    refine ⟨_, rfl, ⟨⟨done, hmap, d2⟩, hR, fun hd he => ?_⟩⟩
    exfalso
    have := last_checks K he.symm s.ready
    rw [hst] at this
    dsimp only at this
    rw [this, hd] at hc
    exact hc rfl

/-- **Every superblock is written once, in raster order, and the queue is empty in the end.** -/
theorem encodeTile_eq {C : Cfg} {f : Frame} (K : CfgOk C f) {R : Rdo} {sbs : Nat → Nat → List Bk} {filters cdef} {lf1 : Lf}
    (hall : ((pairs C.sbH C.sbW).map (entryOf C sbs)).foldlM (flushIn C R) ⟨fun _ => -1, fun _ => -1, filters, cdef, fun _ => initRefs, []⟩ = some lf1) :
    encodeTile C R sbs filters cdef = some lf1 := by
  have go : ∀ (post pre : List (Nat × Nat)) (s : Enc), pairs C.sbH C.sbW = pre ++ post →
      LoopInv C R sbs ⟨fun _ => -1, fun _ => -1, filters, cdef, fun _ => initRefs, []⟩ pre s →
      ∃ s', post.foldlM (fun s k => encodeOne C R sbs k.2 k.1 s) s = some s' ∧
        LoopInv C R sbs ⟨fun _ => -1, fun _ => -1, filters, cdef, fun _ => initRefs, []⟩ (pairs C.sbH C.sbW) s' := by
    intro post
    induction post with
    | nil =>
      intro pre s hL I
      rw [List.append_nil] at hL
      rw [hL]
      exact ⟨s, rfl, I⟩
    | cons k post ih =>
      intro pre s hL I
      obtain ⟨s1, e1, I1⟩ := encode_step K hall hL I
      obtain ⟨s2, e2, I2⟩ := ih (pre ++ [k]) s1 (by rw [hL]; simp) I1
      refine ⟨s2, ?_, I2⟩
      rw [List.foldlM_cons, e1]
      exact e2
  have hne : pairs C.sbH C.sbW ≠ [] := by
    intro h
    have : ((0, 0) : Nat × Nat) ∈ pairs C.sbH C.sbW := mem_pairs.2 ⟨K.sbH, K.sbW⟩
    rw [h] at this
    exact absurd this (by simp)
  obtain ⟨s, e, I⟩ := go (pairs C.sbH C.sbW) [] ⟨[], fun _ => -1, ⟨fun _ => -1, fun _ => -1, filters, cdef, fun _ => initRefs, []⟩⟩ rfl
    ⟨⟨[], rfl, rfl⟩, ⟨fun _ => le_rfl, fun p _ _ _ h => absurd h (by simp)⟩, fun _ h => absurd h.symm hne⟩
  rw [← encodeLoop_eq] at e
  unfold encodeTile
  rw [e]
  simp only [Option.bind_eq_bind, Option.bind_some]
  obtain ⟨done, d1, d2⟩ := I.queue
  rw [d1] at hall
  have hq := foldlM_prefix hall d2
  have hlc : lastCheck C R s = some ([], lf1) := by
    unfold lastCheck
    rcases hd : C.delayed with _ | _
    · rw [if_neg (by simp)]
      have h0 := I.last hd rfl
      rw [h0] at hq ⊢
      simp only [List.foldlM_nil, Option.pure_def, Option.some.injEq] at hq
      rw [hq]
    · rw [if_pos rfl]
      refine check_all C R s.ready _ _ _ (fun e hm p hp => ?_) hq
      have : e ∈ (pairs C.sbH C.sbW).map (entryOf C sbs) := by rw [d1]; exact List.mem_append_right _ hm
      obtain ⟨z, _, rfl⟩ := List.mem_map.1 this
      exact all_ready K I.ready z p hp
  rw [hlc]
  rfl

end Rav1e.LoopSyn
