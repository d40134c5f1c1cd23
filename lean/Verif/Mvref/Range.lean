import Verif.Mvref.Coded

/-!
# The range of motion vectors

The specification requires that the motion vectors of all blocks, whether they are new or taken from a candidate, are less than `1 << 14` in absolute value
(`is_mv_valid`, 5.11.26).  New vectors are checked by the encoder; the candidates are made from vectors of earlier blocks.
-/

namespace Rav1e.Mvref

open Spec (Entry Blk Info St Input)

/-- The requirement of bitstream conformance of section 5.11.26. -/
def Valid (v : Spec.Mv) : Prop := v.1.natAbs < 2 ^ 14 ∧ v.2.natAbs < 2 ^ 14

instance (v : Spec.Mv) : Decidable (Valid v) := by unfold Valid; infer_instance

/-- All candidates are valid. -/
def Valids (s : List Entry) : Prop := ∀ q ∈ s, Valid q.mv0 ∧ Valid q.mv1

theorem valid_zero : Valid (0, 0) := by decide

theorem valid_lower {v : Spec.Mv} (h : Valid v) : Valid (Spec.lower v) := by
  unfold Valid at *
  unfold Spec.lower Spec.lowerComp
  dsimp only
  constructor <;> split_ifs <;> omega

variable {p : Input}

theorem valid_turned {v : Spec.Mv} (h : Valid v) (a b : Int) : Valid (p.turned a b v) := by
  unfold Spec.Input.turned
  split_ifs
  · unfold Valid at *; dsimp only; omega
  · exact h

/-- What has been decoded is valid. -/
def VFrame (p : Input) : Prop := ∀ r c b, p.g.isInside r c = true → p.d r.toNat c.toNat = some b → (0 < b.info.ref0 → Valid b.info.mv0) ∧ (0 < b.info.ref1 → Valid b.info.mv1)

theorem valids_addWeight {mv0 mv1 : Spec.Mv} {w : Nat} : ∀ {s t : List Entry}, Valids s → Spec.addWeight mv0 mv1 w s = some t → Valids t
  | [], _, _, h => by simp [Spec.addWeight] at h
  | e :: l, t, hs, h => by
    rw [Spec.addWeight] at h
    split_ifs at h with hc
    · rw [Option.some.injEq] at h
      subst h
      intro q hq
      rcases List.mem_cons.mp hq with rfl | hq
      · exact hs e List.mem_cons_self
      · exact hs q (List.mem_cons_of_mem _ hq)
    · obtain ⟨t', h1, rfl⟩ := Option.map_eq_some_iff.mp h
      have := valids_addWeight (fun q hq => hs q (List.mem_cons_of_mem _ hq)) h1
      intro q hq
      rcases List.mem_cons.mp hq with rfl | hq
      · exact hs q List.mem_cons_self
      · exact this q hq

theorem valids_search {s : St} (h : Valids s.stack) (b : Info) {mv0 mv1 : Spec.Mv} (h0 : Valid mv0) (h1 : Valid mv1) (w : Nat) :
    Valids (Spec.searchStack b mv0 mv1 w s).stack := by
  unfold Spec.searchStack
  dsimp only
  cases hw : Spec.addWeight mv0 mv1 w s.stack with
  | some t => exact valids_addWeight h hw
  | none =>
    dsimp only
    split_ifs
    · intro q hq
      rcases List.mem_append.mp hq with hq | hq
      · exact h q hq
      · rw [List.mem_singleton] at hq
        subst hq
        exact ⟨h0, h1⟩
    · exact h

/-- The vectors of a block that are used. -/
def VInfo (b : Info) : Prop := (0 < b.ref0 → Valid b.mv0) ∧ (0 < b.ref1 → Valid b.mv1)

theorem valids_addRef (hp : 0 < p.ref0) {s : St} (h : Valids s.stack) {b : Info} (hb : VInfo b) (w : Nat) : Valids (p.addRef b w s).stack := by
  unfold Spec.Input.addRef
  have k : ∀ {s : St} (_ : Valids s.stack) (v : Spec.Mv), Valid v → Valids (Spec.searchStack b (Spec.lower v) (0, 0) w s).stack :=
    fun h v hv => valids_search h b (valid_lower hv) valid_zero w
  by_cases h1 : b.isInter = false
  · rw [if_pos h1]; exact h
  rw [if_neg h1]
  by_cases h2 : p.isCompound = false
  · rw [if_pos h2]
    dsimp only
    have q : Valids (if b.ref0 = p.ref0 then Spec.searchStack b (Spec.lower b.mv0) (0, 0) w s else s).stack := by
      split_ifs with hr
      · exact k h _ (hb.1 (by omega))
      · exact h
    by_cases hr : b.ref1 = p.ref0
    · rw [if_pos hr]; exact k q _ (hb.2 (by omega))
    · rw [if_neg hr]; exact q
  · rw [if_neg h2]
    have hc : 0 < p.ref1 := by simpa [Spec.Input.isCompound] using h2
    by_cases hr : b.ref0 = p.ref0 ∧ b.ref1 = p.ref1
    · rw [if_pos hr]
      exact valids_search h b (valid_lower (hb.1 (by omega))) (valid_lower (hb.2 (by omega))) w
    · rw [if_neg hr]; exact h

theorem valids_rowLoop (hp : 0 < p.ref0) (hd : VFrame p) (a b : Int) (n : Nat) :
    ∀ (fuel i : Nat) {s t : St}, Valids s.stack → p.rowLoop a b n fuel i s = some t → Valids t.stack
  | 0, i, s, t, hs, h => by
    rw [Spec.Input.rowLoop] at h
    split_ifs at h
    rw [Option.some.injEq] at h
    exact h ▸ hs
  | fuel + 1, i, s, t, hs, h => by
    rw [Spec.Input.rowLoop] at h
    dsimp only at h
    by_cases h1 : i < n
    · rw [if_pos h1] at h
      by_cases h2 : p.g.isInside ((p.miRow : Int) + a) ((p.miCol : Int) + b + i) = false
      · rw [if_pos h2, Option.some.injEq] at h; exact h ▸ hs
      · rw [if_neg h2] at h
        obtain ⟨x, hx, h⟩ := Option.bind_eq_some_iff.mp h
        exact valids_rowLoop hp hd a b n fuel _ (valids_addRef hp hs (hd _ _ x (by simpa using h2) hx) _) h
    · rw [if_neg h1, Option.some.injEq] at h; exact h ▸ hs

theorem valids_colLoop (hp : 0 < p.ref0) (hd : VFrame p) (a b : Int) (n : Nat) :
    ∀ (fuel i : Nat) {s t : St}, Valids s.stack → p.colLoop a b n fuel i s = some t → Valids t.stack
  | 0, i, s, t, hs, h => by
    rw [Spec.Input.colLoop] at h
    split_ifs at h
    rw [Option.some.injEq] at h
    exact h ▸ hs
  | fuel + 1, i, s, t, hs, h => by
    rw [Spec.Input.colLoop] at h
    dsimp only at h
    by_cases h1 : i < n
    · rw [if_pos h1] at h
      by_cases h2 : p.g.isInside ((p.miRow : Int) + a + i) ((p.miCol : Int) + b) = false
      · rw [if_pos h2, Option.some.injEq] at h; exact h ▸ hs
      · rw [if_neg h2] at h
        obtain ⟨x, hx, h⟩ := Option.bind_eq_some_iff.mp h
        exact valids_colLoop hp hd a b n fuel _ (valids_addRef hp hs (hd _ _ x (by simpa using h2) hx) _) h
    · rw [if_neg h1, Option.some.injEq] at h; exact h ▸ hs

theorem valids_scanRow (hp : 0 < p.ref0) (hd : VFrame p) {d : Int} {s t : St} (hs : Valids s.stack) (h : p.scanRow d s = some t) : Valids t.stack := by
  unfold Spec.Input.scanRow at h
  dsimp only at h
  split_ifs at h <;> exact valids_rowLoop hp hd _ _ _ _ _ hs h

theorem valids_scanCol (hp : 0 < p.ref0) (hd : VFrame p) {d : Int} {s t : St} (hs : Valids s.stack) (h : p.scanCol d s = some t) : Valids t.stack := by
  unfold Spec.Input.scanCol at h
  dsimp only at h
  split_ifs at h <;> exact valids_colLoop hp hd _ _ _ _ _ hs h

theorem valids_scanPoint (hp : 0 < p.ref0) (hd : VFrame p) {s : St} (hs : Valids s.stack) (a b : Int) : Valids (p.scanPoint a b s).stack := by
  unfold Spec.Input.scanPoint
  dsimp only
  split_ifs with hi
  · split
    · rename_i b hb
      exact valids_addRef hp hs (hd _ _ b hi hb) _
    · exact hs
  · exact hs

theorem valids_nearest (hp : 0 < p.ref0) (hd : VFrame p) {s : St} {a l : Bool} (h : p.nearest = some (s, a, l)) : Valids s.stack := by
  unfold Spec.Input.nearest at h
  obtain ⟨s1, h1, h⟩ := Option.bind_eq_some_iff.mp h
  obtain ⟨s2, h2, h⟩ := Option.bind_eq_some_iff.mp h
  have q1 := valids_scanRow hp hd (s := ⟨[], 0, false⟩) (fun _ hq => by simp at hq) h1
  have q2 := valids_scanCol hp hd (s := { s1 with foundMatch := false }) q1 h2
  dsimp only [pure] at h
  rw [Option.some.injEq, Prod.mk.injEq] at h
  rw [← h.1]
  split_ifs
  · exact valids_scanPoint hp hd (s := { s2 with foundMatch := false }) q2 _ _
  · exact q2

theorem valids_outer (hp : 0 < p.ref0) (hd : VFrame p) {s t : St} {a l a' l' : Bool} (hs : Valids s.stack) (h : p.outer s a l = some (t, a', l')) : Valids t.stack := by
  unfold Spec.Input.outer at h
  have q0 := valids_scanPoint hp hd (s := { s with foundMatch := false }) hs (-1) (-1)
  obtain ⟨s1, h1, h⟩ := Option.bind_eq_some_iff.mp h
  have q1 := valids_scanRow hp hd (s := { p.scanPoint (-1) (-1) { s with foundMatch := false } with foundMatch := false }) q0 h1
  obtain ⟨s2, h2, h⟩ := Option.bind_eq_some_iff.mp h
  have q2 := valids_scanCol hp hd (s := { s1 with foundMatch := false }) q1 h2
  have r3 : ∀ {s3 : St}, (if p.bh4 > 1 then p.scanRow (-5) { s2 with foundMatch := false } else some { s2 with foundMatch := false }) = some s3 → Valids s3.stack := by
    intro s3 h3
    split_ifs at h3
    · exact valids_scanRow hp hd (s := { s2 with foundMatch := false }) q2 h3
    · rw [Option.some.injEq] at h3; rw [← h3]; exact q2
  have r4 : ∀ {s3 s4 : St}, Valids s3.stack → (if p.bw4 > 1 then p.scanCol (-5) { s3 with foundMatch := false } else some { s3 with foundMatch := false }) = some s4 → Valids s4.stack := by
    intro s3 s4 q3 h4
    split_ifs at h4
    · exact valids_scanCol hp hd (s := { s3 with foundMatch := false }) q3 h4
    · rw [Option.some.injEq] at h4; rw [← h4]; exact q3
  dsimp only at h
  split_ifs at h with c1 c2 c2 <;> obtain ⟨s3, h3, h⟩ := Option.bind_eq_some_iff.mp h <;> obtain ⟨s4, h4, h⟩ := Option.bind_eq_some_iff.mp h <;>
    rw [← (Prod.mk.inj (Option.some.inj h)).1]
  · exact r4 (r3 (by rw [if_pos c1]; exact h3)) (by rw [if_pos c2]; exact h4)
  · exact r4 (r3 (by rw [if_pos c1]; exact h3)) (by rw [if_neg c2]; exact h4)
  · exact r4 (r3 (s3 := s3) (by rw [if_neg c1]; exact h3)) (by rw [if_pos c2]; exact h4)
  · exact r4 (r3 (s3 := s3) (by rw [if_neg c1]; exact h3)) (by rw [if_neg c2]; exact h4)

/-- The vectors of the extra search. -/
structure VExtra (e : Spec.Extra) : Prop where
  stack : Valids e.stack
  id0 : ∀ v ∈ e.id0, Valid v
  id1 : ∀ v ∈ e.id1, Valid v
  diff0 : ∀ v ∈ e.diff0, Valid v
  diff1 : ∀ v ∈ e.diff1, Valid v

theorem VExtra.add {e : Spec.Extra} (h : VExtra e) {v : Spec.Mv} {r : Int} (hv : 0 < r → Valid v) : VExtra (p.addExtra r v e) := by
  unfold Spec.Input.addExtra
  by_cases hr : r > 0
  · have hv := hv hr
    have ht := fun a b => valid_turned (p := p) hv a b
    rw [if_pos hr]
    by_cases hc : p.isCompound = true
    · rw [if_pos hc]
      dsimp only
      have k : ∀ e : Spec.Extra, VExtra e → VExtra (if r = p.ref1 ∧ e.id1.length < 2 then { e with id1 := e.id1 ++ [v] }
          else if e.diff1.length < 2 then { e with diff1 := e.diff1 ++ [p.turned r p.ref1 v] } else e) := by
        intro e h
        split_ifs
        · exact ⟨h.stack, h.id0, mv_snoc h.id1 hv, h.diff0, h.diff1⟩
        · exact ⟨h.stack, h.id0, h.id1, h.diff0, mv_snoc h.diff1 (ht _ _)⟩
        · exact h
      apply k
      split_ifs
      · exact ⟨h.stack, mv_snoc h.id0 hv, h.id1, h.diff0, h.diff1⟩
      · exact ⟨h.stack, h.id0, h.id1, mv_snoc h.diff0 (ht _ _), h.diff1⟩
      · exact h
    · rw [if_neg hc]
      dsimp only
      split_ifs
      · exact h
      · refine ⟨?_, h.id0, h.id1, h.diff0, h.diff1⟩
        intro q hq
        rcases List.mem_append.mp hq with hq | hq
        · exact h.stack q hq
        · rw [List.mem_singleton] at hq
          subst hq
          exact ⟨ht _ _, valid_zero⟩
  · rw [if_neg hr]; exact h

theorem VExtra.loop (hd : VFrame p) (pass n : Nat) : ∀ (fuel i : Nat) {e e' : Spec.Extra}, VExtra e → p.extraLoop pass n fuel i e = some e' → VExtra e'
  | 0, i, e, e', he, h => by
    rw [Spec.Input.extraLoop] at h
    split_ifs at h
    rw [Option.some.injEq] at h
    exact h ▸ he
  | fuel + 1, i, e, e', he, h => by
    rw [Spec.Input.extraLoop] at h
    dsimp only at h
    by_cases h1 : i < n ∧ e.stack.length < 2
    · rw [if_pos h1] at h
      generalize (if pass = 0 then (p.miRow : Int) - 1 else p.miRow + i) = r at h
      generalize (if pass = 0 then (p.miCol : Int) + i else (p.miCol : Int) - 1) = c at h
      by_cases h2 : p.g.isInside r c = false
      · rw [if_pos h2, Option.some.injEq] at h
        exact h ▸ he
      · rw [if_neg h2] at h
        obtain ⟨x, hx, h⟩ := Option.bind_eq_some_iff.mp h
        obtain ⟨q0, q1⟩ := hd r c x (by simpa using h2) hx
        exact VExtra.loop hd pass n fuel _ ((he.add q0).add q1) h
    · rw [if_neg h1, Option.some.injEq] at h
      exact h ▸ he

theorem valid_combined {a b : List Spec.Mv} (ha : ∀ v ∈ a, Valid v) (hb : ∀ v ∈ b, Valid v) :
    Valid (Spec.combined a b).1 ∧ Valid (Spec.combined a b).2 := by
  unfold Spec.combined
  have h : ∀ v ∈ a ++ b ++ [(0, 0), (0, 0)], Valid v := by
    intro v hv
    rcases List.mem_append.mp hv with hv | hv
    · rcases List.mem_append.mp hv with hv | hv
      · exact ha v hv
      · exact hb v hv
    · have : v = (0, 0) := by simpa using hv
      exact this ▸ valid_zero
  split
  · rename_i x y l heq
    rw [heq] at h
    exact ⟨h x (by simp), h y (by simp)⟩
  · exact ⟨valid_zero, valid_zero⟩

theorem valids_two {a b : Entry} (h1 : Valid a.mv0 ∧ Valid a.mv1) (h2 : Valid b.mv0 ∧ Valid b.mv1) : Valids [a, b] := by
  intro q hq
  rcases List.mem_cons.mp hq with rfl | hq
  · exact h1
  · rw [List.mem_singleton] at hq; exact hq ▸ h2

theorem valids_extra (hd : VFrame p) {s t : List Entry} (hs : Valids s) (h : p.extraSearch s = some t) :
    Valids t ∧ (p.isCompound = true → 2 ≤ t.length) := by
  unfold Spec.Input.extraSearch at h
  obtain ⟨e1, h1, h⟩ := Option.bind_eq_some_iff.mp h
  obtain ⟨e2, h2, h⟩ := Option.bind_eq_some_iff.mp h
  have q1 := VExtra.loop hd _ _ _ _ (e := ⟨s, [], [], [], []⟩) ⟨hs, by simp, by simp, by simp, by simp⟩ h1
  have q2 := VExtra.loop hd _ _ _ _ q1 h2
  obtain ⟨c1, c2⟩ := valid_combined q2.id0 q2.diff0
  obtain ⟨c3, c4⟩ := valid_combined q2.id1 q2.diff1
  split_ifs at h with hc
  · dsimp only at h
    split at h
    · rename_i q hq
      rw [Option.some.injEq] at h
      have := q2.stack q (by rw [hq]; simp)
      subst h
      split_ifs
      · exact ⟨valids_two this ⟨c2, c4⟩, fun _ => by simp⟩
      · exact ⟨valids_two this ⟨c1, c3⟩, fun _ => by simp⟩
    · rw [Option.some.injEq] at h
      subst h
      exact ⟨valids_two ⟨c1, c3⟩ ⟨c2, c4⟩, fun _ => by simp⟩
  · rw [Option.some.injEq] at h
    exact ⟨h ▸ q2.stack, fun hc' => absurd hc' hc⟩

theorem valid_clip {v lo hi : Int} (hv : v.natAbs < 2 ^ 14) (h1 : lo ≤ 0) (h2 : 0 ≤ hi) : (Spec.clip3 lo hi v).natAbs < 2 ^ 14 := by
  unfold Spec.clip3
  split_ifs <;> omega

theorem valid_clamp (hr : p.miRow ≤ p.g.miRows) (hc : p.miCol ≤ p.g.miCols) {q : Entry} (h : Valid q.mv0 ∧ Valid q.mv1) :
    Valid (p.clampEntry q).mv0 ∧ Valid (p.clampEntry q).mv1 := by
  have hr : ∀ v : Int, v.natAbs < 2 ^ 14 → (p.clampRow v).natAbs < 2 ^ 14 := fun v hv => valid_clip hv (by omega) (by omega)
  have hc : ∀ v : Int, v.natAbs < 2 ^ 14 → (p.clampCol v).natAbs < 2 ^ 14 := fun v hv => valid_clip hv (by omega) (by omega)
  unfold Spec.Input.clampEntry
  refine ⟨⟨hr _ h.1.1, hc _ h.1.2⟩, ?_⟩
  dsimp only
  split_ifs
  · exact ⟨hr _ h.2.1, hc _ h.2.2⟩
  · exact h.2

/-- What the prediction process gives. -/
theorem valids_stack (hp : 0 < p.ref0) (hr : p.miRow ≤ p.g.miRows) (hc : p.miCol ≤ p.g.miCols) (hd : VFrame p) {out : Spec.Result} (h : p.findMvStack = some out) :
    Valids out.stack := by
  unfold Spec.Input.findMvStack at h
  obtain ⟨⟨s1, a1, l1⟩, h1, h⟩ := Option.bind_eq_some_iff.mp h
  have q1 := valids_nearest hp hd h1
  obtain ⟨⟨s2, a2, l2⟩, h2, h⟩ := Option.bind_eq_some_iff.mp h
  have q1' : Valids (s1.stack.map fun e : Entry => { e with weight := e.weight + 640 }) := by
    intro q hq
    obtain ⟨q', hq', rfl⟩ := List.mem_map.mp hq
    exact q1 q' hq'
  have q2 := valids_outer hp hd (s := { s1 with stack := s1.stack.map fun e : Entry => { e with weight := e.weight + 640 } }) q1' h2
  dsimp only at h
  generalize hZ : Spec.sort s1.stack.length (s2.stack.take s1.stack.length) ++
    Spec.sort (s2.stack.length - s1.stack.length) (s2.stack.drop s1.stack.length) = Z at h
  have qZ : Valids Z := by
    intro q hq
    rw [← hZ] at hq
    rcases List.mem_append.mp hq with hq | hq
    · exact q2 q (List.mem_of_mem_take (mem_sort (by rw [List.length_take]; omega) hq))
    · exact q2 q (List.mem_of_mem_drop (mem_sort (by rw [List.length_drop]) hq))
  have fin : ∀ {Y : List Entry}, Valids Y →
      out = { stack := Y.map p.clampEntry, newMvContext := (Spec.contexts (a1.toNat + l1.toNat) (a2.toNat + l2.toNat) s1.newMvCount).1,
              refMvContext := (Spec.contexts (a1.toNat + l1.toNat) (a2.toNat + l2.toNat) s1.newMvCount).2, drl := Spec.drlCtx Y } →
      Valids out.stack := by
    intro Y qY ho
    subst ho
    intro q hq
    obtain ⟨q', hq', rfl⟩ := List.mem_map.mp hq
    exact valid_clamp hr hc (qY q' hq')
  by_cases h3 : Z.length < 2
  · rw [if_pos h3] at h
    obtain ⟨Y, hY, h⟩ := Option.bind_eq_some_iff.mp h
    obtain ⟨g1, g2⟩ := valids_extra hd qZ hY
    exact fin g1 (Option.some.inj h).symm
  · rw [if_neg h3] at h
    exact fin qZ (Option.some.inj h).symm

/-- What has been decoded is one of the blocks. -/
theorem decoded_mem (l : List Blk) {i j : Nat} {b : Blk} (h : Spec.decoded l i j = some b) : b ∈ l := by
  have key : ∀ (l : List Blk) (d : Spec.Frame), l.foldl Spec.Frame.store d i j = some b → b ∈ l ∨ d i j = some b := by
    intro l
    induction l with
    | nil => intro d h; exact .inr h
    | cons s l ih =>
      intro d h
      rw [List.foldl_cons] at h
      rcases ih _ h with h | h
      · exact .inl (List.mem_cons_of_mem _ h)
      · unfold Spec.Frame.store at h
        split_ifs at h
        · exact .inl (by rw [Option.some.inj h]; exact List.mem_cons_self)
        · exact .inr h
  exact (key l _ h).resolve_right (by simp)

theorem isValid_iff {v : Mv} : isValid v = true ↔ Valid v := by
  unfold isValid Valid
  rw [decide_eq_true_eq]
  omega

/-- Vectors that are what a mode says about valid candidates. -/
theorem says_valid {m : Mode} {mv0 mv1 : Mv} {stack : List Cand} (hv : ∀ q ∈ stack, Valid q.this ∧ Valid q.comp) (hs : Says m mv0 mv1 stack)
    (hn : NewsOk m mv0 mv1 stack) : Valid mv0 ∧ (m.isCompound = true → Valid mv1) := by
  have at_ : ∀ {i : Nat} {q : Cand}, stack[i]? = some q → Valid q.this ∧ Valid q.comp := fun h => hv _ (List.mem_of_getElem? h)
  have get : ∀ i : Nat, Valid (((stack[i]?).map Cand.this).getD (0, 0)) := by
    intro i
    cases h : stack[i]? with
    | none => exact valid_zero
    | some q => exact (at_ h).1
  have n0 : m = .newmv ∨ m = .new_newmv ∨ m = .new_nearestmv → Valid mv0 := fun h => isValid_iff.1 (hn.1 h).1
  have n1 : m = .new_newmv ∨ m = .nearest_newmv → Valid mv1 := fun h => isValid_iff.1 (hn.2 h).1
  cases m with
  | nearestmv => exact ⟨hs ▸ get 0, by simp [Mode.isCompound]⟩
  | near0mv => exact ⟨hs ▸ get 1, by simp [Mode.isCompound]⟩
  | near1mv => obtain ⟨q, h, rfl⟩ := hs; exact ⟨(at_ h).1, by simp [Mode.isCompound]⟩
  | near2mv => obtain ⟨q, h, rfl⟩ := hs; exact ⟨(at_ h).1, by simp [Mode.isCompound]⟩
  | globalmv => exact ⟨hs ▸ valid_zero, by simp [Mode.isCompound]⟩
  | newmv => exact ⟨n0 (.inl rfl), by simp [Mode.isCompound]⟩
  | nearest_nearestmv => obtain ⟨q, h, rfl, rfl⟩ := hs; exact ⟨(at_ h).1, fun _ => (at_ h).2⟩
  | near_near0mv => obtain ⟨q, h, rfl, rfl⟩ := hs; exact ⟨(at_ h).1, fun _ => (at_ h).2⟩
  | near_near1mv => obtain ⟨q, h, rfl, rfl⟩ := hs; exact ⟨(at_ h).1, fun _ => (at_ h).2⟩
  | near_near2mv => obtain ⟨q, h, rfl, rfl⟩ := hs; exact ⟨(at_ h).1, fun _ => (at_ h).2⟩
  | nearest_newmv => obtain ⟨q, h, rfl⟩ := hs; exact ⟨(at_ h).1, fun _ => n1 (.inr rfl)⟩
  | new_nearestmv => obtain ⟨q, h, rfl⟩ := hs; exact ⟨n0 (.inr (.inr rfl)), fun _ => (at_ h).2⟩
  | global_globalmv => obtain ⟨rfl, rfl⟩ := hs; exact ⟨valid_zero, fun _ => valid_zero⟩
  | new_newmv => exact ⟨n0 (.inr (.inl rfl)), fun _ => n1 (.inl rfl)⟩
  | intra => exact hs.elim
  | near_new0mv => exact hs.elim
  | near_new1mv => exact hs.elim
  | near_new2mv => exact hs.elim
  | new_near0mv => exact hs.elim
  | new_near1mv => exact hs.elim
  | new_near2mv => exact hs.elim

open Spec (Geo Tree Sym)

variable {g : Geo} {t : Nat → Nat → Tree} {sb : Int → Bool}

theorem coded_valid (G : GeoOk g) (ht : ∀ r c, (t r c).Ok 16) {pre post : List Blk} {l : List Sym} (h : Coded g sb pre post l) :
    g.tile t = pre ++ post → (∀ b ∈ pre, VInfo b.info) → (∀ b ∈ post, b.info.mode = .intra → b.info.ref0 ≤ 0 ∧ b.info.ref1 ≤ 0) → ∀ b ∈ post, VInfo b.info := by
  induction h with
  | nil => intro _ _ _ b hb; exact absurd hb (by simp)
  | @intra pre b post l hi _ ih =>
    intro hb hp hI
    obtain ⟨i1, i2⟩ := hI b List.mem_cons_self hi
    have hv : VInfo b.info := ⟨fun h => absurd h (by omega), fun h => absurd h (by omega)⟩
    have := ih (by rw [hb, List.append_assoc]; rfl) (by
      intro x hx
      rcases List.mem_append.1 hx with hx | hx
      · exact hp x hx
      · rw [List.mem_singleton.1 hx]; exact hv) (fun x hx => hI x (List.mem_cons_of_mem _ hx))
    intro x hx
    rcases List.mem_cons.1 hx with rfl | hx
    · exact hv
    · exact this x hx
  | @inter pre b post l w e stack ctx m R hm hc hmode h1 hs hn hw _ ih =>
    intro hb hp hI
    obtain ⟨out, o1, A, -⟩ := agrees G ht hb R hm
    have L := tile_leaf G ht hb
    have hin := L.inTile
    unfold In at hin
    have := G.rowLe
    have := G.colLe
    have hr0 : 0 < b.info.ref0 := by
      have h2 : b.info.ref0 = refInt e.ref0 := R.ref0
      have h3 := R.ref0ok
      unfold refInt at h2
      rw [if_neg (by omega)] at h2
      omega
    have hV := valids_stack (p := inputAt g pre b b.info.ref0 b.info.ref1 sb) hr0 (by show b.row ≤ g.miRows; omega) (by show b.col ≤ g.miCols; omega)
      (fun r c x _ hx => hp x (decoded_mem pre hx)) o1
    have hst : ∀ q ∈ stack, Valid q.this ∧ Valid q.comp := by
      intro q hq
      rw [A.cands] at hq
      obtain ⟨q', hq', rfl⟩ := List.mem_map.1 hq
      exact hV q' hq'
    obtain ⟨v0, v1⟩ := says_valid hst hs hn
    have hv : VInfo b.info := ⟨fun _ => v0, fun h => v1 (by rw [hc, R.isCompound]; exact decide_eq_true h)⟩
    have := ih (by rw [hb, List.append_assoc]; rfl) (by
      intro x hx
      rcases List.mem_append.1 hx with hx | hx
      · exact hp x hx
      · rw [List.mem_singleton.1 hx]; exact hv) (fun x hx => hI x (List.mem_cons_of_mem _ hx))
    intro x hx
    rcases List.mem_cons.1 hx with rfl | hx
    · exact hv
    · exact this x hx

/-- **C61.**  All motion vectors of a tile meet the requirement of bitstream conformance, also those that are taken from candidates, which are made from the vectors of
earlier blocks by rounding, turning around and clamping. -/
theorem tile_vectors_valid (G : GeoOk g) (ht : ∀ r c, (t r c).Ok 16) {l : List Sym} (h : Coded g sb [] (g.tile t) l)
    (hI : ∀ b ∈ g.tile t, b.info.mode = .intra → b.info.ref0 ≤ 0 ∧ b.info.ref1 ≤ 0) :
    ∀ b ∈ g.tile t, (0 < b.info.ref0 → b.info.mv0.1.natAbs < 2 ^ 14 ∧ b.info.mv0.2.natAbs < 2 ^ 14) ∧
      (0 < b.info.ref1 → b.info.mv1.1.natAbs < 2 ^ 14 ∧ b.info.mv1.2.natAbs < 2 ^ 14) :=
  coded_valid G ht h rfl (fun b hb => absurd hb (by simp)) hI

/-- The tile of the example of `tile_motion`. -/
example : ∀ b ∈ oneGeo.tile fun _ _ => oneTree, (0 < b.info.ref0 → b.info.mv0.1.natAbs < 2 ^ 14 ∧ b.info.mv0.2.natAbs < 2 ^ 14) ∧
    (0 < b.info.ref1 → b.info.mv1.1.natAbs < 2 ^ 14 ∧ b.info.mv1.2.natAbs < 2 ^ 14) := by
  obtain ⟨l, _, h⟩ := one_coded
  exact tile_vectors_valid ⟨rfl, rfl, rfl, rfl, by decide, by decide, .inl rfl, .inl rfl⟩ (fun _ _ => by simp [oneTree, Tree.Ok]) h (by rw [one_tile]; decide)

end Rav1e.Mvref
