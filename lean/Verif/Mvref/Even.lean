import Verif.Mvref.Theorems

/-!
# What is on the stack

All candidates are in quarters of a pixel, and with two references there are always at least two.
-/

namespace Rav1e.Mvref

open Spec (Entry Blk Info St Input)

/-- In quarters of a pixel. -/
def Quarter (v : Spec.Mv) : Prop := v.1 % 2 = 0 ∧ v.2 % 2 = 0

/-- All candidates are in quarters of a pixel. -/
def Quarters (s : List Entry) : Prop := ∀ q ∈ s, Quarter q.mv0 ∧ Quarter q.mv1

theorem quarter_zero : Quarter (0, 0) := ⟨rfl, rfl⟩

theorem quarter_lower (v : Spec.Mv) : Quarter (Spec.lower v) := by
  unfold Spec.lower Spec.lowerComp Quarter
  dsimp only
  constructor <;> split_ifs <;> omega

variable {p : Input}

theorem quarter_turned {v : Spec.Mv} (h : Quarter v) (a b : Int) : Quarter (p.turned a b v) := by
  unfold Spec.Input.turned
  split_ifs
  · obtain ⟨h1, h2⟩ := h
    exact ⟨by show (-v.1) % 2 = 0; omega, by show (-v.2) % 2 = 0; omega⟩
  · exact h

theorem quarters_addWeight {mv0 mv1 : Spec.Mv} {w : Nat} : ∀ {s t : List Entry}, Quarters s → Spec.addWeight mv0 mv1 w s = some t → Quarters t
  | [], _, _, h => by simp [Spec.addWeight] at h
  | e :: l, t, hs, h => by
    rw [Spec.addWeight] at h
    split_ifs at h with hc
    · rw [Option.some.injEq] at h
      subst h
      intro q hq
      rcases List.mem_cons.mp hq with rfl | hq
      · exact hs e List.mem_cons_self
      · exact hs q (List.mem_cons_of_mem _ hq)
    · obtain ⟨t', h1, rfl⟩ := Option.map_eq_some_iff.mp h
      have := quarters_addWeight (fun q hq => hs q (List.mem_cons_of_mem _ hq)) h1
      intro q hq
      rcases List.mem_cons.mp hq with rfl | hq
      · exact hs q List.mem_cons_self
      · exact this q hq

theorem quarters_search {s : St} (h : Quarters s.stack) (b : Info) {mv0 mv1 : Spec.Mv} (h0 : Quarter mv0) (h1 : Quarter mv1) (w : Nat) :
    Quarters (Spec.searchStack b mv0 mv1 w s).stack := by
  unfold Spec.searchStack
  dsimp only
  cases hw : Spec.addWeight mv0 mv1 w s.stack with
  | some t => exact quarters_addWeight h hw
  | none =>
    dsimp only
    split_ifs
    · intro q hq
      rcases List.mem_append.mp hq with hq | hq
      · exact h q hq
      · rw [List.mem_singleton] at hq
        subst hq
        exact ⟨h0, h1⟩
    · exact h

theorem quarters_addRef {s : St} (h : Quarters s.stack) (b : Info) (w : Nat) : Quarters (p.addRef b w s).stack := by
  unfold Spec.Input.addRef
  dsimp only
  have k : ∀ {s : St} (_ : Quarters s.stack) (v : Spec.Mv), Quarters (Spec.searchStack b (Spec.lower v) (0, 0) w s).stack :=
    fun h v => quarters_search h b (quarter_lower v) quarter_zero w
  split_ifs
  · exact h
  · exact k (k h _) _
  · exact k h _
  · exact k h _
  · exact h
  · exact quarters_search h b (quarter_lower _) (quarter_lower _) w
  · exact h

theorem quarters_rowLoop (a b : Int) (n : Nat) : ∀ (fuel i : Nat) {s t : St}, Quarters s.stack → p.rowLoop a b n fuel i s = some t → Quarters t.stack
  | 0, i, s, t, hs, h => by
    rw [Spec.Input.rowLoop] at h
    split_ifs at h
    rw [Option.some.injEq] at h
    exact h ▸ hs
  | fuel + 1, i, s, t, hs, h => by
    rw [Spec.Input.rowLoop] at h
    dsimp only at h
    split_ifs at h <;> first
      | (rw [Option.some.injEq] at h; exact h ▸ hs)
      | (obtain ⟨x, _, h⟩ := Option.bind_eq_some_iff.mp h
         exact quarters_rowLoop a b n fuel _ (quarters_addRef hs _ _) h)

theorem quarters_colLoop (a b : Int) (n : Nat) : ∀ (fuel i : Nat) {s t : St}, Quarters s.stack → p.colLoop a b n fuel i s = some t → Quarters t.stack
  | 0, i, s, t, hs, h => by
    rw [Spec.Input.colLoop] at h
    split_ifs at h
    rw [Option.some.injEq] at h
    exact h ▸ hs
  | fuel + 1, i, s, t, hs, h => by
    rw [Spec.Input.colLoop] at h
    dsimp only at h
    split_ifs at h <;> first
      | (rw [Option.some.injEq] at h; exact h ▸ hs)
      | (obtain ⟨x, _, h⟩ := Option.bind_eq_some_iff.mp h
         exact quarters_colLoop a b n fuel _ (quarters_addRef hs _ _) h)

theorem quarters_scanRow {d : Int} {s t : St} (hs : Quarters s.stack) (h : p.scanRow d s = some t) : Quarters t.stack := by
  unfold Spec.Input.scanRow at h
  dsimp only at h
  split_ifs at h <;> exact quarters_rowLoop _ _ _ _ _ hs h

theorem quarters_scanCol {d : Int} {s t : St} (hs : Quarters s.stack) (h : p.scanCol d s = some t) : Quarters t.stack := by
  unfold Spec.Input.scanCol at h
  dsimp only at h
  split_ifs at h <;> exact quarters_colLoop _ _ _ _ _ hs h

theorem quarters_scanPoint {s : St} (hs : Quarters s.stack) (a b : Int) : Quarters (p.scanPoint a b s).stack := by
  unfold Spec.Input.scanPoint
  dsimp only
  split_ifs
  · split
    · exact quarters_addRef hs _ _
    · exact hs
  · exact hs

theorem quarters_nearest {s : St} {a l : Bool} (h : p.nearest = some (s, a, l)) : Quarters s.stack := by
  unfold Spec.Input.nearest at h
  obtain ⟨s1, h1, h⟩ := Option.bind_eq_some_iff.mp h
  obtain ⟨s2, h2, h⟩ := Option.bind_eq_some_iff.mp h
  have q1 := quarters_scanRow (s := ⟨[], 0, false⟩) (fun _ hq => by simp at hq) h1
  have q2 := quarters_scanCol (s := { s1 with foundMatch := false }) q1 h2
  dsimp only [pure] at h
  rw [Option.some.injEq, Prod.mk.injEq] at h
  rw [← h.1]
  split_ifs
  · exact quarters_scanPoint (s := { s2 with foundMatch := false }) q2 _ _
  · exact q2

theorem quarters_outer {s t : St} {a l a' l' : Bool} (hs : Quarters s.stack) (h : p.outer s a l = some (t, a', l')) : Quarters t.stack := by
  unfold Spec.Input.outer at h
  have q0 := quarters_scanPoint (p := p) (s := { s with foundMatch := false }) hs (-1) (-1)
  obtain ⟨s1, h1, h⟩ := Option.bind_eq_some_iff.mp h
  have q1 := quarters_scanRow (s := { p.scanPoint (-1) (-1) { s with foundMatch := false } with foundMatch := false }) q0 h1
  obtain ⟨s2, h2, h⟩ := Option.bind_eq_some_iff.mp h
  have q2 := quarters_scanCol (s := { s1 with foundMatch := false }) q1 h2
  have r3 : ∀ {s3 : St}, (if p.bh4 > 1 then p.scanRow (-5) { s2 with foundMatch := false } else some { s2 with foundMatch := false }) = some s3 → Quarters s3.stack := by
    intro s3 h3
    split_ifs at h3
    · exact quarters_scanRow (s := { s2 with foundMatch := false }) q2 h3
    · rw [Option.some.injEq] at h3; rw [← h3]; exact q2
  have r4 : ∀ {s3 s4 : St}, Quarters s3.stack → (if p.bw4 > 1 then p.scanCol (-5) { s3 with foundMatch := false } else some { s3 with foundMatch := false }) = some s4 → Quarters s4.stack := by
    intro s3 s4 q3 h4
    split_ifs at h4
    · exact quarters_scanCol (s := { s3 with foundMatch := false }) q3 h4
    · rw [Option.some.injEq] at h4; rw [← h4]; exact q3
  dsimp only at h
  split_ifs at h with c1 c2 c2 <;> obtain ⟨s3, h3, h⟩ := Option.bind_eq_some_iff.mp h <;> obtain ⟨s4, h4, h⟩ := Option.bind_eq_some_iff.mp h <;>
    rw [← (Prod.mk.inj (Option.some.inj h)).1]
  · exact r4 (r3 (by rw [if_pos c1]; exact h3)) (by rw [if_pos c2]; exact h4)
  · exact r4 (r3 (by rw [if_pos c1]; exact h3)) (by rw [if_neg c2]; exact h4)
  · exact r4 (r3 (s3 := s3) (by rw [if_neg c1]; exact h3)) (by rw [if_pos c2]; exact h4)
  · exact r4 (r3 (s3 := s3) (by rw [if_neg c1]; exact h3)) (by rw [if_neg c2]; exact h4)

/-- The vectors of the extra search. -/
structure QExtra (e : Spec.Extra) : Prop where
  stack : Quarters e.stack
  id0 : ∀ v ∈ e.id0, Quarter v
  id1 : ∀ v ∈ e.id1, Quarter v
  diff0 : ∀ v ∈ e.diff0, Quarter v
  diff1 : ∀ v ∈ e.diff1, Quarter v

theorem mv_snoc {P : Spec.Mv → Prop} {l : List Spec.Mv} {v : Spec.Mv} (h : ∀ x ∈ l, P x) (hv : P v) : ∀ x ∈ l ++ [v], P x := by
  intro x hx
  rcases List.mem_append.mp hx with hx | hx
  · exact h x hx
  · rw [List.mem_singleton] at hx
    exact hx ▸ hv

theorem QExtra.add {e : Spec.Extra} (h : QExtra e) {v : Spec.Mv} (hv : Quarter v) (r : Int) : QExtra (p.addExtra r v e) := by
  unfold Spec.Input.addExtra
  have ht := fun a b => quarter_turned (p := p) hv a b
  by_cases hr : r > 0
  · rw [if_pos hr]
    by_cases hc : p.isCompound = true
    · rw [if_pos hc]
      dsimp only
      have k : ∀ e : Spec.Extra, QExtra e → QExtra (if r = p.ref1 ∧ e.id1.length < 2 then { e with id1 := e.id1 ++ [v] }
          else if e.diff1.length < 2 then { e with diff1 := e.diff1 ++ [p.turned r p.ref1 v] } else e) := by
        intro e h
        split_ifs
        · exact ⟨h.stack, h.id0, mv_snoc h.id1 hv, h.diff0, h.diff1⟩
        · exact ⟨h.stack, h.id0, h.id1, h.diff0, mv_snoc h.diff1 (ht _ _)⟩
        · exact h
      apply k
      split_ifs
      · exact ⟨h.stack, mv_snoc h.id0 hv, h.id1, h.diff0, h.diff1⟩
      · exact ⟨h.stack, h.id0, h.id1, mv_snoc h.diff0 (ht _ _), h.diff1⟩
      · exact h
    · rw [if_neg hc]
      dsimp only
      split_ifs
      · exact h
      · refine ⟨?_, h.id0, h.id1, h.diff0, h.diff1⟩
        intro q hq
        rcases List.mem_append.mp hq with hq | hq
        · exact h.stack q hq
        · rw [List.mem_singleton] at hq
          subst hq
          exact ⟨ht _ _, quarter_zero⟩
  · rw [if_neg hr]; exact h

/-- What has been decoded is in quarters of a pixel. -/
def QFrame (p : Input) : Prop := ∀ r c b, p.g.isInside r c = true → p.d r.toNat c.toNat = some b → Quarter b.info.mv0 ∧ Quarter b.info.mv1

theorem QExtra.loop (hd : QFrame p) (pass n : Nat) : ∀ (fuel i : Nat) {e e' : Spec.Extra}, QExtra e → p.extraLoop pass n fuel i e = some e' → QExtra e'
  | 0, i, e, e', he, h => by
    rw [Spec.Input.extraLoop] at h
    split_ifs at h
    rw [Option.some.injEq] at h
    exact h ▸ he
  | fuel + 1, i, e, e', he, h => by
    rw [Spec.Input.extraLoop] at h
    dsimp only at h
    by_cases h1 : i < n ∧ e.stack.length < 2
    · rw [if_pos h1] at h
      generalize (if pass = 0 then (p.miRow : Int) - 1 else p.miRow + i) = r at h
      generalize (if pass = 0 then (p.miCol : Int) + i else (p.miCol : Int) - 1) = c at h
      by_cases h2 : p.g.isInside r c = false
      · rw [if_pos h2, Option.some.injEq] at h
        exact h ▸ he
      · rw [if_neg h2] at h
        obtain ⟨x, hx, h⟩ := Option.bind_eq_some_iff.mp h
        obtain ⟨q0, q1⟩ := hd r c x (by simpa using h2) hx
        exact QExtra.loop hd pass n fuel _ ((he.add q0 _).add q1 _) h
    · rw [if_neg h1, Option.some.injEq] at h
      exact h ▸ he

theorem quarter_combined {a b : List Spec.Mv} (ha : ∀ v ∈ a, Quarter v) (hb : ∀ v ∈ b, Quarter v) :
    Quarter (Spec.combined a b).1 ∧ Quarter (Spec.combined a b).2 := by
  unfold Spec.combined
  have h : ∀ v ∈ a ++ b ++ [(0, 0), (0, 0)], Quarter v := by
    intro v hv
    rcases List.mem_append.mp hv with hv | hv
    · rcases List.mem_append.mp hv with hv | hv
      · exact ha v hv
      · exact hb v hv
    · have : v = (0, 0) := by simpa using hv
      exact this ▸ quarter_zero
  split
  · rename_i x y l heq
    rw [heq] at h
    exact ⟨h x (by simp), h y (by simp)⟩
  · exact ⟨quarter_zero, quarter_zero⟩

theorem quarters_two {a b : Entry} (h1 : Quarter a.mv0 ∧ Quarter a.mv1) (h2 : Quarter b.mv0 ∧ Quarter b.mv1) : Quarters [a, b] := by
  intro q hq
  rcases List.mem_cons.mp hq with rfl | hq
  · exact h1
  · rw [List.mem_singleton] at hq; exact hq ▸ h2

theorem extra_spec (hd : QFrame p) {s t : List Entry} (hs : Quarters s) (h : p.extraSearch s = some t) :
    Quarters t ∧ (p.isCompound = true → 2 ≤ t.length) := by
  unfold Spec.Input.extraSearch at h
  obtain ⟨e1, h1, h⟩ := Option.bind_eq_some_iff.mp h
  obtain ⟨e2, h2, h⟩ := Option.bind_eq_some_iff.mp h
  have q1 := QExtra.loop hd _ _ _ _ (e := ⟨s, [], [], [], []⟩) ⟨hs, by simp, by simp, by simp, by simp⟩ h1
  have q2 := QExtra.loop hd _ _ _ _ q1 h2
  obtain ⟨c1, c2⟩ := quarter_combined q2.id0 q2.diff0
  obtain ⟨c3, c4⟩ := quarter_combined q2.id1 q2.diff1
  split_ifs at h with hc
  · dsimp only at h
    split at h
    · rename_i q hq
      rw [Option.some.injEq] at h
      have := q2.stack q (by rw [hq]; simp)
      subst h
      split_ifs
      · exact ⟨quarters_two this ⟨c2, c4⟩, fun _ => by simp⟩
      · exact ⟨quarters_two this ⟨c1, c3⟩, fun _ => by simp⟩
    · rw [Option.some.injEq] at h
      subst h
      exact ⟨quarters_two ⟨c1, c3⟩ ⟨c2, c4⟩, fun _ => by simp⟩
  · rw [Option.some.injEq] at h
    exact ⟨h ▸ q2.stack, fun hc' => absurd hc' hc⟩

theorem mem_sort {n : Nat} {l : List Entry} (hn : l.length ≤ n) {q : Entry} (h : q ∈ Spec.sort n l) : q ∈ l :=
  mem_of_atW (sort_spec n l hn).2 h

theorem quarter_clip {v m : Int} (a : Nat) (b : Int) (hv : v % 2 = 0) (hm : m % 2 = 0) : (Spec.clip3 (-((a : Int) * 4 * 8) - m) (b * 4 * 8 + m) v) % 2 = 0 := by
  unfold Spec.clip3
  split_ifs <;> omega

theorem quarter_clamp {q : Entry} (h : Quarter q.mv0 ∧ Quarter q.mv1) : Quarter (p.clampEntry q).mv0 ∧ Quarter (p.clampEntry q).mv1 := by
  have hr : ∀ v : Int, v % 2 = 0 → p.clampRow v % 2 = 0 := fun v hv => quarter_clip _ _ hv (by omega)
  have hc : ∀ v : Int, v % 2 = 0 → p.clampCol v % 2 = 0 := fun v hv => quarter_clip _ _ hv (by omega)
  unfold Spec.Input.clampEntry
  refine ⟨⟨hr _ h.1.1, hc _ h.1.2⟩, ?_⟩
  dsimp only
  split_ifs
  · exact ⟨hr _ h.2.1, hc _ h.2.2⟩
  · exact h.2

theorem contexts_lt (a l a' l' : Bool) (n : Nat) :
    (Spec.contexts (a.toNat + l.toNat) (a'.toNat + l'.toNat) n).1 < 6 ∧ (Spec.contexts (a.toNat + l.toNat) (a'.toNat + l'.toNat) n).2 < 6 := by
  unfold Spec.contexts
  cases a <;> cases l <;> cases a' <;> cases l' <;> simp <;> omega

/-- What the prediction process gives. -/
theorem stack_spec (hd : QFrame p) {out : Spec.Result} (h : p.findMvStack = some out) :
    Quarters out.stack ∧ (p.isCompound = true → 2 ≤ out.stack.length) ∧ out.newMvContext < 6 ∧ out.refMvContext < 6 := by
  unfold Spec.Input.findMvStack at h
  obtain ⟨⟨s1, a1, l1⟩, h1, h⟩ := Option.bind_eq_some_iff.mp h
  have q1 := quarters_nearest h1
  obtain ⟨⟨s2, a2, l2⟩, h2, h⟩ := Option.bind_eq_some_iff.mp h
  have q1' : Quarters (s1.stack.map fun e : Entry => { e with weight := e.weight + 640 }) := by
    intro q hq
    obtain ⟨q', hq', rfl⟩ := List.mem_map.mp hq
    exact q1 q' hq'
  have q2 := quarters_outer (s := { s1 with stack := s1.stack.map fun e : Entry => { e with weight := e.weight + 640 } }) q1' h2
  dsimp only at h
  generalize hZ : Spec.sort s1.stack.length (s2.stack.take s1.stack.length) ++
    Spec.sort (s2.stack.length - s1.stack.length) (s2.stack.drop s1.stack.length) = Z at h
  have qZ : Quarters Z := by
    intro q hq
    rw [← hZ] at hq
    rcases List.mem_append.mp hq with hq | hq
    · exact q2 q (List.mem_of_mem_take (mem_sort (by rw [List.length_take]; omega) hq))
    · exact q2 q (List.mem_of_mem_drop (mem_sort (by rw [List.length_drop]) hq))
  have fin : ∀ {Y : List Entry}, Quarters Y → (p.isCompound = true → 2 ≤ Y.length) →
      out = { stack := Y.map p.clampEntry, newMvContext := (Spec.contexts (a1.toNat + l1.toNat) (a2.toNat + l2.toNat) s1.newMvCount).1,
              refMvContext := (Spec.contexts (a1.toNat + l1.toNat) (a2.toNat + l2.toNat) s1.newMvCount).2, drl := Spec.drlCtx Y } →
      Quarters out.stack ∧ (p.isCompound = true → 2 ≤ out.stack.length) ∧ out.newMvContext < 6 ∧ out.refMvContext < 6 := by
    intro Y qY lY ho
    subst ho
    refine ⟨?_, fun hc => by show 2 ≤ (Y.map p.clampEntry).length; rw [List.length_map]; exact lY hc, contexts_lt _ _ _ _ _⟩
    intro q hq
    obtain ⟨q', hq', rfl⟩ := List.mem_map.mp hq
    exact quarter_clamp (qY q' hq')
  by_cases h3 : Z.length < 2
  · rw [if_pos h3] at h
    obtain ⟨Y, hY, h⟩ := Option.bind_eq_some_iff.mp h
    obtain ⟨g1, g2⟩ := extra_spec hd qZ hY
    exact fin g1 g2 (Option.some.inj h).symm
  · rw [if_neg h3] at h
    exact fin qZ (fun _ => by omega) (Option.some.inj h).symm

/-- The encoder's blocks are in quarters of a pixel. -/
theorem Rel.qframe {e : Env} (R : Rel e p) : QFrame p := by
  intro r c b hin hb
  unfold Spec.Geo.isInside at hin
  simp only [Bool.and_eq_true, decide_eq_true_eq] at hin
  obtain ⟨⟨⟨i1, i2⟩, i3⟩, i4⟩ := hin
  have hc := R.cols
  have hr := R.rows
  have e1 : r.toNat = p.g.rowStart + (r.toNat - p.g.rowStart) := by omega
  have e2 : c.toNat = p.g.colStart + (c.toNat - p.g.colStart) := by omega
  rw [e1, e2] at hb
  have S := R.shows (by omega) (by omega) hb
  rw [← S.info]
  exact ⟨S.mv0.2, S.mv1.2⟩

end Rav1e.Mvref
