import Verif.Mvref.Final

/-!
# The extra search, and clamping
-/

namespace Rav1e.Mvref

open Spec (Entry St Info Input Blk Geo)

variable {e : Env} {p : Input}

/-! ### Vectors on the stack are `i16` -/

def Fits (s : List Cand) : Prop := ∀ c ∈ s, I16 c.this ∧ I16 c.comp

theorem i16_zero : I16 (0, 0) := by unfold I16; decide

theorem matchMv_fits {mv : Mv} {w : Nat} : ∀ {s : List Cand}, Fits s → Fits (matchMv mv w s).1 := by
  intro s
  induction s with
  | nil => exact id
  | cons a s ih =>
    intro h
    rw [matchMv]
    split_ifs with h1
    · intro c hc
      rcases List.mem_cons.mp hc with rfl | hc
      · exact h a List.mem_cons_self
      · exact h c (List.mem_cons_of_mem _ hc)
    · intro c hc
      rcases List.mem_cons.mp hc with rfl | hc
      · exact h c List.mem_cons_self
      · exact ih (fun c hc => h c (List.mem_cons_of_mem _ hc)) c hc

theorem matchCompMv_fits {mv0 mv1 : Mv} {w : Nat} : ∀ {s : List Cand}, Fits s → Fits (matchCompMv mv0 mv1 w s).1 := by
  intro s
  induction s with
  | nil => exact id
  | cons a s ih =>
    intro h
    rw [matchCompMv]
    split_ifs with h1
    · intro c hc
      rcases List.mem_cons.mp hc with rfl | hc
      · exact h a List.mem_cons_self
      · exact h c (List.mem_cons_of_mem _ hc)
    · intro c hc
      rcases List.mem_cons.mp hc with rfl | hc
      · exact h c List.mem_cons_self
      · exact ih (fun c hc => h c (List.mem_cons_of_mem _ hc)) c hc

theorem push_fits {s s' : List Cand} {c : Cand} (h : push s c = some s') (hs : Fits s) (hc : I16 c.this ∧ I16 c.comp) : Fits s' := by
  unfold push at h
  split_ifs at h
  rw [← Option.some.inj h]
  intro x hx
  rcases List.mem_append.mp hx with hx | hx
  · exact hs x hx
  · rw [List.mem_singleton.mp hx]; exact hc

theorem addSingle_fits {b : Block} {mv : Mv} {w : Nat} {s s' : Scan} (h : addSingle b mv w s = some s') (hs : Fits s.stack) (hm : I16 mv) : Fits s'.stack := by
  unfold addSingle at h
  dsimp only at h
  split_ifs at h
  · cases hp : push (matchMv mv w s.stack).1 ⟨mv, (0, 0), w⟩ with
    | none => rw [hp] at h; cases h
    | some l =>
      rw [hp] at h
      rw [← Option.some.inj h]
      exact push_fits hp (matchMv_fits hs) ⟨hm, i16_zero⟩
  · cases hp : push (matchMv mv w s.stack).1 ⟨mv, (0, 0), w⟩ with
    | none => rw [hp] at h; cases h
    | some l =>
      rw [hp] at h
      rw [← Option.some.inj h]
      exact push_fits hp (matchMv_fits hs) ⟨hm, i16_zero⟩
  · rw [← Option.some.inj h]; exact matchMv_fits hs
  · rw [← Option.some.inj h]; exact matchMv_fits hs

theorem addRef_fits {r0 r1 : Nat} {b : Block} {w : Nat} {c : Bool} {s : Scan} {q : Scan × Bool} (h : addRefMvCandidate r0 r1 b w c s = some q)
    (hs : Fits s.stack) (h0 : I16 b.mv0) (h1 : I16 b.mv1) : Fits q.1.stack := by
  unfold addRefMvCandidate at h
  by_cases hi : (!b.isInter) = true
  · rw [if_pos hi] at h; rw [← Option.some.inj h]; exact hs
  · rw [if_neg hi] at h
    by_cases hc : c = true
    · rw [if_pos hc] at h
      by_cases hr : b.ref0 = r0 ∧ b.ref1 = r1
      · rw [if_pos hr] at h
        dsimp only at h
        have fin : ∀ {o : Option (List Cand)} {n : Nat}, (∀ l, o = some l → Fits l) → (o.bind fun l => some ((⟨l, n⟩ : Scan), true)) = some q → Fits q.1.stack := by
          intro o n ho h
          cases o with
          | none => cases h
          | some l => rw [← Option.some.inj h]; exact ho l rfl
        split_ifs at h
        · exact fin (fun l hl => push_fits hl (matchCompMv_fits hs) ⟨h0, h1⟩) h
        · exact fin (fun l hl => push_fits hl (matchCompMv_fits hs) ⟨h0, h1⟩) h
        · exact fin (fun l hl => by rw [← Option.some.inj hl]; exact matchCompMv_fits hs) h
        · exact fin (fun l hl => by rw [← Option.some.inj hl]; exact matchCompMv_fits hs) h
      · rw [if_neg hr] at h; rw [← Option.some.inj h]; exact hs
    · rw [if_neg hc] at h
      have fin : ∀ {s : Scan} {f : Bool}, Fits s.stack → (if b.ref1 = r0 then (addSingle b b.mv1 w s).map (·, true) else some (s, f)) = some q → Fits q.1.stack := by
        intro s f hs h
        by_cases hb : b.ref1 = r0
        · rw [if_pos hb] at h
          cases ha : addSingle b b.mv1 w s with
          | none => rw [ha] at h; cases h
          | some s' => rw [ha] at h; rw [← Option.some.inj h]; exact addSingle_fits ha hs h1
        · rw [if_neg hb] at h; rw [← Option.some.inj h]; exact hs
      by_cases hb : b.ref0 = r0
      · rw [if_pos hb] at h
        cases ha : addSingle b b.mv0 w s with
        | none => rw [ha] at h; cases h
        | some s' => rw [ha] at h; exact fin (addSingle_fits ha hs h0) h
      · rw [if_neg hb] at h
        exact fin hs h

/-- All vectors of a tile are `i16`. -/
def AllI16 (e : Env) : Prop := ∀ r c, I16 (e.t.data r c).mv0 ∧ I16 (e.t.data r c).mv1

theorem at_i16 (A : AllI16 e) {a b : Int} {blk : Block} (h : e.t.atOffset e.x e.y a b = some blk) : I16 blk.mv0 ∧ I16 blk.mv1 := by
  unfold Tile.atOffset Tile.at at h
  split_ifs at h
  rw [← Option.some.inj h]
  exact A _ _

theorem rowLoop_fits (A : AllI16 e) {dr dc M : Int} {n : Nat} : ∀ {fuel i : Nat} {s : Scan} {P : Int} {f : Bool} {q : Scan × Int × Bool},
    e.rowLoop dr dc M n fuel i s P f = some q → Fits s.stack → Fits q.1.stack := by
  intro fuel
  induction fuel with
  | zero =>
    intro i s P f q h hs
    rw [Env.rowLoop] at h
    split_ifs at h
    rw [← Option.some.inj h]; exact hs
  | succ fuel ih =>
    intro i s P f q h hs
    rw [Env.rowLoop] at h
    by_cases hl : i < n
    · rw [if_pos hl] at h
      cases hb : e.t.atOffset e.x e.y (dc + i) dr with
      | none => rw [hb] at h; cases h
      | some blk =>
        rw [hb] at h
        simp only [Option.bind_eq_bind, Option.bind_some] at h
        by_cases hx : ((decide (e.w ≥ 2) && decide (e.w ≤ blk.n4w)) && decide (min (-M + dr + 1) (blk.n4h : Int) < 0)) = true
        · rw [if_pos hx] at h; cases h
        · rw [if_neg hx] at h
          obtain ⟨i1, i2⟩ := at_i16 A hb
          generalize hW : stepLen e.w blk.n4w dr * (if (decide (e.w ≥ 2) && decide (e.w ≤ blk.n4w)) = true then max 2 (min (-M + dr + 1) (blk.n4h : Int)).toNat else 2) = wt at h
          cases ha : addRefMvCandidate e.ref0 e.ref1 blk wt e.isCompound s with
          | none => rw [ha] at h; cases h
          | some r =>
            rw [ha] at h
            exact ih h (addRef_fits ha hs i1 i2)
    · rw [if_neg hl] at h; rw [← Option.some.inj h]; exact hs

theorem first_fits (A : AllI16 e) {M P : Int} {s : Scan} {q : Scan × Int × Bool} (h : e.first M s P = some q) (hs : Fits s.stack) : Fits q.1.stack := by
  unfold Env.first at h
  split_ifs at h
  · exact rowLoop_fits A h hs
  · rw [← Option.some.inj h]; exact hs

theorem further_fits (A : AllI16 e) {M P : Int} {adj : Bool} {idx : Nat} {s : Scan} {q : Scan × Int × Bool} (h : e.further M adj idx s P = some q) (hs : Fits s.stack) :
    Fits q.1.stack := by
  unfold Env.further at h
  dsimp only at h
  split_ifs at h
  · exact rowLoop_fits A h hs
  · rw [← Option.some.inj h]; exact hs

theorem scanBlk_fits (A : AllI16 e) {dc dr : Int} {s : Scan} {go : Prop} [Decidable go] {q : Scan × Bool}
    (h : (if go then e.scanBlk dc dr s else some (s, false)) = some q) (hs : Fits s.stack) : Fits q.1.stack := by
  unfold Env.scanBlk Tile.at at h
  dsimp only at h
  split_ifs at h
  · rw [← Option.some.inj h]; exact hs
  · exact addRef_fits h hs (A _ _).1 (A _ _).2
  · cases h
  · rw [← Option.some.inj h]; exact hs

theorem outerStep_fits (A : AllI16 e) {idx : Nat} {s : Scan} {P Q : Int} {rm cm : Bool} {q : Scan × Int × Int × Bool × Bool}
    (h : e.outerStep e.maxRow e.T.maxRow e.rowAdj e.T.rowAdj idx s P Q rm cm = some q) (hs : Fits s.stack) : Fits q.1.stack := by
  have A' : AllI16 e.T := fun r c => A c r
  rw [outerStep_def] at h
  obtain ⟨r, h1, h⟩ := Option.bind_eq_some_iff.mp h
  obtain ⟨c, h2, h⟩ := Option.bind_eq_some_iff.mp h
  rw [← Option.some.inj h]
  exact further_fits A' h2 (further_fits A h1 hs)

theorem scan_fits (A : AllI16 e) {s : Scan} {P Q : Int} {a l : Bool} {q : Scan × Bool × Bool}
    (h1 : e.nearest e.maxRow e.T.maxRow = some (s, P, Q, a, l))
    (h2 : e.outer e.maxRow e.T.maxRow e.rowAdj e.T.rowAdj (addOffset s.stack) P Q a l = some q) : Fits q.1.stack := by
  have A' : AllI16 e.T := fun r c => A c r
  have hs : Fits s.stack := by
    rw [nearest_def] at h1
    obtain ⟨r, k1, h⟩ := Option.bind_eq_some_iff.mp h1
    obtain ⟨c, k2, h⟩ := Option.bind_eq_some_iff.mp h
    obtain ⟨b, k3, h⟩ := Option.bind_eq_some_iff.mp h
    have : b.1 = s := congrArg (fun x => x.1) (Option.some.inj h)
    rw [← this]
    exact scanBlk_fits A k3 (first_fits A' k2 (first_fits A k1 (fun _ hc => by cases hc)))
  have hs' : Fits (addOffset s.stack) := by
    intro c hc
    unfold addOffset at hc
    obtain ⟨c', hc', rfl⟩ := List.mem_map.mp hc
    exact hs c' hc'
  rw [outer_def] at h2
  obtain ⟨r, k1, h⟩ := Option.bind_eq_some_iff.mp h2
  obtain ⟨c, k2, h⟩ := Option.bind_eq_some_iff.mp h
  obtain ⟨b, k3, h⟩ := Option.bind_eq_some_iff.mp h
  rw [← Option.some.inj h]
  exact outerStep_fits A k3 (outerStep_fits A k2 (scanBlk_fits A k1 hs'))

/-! ### The extra search -/

/-- The encoder's arrays for the decoder's. -/
def toX (x : Spec.Extra) : Extra := ⟨x.stack.map ofE, x.id0, x.id1, x.diff0, x.diff1⟩

/-- After an entry of low weight there are only such entries. -/
def Low (s : List Entry) : Prop := s.Pairwise fun a b => a.weight < 640 → b.weight < 640

theorem Low.snoc {s : List Entry} (h : Low s) {q : Entry} (hq : q.weight < 640) : Low (s ++ [q]) :=
  List.pairwise_append.mpr ⟨h, List.pairwise_singleton .., fun _ _ b hb _ => by rw [List.mem_singleton.mp hb]; exact hq⟩

/-- What holds of them. -/
structure XOk (p : Input) (x : Spec.Extra) : Prop where
  plain : Plain p x.stack
  low : Low x.stack
  stack : ∀ q ∈ x.stack, I16 q.mv0 ∧ I16 q.mv1
  id0 : ∀ v ∈ x.id0, I16 v
  id1 : ∀ v ∈ x.id1, I16 v
  diff0 : ∀ v ∈ x.diff0, I16 v
  diff1 : ∀ v ∈ x.diff1, I16 v

theorem Small.i16 {v : Spec.Mv} (h : Small v) : I16 v := by unfold Small at h; unfold I16; omega

theorem small_turned {a b : Int} {v : Spec.Mv} (h : Small v) : I16 (p.turned a b v) := by
  unfold Small at h
  unfold Spec.Input.turned I16
  split_ifs
  · dsimp only; omega
  · omega

theorem turned_eq (R : Rel e p) {a b : Nat} (ha : 1 ≤ a ∧ a ≤ 7) (hb : 1 ≤ b ∧ b ≤ 7) {v : Spec.Mv} (h : Small v) :
    e.turned a b v = some (p.turned (refInt a) (refInt b) v) := by
  unfold Small at h
  have ea : refInt a = a := by unfold refInt; rw [if_neg (by omega)]
  have eb : refInt b = b := by unfold refInt; rw [if_neg (by omega)]
  unfold Env.turned Env.bias negI16 Spec.Input.turned
  rw [if_neg (by omega), if_neg (by omega), ea, eb, R.sign a ha.1 ha.2, R.sign b hb.1 hb.2, if_neg (by omega), if_neg (by omega)]
  simp only [Option.bind_eq_bind, Option.bind_some, bne_iff_ne]
  split_ifs <;> rfl

theorem findMatching_eq (v : Spec.Mv) (s : List Entry) : findMatchingMv v (s.map ofE) = s.any fun q => decide (q.mv0 = v) := by
  unfold findMatchingMv
  rw [List.any_map]
  congr 1
  funext q
  show decide (v.1 = q.mv0.1 ∧ v.2 = q.mv0.2) = decide (q.mv0 = v)
  by_cases h : q.mv0 = v
  · rw [decide_eq_true h, h]; exact decide_eq_true ⟨rfl, rfl⟩
  · rw [decide_eq_false h]
    exact decide_eq_false fun h' => h (Prod.ext h'.1.symm h'.2.symm)

theorem mem_snoc {P : Spec.Mv → Prop} {l : List Spec.Mv} {v : Spec.Mv} (hl : ∀ x ∈ l, P x) (hv : P v) : ∀ x ∈ l ++ [v], P x := by
  intro x hx
  rcases List.mem_append.mp hx with hx | hx
  · exact hl x hx
  · rw [List.mem_singleton.mp hx]; exact hv

theorem addExtra_eq (R : Rel e p) {r : Nat} (hr : r ≤ 8) {v : Spec.Mv} (hv : Small v) {x : Spec.Extra} (X : XOk p x) (hl : x.stack.length < 8) :
    e.addExtraOne r v (toX x) = some (toX (p.addExtra (refInt r) v x)) ∧ XOk p (p.addExtra (refInt r) v x) ∧
      (p.addExtra (refInt r) v x).stack.length ≤ x.stack.length + 1 ∧ (p.isCompound = true → (p.addExtra (refInt r) v x).stack = x.stack) := by
  unfold Env.addExtraOne Spec.Input.addExtra
  by_cases h0 : r ≠ 0 ∧ r ≠ 8
  · have hpos : refInt r > 0 := by unfold refInt; rw [if_neg h0.2]; omega
    have hr7 : 1 ≤ r ∧ r ≤ 7 := by omega
    rw [if_pos h0, if_pos hpos, R.comp]
    by_cases hc : p.isCompound = true
    · rw [if_pos hc, if_pos hc]
      have h1ok : 1 ≤ e.ref1 ∧ e.ref1 ≤ 7 := by
        rcases R.compound with h | h
        · exact h.2
        · rw [R.comp, hc] at h; cases h.1
      have i0 : refInt r = p.ref0 ↔ r = e.ref0 := by rw [R.ref0, refInt_inj hr (by have := R.ref0ok; omega)]
      have i1 : refInt r = p.ref1 ↔ r = e.ref1 := by rw [R.ref1, refInt_inj hr (by omega)]
      have l0 := turned_eq R hr7 R.ref0ok hv
      have l1 := turned_eq R hr7 h1ok hv
      rw [← R.ref0] at l0
      rw [← R.ref1] at l1
      have t0 : I16 (p.turned (refInt r) p.ref0 v) := small_turned hv
      have t1 : I16 (p.turned (refInt r) p.ref1 v) := small_turned hv
      have q : ∀ (ids diffs : List Spec.Mv) (ref : Nat) (pref : Int), (refInt r = pref ↔ r = ref) →
          e.turned r ref v = some (p.turned (refInt r) pref v) → e.addExtraList r ref v ids diffs =
          some (if refInt r = pref ∧ ids.length < 2 then ids ++ [v] else ids,
            if refInt r = pref ∧ ids.length < 2 then diffs else if diffs.length < 2 then diffs ++ [p.turned (refInt r) pref v] else diffs) := by
        intro ids diffs ref pref hi hturn
        unfold Env.addExtraList
        rw [hturn]
        simp only [hi]
        split_ifs <;> rfl
      simp only [toX]
      rw [q _ _ _ _ i0 l0]
      simp only [Option.bind_eq_bind, Option.bind_some]
      rw [q _ _ _ _ i1 l1]
      simp only [Option.bind_some]
      refine ⟨?_, ⟨?_, ?_, ?_, ?_, ?_, ?_, ?_⟩, ?_, fun _ => ?_⟩
      · split_ifs <;> rfl
      · split_ifs <;> exact X.plain
      · split_ifs <;> exact X.low
      · split_ifs <;> exact X.stack
      · split_ifs <;> first | exact X.id0 | exact mem_snoc X.id0 hv.i16
      · split_ifs <;> first | exact X.id1 | exact mem_snoc X.id1 hv.i16
      · split_ifs <;> first | exact X.diff0 | exact mem_snoc X.diff0 t0
      · split_ifs <;> first | exact X.diff1 | exact mem_snoc X.diff1 t1
      · split_ifs <;> simp
      · split_ifs <;> rfl
    · rw [if_neg hc, if_neg hc]
      have l0 := turned_eq R hr7 R.ref0ok hv
      rw [← R.ref0] at l0
      rw [l0]
      simp only [Option.bind_eq_bind, Option.bind_some, toX, findMatching_eq]
      by_cases hany : (x.stack.any fun q => decide (q.mv0 = p.turned (refInt r) p.ref0 v)) = true
      · rw [if_pos hany, if_pos hany]
        exact ⟨rfl, X, by omega, fun _ => rfl⟩
      · rw [if_neg hany, if_neg hany]
        unfold push
        rw [if_pos (by rw [List.length_map]; omega)]
        refine ⟨by simp [ofE], ⟨?_, X.low.snoc (by show 2 < 640; omega), ?_, X.id0, X.id1, X.diff0, X.diff1⟩, by simp, fun h => absurd h hc⟩
        · intro hcc q hq
          rcases List.mem_append.mp hq with hq | hq
          · exact X.plain hcc q hq
          · rw [List.mem_singleton.mp hq]
        · intro q hq
          rcases List.mem_append.mp hq with hq | hq
          · exact X.stack q hq
          · rw [List.mem_singleton.mp hq]; exact ⟨small_turned hv, i16_zero⟩
  · have hpos : ¬ refInt r > 0 := by unfold refInt; split_ifs <;> omega
    rw [if_neg h0, if_neg hpos]
    exact ⟨rfl, X, by omega, fun _ => rfl⟩

/-- A pass, where there is something to look at. -/
theorem extraLoop_eq (R : Rel e p) (C : Ctx p) {pass num : Nat}
    (hpos : ∀ idx < num, ∃ r c b, In p.g r c ∧ (if pass = 0 then (p.miRow : Int) - 1 else p.miRow + idx) = (r : Int) ∧
      (if pass = 0 then (p.miCol : Int) + idx else (p.miCol : Int) - 1) = (c : Int) ∧ p.d r c = some b) :
    ∀ fuel idx x, num ≤ idx + fuel → XOk p x → ∃ x', p.extraLoop pass num fuel idx x = some x' ∧ e.extraLoop pass num fuel idx (toX x) = some (toX x') ∧
      XOk p x' ∧ (p.isCompound = true → x'.stack = x.stack) := by
  intro fuel
  induction fuel with
  | zero =>
    intro idx x h X
    refine ⟨x, ?_, ?_, X, fun _ => rfl⟩
    · rw [Spec.Input.extraLoop, if_neg (by omega)]
    · rw [Env.extraLoop, if_neg (by omega)]
  | succ fuel ih =>
    intro idx x h X
    have hlen : (toX x).stack.length = x.stack.length := List.length_map ..
    by_cases hl : idx < num ∧ x.stack.length < 2
    · obtain ⟨r, c, b, hI, hr, hc, hb⟩ := hpos idx hl.1
      have hb1 : 1 ≤ b.bw4 ∧ 1 ≤ b.bh4 := by
        have h1 := (C.wf.sized hb).wide
        have h2 := (C.wf.sized hb).high
        simp only [List.mem_cons, List.not_mem_nil, or_false] at h1 h2
        omega
      obtain ⟨blk, hat, S⟩ : ∃ blk, (if pass = 0 then e.t.atOffset e.x e.y idx (-1) else e.t.atOffset e.x e.y (-1) idx) = some blk ∧ Shows blk b := by
        by_cases hp : pass = 0
        · rw [if_pos hp] at hr hc ⊢
          exact R.get hI (by omega) hc hb
        · rw [if_neg hp] at hr hc ⊢
          exact R.get hI hr (by omega) hb
      have r0 : b.info.ref0 = refInt blk.ref0 := by rw [← S.info]; rfl
      have r1 : b.info.ref1 = refInt blk.ref1 := by rw [← S.info]; rfl
      have m0 : b.info.mv0 = blk.mv0 := by rw [← S.info]; rfl
      have m1 : b.info.mv1 = blk.mv1 := by rw [← S.info]; rfl
      obtain ⟨a1, a2, a3, a4⟩ := addExtra_eq R S.ref0 S.mv0 X (by omega)
      obtain ⟨b1, b2, b3, b4⟩ := addExtra_eq R S.ref1 S.mv1 a2 (by omega)
      obtain ⟨x', k1, k2, k3, k4⟩ := ih (idx + if pass = 0 then b.bw4 else b.bh4) (p.addExtra (refInt blk.ref1) blk.mv1 (p.addExtra (refInt blk.ref0) blk.mv0 x))
        (by split_ifs <;> omega) b2
      refine ⟨x', ?_, ?_, k3, fun hc => by rw [k4 hc, b4 hc, a4 hc]⟩
      · rw [Spec.Input.extraLoop, if_pos hl]
        dsimp only
        rw [hr, hc, isInside_iff.mpr hI, if_neg (by simp), Int.toNat_natCast, Int.toNat_natCast, hb]
        simp only [Option.bind_eq_bind, Option.bind_some]
        rw [r0, r1, m0, m1]
        exact k1
      · rw [Env.extraLoop, if_pos (by rw [hlen]; exact hl)]
        have hgo : (if pass = 0 then blk.n4w else blk.n4h) = if pass = 0 then b.bw4 else b.bh4 := by rw [S.w, S.h]
        have fin : (do
            let s ← e.addExtraOne blk.ref0 blk.mv0 (toX x)
            let s ← e.addExtraOne blk.ref1 blk.mv1 s
            e.extraLoop pass num fuel (idx + if pass = 0 then blk.n4w else blk.n4h) s) = some (toX x') := by
          rw [a1]
          simp only [Option.bind_eq_bind, Option.bind_some]
          rw [b1]
          simp only [Option.bind_some]
          rw [hgo]
          exact k2
        rw [← fin]
        by_cases hp : pass = 0
        · rw [if_pos hp] at hat ⊢
          rw [hat]; rfl
        · rw [if_neg hp] at hat ⊢
          rw [hat]; rfl
    · refine ⟨x, ?_, ?_, X, fun _ => rfl⟩
      · rw [Spec.Input.extraLoop, if_neg hl]
      · rw [Env.extraLoop, if_neg (by rw [hlen]; exact hl)]

/-- A pass, where there is nothing. -/
theorem extraLoop_none {pass num : Nat}
    (hpos : ∀ idx : Nat, p.g.isInside (if pass = 0 then (p.miRow : Int) - 1 else p.miRow + idx) (if pass = 0 then (p.miCol : Int) + idx else (p.miCol : Int) - 1) = false)
    (x : Spec.Extra) : p.extraLoop pass num num 0 x = some x := by
  cases num with
  | zero => rw [Spec.Input.extraLoop, if_neg (by omega)]
  | succ n =>
    rw [Spec.Input.extraLoop]
    by_cases h : 0 < n + 1 ∧ x.stack.length < 2
    · rw [if_pos h]
      dsimp only
      rw [if_pos (hpos 0)]
    · rw [if_neg h]

theorem combined_eq (ids diffs : List Spec.Mv) : combinedMvs ids diffs = Spec.combined ids diffs := by
  rcases ids with _ | ⟨a, _ | ⟨b, ids⟩⟩
  · rcases diffs with _ | ⟨c, _ | ⟨d, diffs⟩⟩ <;> rfl
  · rcases diffs with _ | ⟨c, diffs⟩ <;> rfl
  · rfl

theorem combined_i16 {ids diffs : List Spec.Mv} (hi : ∀ v ∈ ids, I16 v) (hd : ∀ v ∈ diffs, I16 v) : I16 (Spec.combined ids diffs).1 ∧ I16 (Spec.combined ids diffs).2 := by
  have z := i16_zero
  rcases ids with _ | ⟨a, _ | ⟨b, ids⟩⟩
  · rcases diffs with _ | ⟨c, _ | ⟨d, diffs⟩⟩
    · exact ⟨z, z⟩
    · exact ⟨hd c (by simp), z⟩
    · exact ⟨hd c (by simp), hd d (by simp)⟩
  · rcases diffs with _ | ⟨c, diffs⟩
    · exact ⟨hi a (by simp), z⟩
    · exact ⟨hi a (by simp), hd c (by simp)⟩
  · exact ⟨hi a (by simp), hi b (by simp)⟩

theorem num_eq (R : Rel e p) (C : Ctx p) : min (min (min e.w 16) (e.t.cols - e.x)) (min (min e.h 16) (e.t.rows - e.y)) =
    min (min (min 16 p.bw4) (p.g.miCols - p.miCol)) (min (min 16 p.bh4) (p.g.miRows - p.miRow)) := by
  have h1 := (end_eq C).1
  have h2 := (end_eq (ctx_T C)).1
  have h2' : min (min p.bh4 (p.g.rowEnd - p.miRow)) 16 = min (min p.bh4 (p.g.miRows - p.miRow)) 16 := h2
  have hx := R.x
  have hy := R.y
  have hc := R.cols
  have hr := R.rows
  have e1 : e.t.cols - e.x = p.g.colEnd - p.miCol := by omega
  have e2 : e.t.rows - e.y = p.g.rowEnd - p.miRow := by omega
  rw [R.w, R.h, e1, e2]
  have swap : ∀ a b c : Nat, min (min a b) c = min (min a c) b := fun a b c => by omega
  rw [swap p.bw4, swap p.bh4, h1, h2', swap p.bw4, swap p.bh4, Nat.min_comm p.bw4, Nat.min_comm p.bh4]

/-- The entries from the combined vectors. -/
def finish (p : Input) (x : Spec.Extra) : List Entry :=
  if p.isCompound then
    match x.stack with
    | [q] => if (Spec.combined x.id0 x.diff0).1 = q.mv0 ∧ (Spec.combined x.id1 x.diff1).1 = q.mv1
        then [q, ⟨(Spec.combined x.id0 x.diff0).2, (Spec.combined x.id1 x.diff1).2, 2⟩]
        else [q, ⟨(Spec.combined x.id0 x.diff0).1, (Spec.combined x.id1 x.diff1).1, 2⟩]
    | _ => [⟨(Spec.combined x.id0 x.diff0).1, (Spec.combined x.id1 x.diff1).1, 2⟩, ⟨(Spec.combined x.id0 x.diff0).2, (Spec.combined x.id1 x.diff1).2, 2⟩]
  else x.stack

theorem finish_eq {x : Spec.Extra} (hc : e.isCompound = p.isCompound) (X : XOk p x) (hl : p.isCompound = true → x.stack.length < 2) :
    e.finishExtra (toX x) = some ((finish p x).map ofE) ∧ Plain p (finish p x) ∧ Low (finish p x) ∧ (∀ q ∈ finish p x, I16 q.mv0 ∧ I16 q.mv1) := by
  unfold Env.finishExtra finish
  rw [hc]
  by_cases h : p.isCompound = true
  · rw [if_pos h, if_pos h]
    have hl := hl h
    obtain ⟨i1, i2⟩ := combined_i16 X.id0 X.diff0
    obtain ⟨i3, i4⟩ := combined_i16 X.id1 X.diff1
    have hs := X.stack
    obtain ⟨st, id0, id1, diff0, diff1⟩ := x
    simp only [toX, combined_eq]
    dsimp only at i1 i2 i3 i4 hl hs
    generalize Spec.combined id0 diff0 = c0 at *
    generalize Spec.combined id1 diff1 = c1 at *
    refine ⟨?_, fun hh => (by rw [h] at hh; cases hh), ?_, ?_⟩
    · rcases st with _ | ⟨q, _ | ⟨q', st⟩⟩
      · rfl
      · simp only [List.map_cons, List.map_nil]
        by_cases hq : c0.1 = q.mv0 ∧ c1.1 = q.mv1
        · rw [if_pos hq, if_pos (show c0.1.1 = (ofE q).this.1 ∧ c0.1.2 = (ofE q).this.2 ∧ c1.1.1 = (ofE q).comp.1 ∧ c1.1.2 = (ofE q).comp.2 from by
            rw [hq.1, hq.2]; exact ⟨rfl, rfl, rfl, rfl⟩)]
          rfl
        · rw [if_neg hq, if_neg (show ¬ (c0.1.1 = (ofE q).this.1 ∧ c0.1.2 = (ofE q).this.2 ∧ c1.1.1 = (ofE q).comp.1 ∧ c1.1.2 = (ofE q).comp.2) from fun h =>
            hq ⟨Prod.ext h.1 h.2.1, Prod.ext h.2.2.1 h.2.2.2⟩)]
          rfl
      · simp only [List.length_cons] at hl; omega
    · rcases st with _ | ⟨q, _ | ⟨q', st⟩⟩
      · simp [Low]
      · dsimp only
        split_ifs <;> simp [Low]
      · simp only [List.length_cons] at hl; omega
    · rcases st with _ | ⟨q, _ | ⟨q', st⟩⟩
      · intro q hq
        simp only [List.mem_cons, List.not_mem_nil, or_false] at hq
        rcases hq with rfl | rfl
        · exact ⟨i1, i3⟩
        · exact ⟨i2, i4⟩
      · dsimp only
        intro x hx
        by_cases hq : c0.1 = q.mv0 ∧ c1.1 = q.mv1
        · rw [if_pos hq] at hx
          simp only [List.mem_cons, List.not_mem_nil, or_false] at hx
          rcases hx with rfl | rfl
          · exact hs x (by simp)
          · exact ⟨i2, i4⟩
        · rw [if_neg hq] at hx
          simp only [List.mem_cons, List.not_mem_nil, or_false] at hx
          rcases hx with rfl | rfl
          · exact hs x (by simp)
          · exact ⟨i1, i3⟩
      · simp only [List.length_cons] at hl; omega
  · rw [if_neg h, if_neg h]
    exact ⟨rfl, X.plain, X.low, X.stack⟩

/-- **The extra search.** -/
theorem extraSearch_eq (R : Rel e p) (C : Ctx p) {st : List Entry} (hp : Plain p st) (hf : ∀ q ∈ st, I16 q.mv0 ∧ I16 q.mv1) (hl : st.length < 2) (hlow : Low st) :
    ∃ st', p.extraSearch st = some st' ∧ e.extraSearch (st.map ofE) = some (st'.map ofE) ∧ Plain p st' ∧ Low st' ∧ (∀ q ∈ st', I16 q.mv0 ∧ I16 q.mv1) := by
  have hx := R.x
  have hy := R.y
  have hin := C.inTile
  have hnum := num_eq R C
  generalize hN : min (min (min 16 p.bw4) (p.g.miCols - p.miCol)) (min (min 16 p.bh4) (p.g.miRows - p.miRow)) = num at hnum
  have hbw : num ≤ p.bw4 ∧ num ≤ p.bh4 ∧ num ≤ p.g.colEnd - p.miCol ∧ num ≤ p.g.rowEnd - p.miRow := by
    have hc := R.cols
    have hr := R.rows
    omega
  unfold In at hin
  have X0 : XOk p ⟨st, [], [], [], []⟩ := ⟨hp, hlow, hf, by simp, by simp, by simp, by simp⟩
  -- above
  obtain ⟨x1, a1, a2, a3, a4⟩ : ∃ x', p.extraLoop 0 num num 0 ⟨st, [], [], [], []⟩ = some x' ∧
      (if e.y > 0 then e.extraLoop 0 num num 0 (toX ⟨st, [], [], [], []⟩) else some (toX ⟨st, [], [], [], []⟩)) = some (toX x') ∧
      XOk p x' ∧ (p.isCompound = true → x'.stack = st) := by
    by_cases h0 : e.y > 0
    · rw [if_pos h0]
      refine extraLoop_eq R C (fun idx hidx => ?_) num 0 _ (by omega) X0
      have hI : In p.g (p.miRow - 1) (p.miCol + idx) := by unfold In; omega
      obtain ⟨b, hb⟩ := Option.isSome_iff_exists.mp (C.above hI (by omega) (by omega))
      exact ⟨_, _, b, hI, by rw [if_pos rfl]; omega, by rw [if_pos rfl]; omega, hb⟩
    · rw [if_neg h0]
      refine ⟨_, extraLoop_none (fun idx => ?_) _, rfl, X0, fun _ => rfl⟩
      rw [if_pos rfl, if_pos rfl]
      unfold Spec.Geo.isInside
      rw [decide_eq_false (show ¬ (p.g.rowStart : Int) ≤ (p.miRow : Int) - 1 by omega)]
      simp
  -- to the left
  obtain ⟨x2, b1, b2, b3, b4⟩ : ∃ x', p.extraLoop 1 num num 0 x1 = some x' ∧
      (if e.x > 0 then e.extraLoop 1 num num 0 (toX x1) else some (toX x1)) = some (toX x') ∧
      XOk p x' ∧ (p.isCompound = true → x'.stack = x1.stack) := by
    by_cases h0 : e.x > 0
    · rw [if_pos h0]
      refine extraLoop_eq R C (fun idx hidx => ?_) num 0 _ (by omega) a3
      have hI : In p.g (p.miRow + idx) (p.miCol - 1) := by unfold In; omega
      obtain ⟨b, hb⟩ := Option.isSome_iff_exists.mp (C.left hI (by omega) (by omega))
      exact ⟨_, _, b, hI, by rw [if_neg (by omega)]; omega, by rw [if_neg (by omega)]; omega, hb⟩
    · rw [if_neg h0]
      refine ⟨_, extraLoop_none (fun idx => ?_) _, rfl, a3, fun _ => rfl⟩
      rw [if_neg (by omega), if_neg (by omega)]
      unfold Spec.Geo.isInside
      rw [decide_eq_false (show ¬ (p.g.colStart : Int) ≤ (p.miCol : Int) - 1 by omega)]
      simp
  have hstack : p.isCompound = true → x2.stack = st := fun hc => by rw [b4 hc, a4 hc]
  obtain ⟨f2, f3, f3', f4⟩ := finish_eq (e := e) R.comp b3 (fun hc => by rw [hstack hc]; exact hl)
  refine ⟨finish p x2, ?_, ?_, f3, f3', f4⟩
  · unfold Spec.Input.extraSearch
    dsimp only
    rw [hN, a1]
    simp only [Option.bind_eq_bind, Option.bind_some]
    rw [b1]
    simp only [Option.bind_some, finish]
    by_cases h : p.isCompound = true
    · rw [if_pos h, if_pos h]
      rcases x2.stack with _ | ⟨q, _ | ⟨q', st⟩⟩ <;> rfl
    · rw [if_neg h, if_neg h]
  · unfold Env.extraSearch
    dsimp only
    rw [hnum, ← f2]
    have e0 : (⟨st.map ofE, [], [], [], []⟩ : Extra) = toX ⟨st, [], [], [], []⟩ := rfl
    rw [e0]
    split_ifs at a2 b2 ⊢ <;> (rw [a2]; simp only [Option.bind_eq_bind, Option.bind_some]; first | (rw [b2]; rfl) | rw [Option.some.inj b2])

/-! ### Clamping -/

theorem clampI16_eq {v lo hi : Int} (h0 : lo ≤ 0) (h1 : 0 ≤ hi) (hv : -32768 ≤ v ∧ v ≤ 32767) : clampI16 v lo hi = some (Spec.clip3 lo hi v) := by
  unfold clampI16 Spec.clip3
  rw [if_pos (by omega)]
  congr 1
  split_ifs <;> omega

theorem clamp_eq (R : Rel e p) (C : Ctx p) {q : Entry} (h0 : I16 q.mv0) (h1 : I16 q.mv1) (hp : p.isCompound = false → q.mv1 = (0, 0)) :
    e.clampCand (ofE q) = some (ofE (p.clampEntry q)) := by
  have hx := R.x
  have hy := R.y
  have hin := C.inTile
  have hle := C.geo.colLe
  have hle' := C.geo.rowLe
  unfold In at hin
  unfold I16 at h0 h1
  have ex : ((e.t.frameCols - (e.t.x + e.x) : Nat) : Int) - ((4 * e.w / 4 : Nat) : Int) = (p.g.miCols : Int) - p.bw4 - p.miCol := by
    rw [R.frameCols, R.tx, R.w]; omega
  have ey : ((e.t.frameRows - (e.t.y + e.y) : Nat) : Int) - ((4 * e.h / 4 : Nat) : Int) = (p.g.miRows : Int) - p.bh4 - p.miRow := by
    rw [R.frameRows, R.ty, R.h]; omega
  have fx : (e.t.x : Int) + e.x = p.miCol := by rw [R.tx]; omega
  have fy : (e.t.y : Int) + e.y = p.miRow := by rw [R.ty]; omega
  unfold Env.clampCand
  dsimp only [ofE]
  rw [ex, ey, fx, fy, R.w, R.h]
  have key : ∀ (pos n b : Nat) (v : Int), pos < n → -32768 ≤ v ∧ v ≤ 32767 →
      clampI16 v (-(pos : Int) * (8 * 4) - (128 + 4 * (b : Int) * 8)) (((n : Int) - b - pos) * (8 * 4) + (128 + 4 * (b : Int) * 8)) =
        some (Spec.clip3 (-((pos : Int) * 4 * 8) - (128 + b * 4 * 8)) (((n : Int) - b - pos) * 4 * 8 + (128 + b * 4 * 8)) v) := by
    intro pos n b v hlt hv
    rw [clampI16_eq (by omega) (by omega) hv]
    congr 2 <;> omega
  rw [key _ _ _ _ (by omega) ⟨h0.1, h0.2.1⟩, key _ _ _ _ (by omega) ⟨h0.2.2.1, h0.2.2.2⟩, key _ _ _ _ (by omega) ⟨h1.1, h1.2.1⟩,
    key _ _ _ _ (by omega) ⟨h1.2.2.1, h1.2.2.2⟩]
  simp only [Option.bind_eq_bind, Option.bind_some]
  unfold Spec.Input.clampEntry Spec.Input.clampRow Spec.Input.clampCol
  dsimp only
  by_cases hc : p.isCompound = true
  · rw [if_pos hc]; rfl
  · rw [if_neg hc]
    have h2 := hp (by simpa using hc)
    rw [h2]
    have z : ∀ {lo hi : Int}, lo ≤ 0 → 0 ≤ hi → Spec.clip3 lo hi 0 = 0 := by
      intro lo hi a b
      unfold Spec.clip3
      rw [if_neg (by omega), if_neg (by omega)]
    dsimp only
    rw [z (by omega) (by omega), z (by omega) (by omega)]
    rfl

theorem clampAll_eq (R : Rel e p) (C : Ctx p) : ∀ {s : List Entry}, (∀ q ∈ s, I16 q.mv0 ∧ I16 q.mv1) → Plain p s →
    (s.map ofE).mapM e.clampCand = some ((s.map p.clampEntry).map ofE) := by
  intro s
  induction s with
  | nil => intro _ _; rfl
  | cons q s ih =>
    intro h hp
    have hq := h q List.mem_cons_self
    rw [List.map_cons, List.mapM_cons, clamp_eq R C hq.1 hq.2 (fun hc => hp hc q List.mem_cons_self),
      ih (fun x hx => h x (List.mem_cons_of_mem _ hx)) (fun hc x hx => hp hc x (List.mem_cons_of_mem _ hx))]
    rfl

end Rav1e.Mvref
