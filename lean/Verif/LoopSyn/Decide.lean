import Verif.LoopSyn.Geo

/-!
# CDEF indices and loop restoration units: decisions

`rdo_loop_decision` is called with a superblock that is the first of its unit in every plane, so it never changes what has been written already.
-/

namespace Rav1e.LoopSyn

open Av1Spec
open Ec
open Lrf (Filter)
open Spec (Frame)

/-- The superblock is the first of its unit in every plane that has a unit there. -/
def AllCorner (C : Cfg) (k : Nat × Nat) : Prop := ∀ p < C.planes, In C p k → Corner C p k

theorem div_mul_div {a b : Nat} (h : a ≤ b) (k : Nat) : k / 2 ^ a * 2 ^ a / 2 ^ b = k / 2 ^ b := by
  obtain ⟨c, rfl⟩ := Nat.exists_eq_add_of_le h
  rw [Nat.pow_add, ← Nat.div_div_eq_div_mul, Nat.mul_div_cancel _ (Nat.two_pow_pos _), Nat.div_div_eq_div_mul]

theorem mod_pow {a b k : Nat} (h : a ≤ b) (hk : k % 2 ^ b = 0) : k % 2 ^ a = 0 :=
  Nat.mod_eq_zero_of_dvd ((Nat.pow_dvd_pow 2 h).trans (Nat.dvd_of_mod_eq_zero hk))

/-- A superblock that is the first of a chroma unit is the first of its unit in every plane. -/
theorem chroma_corner {C : Cfg} {f : Frame} (K : CfgOk C f) {q : Nat} (hq : q < C.planes) (h0 : q ≠ 0) {k : Nat × Nat} (h : Corner C q k) {p : Nat}
    (hp : p < C.planes) : Corner C p k := by
  by_cases e : p = 0
  · subst e
    exact ⟨mod_pow (K.nestX q hq) h.1, mod_pow (K.nestY q hq) h.2⟩
  · obtain ⟨e1, e2, _, _⟩ := K.chroma p hp q hq e h0
    unfold Corner
    rw [e1, e2]
    exact h

/-- If no plane has been decided for the superblock, it is the first of its unit in every plane. -/
theorem trigger {C : Cfg} {f : Frame} (K : CfgOk C f) {pre post : List (Nat × Nat)} {k : Nat × Nat} (hL : pairs C.sbH C.sbW = pre ++ k :: post)
    {rdoed : Nat → Int} (hall : ∀ z ∈ pre, AllCorner C z → ∀ p < C.planes, In C p z → (idx C p z : Int) ≤ rdoed p)
    (hn : ∀ p < C.planes, In C p k → rdoed p < (idx C p k : Int)) : AllCorner C k := by
  obtain ⟨hk1, hk2, hpre⟩ := pairs_split hL
  intro p hp hin
  by_contra hnc
  by_cases hq : ∃ q < C.planes, q ≠ 0 ∧ In C q k
  · obtain ⟨q, hq, q0, qin⟩ := hq
    have hc : ¬Corner C q k := fun hc => hnc (chroma_corner K hq q0 hc hp)
    have hle := cornerOf_le C q k
    have hm : cornerOf C q k ∈ pre := (hpre _).2 ⟨by omega, by omega, cornerOf_before hc⟩
    have h1 := hall _ hm (fun p' hp' _ => chroma_corner K hq q0 (cornerOf_corner C q k) hp') q hq (cornerOf_in.2 qin)
    rw [cornerOf_idx] at h1
    have h2 := hn q hq qin
    omega
  · have hq' : ∀ q < C.planes, q ≠ 0 → ¬In C q k := fun q h1 h2 h3 => hq ⟨q, h1, h2, h3⟩
    have p0 : p = 0 := by
      by_contra h0
      exact hq' p hp h0 hin
    subst p0
    have hle := cornerOf_le C 0 k
    have hm : cornerOf C 0 k ∈ pre := (hpre _).2 ⟨by omega, by omega, cornerOf_before hnc⟩
    have hA : AllCorner C (cornerOf C 0 k) := by
      intro p' hp' hin'
      by_cases e : p' = 0
      · subst e; exact cornerOf_corner C 0 k
      · refine absurd ?_ (hq' p' hp' e)
        unfold In cornerOf at hin'
        dsimp only at hin'
        rw [div_mul_div (K.nestX p' hp'), div_mul_div (K.nestY p' hp')] at hin'
        exact hin'
    have h1 := hall _ hm hA 0 hp (cornerOf_in.2 hin)
    rw [cornerOf_idx] at h1
    have h2 := hn 0 hp hin
    omega

/-- The filters are filters of the bit stream. -/
def FiltersOk (C : Cfg) (fs : Nat → Nat → Nat → Filter) : Prop :=
  ∀ p < C.planes, ∀ b < (C.plane p).rows, ∀ a < (C.plane p).cols, FilterOk (C.plane p).lrfType p (fs p b a)

/-- The CDEF indices fit. -/
def CdefOk (C : Cfg) (cs : Nat → Nat → Nat) : Prop := ∀ y < C.sbH, ∀ x < C.sbW, cs y x < 2 ^ C.cdefBits

/-- What `rdo_loop_decision` chooses can be coded. -/
structure RdoOk (C : Cfg) (R : Rdo) : Prop where
  filter : ∀ bx by' p lx ly flt, p < C.planes → R.filter bx by' p lx ly = some flt → FilterOk (C.plane p).lrfType p flt
  cdef : ∀ bx by' lx ly v, R.cdef bx by' lx ly = some v → v < 2 ^ C.cdefBits

theorem foldl_inv {α β : Type} (Q : β → Prop) (g : β → α → β) : ∀ (l : List α) (b : β), Q b → (∀ b a, a ∈ l → Q b → Q (g b a)) → Q (l.foldl g b) := by
  intro l
  induction l with
  | nil => intro b h _; exact h
  | cons a l ih => intro b h hg; exact ih _ (hg b a (by simp) h) fun b a ha => hg b a (by simp [ha])

/-- A new filter does not change what has been written. -/
theorem setFilter_keeps {C : Cfg} {R : Rdo} (hR : RdoOk C R) {k : Nat × Nat} {p : Nat} (hp : p < C.planes) (hc : In C p k → Corner C p k)
    {fs fs0 : Nat → Nat → Nat → Filter} (l : Nat × Nat) (h1 : FiltersOk C fs)
    (h2 : ∀ q < C.planes, ∀ b a, Before (b * 2 ^ (C.plane q).vShift, a * 2 ^ (C.plane q).hShift) k → fs q b a = fs0 q b a) :
    FiltersOk C (setFilter C R k.2 k.1 p fs l) ∧
    ∀ q < C.planes, ∀ b a, Before (b * 2 ^ (C.plane q).vShift, a * 2 ^ (C.plane q).hShift) k → setFilter C R k.2 k.1 p fs l q b a = fs0 q b a := by
  unfold setFilter
  simp only [unitIndex_false, Nat.shiftLeft_eq, Nat.one_mul]
  by_cases hin : (k.2 + l.2 * 2 ^ (C.plane p).hShift) / 2 ^ (C.plane p).hShift < (C.plane p).cols ∧
      (k.1 + l.1 * 2 ^ (C.plane p).vShift) / 2 ^ (C.plane p).vShift < (C.plane p).rows
  · rw [if_pos hin, unitIndex_true hin]
    rw [if_pos (by rfl)]
    rcases hf : R.filter k.2 k.1 p l.2 l.1 with _ | flt
    · exact ⟨h1, h2⟩
    · dsimp only
      refine ⟨fun q hq b hb a ha => ?_, fun q hq b a hbef => ?_⟩
      · by_cases hh : q = p ∧ b = (k.1 + l.1 * 2 ^ (C.plane p).vShift) / 2 ^ (C.plane p).vShift ∧ a = (k.2 + l.2 * 2 ^ (C.plane p).hShift) / 2 ^ (C.plane p).hShift
        · dsimp only
          rw [if_pos hh, hh.1]
          exact hR.filter _ _ _ _ _ _ hp hf
        · dsimp only
          rw [if_neg hh]
          exact h1 q hq b hb a ha
      · rw [if_neg]
        · exact h2 q hq b a hbef
        · rintro ⟨rfl, hb, ha⟩
          have hk : In C q k := by
            have e1 := Nat.div_le_div_right (c := 2 ^ (C.plane q).hShift) (Nat.le_add_right k.2 (l.2 * 2 ^ (C.plane q).hShift))
            have e2 := Nat.div_le_div_right (c := 2 ^ (C.plane q).vShift) (Nat.le_add_right k.1 (l.1 * 2 ^ (C.plane q).vShift))
            exact ⟨Nat.lt_of_le_of_lt e1 hin.1, Nat.lt_of_le_of_lt e2 hin.2⟩
          obtain ⟨c1, c2⟩ := hc hk
          have e1 : b * 2 ^ (C.plane q).vShift = k.1 + l.1 * 2 ^ (C.plane q).vShift := by
            rw [hb]
            exact Nat.div_mul_cancel (Nat.dvd_add (Nat.dvd_of_mod_eq_zero c2) (Nat.dvd_mul_left _ _))
          have e2 : a * 2 ^ (C.plane q).hShift = k.2 + l.2 * 2 ^ (C.plane q).hShift := by
            rw [ha]
            exact Nat.div_mul_cancel (Nat.dvd_add (Nat.dvd_of_mod_eq_zero c1) (Nat.dvd_mul_left _ _))
          rw [e1, e2] at hbef
          unfold Before at hbef
          dsimp only at hbef
          generalize l.1 * 2 ^ (C.plane q).vShift = t at *
          generalize l.2 * 2 ^ (C.plane q).hShift = t2 at *
          omega
  · rw [if_neg hin]
    exact ⟨h1, h2⟩

/-- A new CDEF index does not change what has been written. -/
theorem setCdef_keeps {C : Cfg} {R : Rdo} (hR : RdoOk C R) {k : Nat × Nat} {cs cs0 : Nat → Nat → Nat} (l : Nat × Nat) (h1 : CdefOk C cs)
    (h2 : ∀ z, Before z k → cs z.1 z.2 = cs0 z.1 z.2) :
    CdefOk C (setCdef R k.2 k.1 cs l) ∧ ∀ z, Before z k → setCdef R k.2 k.1 cs l z.1 z.2 = cs0 z.1 z.2 := by
  unfold setCdef
  rcases hf : R.cdef k.2 k.1 l.2 l.1 with _ | v
  · exact ⟨h1, h2⟩
  · dsimp only
    refine ⟨fun y hy x hx => ?_, fun z hz => ?_⟩
    · by_cases hh : y = k.1 + l.1 ∧ x = k.2 + l.2
      · dsimp only
        rw [if_pos hh]
        exact hR.cdef _ _ _ _ _ hf
      · dsimp only
        rw [if_neg hh]
        exact h1 y hy x hx
    · rw [if_neg]
      · exact h2 z hz
      · unfold Before at hz
        omega

/-- What is known about the numbers of units before a superblock is written. -/
structure NumInv (C : Cfg) (pre : List (Nat × Nat)) (s : Lf) : Prop where
  coded : ∀ p < C.planes, (∀ z ∈ pre, In C p z → (idx C p z : Int) ≤ s.coded p) ∧ (s.coded p = -1 ∨ ∃ z ∈ pre, In C p z ∧ s.coded p = idx C p z)
  rdoed : ∀ p < C.planes, s.rdoed p = -1 ∨ ∃ z ∈ pre, In C p z ∧ s.rdoed p = idx C p z
  all : ∀ z ∈ pre, AllCorner C z → ∀ p < C.planes, In C p z → (idx C p z : Int) ≤ s.rdoed p

/-- `rdo_loop_decision`, called where a unit starts in every plane. -/
theorem rdoLoop_keeps {C : Cfg} {R : Rdo} (hR : RdoOk C R) {k : Nat × Nat} (hon : (C.enableCdef || C.enableRestoration) = true)
    (hA : C.enableRestoration = true → AllCorner C k) {s : Lf} (h1 : FiltersOk C s.filters) (h2 : CdefOk C s.cdef) :
    ∃ s', rdoLoop C R k.2 k.1 s = some s' ∧ s'.coded = s.coded ∧ s'.rdoed = s.rdoed ∧ s'.refs = s.refs ∧ s'.out = s.out ∧
      FiltersOk C s'.filters ∧ CdefOk C s'.cdef ∧
      (∀ q < C.planes, ∀ b a, Before (b * 2 ^ (C.plane q).vShift, a * 2 ^ (C.plane q).hShift) k → s'.filters q b a = s.filters q b a) ∧
      (∀ z, Before z k → s'.cdef z.1 z.2 = s.cdef z.1 z.2) := by
  unfold rdoLoop
  rw [if_pos hon]
  refine ⟨_, rfl, rfl, rfl, rfl, rfl, ?_⟩
  dsimp only
  have F : FiltersOk C (if C.enableRestoration = true then
          (List.range C.planes).foldl (fun fs p =>
            (pairs (areaH C / (1 <<< (C.plane p).vShift)) (areaW C / (1 <<< (C.plane p).hShift))).foldl (setFilter C R k.2 k.1 p) fs) s.filters
        else s.filters) ∧ ∀ q < C.planes, ∀ b a, Before (b * 2 ^ (C.plane q).vShift, a * 2 ^ (C.plane q).hShift) k →
      (if C.enableRestoration = true then
          (List.range C.planes).foldl (fun fs p =>
            (pairs (areaH C / (1 <<< (C.plane p).vShift)) (areaW C / (1 <<< (C.plane p).hShift))).foldl (setFilter C R k.2 k.1 p) fs) s.filters
        else s.filters) q b a = s.filters q b a := by
    by_cases hr : C.enableRestoration = true
    · rw [if_pos hr]
      refine foldl_inv (fun fs => FiltersOk C fs ∧ ∀ q < C.planes, ∀ b a,
        Before (b * 2 ^ (C.plane q).vShift, a * 2 ^ (C.plane q).hShift) k → fs q b a = s.filters q b a) _ _ _ ⟨h1, fun _ _ _ _ _ => rfl⟩ ?_
      intro fs p hp hfs
      refine foldl_inv (fun fs => FiltersOk C fs ∧ ∀ q < C.planes, ∀ b a,
        Before (b * 2 ^ (C.plane q).vShift, a * 2 ^ (C.plane q).hShift) k → fs q b a = s.filters q b a) _ _ _ hfs ?_
      intro fs l _ hfs
      have hp := List.mem_range.1 hp
      exact setFilter_keeps hR hp (hA hr p hp) l hfs.1 hfs.2
    · rw [if_neg hr]
      exact ⟨h1, fun _ _ _ _ _ => rfl⟩
  have G : CdefOk C (if C.enableCdef = true then (pairs (min (areaH C) (C.sbH - k.1)) (min (areaW C) (C.sbW - k.2))).foldl (setCdef R k.2 k.1) s.cdef
        else s.cdef) ∧ ∀ z, Before z k → (if C.enableCdef = true then
          (pairs (min (areaH C) (C.sbH - k.1)) (min (areaW C) (C.sbW - k.2))).foldl (setCdef R k.2 k.1) s.cdef else s.cdef) z.1 z.2 = s.cdef z.1 z.2 := by
    by_cases hr : C.enableCdef = true
    · rw [if_pos hr]
      refine foldl_inv (fun cs => CdefOk C cs ∧ ∀ z, Before z k → cs z.1 z.2 = s.cdef z.1 z.2) _ _ _ ⟨h2, fun _ _ => rfl⟩ ?_
      intro cs l _ hcs
      exact setCdef_keeps hR l hcs.1 hcs.2
    · rw [if_neg hr]
      exact ⟨h2, fun _ _ => rfl⟩
  exact ⟨F.1, G.1, F.2, G.2⟩

/-- **Decisions come before what they decide is written**: the decision for a superblock changes no filter of a unit and no CDEF index that has been written. -/
theorem entryRdo_keeps {C : Cfg} {f : Frame} (K : CfgOk C f) {R : Rdo} (hR : RdoOk C R) {pre post : List (Nat × Nat)} {k : Nat × Nat}
    (hL : pairs C.sbH C.sbW = pre ++ k :: post) {recs : Recs} (hrec : recs.coded = true → C.enableCdef = true) {s : Lf}
    (hn : C.enableRestoration = true → NumInv C pre s) (h1 : FiltersOk C s.filters) (h2 : CdefOk C s.cdef) :
    ∃ s', entryRdo C R ⟨k.2, k.1, lruOf C k.2 k.1, recs⟩ s = some s' ∧ s'.coded = s.coded ∧ s'.refs = s.refs ∧ s'.out = s.out ∧
      FiltersOk C s'.filters ∧ CdefOk C s'.cdef ∧
      (∀ q < C.planes, ∀ b a, Before (b * 2 ^ (C.plane q).vShift, a * 2 ^ (C.plane q).hShift) k → s'.filters q b a = s.filters q b a) ∧
      (∀ z, Before z k → s'.cdef z.1 z.2 = s.cdef z.1 z.2) ∧
      (C.enableRestoration = true → (∀ p < C.planes, s'.rdoed p = -1 ∨ ∃ z ∈ pre ++ [k], In C p z ∧ s'.rdoed p = idx C p z) ∧
        (∀ z ∈ pre ++ [k], AllCorner C z → ∀ p < C.planes, In C p z → (idx C p z : Int) ≤ s'.rdoed p)) := by
  have hlru : ∀ p, p < C.planes → In C p k → lruOf C k.2 k.1 p = idx C p k := fun p hp hi => by
    rw [lruOf_eq, if_pos ⟨hp, hi⟩]
  have hlru' : ∀ p, ¬(p < C.planes ∧ In C p k) → lruOf C k.2 k.1 p = -1 := fun p hp => by
    rw [lruOf_eq, if_neg hp]
  obtain ⟨hk1, hk2, hpre⟩ := pairs_split hL
  unfold entryRdo
  dsimp only
  by_cases hc : (recs.coded || C.enableRestoration) = true
  · rw [if_pos hc]
    by_cases ha : ((List.range C.planes).any fun p => decide (lruOf C k.2 k.1 p ≠ -1 ∧ lruOf C k.2 k.1 p ≤ s.rdoed p)) = true
    · rw [ha, Bool.not_true, if_neg (by simp)]
      refine ⟨s, rfl, rfl, rfl, rfl, h1, h2, fun _ _ _ _ _ => rfl, fun _ _ => rfl, fun hr => ⟨fun p hp => ?_, fun z hz hA p hp hin => ?_⟩⟩
      · rcases (hn hr).rdoed p hp with h | ⟨z, hz, h⟩
        · exact .inl h
        · exact .inr ⟨z, by simp [hz], h⟩
      · rcases List.mem_append.1 hz with hz | hz
        · exact (hn hr).all z hz hA p hp hin
        · rw [List.mem_singleton] at hz
          subst hz
          exfalso
          simp only [List.any_eq_true, List.mem_range, decide_eq_true_eq] at ha
          obtain ⟨q, hq, hq1, hq2⟩ := ha
          have hqin : In C q z := by
            by_contra hh
            exact hq1 (hlru' q fun hc => hh hc.2)
          rw [hlru q hq hqin] at hq2
          rcases (hn hr).rdoed q hq with h | ⟨w, hw, hwi, h⟩
          · omega
          · have := idx_lt (hA q hq hqin) hwi ((hpre w).1 hw).2.2
            omega
    · rw [Bool.eq_false_iff.2 ha, Bool.not_false, if_pos rfl]
      have hnot : ∀ p < C.planes, In C p k → s.rdoed p < (idx C p k : Int) := by
        intro p hp hin
        by_contra hh
        apply ha
        simp only [List.any_eq_true, List.mem_range, decide_eq_true_eq]
        refine ⟨p, hp, ?_, ?_⟩ <;> rw [hlru p hp hin] <;> omega
      have hA : C.enableRestoration = true → AllCorner C k := fun hr => trigger K hL (hn hr).all hnot
      have hon : (C.enableCdef || C.enableRestoration) = true := by
        rcases Bool.or_eq_true_iff.1 hc with h | h
        · rw [hrec h]; rfl
        · rw [h]; simp
      obtain ⟨s', e, g1, g2, g3, g4, g5, g6, g7, g8⟩ := rdoLoop_keeps hR hon hA h1 h2
      rw [e]
      refine ⟨_, rfl, g1, g3, g4, g5, g6, g7, g8, fun hr => ⟨fun p hp => ?_, fun z hz hAz p hp hin => ?_⟩⟩
      · dsimp only
        by_cases hh : p < C.planes ∧ lruOf C k.2 k.1 p ≠ -1 ∧ s'.rdoed p < lruOf C k.2 k.1 p
        · rw [if_pos hh]
          have hin : In C p k := by
            by_contra hx
            exact hh.2.1 (hlru' p fun hc => hx hc.2)
          exact .inr ⟨k, by simp, hin, hlru p hp hin⟩
        · rw [if_neg hh, g2]
          rcases (hn hr).rdoed p hp with h | ⟨z, hz, h⟩
          · exact .inl h
          · exact .inr ⟨z, by simp [hz], h⟩
      · dsimp only
        by_cases hh : p < C.planes ∧ lruOf C k.2 k.1 p ≠ -1 ∧ s'.rdoed p < lruOf C k.2 k.1 p
        · rw [if_pos hh]
          rcases List.mem_append.1 hz with hz | hz
          · have := (hn hr).all z hz hAz p hp hin
            rw [g2] at hh
            omega
          · rw [List.mem_singleton] at hz
            subst hz
            rw [hlru p hp hin]
        · rw [if_neg hh]
          rcases List.mem_append.1 hz with hz | hz
          · rw [g2]; exact (hn hr).all z hz hAz p hp hin
          · rw [List.mem_singleton] at hz
            subst hz
            rw [hlru p hp hin] at hh
            omega
  · rw [if_neg hc]
    refine ⟨s, rfl, rfl, rfl, rfl, h1, h2, fun _ _ _ _ _ => rfl, fun _ _ => rfl, fun hr => ?_⟩
    exact absurd (by rw [hr]; simp) hc

end Rav1e.LoopSyn
