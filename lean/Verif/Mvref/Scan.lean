import Verif.Mvref.Sort

/-!
# Scans

The blocks that the encoder's scans visit are those of the decoder's.
-/

namespace Rav1e.Mvref

open Spec (Entry St Info Input Blk YMode)

/-! ### How the encoder's data stand for the decoder's -/

/-- `RefType` as `RefFrame`: `NONE_FRAME` is -1. -/
def refInt (r : Nat) : Int := if r = 8 then -1 else r

/-- The modes with an index in the name are one mode with `RefMvIdx`. -/
def modeOf : Mode → YMode
  | .intra => .intra
  | .nearestmv => .nearestmv
  | .near0mv => .nearmv
  | .near1mv => .nearmv
  | .near2mv => .nearmv
  | .globalmv => .globalmv
  | .newmv => .newmv
  | .nearest_nearestmv => .nearest_nearestmv
  | .near_near0mv => .near_nearmv
  | .near_near1mv => .near_nearmv
  | .near_near2mv => .near_nearmv
  | .nearest_newmv => .nearest_newmv
  | .new_nearestmv => .new_nearestmv
  | .near_new0mv => .near_newmv
  | .near_new1mv => .near_newmv
  | .near_new2mv => .near_newmv
  | .new_near0mv => .new_nearmv
  | .new_near1mv => .new_nearmv
  | .new_near2mv => .new_nearmv
  | .global_globalmv => .global_globalmv
  | .new_newmv => .new_newmv

/-- What a decoder stores for the block. -/
def infoOf (b : Block) : Info := ⟨modeOf b.mode, refInt b.ref0, refInt b.ref1, b.mv0, b.mv1⟩

/-- Vectors that can be negated in `i16`, in quarters of a pixel. -/
def Small (v : Spec.Mv) : Prop := (-32768 < v.1 ∧ v.1 ≤ 32767 ∧ -32768 < v.2 ∧ v.2 ≤ 32767) ∧ v.1 % 2 = 0 ∧ v.2 % 2 = 0

theorem Small.lower {v : Spec.Mv} (h : Small v) : Spec.lower v = v := by
  unfold Spec.lower Spec.lowerComp
  rw [if_neg (by rw [h.2.1]; simp), if_neg (by rw [h.2.2]; simp)]

/-- An `i16`. -/
def I16 (v : Spec.Mv) : Prop := -32768 ≤ v.1 ∧ v.1 ≤ 32767 ∧ -32768 ≤ v.2 ∧ v.2 ≤ 32767

/-- The encoder's entry for a position says what the decoder has stored there. -/
structure Shows (b : Block) (s : Blk) : Prop where
  w : b.n4w = s.bw4
  h : b.n4h = s.bh4
  info : infoOf b = s.info
  ref0 : b.ref0 ≤ 8
  ref1 : b.ref1 ≤ 8
  mv0 : Small b.mv0
  mv1 : Small b.mv1

/-- The encoder's arguments are those of the decoder. -/
structure Rel (e : Env) (p : Input) : Prop where
  x : p.miCol = p.g.colStart + e.x
  y : p.miRow = p.g.rowStart + e.y
  w : e.w = p.bw4
  h : e.h = p.bh4
  tx : e.t.x = p.g.colStart
  ty : e.t.y = p.g.rowStart
  cols : p.g.colStart + e.t.cols = p.g.colEnd
  rows : p.g.rowStart + e.t.rows = p.g.rowEnd
  frameCols : e.t.frameCols = p.g.miCols
  frameRows : e.t.frameRows = p.g.miRows
  ref0 : p.ref0 = refInt e.ref0
  ref1 : p.ref1 = refInt e.ref1
  ref0ok : 1 ≤ e.ref0 ∧ e.ref0 ≤ 7
  compound : e.isCompound = true ∧ 1 ≤ e.ref1 ∧ e.ref1 ≤ 7 ∨ e.isCompound = false ∧ e.ref1 = 8
  sign : ∀ r : Nat, 1 ≤ r → r ≤ 7 → p.signBias r = e.signBias (r - 1)
  i16 : ∀ r c, I16 (e.t.data r c).mv0 ∧ I16 (e.t.data r c).mv1
  shows : ∀ {r c : Nat} {b : Blk}, r < e.t.rows → c < e.t.cols → p.d (p.g.rowStart + r) (p.g.colStart + c) = some b → Shows (e.t.data r c) b

/-- What is known of the place of the block. -/
structure Ctx (p : Input) : Prop where
  geo : GeoOk p.g
  wf : WF p.d
  sized : Sized p.miRow p.miCol p.bw4 p.bh4
  inTile : In p.g p.miRow p.miCol
  above : ∀ {i j}, In p.g i j → i < p.miRow → j < p.miCol + p.bw4 → (p.d i j).isSome
  left : ∀ {i j}, In p.g i j → j < p.miCol → i < p.miRow + p.bh4 → (p.d i j).isSome
  above2 : ∀ {i j}, In p.g i j → i < p.miRow - p.miRow % 2 → j < p.miCol - p.miCol % 2 + 2 → (p.d i j).isSome
  left2 : ∀ {i j}, In p.g i j → j < p.miCol - p.miCol % 2 → i < p.miRow - p.miRow % 2 + 2 → (p.d i j).isSome
  fresh : ∀ {i j}, p.miRow ≤ i → p.miCol ≤ j → p.d i j = none

/-- An entry as the encoder keeps it. -/
def ofE (e : Entry) : Cand := ⟨e.mv0, e.mv1, e.weight⟩

/-- Without compound prediction there are no second vectors. -/
def Plain (p : Input) (s : List Entry) : Prop := p.isCompound = false → ∀ e ∈ s, e.mv1 = (0, 0)

theorem refInt_inj {a b : Nat} (_ : a ≤ 8) (_ : b ≤ 8) : refInt a = refInt b ↔ a = b := by
  unfold refInt
  constructor
  · intro h
    split_ifs at h <;> omega
  · rintro rfl; rfl

theorem hasNewmv_eq (b : Block) : b.mode.hasNewmv = (infoOf b).hasNewmv := by
  unfold infoOf
  cases b.mode <;> rfl

theorem isInter_eq (b : Block) : b.isInter = (infoOf b).isInter := by
  unfold infoOf Block.isInter Spec.Info.isInter
  cases b.mode <;> rfl

variable {e : Env} {p : Input}

theorem Rel.comp (R : Rel e p) : e.isCompound = p.isCompound := by
  have h1 := R.ref1
  have h2 := R.compound
  unfold Spec.Input.isCompound
  rw [h1]
  unfold refInt
  rcases h2 with ⟨a, b, c⟩ | ⟨a, b⟩
  · rw [a, if_neg (by omega)]
    exact (decide_eq_true (by omega)).symm
  · rw [a, if_pos b]; rfl

theorem matchMv_eq (mv : Spec.Mv) (w : Nat) : ∀ {s : List Entry}, (∀ e ∈ s, e.mv1 = (0, 0)) →
    matchMv mv w (s.map ofE) = match Spec.addWeight mv (0, 0) w s with | some l => (l.map ofE, true) | none => (s.map ofE, false) := by
  intro s
  induction s with
  | nil => intro _; rfl
  | cons a s ih =>
    intro h
    have ha := h a List.mem_cons_self
    rw [List.map_cons, matchMv, Spec.addWeight]
    by_cases hm : a.mv0 = mv
    · rw [if_pos (show mv.1 = (ofE a).this.1 ∧ mv.2 = (ofE a).this.2 from by rw [← hm]; exact ⟨rfl, rfl⟩), if_pos (show a.mv0 = mv ∧ a.mv1 = (0, 0) from ⟨hm, ha⟩)]
      rfl
    · rw [if_neg (show ¬ (mv.1 = (ofE a).this.1 ∧ mv.2 = (ofE a).this.2) from fun h => hm (Prod.ext h.1.symm h.2.symm)),
        if_neg (show ¬ (a.mv0 = mv ∧ a.mv1 = (0, 0)) from fun h => hm h.1), ih fun e he => h e (List.mem_cons_of_mem _ he)]
      cases Spec.addWeight mv (0, 0) w s <;> rfl

theorem matchCompMv_eq (mv0 mv1 : Spec.Mv) (w : Nat) : ∀ {s : List Entry},
    matchCompMv mv0 mv1 w (s.map ofE) = match Spec.addWeight mv0 mv1 w s with | some l => (l.map ofE, true) | none => (s.map ofE, false) := by
  intro s
  induction s with
  | nil => rfl
  | cons a s ih =>
    rw [List.map_cons, matchCompMv, Spec.addWeight]
    by_cases hm : a.mv0 = mv0 ∧ a.mv1 = mv1
    · rw [if_pos (show mv0.1 = (ofE a).this.1 ∧ mv0.2 = (ofE a).this.2 ∧ mv1.1 = (ofE a).comp.1 ∧ mv1.2 = (ofE a).comp.2 from by
        rw [← hm.1, ← hm.2]; exact ⟨rfl, rfl, rfl, rfl⟩), if_pos (show a.mv0 = mv0 ∧ a.mv1 = mv1 from hm)]
      rfl
    · rw [if_neg (show ¬ (mv0.1 = (ofE a).this.1 ∧ mv0.2 = (ofE a).this.2 ∧ mv1.1 = (ofE a).comp.1 ∧ mv1.2 = (ofE a).comp.2) from fun h =>
        hm ⟨Prod.ext h.1.symm h.2.1.symm, Prod.ext h.2.2.1.symm h.2.2.2.symm⟩), if_neg (show ¬ (a.mv0 = mv0 ∧ a.mv1 = mv1) from hm), ih]
      cases Spec.addWeight mv0 mv1 w s <;> rfl

/-- Adding to the stack, as the code does it after the search. -/
theorem push_eq (k : Key) (w : Nat) (s : List Entry) :
    (let r := match Spec.addWeight k.1 k.2 w s with | some l => (l.map ofE, true) | none => (s.map ofE, false)
     if !r.2 && decide (r.1.length < 8) then push r.1 ⟨k.1, k.2, w⟩ else some r.1) = some ((step s (k, w)).map ofE) := by
  unfold step
  cases Spec.addWeight k.1 k.2 w s with
  | some l => rfl
  | none =>
    dsimp only
    by_cases h8 : s.length < 8
    · rw [if_pos h8, if_pos (by simp [h8])]
      unfold push
      rw [if_pos (by rw [List.length_map]; omega), List.map_append]
      rfl
    · rw [if_neg h8, if_neg (by simp [h8])]

theorem plain_step {s : List Entry} (h : ∀ e ∈ s, e.mv1 = (0, 0)) (mv : Spec.Mv) (w : Nat) : ∀ e ∈ step s ((mv, (0, 0)), w), e.mv1 = (0, 0) := by
  unfold step
  dsimp only
  cases he : Spec.addWeight mv (0, 0) w s with
  | some l =>
    dsimp only
    obtain ⟨h1, _⟩ := addWeight_keys he
    intro e hl
    have : (e.mv0, e.mv1) ∈ l.map (fun e => (e.mv0, e.mv1)) := List.mem_map_of_mem hl
    rw [h1] at this
    obtain ⟨e', h2, h3⟩ := List.mem_map.mp this
    have := h e' h2
    have h4 := congrArg Prod.snd h3
    dsimp only at h4
    rw [← h4]; exact this
  | none =>
    dsimp only
    intro e hl
    by_cases h8 : s.length < 8
    · rw [if_pos h8] at hl
      rcases List.mem_append.mp hl with hl | hl
      · exact h e hl
      · rw [List.mem_singleton.mp hl]
    · rw [if_neg h8] at hl; exact h e hl

theorem plain_run {s : List Entry} (h : Plain p s) (vs : Visits) : Plain p (run s (ops p vs)) := by
  intro hc
  have hk : ∀ o ∈ ops p vs, o.1.2 = (0, 0) := by
    intro o ho
    unfold ops at ho
    obtain ⟨v, _, ho⟩ := List.mem_flatMap.mp ho
    obtain ⟨k, hk, rfl⟩ := List.mem_map.mp ho
    unfold keys at hk
    by_cases h1 : v.1.isInter = false
    · rw [if_pos h1] at hk; cases hk
    · rw [if_neg h1, if_pos hc] at hk
      rcases List.mem_append.mp hk with hk | hk <;> (split_ifs at hk <;> [skip; cases hk]; rw [List.mem_singleton.mp hk])
  have : ∀ (o : List (Key × Nat)) (s : List Entry), (∀ x ∈ o, x.1.2 = (0, 0)) → (∀ e ∈ s, e.mv1 = (0, 0)) → ∀ e ∈ run s o, e.mv1 = (0, 0) := by
    intro o
    induction o with
    | nil => intro s _ h; exact h
    | cons a o ih =>
      intro s ho hs
      have ea : a = ((a.1.1, (0, 0)), a.2) := by
        have := ho a List.mem_cons_self
        rw [← this]
      refine ih (step s a) (fun x hx => ho x (List.mem_cons_of_mem _ hx)) ?_
      rw [ea]
      exact plain_step hs _ _
  exact this _ _ hk (h hc)

/-- `add_ref_mv_candidate` is the add reference motion vector process. -/
theorem addRef_model (R : Rel e p) {b : Block} {s : Blk} (S : Shows b s) (w : Nat) {st : List Entry} (hp : Plain p st) (n : Nat) :
    addRefMvCandidate e.ref0 e.ref1 b w e.isCompound ⟨st.map ofE, n⟩ =
      some (⟨(run st (ops p [(s.info, w)])).map ofE, n + newCount p [(s.info, w)]⟩, matched p [(s.info, w)]) := by
  have eo : ops p [(s.info, w)] = (keys p s.info).map (·, w) := by rw [ops_cons]; simp [ops]
  have en : newCount p [(s.info, w)] = if b.mode.hasNewmv then (keys p s.info).length else 0 := by
    simp only [newCount, List.map_cons, List.map_nil, List.sum_cons, List.sum_nil, Nat.add_zero, hasNewmv_eq, S.info]
  have em : matched p [(s.info, w)] = !(keys p s.info).isEmpty := by simp [matched]
  rw [eo, en, em]
  have r0 : s.info.ref0 = refInt b.ref0 := by rw [← S.info]; rfl
  have r1 : s.info.ref1 = refInt b.ref1 := by rw [← S.info]; rfl
  have m0 : s.info.mv0 = b.mv0 := by rw [← S.info]; rfl
  have m1 : s.info.mv1 = b.mv1 := by rw [← S.info]; rfl
  have q0 := R.ref0ok
  unfold addRefMvCandidate keys
  rw [← S.info, ← isInter_eq]
  by_cases h1 : b.isInter
  · simp only [h1, Bool.not_true, Bool.false_eq_true, if_false, Bool.true_eq_false]
    rw [R.comp]
    by_cases hc : p.isCompound
    · rw [if_pos hc, if_neg (show ¬ p.isCompound = false from by simp [hc])]
      have hr1 : e.ref1 ≤ 8 := by rcases R.compound with h | h <;> omega
      have hiff : ((infoOf b).ref0 = p.ref0 ∧ (infoOf b).ref1 = p.ref1) ↔ (b.ref0 = e.ref0 ∧ b.ref1 = e.ref1) := by
        rw [S.info, r0, r1, R.ref0, R.ref1, refInt_inj S.ref0 (by omega), refInt_inj S.ref1 hr1]
      by_cases hm : b.ref0 = e.ref0 ∧ b.ref1 = e.ref1
      · rw [if_pos hm, if_pos (hiff.mpr hm)]
        have hpush := push_eq (b.mv0, b.mv1) w st
        rw [← matchCompMv_eq] at hpush
        dsimp only at hpush ⊢
        split_ifs at hpush ⊢ with hq hn <;> rw [hpush] <;> simp [run, infoOf, S.mv0.lower, S.mv1.lower]
      · rw [if_neg hm, if_neg (fun h => hm (hiff.mp h))]
        simp [run]
    · have hc' : p.isCompound = false := by simpa using hc
      rw [if_neg hc, if_pos hc']
      have hs := hp hc'
      have hiff0 : (infoOf b).ref0 = p.ref0 ↔ b.ref0 = e.ref0 := by rw [S.info, r0, R.ref0, refInt_inj S.ref0 (by omega)]
      have hiff1 : (infoOf b).ref1 = p.ref0 ↔ b.ref1 = e.ref0 := by rw [S.info, r1, R.ref0, refInt_inj S.ref1 (by omega)]
      have single : ∀ (mv : Spec.Mv) (st : List Entry) (n : Nat), (∀ e ∈ st, e.mv1 = (0, 0)) →
          addSingle b mv w ⟨st.map ofE, n⟩ = some ⟨(step st ((mv, (0, 0)), w)).map ofE, if b.mode.hasNewmv then n + 1 else n⟩ := by
        intro mv st n hs
        unfold addSingle
        have hpush := push_eq (mv, (0, 0)) w st
        rw [← matchMv_eq mv w hs] at hpush
        dsimp only at hpush ⊢
        split_ifs at hpush ⊢ with hq hn <;> rw [hpush] <;> rfl
      simp only [hiff0, hiff1]
      by_cases h0 : b.ref0 = e.ref0
      · rw [if_pos h0, single b.mv0 st n hs]
        simp only [Option.map_some, Option.bind_eq_bind, Option.bind_some]
        have hs' := plain_step hs b.mv0 w
        by_cases h1 : b.ref1 = e.ref0
        · rw [if_pos h1, single b.mv1 _ _ hs']
          by_cases hn : b.mode.hasNewmv <;> simp [hn, h0, h1, run, infoOf, S.mv0.lower, S.mv1.lower]
        · rw [if_neg h1]
          by_cases hn : b.mode.hasNewmv <;> simp [hn, h0, h1, run, infoOf, S.mv0.lower]
      · rw [if_neg h0]
        simp only [Option.bind_eq_bind, Option.bind_some]
        by_cases h1 : b.ref1 = e.ref0
        · rw [if_pos h1, single b.mv1 _ _ hs]
          by_cases hn : b.mode.hasNewmv <;> simp [hn, h0, h1, run, infoOf, S.mv1.lower]
        · rw [if_neg h1]
          simp [h0, h1, run]
  · simp [h1, run]

end Rav1e.Mvref
