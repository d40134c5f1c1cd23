import Verif.Mvref.Comp

/-!
# The motion of a block survives coding
-/

namespace Rav1e.Mvref

open Spec (Cdf Sym Result)

set_option linter.unusedSimpArgs false

/-- The candidates of the encoder and its context are those of the decoder. -/
structure Agrees (out : Result) (stack : List Cand) (ctx : Nat) : Prop where
  cands : stack = out.stack.map ofE
  bits : ctx = out.newMvContext + out.refMvContext * 16
  new : out.newMvContext < 6
  ref : out.refMvContext < 6
  drl : ∀ {i q r}, stack[i]? = some q → stack[i + 1]? = some r → out.drl[i]? = some (drlModeCtx q r)

variable {out : Result} {stack : List Cand} {ctx : Nat}

theorem Agrees.length (A : Agrees out stack ctx) : out.stack.length = stack.length := by rw [A.cands, List.length_map]

theorem ctx_new : ∀ a < 6, ∀ b < 6, (a + b * 16) &&& 7 = a := by decide

theorem ctx_zero : ∀ a < 6, ∀ b < 6, ((a + b * 16) >>> 3) &&& 1 = 0 := by decide

theorem ctx_ref : ∀ a < 6, ∀ b < 6, ((a + b * 16) >>> 4) &&& 15 = b := by decide

theorem ctx_comp : ∀ a < 6, ∀ b < 6, (if b < 2 then min a 1 else if b < 4 then min (a + 1) 4 else min (max a 1 + 3) 7) = Spec.compoundModeCtx a b := by decide

/-- The modes with one reference. -/
theorem ymode_single (A : Agrees out stack ctx) {m : Mode} (hc : m.isCompound = false) (hi : m ≠ .intra) (rest : List Sym) :
    Spec.readYMode false out (writeInterMode m ctx ++ rest) = some (modeOf m, rest) := by
  unfold writeInterMode
  rw [A.bits, ctx_new _ A.new _ A.ref, ctx_zero _ A.new _ A.ref, ctx_ref _ A.new _ A.ref]
  unfold Spec.readYMode
  rw [if_neg (by decide)]
  have e1 : ∀ v l, v < 2 → Spec.read (.newMv out.newMvContext) ((.newMv out.newMvContext, v) :: l) = some (v, l) := fun v l h => read_cons (.newMv _) h l
  have e2 : ∀ v l, v < 2 → Spec.read (.zeroMv 0) ((.zeroMv 0, v) :: l) = some (v, l) := fun v l h => read_cons (.zeroMv _) h l
  have e3 : ∀ v l, v < 2 → Spec.read (.refMv out.refMvContext) ((.refMv out.refMvContext, v) :: l) = some (v, l) := fun v l h => read_cons (.refMv _) h l
  cases m <;> first | exact absurd rfl hi | exact absurd hc (by decide) | simp [e1, e2, e3, modeOf]

/-- The modes with two references. -/
theorem ymode_compound (A : Agrees out stack ctx) {m : Mode} (hc : m.isCompound = true) :
    ∃ l, writeCompoundMode m ctx = some l ∧ ∀ rest, Spec.readYMode true out (l ++ rest) = some (modeOf m, rest) := by
  unfold writeCompoundMode
  dsimp only
  rw [A.bits, ctx_new _ A.new _ A.ref, ctx_ref _ A.new _ A.ref, ctx_comp _ A.new _ A.ref]
  unfold Spec.readYMode
  have e1 : ∀ v l, v < 8 → Spec.read (.compoundMode (Spec.compoundModeCtx out.newMvContext out.refMvContext))
    ((.compoundMode (Spec.compoundModeCtx out.newMvContext out.refMvContext), v) :: l) = some (v, l) := fun v l h => read_cons (.compoundMode _) h l
  cases m <;> first | exact absurd hc (by decide) | (refine ⟨_, rfl, fun rest => ?_⟩; simp [e1, Spec.compoundOf, modeOf])

theorem drl_none (A : Agrees out stack ctx) (k : Nat) : ∀ fuel idx cur l, stack.length ≤ idx + 1 →
    writeDrl stack k fuel idx = [] ∧ Spec.readDrl out fuel idx cur l = some (cur, l)
  | 0, _, _, _, _ => ⟨rfl, rfl⟩
  | fuel + 1, idx, cur, l, h => by
    obtain ⟨h1, h2⟩ := drl_none A k fuel (idx + 1) cur l (by omega)
    rw [writeDrl, Spec.readDrl, if_neg (show ¬ out.stack.length > idx + 1 by have := A.length; omega), List.getElem?_eq_none (show stack.length ≤ idx + 1 from h)]
    refine ⟨?_, h2⟩
    cases stack[idx]? <;> exact h1

/-- The index of the candidate. -/
theorem drl_rt (A : Agrees out stack ctx) (k : Nat) (rest : List Sym) : ∀ fuel idx, idx ≤ k → k ≤ idx + fuel → (k < stack.length ∨ k = idx) →
    Spec.readDrl out fuel idx idx (writeDrl stack k fuel idx ++ rest) = some (k, rest)
  | 0, idx, h1, h2, _ => by
    obtain rfl : k = idx := by omega
    rfl
  | fuel + 1, idx, h1, h2, h3 => by
    by_cases hl : stack.length ≤ idx + 1
    · obtain ⟨a1, a2⟩ := drl_none A k (fuel + 1) idx idx rest hl
      obtain rfl : k = idx := by omega
      rw [a1, List.nil_append, a2]
    · have g1 : stack[idx]? = some stack[idx] := List.getElem?_eq_getElem (by omega)
      have g2 : stack[idx + 1]? = some stack[idx + 1] := List.getElem?_eq_getElem (by omega)
      have hd := A.drl g1 g2
      rw [writeDrl, g1, g2]
      dsimp only
      rw [Spec.readDrl, if_pos (show out.stack.length > idx + 1 by have := A.length; omega), hd, List.cons_append]
      simp only [Option.bind_eq_bind, Option.bind_some]
      rw [read_cons (.drlMode _) (by show _ < 2; cases decide (k > idx) <;> decide)]
      simp only [Option.bind_some]
      by_cases hk : k > idx
      · rw [if_pos hk, if_neg (by simp [hk])]
        exact drl_rt A k rest fuel (idx + 1) (by omega) (by omega) (by omega)
      · rw [if_neg hk, if_pos (by simp [hk])]
        obtain rfl : k = idx := by omega
        rfl

/-- The vectors of a block are what its mode says, as a decoder understands the mode; a new vector may be any. -/
def Says (m : Mode) (mv0 mv1 : Mv) (stack : List Cand) : Prop :=
  match m with
  | .nearestmv => mv0 = ((stack[0]?).map Cand.this).getD (0, 0)
  | .near0mv => mv0 = ((stack[1]?).map Cand.this).getD (0, 0)
  | .near1mv => ∃ q, stack[2]? = some q ∧ mv0 = q.this
  | .near2mv => ∃ q, stack[3]? = some q ∧ mv0 = q.this
  | .globalmv => mv0 = (0, 0)
  | .newmv => True
  | .nearest_nearestmv => ∃ q, stack[0]? = some q ∧ mv0 = q.this ∧ mv1 = q.comp
  | .near_near0mv => ∃ q, stack[1]? = some q ∧ mv0 = q.this ∧ mv1 = q.comp
  | .near_near1mv => ∃ q, stack[2]? = some q ∧ mv0 = q.this ∧ mv1 = q.comp
  | .near_near2mv => ∃ q, stack[3]? = some q ∧ mv0 = q.this ∧ mv1 = q.comp
  | .nearest_newmv => ∃ q, stack[0]? = some q ∧ mv0 = q.this
  | .new_nearestmv => ∃ q, stack[0]? = some q ∧ mv1 = q.comp
  | .global_globalmv => mv0 = (0, 0) ∧ mv1 = (0, 0)
  | .new_newmv => 2 ≤ stack.length
  | _ => False

/-- A new vector that can be coded: valid, in quarters of a pixel, and not too far from its prediction. -/
structure Codable (mv pred : Mv) : Prop where
  valid : isValid mv = true
  row : -16384 ≤ mv.1 - pred.1 ∧ mv.1 - pred.1 ≤ 16384
  col : -16384 ≤ mv.2 - pred.2 ∧ mv.2 - pred.2 ≤ 16384
  even : (mv.1 - pred.1) % 2 = 0 ∧ (mv.2 - pred.2) % 2 = 0

theorem Codable.rt {mv pred : Mv} (h : Codable mv pred) :
    ∃ l, writeMv mv pred .low = some l ∧ ∀ rest, Spec.readMv false false pred (l ++ rest) = some (mv, rest) :=
  writeMv_rt h.valid h.row h.col h.even.1 h.even.2

theorem refStack_none (A : Agrees out stack ctx) {pos i : Nat} (hp : pos < 2) (h : stack[pos]? = none) : Spec.refStackMv out pos i = some (0, 0) := by
  unfold Spec.refStackMv
  have : out.stack[pos]? = none := by
    rw [A.cands, List.getElem?_map] at h
    simpa using h
  rw [this]
  dsimp only
  rw [if_pos hp]

theorem refStack_some (A : Agrees out stack ctx) {pos : Nat} {q : Cand} (h : stack[pos]? = some q) :
    Spec.refStackMv out pos 0 = some q.this ∧ Spec.refStackMv out pos 1 = some q.comp := by
  unfold Spec.refStackMv
  rw [A.cands, List.getElem?_map] at h
  obtain ⟨q', h1, rfl⟩ := Option.map_eq_some_iff.mp h
  rw [h1]
  exact ⟨rfl, rfl⟩

theorem refStack_first (A : Agrees out stack ctx) : Spec.refStackMv out 0 0 = some (refMvs stack).1 ∧ Spec.refStackMv out 0 1 = some (refMvs stack).2 := by
  cases hs : stack with
  | nil =>
    have h : stack[0]? = none := by rw [hs]; rfl
    exact ⟨refStack_none A (by decide) h, refStack_none A (by decide) h⟩
  | cons q l =>
    have h : stack[0]? = some q := by rw [hs]; rfl
    exact refStack_some A h

theorem gm0 : Spec.getMode .nearestmv 0 = .nearestmv := rfl
theorem gm1 : Spec.getMode .nearmv 0 = .nearmv := rfl
theorem gm2 : Spec.getMode .globalmv 0 = .globalmv := rfl
theorem gm3 : Spec.getMode .newmv 0 = .newmv := rfl
theorem gm4 : Spec.getMode .nearest_nearestmv 0 = .nearestmv := rfl
theorem gm5 : Spec.getMode .nearest_nearestmv 1 = .nearestmv := rfl
theorem gm6 : Spec.getMode .near_nearmv 0 = .nearmv := rfl
theorem gm7 : Spec.getMode .near_nearmv 1 = .nearmv := rfl
theorem gm8 : Spec.getMode .nearest_newmv 0 = .nearestmv := rfl
theorem gm9 : Spec.getMode .nearest_newmv 1 = .newmv := rfl
theorem gm10 : Spec.getMode .new_nearestmv 0 = .newmv := rfl
theorem gm11 : Spec.getMode .new_nearestmv 1 = .nearestmv := rfl
theorem gm12 : Spec.getMode .global_globalmv 0 = .globalmv := rfl
theorem gm13 : Spec.getMode .global_globalmv 1 = .globalmv := rfl
theorem gm14 : Spec.getMode .new_newmv 0 = .newmv := rfl
theorem gm15 : Spec.getMode .new_newmv 1 = .newmv := rfl

/-- The motion of a block is read back. -/
theorem motion_rt (A : Agrees out stack ctx) {m : Mode} {mv0 mv1 : Mv} (hs : Says m mv0 mv1 stack)
    (h0 : m = .newmv ∨ m = .new_newmv ∨ m = .new_nearestmv → Codable mv0 (refMvs stack).1)
    (h1 : m = .new_newmv ∨ m = .nearest_newmv → Codable mv1 (refMvs stack).2) :
    ∃ l, writeMotion m mv0 mv1 stack ctx .low = some l ∧
      ∀ rest, Spec.readMotion m.isCompound out (l ++ rest) = some ((modeOf m, mv0, if m.isCompound then some mv1 else none), rest) := by
  obtain ⟨f1, f2⟩ := refStack_first A
  have single : ∀ m, m.isCompound = false → m ≠ .intra → ∀ rest, Spec.readYMode false out (writeInterMode m ctx ++ rest) = some (modeOf m, rest) :=
    fun m hc hi rest => ymode_single A hc hi rest
  have comp : ∀ m, m.isCompound = true → ∃ l, writeCompoundMode m ctx = some l ∧ ∀ rest, Spec.readYMode true out (l ++ rest) = some (modeOf m, rest) :=
    fun m hc => ymode_compound A hc
  have drl0 : ∀ rest, Spec.readDrl out 2 0 0 (writeDrl stack 0 2 0 ++ rest) = some (0, rest) := fun rest => drl_rt A 0 rest 2 0 (by omega) (by omega) (by omega)
  have drl1 : ∀ k, 1 ≤ k → k ≤ 3 → (k < stack.length ∨ k = 1) → ∀ rest, Spec.readDrl out 2 1 1 (writeDrl stack k 2 1 ++ rest) = some (k, rest) :=
    fun k a b c rest => drl_rt A k rest 2 1 (by omega) (by omega) c
  have hlen : ∀ {k q}, stack[k]? = some q → k < stack.length := fun h => (List.getElem?_eq_some_iff.mp h).1
  cases m with
  | intra => exact absurd hs (by simp [Says])
  | nearestmv =>
    change mv0 = _ at hs
    have hck : checkMvs .nearestmv mv0 stack = some () := by
      unfold checkMvs
      rw [if_neg (by decide), if_pos rfl]
      cases hst : stack with
      | nil => rw [hst] at hs; simp at hs; simp [hs]
      | cons q l => rw [hst] at hs; simp at hs; simp [hs]
    have hp : Spec.refStackMv out 0 0 = some mv0 := by
      rw [f1, hs]
      cases stack <;> rfl
    refine ⟨_, by simp [writeMotion, Mode.isCompound, Mode.hasNearmv, hck]; rfl, fun rest => ?_⟩
    simp [Spec.readMotion, Mode.isCompound, single .nearestmv rfl (by decide), modeOf, Spec.readRefMvIdx, Spec.YMode.hasNearmv, Spec.assignMv, gm0, gm1, gm2, gm3, gm4, gm5, gm6, gm7, gm8, gm9, gm10, gm11, gm12, gm13, gm14, gm15, hp]
  | near0mv =>
    change mv0 = _ at hs
    have hck : checkMvs .near0mv mv0 stack = some () := by
      unfold checkMvs
      rw [if_pos (by decide)]
      by_cases hl : stack.length > 1
      · rw [if_pos hl]
        have : stack[1]? = some stack[1] := List.getElem?_eq_getElem hl
        rw [this] at hs
        simp at hs
        simp [Mode.refMvIdx, this, hs]
      · rw [if_neg hl]
        have : stack[1]? = none := List.getElem?_eq_none (by omega)
        rw [this] at hs
        simp at hs
        simp [hs]
    have hp : Spec.refStackMv out 1 0 = some mv0 := by
      cases h : stack[1]? with
      | none => rw [refStack_none A (by decide) h, hs, h]; rfl
      | some q => rw [(refStack_some A h).1, hs, h]; rfl
    refine ⟨_, by simp [writeMotion, Mode.isCompound, Mode.hasNearmv, hck]; rfl, fun rest => ?_⟩
    rw [List.append_assoc]
    simp [Spec.readMotion, Mode.isCompound, single .near0mv rfl (by decide), modeOf, Spec.readRefMvIdx, Spec.YMode.hasNearmv, Spec.assignMv, gm0, gm1, gm2, gm3, gm4, gm5, gm6, gm7, gm8, gm9, gm10, gm11, gm12, gm13, gm14, gm15, hp,
      Mode.refMvIdx, drl1 1 (by decide) (by decide) (.inr rfl)]
  | near1mv =>
    obtain ⟨q, hq, rfl⟩ := hs
    have hl := hlen hq
    have hck : checkMvs .near1mv q.this stack = some () := by
      unfold checkMvs
      rw [if_pos (by decide), if_pos (by omega)]
      simp [Mode.refMvIdx, hq]
    have hp := (refStack_some A hq).1
    refine ⟨_, by simp [writeMotion, Mode.isCompound, Mode.hasNearmv, hck, Mode.refMvIdx, hl]; rfl, fun rest => ?_⟩
    rw [List.append_assoc]
    simp [Spec.readMotion, Mode.isCompound, single .near1mv rfl (by decide), modeOf, Spec.readRefMvIdx, Spec.YMode.hasNearmv, Spec.assignMv, gm0, gm1, gm2, gm3, gm4, gm5, gm6, gm7, gm8, gm9, gm10, gm11, gm12, gm13, gm14, gm15, hp,
      drl1 2 (by decide) (by decide) (.inl hl)]
  | near2mv =>
    obtain ⟨q, hq, rfl⟩ := hs
    have hl := hlen hq
    have hck : checkMvs .near2mv q.this stack = some () := by
      unfold checkMvs
      rw [if_pos (by decide), if_pos (by omega)]
      simp [Mode.refMvIdx, hq]
    have hp := (refStack_some A hq).1
    refine ⟨_, by simp [writeMotion, Mode.isCompound, Mode.hasNearmv, hck, Mode.refMvIdx, hl]; rfl, fun rest => ?_⟩
    rw [List.append_assoc]
    simp [Spec.readMotion, Mode.isCompound, single .near2mv rfl (by decide), modeOf, Spec.readRefMvIdx, Spec.YMode.hasNearmv, Spec.assignMv, gm0, gm1, gm2, gm3, gm4, gm5, gm6, gm7, gm8, gm9, gm10, gm11, gm12, gm13, gm14, gm15, hp,
      drl1 3 (by decide) (by decide) (.inl hl)]
  | globalmv =>
    change mv0 = _ at hs
    subst hs
    refine ⟨_, by simp [writeMotion, Mode.isCompound, Mode.hasNearmv, checkMvs]; rfl, fun rest => ?_⟩
    simp [Spec.readMotion, Mode.isCompound, single .globalmv rfl (by decide), modeOf, Spec.readRefMvIdx, Spec.YMode.hasNearmv, Spec.assignMv, gm0, gm1, gm2, gm3, gm4, gm5, gm6, gm7, gm8, gm9, gm10, gm11, gm12, gm13, gm14, gm15]
  | newmv =>
    obtain ⟨l, w1, w2⟩ := (h0 (.inl rfl)).rt
    refine ⟨_, by simp [writeMotion, Mode.isCompound, Mode.hasNearmv, checkMvs, w1]; rfl, fun rest => ?_⟩
    simp only [List.append_assoc]
    simp [Spec.readMotion, Mode.isCompound, single .newmv rfl (by decide), modeOf, Spec.readRefMvIdx, Spec.assignMv, gm0, gm1, gm2, gm3, gm4, gm5, gm6, gm7, gm8, gm9, gm10, gm11, gm12, gm13, gm14, gm15, drl0, f1, w2]
  | nearest_nearestmv =>
    obtain ⟨q, hq, rfl, rfl⟩ := hs
    obtain ⟨p0, p1⟩ := refStack_some A hq
    obtain ⟨l, w1, w2⟩ := comp .nearest_nearestmv rfl
    refine ⟨_, by simp [writeMotion, Mode.isCompound, Mode.hasNearmv, checkMvs, w1]; rfl, fun rest => ?_⟩
    simp [Spec.readMotion, Mode.isCompound, w2, modeOf, Spec.readRefMvIdx, Spec.YMode.hasNearmv, Spec.assignMv, gm0, gm1, gm2, gm3, gm4, gm5, gm6, gm7, gm8, gm9, gm10, gm11, gm12, gm13, gm14, gm15, p0, p1]
  | near_near0mv =>
    obtain ⟨q, hq, rfl, rfl⟩ := hs
    have hl := hlen hq
    obtain ⟨p0, p1⟩ := refStack_some A hq
    obtain ⟨l, w1, w2⟩ := comp .near_near0mv rfl
    have hck : checkMvs .near_near0mv q.this stack = some () := by
      unfold checkMvs
      rw [if_pos (by decide), if_pos (by omega)]
      simp [Mode.refMvIdx, hq]
    refine ⟨_, by simp [writeMotion, Mode.isCompound, Mode.hasNearmv, hck, w1, Mode.refMvIdx, hl]; rfl, fun rest => ?_⟩
    rw [List.append_assoc]
    simp [Spec.readMotion, Mode.isCompound, w2, modeOf, Spec.readRefMvIdx, Spec.YMode.hasNearmv, Spec.assignMv, gm0, gm1, gm2, gm3, gm4, gm5, gm6, gm7, gm8, gm9, gm10, gm11, gm12, gm13, gm14, gm15, p0, p1,
      drl1 1 (by decide) (by decide) (.inr rfl)]
  | near_near1mv =>
    obtain ⟨q, hq, rfl, rfl⟩ := hs
    have hl := hlen hq
    obtain ⟨p0, p1⟩ := refStack_some A hq
    obtain ⟨l, w1, w2⟩ := comp .near_near1mv rfl
    have hck : checkMvs .near_near1mv q.this stack = some () := by
      unfold checkMvs
      rw [if_pos (by decide), if_pos (by omega)]
      simp [Mode.refMvIdx, hq]
    refine ⟨_, by simp [writeMotion, Mode.isCompound, Mode.hasNearmv, hck, w1, Mode.refMvIdx, hl]; rfl, fun rest => ?_⟩
    rw [List.append_assoc]
    simp [Spec.readMotion, Mode.isCompound, w2, modeOf, Spec.readRefMvIdx, Spec.YMode.hasNearmv, Spec.assignMv, gm0, gm1, gm2, gm3, gm4, gm5, gm6, gm7, gm8, gm9, gm10, gm11, gm12, gm13, gm14, gm15, p0, p1,
      drl1 2 (by decide) (by decide) (.inl hl)]
  | near_near2mv =>
    obtain ⟨q, hq, rfl, rfl⟩ := hs
    have hl := hlen hq
    obtain ⟨p0, p1⟩ := refStack_some A hq
    obtain ⟨l, w1, w2⟩ := comp .near_near2mv rfl
    have hck : checkMvs .near_near2mv q.this stack = some () := by
      unfold checkMvs
      rw [if_pos (by decide), if_pos (by omega)]
      simp [Mode.refMvIdx, hq]
    refine ⟨_, by simp [writeMotion, Mode.isCompound, Mode.hasNearmv, hck, w1, Mode.refMvIdx, hl]; rfl, fun rest => ?_⟩
    rw [List.append_assoc]
    simp [Spec.readMotion, Mode.isCompound, w2, modeOf, Spec.readRefMvIdx, Spec.YMode.hasNearmv, Spec.assignMv, gm0, gm1, gm2, gm3, gm4, gm5, gm6, gm7, gm8, gm9, gm10, gm11, gm12, gm13, gm14, gm15, p0, p1,
      drl1 3 (by decide) (by decide) (.inl hl)]
  | nearest_newmv =>
    obtain ⟨q, hq, rfl⟩ := hs
    obtain ⟨p0, p1⟩ := refStack_some A hq
    obtain ⟨l, w1, w2⟩ := comp .nearest_newmv rfl
    obtain ⟨l', w1', w2'⟩ := (h1 (.inr rfl)).rt
    refine ⟨_, by simp [writeMotion, Mode.isCompound, Mode.hasNearmv, checkMvs, w1, w1']; rfl, fun rest => ?_⟩
    rw [List.append_assoc]
    simp [Spec.readMotion, Mode.isCompound, w2, modeOf, Spec.readRefMvIdx, Spec.YMode.hasNearmv, Spec.assignMv, gm0, gm1, gm2, gm3, gm4, gm5, gm6, gm7, gm8, gm9, gm10, gm11, gm12, gm13, gm14, gm15, p0, f2, w2']
  | new_nearestmv =>
    obtain ⟨q, hq, rfl⟩ := hs
    obtain ⟨p0, p1⟩ := refStack_some A hq
    obtain ⟨l, w1, w2⟩ := comp .new_nearestmv rfl
    obtain ⟨l', w1', w2'⟩ := (h0 (.inr (.inr rfl))).rt
    refine ⟨_, by simp [writeMotion, Mode.isCompound, Mode.hasNearmv, checkMvs, w1, w1']; rfl, fun rest => ?_⟩
    rw [List.append_assoc]
    simp [Spec.readMotion, Mode.isCompound, w2, modeOf, Spec.readRefMvIdx, Spec.YMode.hasNearmv, Spec.assignMv, gm0, gm1, gm2, gm3, gm4, gm5, gm6, gm7, gm8, gm9, gm10, gm11, gm12, gm13, gm14, gm15, p1, f1, w2']
  | global_globalmv =>
    obtain ⟨rfl, rfl⟩ := hs
    obtain ⟨l, w1, w2⟩ := comp .global_globalmv rfl
    refine ⟨_, by simp [writeMotion, Mode.isCompound, Mode.hasNearmv, checkMvs, w1]; rfl, fun rest => ?_⟩
    simp [Spec.readMotion, Mode.isCompound, w2, modeOf, Spec.readRefMvIdx, Spec.YMode.hasNearmv, Spec.assignMv, gm0, gm1, gm2, gm3, gm4, gm5, gm6, gm7, gm8, gm9, gm10, gm11, gm12, gm13, gm14, gm15]
  | new_newmv =>
    change 2 ≤ stack.length at hs
    obtain ⟨l, w1, w2⟩ := comp .new_newmv rfl
    obtain ⟨l0, w10, w20⟩ := (h0 (.inr (.inl rfl))).rt
    obtain ⟨l1, w11, w21⟩ := (h1 (.inl rfl)).rt
    refine ⟨_, by simp [writeMotion, Mode.isCompound, Mode.hasNearmv, checkMvs, w1, w10, w11, show ¬ stack.length < 2 by omega]; rfl, fun rest => ?_⟩
    simp only [List.append_assoc]
    simp [Spec.readMotion, Mode.isCompound, w2, modeOf, Spec.readRefMvIdx, Spec.assignMv, gm0, gm1, gm2, gm3, gm4, gm5, gm6, gm7, gm8, gm9, gm10, gm11, gm12, gm13, gm14, gm15, drl0, f1, f2, w20, w21]
  | near_new0mv => exact absurd hs (by simp [Says])
  | near_new1mv => exact absurd hs (by simp [Says])
  | near_new2mv => exact absurd hs (by simp [Says])
  | new_near0mv => exact absurd hs (by simp [Says])
  | new_near1mv => exact absurd hs (by simp [Says])
  | new_near2mv => exact absurd hs (by simp [Says])

/-! ## The modes the encoder chooses -/

theorem headD_cons {l : List Cand} {q : Cand} {t : List Cand} (h : l = q :: t) : l[0]? = some q := by rw [h]; rfl

/-- After a block's mode is fitted to the stack, its vectors are what the mode says. -/
theorem remap_says {m m' : Mode} {mv0 mv1 : Mv} {stack : List Cand} (hi : m ≠ .intra)
    (hg : m = .globalmv → mv0 = (0, 0)) (hgg : m = .global_globalmv → mv0 = (0, 0) ∧ mv1 = (0, 0))
    (h : remap m m.isCompound mv0 mv1 stack = some m') : m'.isCompound = m.isCompound ∧ Says m' mv0 mv1 stack := by
  unfold remap at h
  by_cases hc : m.isCompound = true
  · rw [hc]
    by_cases hm : m = .global_globalmv
    · subst hm
      simp [Mode.isCompound] at h
      subst h
      exact ⟨rfl, hgg rfl⟩
    · rw [hc, if_pos (by simp [hm])] at h
      unfold remapCompound at h
      cases e0 : stack[0]? with
      | none => rw [e0] at h; simp at h
      | some q0 =>
      cases e1 : stack[1]? with
      | none => rw [e0, e1] at h; simp at h
      | some q1 =>
      rw [e0, e1] at h
      have hl : 1 < stack.length := (List.getElem?_eq_some_iff.mp e1).1
      simp only [Option.bind_eq_bind, Option.bind_some, Option.some.injEq, isThis, isComp, Bool.and_eq_true, decide_eq_true_eq] at h
      by_cases hz : mv0 = (0, 0) ∧ mv1 = (0, 0)
      · split_ifs at h <;> first
          | (subst h; exact ⟨rfl, hz⟩)
          | (subst h; rename_i h1 _; exact ⟨rfl, q0, e0, h1.1.symm, h1.2.symm⟩)
          | (rename_i hh; exact absurd ⟨by decide, hz⟩ hh)
      · have hn : ∀ x : Mode, ¬ (x ≠ .nearest_nearestmv ∧ mv0 = (0, 0) ∧ mv1 = (0, 0)) := fun x hx => hz hx.2
        rw [if_neg (hn _)] at h
        split_ifs at h with g0 g1 g2 g3 g4 g5
        · subst h; exact ⟨rfl, q0, e0, g0.1.symm, g0.2.symm⟩
        · subst h; exact ⟨rfl, q1, e1, g1.1.symm, g1.2.symm⟩
        · subst h
          cases e2 : stack[2]? with
          | none => rw [e2] at g2; simp at g2
          | some q2 => rw [e2] at g2; simp at g2; exact ⟨rfl, q2, e2, g2.1.symm, g2.2.symm⟩
        · subst h
          cases e3 : stack[3]? with
          | none => rw [e3] at g3; simp at g3
          | some q3 => rw [e3] at g3; simp at g3; exact ⟨rfl, q3, e3, g3.1.symm, g3.2.symm⟩
        · subst h; exact ⟨rfl, q0, e0, g4.symm⟩
        · subst h; exact ⟨rfl, q0, e0, g5.symm⟩
        · subst h; exact ⟨rfl, hl⟩
  · have hc' : m.isCompound = false := by simpa using hc
    rw [hc']
    by_cases hm : m = .globalmv
    · subst hm
      simp [Mode.isCompound] at h
      subst h
      exact ⟨rfl, hg rfl⟩
    · rw [hc', if_neg (by simp), if_pos (by simp [hm])] at h
      simp only [Option.some.injEq] at h
      unfold remapSingle at h
      match hst : stack with
      | [] =>
        simp at h
        split_ifs at h with hz
        · subst h; exact ⟨rfl, hz⟩
        · subst h; exact ⟨rfl, trivial⟩
      | [a] =>
        simp [isThis] at h
        split_ifs at h <;> subst h <;> first | contradiction | (refine ⟨rfl, ?_⟩; simp_all [Says])
      | [a, b] =>
        simp [isThis] at h
        split_ifs at h <;> subst h <;> first | contradiction | (refine ⟨rfl, ?_⟩; simp_all [Says])
      | [a, b, c] =>
        simp [isThis] at h
        split_ifs at h <;> subst h <;> first | contradiction | (refine ⟨rfl, ?_⟩; simp_all [Says])
      | a :: b :: c :: d :: t =>
        simp [isThis] at h
        split_ifs at h <;> subst h <;> first | contradiction | (refine ⟨rfl, ?_⟩; simp_all [Says])

end Rav1e.Mvref
