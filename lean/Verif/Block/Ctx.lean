import Verif.Block.Model
import Verif.Mvref.Coded

/-!
# Contexts

What the encoder computes from its neighbours is what the decoder computes from what it has decoded.
-/

namespace Rav1e.Block

open Mvref (refInt modeOf Small)

/-- The encoder's entry for a position says what the decoder has stored there. -/
structure Shows (last : Nat) (e : EBlk) (b : Spec.Blk) : Prop where
  motion : Mvref.Shows e.blk b.motion
  skip : e.skip = b.hdr.skip
  seg : e.seg = b.hdr.segmentId
  segLe : e.seg ≤ last
  mode : e.blk.mode = .intra → e.intraMode = b.hdr.yMode
  refs : e.blk.mode = .intra ∧ e.blk.ref0 = 0 ∧ e.blk.ref1 = 8 ∨ e.blk.mode ≠ .intra ∧ (1 ≤ e.blk.ref0 ∧ e.blk.ref0 ≤ 7) ∧ (e.blk.ref1 = 8 ∨ 1 ≤ e.blk.ref1 ∧ e.blk.ref1 ≤ 7)

/-- The same for a neighbour. -/
inductive Nb (last : Nat) : Option EBlk → Option Spec.Blk → Prop
  | out : Nb last none none
  | one {e : EBlk} {b : Spec.Blk} (h : Shows last e b) : Nb last (some e) (some b)

variable {last : Nat} {a l ul : Option EBlk} {a' l' ul' : Option Spec.Blk}

theorem Nb.isSome (h : Nb last a a') : a'.isSome = a.isSome := by cases h <;> rfl

theorem Nb.skip (h : Nb last a a') : a'.any (·.hdr.skip) = a.any (·.skip) := by
  cases h with
  | out => rfl
  | one h => simp [h.skip]

theorem skip_ctx (ha : Nb last a a') (hl : Nb last l l') : Spec.skipCtx a' l' = skipContext a l := by
  unfold Spec.skipCtx skipContext
  rw [ha.skip, hl.skip]
  cases a.any (·.skip) <;> cases l.any (·.skip) <;> rfl

/-! ### Segments -/

theorem Nb.prevSeg (h : Nb last a a') : Spec.prevSeg a' = (a.map fun b => (b.seg : Int)).getD (-1) := by
  cases h with
  | out => rfl
  | one h => simp [Spec.prevSeg, h.seg]

theorem Nb.seg_range (h : Nb last a a') : a.isSome = true ∧ 0 ≤ Spec.prevSeg a' ∧ Spec.prevSeg a' ≤ last ∨ a.isSome = false ∧ Spec.prevSeg a' = -1 := by
  cases h with
  | out => exact .inr ⟨rfl, rfl⟩
  | one h =>
    refine .inl ⟨rfl, ?_, ?_⟩
    · simp [Spec.prevSeg]
    · have := h.segLe
      have := h.seg
      simp only [Spec.prevSeg, Option.map_some, Option.getD_some]
      omega

/-- The prediction and the context of the segment, the first limited to what segments there are. -/
theorem seg_pred (ha : Nb last a a') (hl : Nb last l l') (hul : a.isSome = true → l.isSome = true → Nb last ul ul') :
    ∃ pred : Nat, pred ≤ last ∧
      Spec.segPred (if a'.isSome ∧ l'.isSome then Spec.prevSeg ul' else -1) (Spec.prevSeg a') (Spec.prevSeg l') = pred ∧
      getSegmentPred ul a l last = (pred, Spec.segCtx (if a'.isSome ∧ l'.isSome then Spec.prevSeg ul' else -1) (Spec.prevSeg a') (Spec.prevSeg l')) := by
  have e1 : (if a'.isSome ∧ l'.isSome then Spec.prevSeg ul' else -1) =
      if a.isSome = true ∧ l.isSome = true then ((ul.map fun b => (b.seg : Int)).getD (-1)) else -1 := by
    rw [ha.isSome, hl.isSome]
    by_cases h : a.isSome = true ∧ l.isSome = true
    · rw [if_pos h, if_pos h, (hul h.1 h.2).prevSeg]
    · rw [if_neg h, if_neg h]
  have r1 := ha.seg_range
  have r2 := hl.seg_range
  have r3 : 0 ≤ (if a'.isSome ∧ l'.isSome then Spec.prevSeg ul' else -1) → a.isSome = true ∧ l.isSome = true := by
    intro h
    rw [ha.isSome, hl.isSome] at h
    by_contra h'
    rw [if_neg h'] at h
    omega
  unfold getSegmentPred
  rw [← e1, ← ha.prevSeg, ← hl.prevSeg]
  generalize (if a'.isSome ∧ l'.isSome then Spec.prevSeg ul' else -1) = u at *
  generalize Spec.prevSeg a' = v at *
  generalize Spec.prevSeg l' = w at *
  have hp : 0 ≤ Spec.segPred u v w ∧ Spec.segPred u v w ≤ last := by
    unfold Spec.segPred
    split_ifs <;> omega
  refine ⟨(Spec.segPred u v w).toNat, by omega, by omega, ?_⟩
  refine Prod.ext ?_ ?_
  · show min (Int.toNat (Spec.segPred u v w)) last = _
    omega
  · dsimp only
    unfold Spec.segCtx
    by_cases hu : u < 0
    · rw [if_pos (by omega), if_pos hu]
    · obtain ⟨h1, h2⟩ := r3 (by omega)
      rw [if_neg (by rw [h1] at r1; rw [h2] at r2; simp at r1 r2; omega), if_neg hu]

/-! ### References -/

theorem Nb.refs (h : Nb last a a') : Spec.refs a' = (refInt (nbRefs a).1, refInt (nbRefs a).2) := by
  cases h with
  | out => rfl
  | one h =>
    have := h.motion.info
    simp only [Spec.refs, nbRefs, Option.map_some, Option.getD_some]
    have e : ∀ b : Spec.Blk, b.motion.info = b.hdr.info := fun _ => rfl
    rw [e] at this
    rw [← this]
    rfl

/-- What references a neighbour may have; without one it is as if it were intra. -/
theorem Nb.range (h : Nb last a a') :
    ((nbRefs a).1 = 0 ∧ (nbRefs a).2 = 8 ∨ (1 ≤ (nbRefs a).1 ∧ (nbRefs a).1 ≤ 7) ∧ ((nbRefs a).2 = 8 ∨ 1 ≤ (nbRefs a).2 ∧ (nbRefs a).2 ≤ 7)) := by
  cases h with
  | out => exact .inl ⟨rfl, rfl⟩
  | one h =>
    simp only [nbRefs, Option.map_some, Option.getD_some]
    rcases h.refs with h | h
    · exact .inl h.2
    · exact .inr h.2

theorem Nb.inter (h : Nb last a a') : ∀ {e}, a = some e → (e.blk.isInter = false ↔ (nbRefs a).1 = 0) := by
  intro e he
  subst he
  cases h with
  | one h =>
    simp only [nbRefs, Option.map_some, Option.getD_some, Mvref.Block.isInter, bne_eq_false_iff_eq]
    have := h.refs
    constructor
    · intro hm; rcases this with h | h
      · exact h.2.1
      · exact absurd hm h.1
    · intro h0; rcases this with h | h
      · exact h.1
      · omega

theorem Nb.intra (h : Nb last a a') : Spec.intra a' = decide ((nbRefs a).1 = 0) := by
  unfold Spec.intra
  rw [h.refs]
  have := h.range
  rw [decide_eq_decide]
  dsimp only
  unfold refInt
  split_ifs <;> omega

theorem Nb.single (h : Nb last a a') : Spec.single a' = decide ((nbRefs a).2 = 8) := by
  unfold Spec.single
  rw [h.refs]
  have := h.range
  rw [decide_eq_decide]
  dsimp only
  unfold refInt
  split_ifs <;> omega

theorem Nb.backward (h : Nb last a a') : Spec.checkBackward (Spec.refs a').1 = isBwdRef (nbRefs a).1 := by
  unfold Spec.checkBackward isBwdRef
  rw [h.refs, decide_eq_decide]
  have := h.range
  dsimp only
  unfold refInt
  split_ifs <;> omega

theorem samedir_eq {r s : Nat} (_ : r ≤ 8) (_ : s ≤ 8) : Spec.samedir (refInt r) (refInt s) = isSamedirRefPair r s := by
  have key : ∀ r : Nat, r ≤ 8 → decide ((5 : Int) ≤ refInt r) = (isBwdRef r && decide (r ≠ 8)) := by
    intro r hr
    unfold isBwdRef refInt
    rw [← Bool.decide_and, decide_eq_decide]
    split_ifs <;> omega
  unfold Spec.samedir isSamedirRefPair
  rw [key r ‹_›, key s ‹_›]

theorem Nb.le (h : Nb last a a') : (nbRefs a).1 ≤ 8 ∧ (nbRefs a).2 ≤ 8 := by have := h.range; omega

theorem is_inter_ctx (ha : Nb last a a') (hl : Nb last l l') : Spec.isInterCtx a' l' = intraInterContext a l := by
  have key : ∀ {x : Option EBlk} {x' : Option Spec.Blk}, Nb last x x' → ∀ {e}, x = some e → Spec.intra x' = !e.blk.isInter := by
    intro x x' h e he
    rw [h.intra]
    have := h.inter he
    cases hb : e.blk.isInter with
    | false => rw [hb] at this; simpa using this
    | true => rw [hb] at this; simpa using this
  unfold Spec.isInterCtx
  rw [ha.isSome, hl.isSome]
  unfold intraInterContext
  cases a with
  | none =>
    cases l with
    | none => rfl
    | some l => rw [key hl rfl]; cases h : l.blk.isInter <;> simp [h]
  | some a =>
    cases l with
    | none => rw [key ha rfl]; cases h : a.blk.isInter <;> simp [h]
    | some l => rw [key hl rfl, key ha rfl]; cases h : a.blk.isInter <;> cases h' : l.blk.isInter <;> simp [h, h']

theorem comp_mode_ctx (ha : Nb last a a') (hl : Nb last l l') : Spec.compModeCtx a' l' = getCompModeCtx a l := by
  unfold Spec.compModeCtx getCompModeCtx
  rw [ha.isSome, hl.isSome, ha.single, hl.single, ha.intra, hl.intra, ha.backward, hl.backward]
  simp only [Bool.and_eq_true, decide_eq_true_eq]
  cases a.isSome <;> cases l.isSome <;> simp

theorem comp_ref_type_ctx (ha : Nb last a a') (hl : Nb last l l') : Spec.compRefTypeCtx a' l' = getCompRefTypeCtx a l := by
  unfold Spec.compRefTypeCtx getCompRefTypeCtx
  have s1 := samedir_eq ha.le.1 ha.le.2
  have s2 := samedir_eq hl.le.1 hl.le.2
  have s3 := samedir_eq ha.le.1 hl.le.1
  have s4 : decide ((Spec.refs a').1 = 5) = decide ((nbRefs a).1 = 5) := by
    rw [ha.refs, decide_eq_decide]; have := ha.range; dsimp only; unfold refInt; split_ifs <;> omega
  have s5 : decide ((Spec.refs l').1 = 5) = decide ((nbRefs l).1 = 5) := by
    rw [hl.refs, decide_eq_decide]; have := hl.range; dsimp only; unfold refInt; split_ifs <;> omega
  rw [ha.isSome, hl.isSome, ha.single, hl.single, ha.intra, hl.intra, s4, s5, ha.refs, hl.refs, s1, s2, s3]
  dsimp only
  generalize (isSamedirRefPair (nbRefs a).1 (nbRefs l).1).toNat = n
  generalize (decide ((nbRefs a).1 = 5) == decide ((nbRefs l).1 = 5)).toNat = m
  generalize isSamedirRefPair (nbRefs a).1 (nbRefs a).2 = b1
  generalize isSamedirRefPair (nbRefs l).1 (nbRefs l).2 = b2
  generalize decide ((nbRefs a).1 = 0) = b3
  generalize decide ((nbRefs l).1 = 0) = b4
  generalize decide ((nbRefs a).2 = 8) = b5
  generalize decide ((nbRefs l).2 = 8) = b6
  generalize a.isSome = b7
  generalize l.isSome = b8
  cases b1 <;> cases b2 <;> cases b3 <;> cases b4 <;> cases b5 <;> cases b6 <;> cases b7 <;> cases b8 <;> rfl

/-! ### Counts -/

theorem refInt_succ (r : Nat) {j : Nat} (hj : j < 7) : refInt r = ((j + 1 : Nat) : Int) ↔ r = j + 1 := by
  unfold refInt
  by_cases h : r = 8
  · rw [if_pos h]; omega
  · rw [if_neg h]; omega

theorem Nb.count (h : Nb last a a') (f : Nat → Nat) : ∃ f', countOne a f = some f' ∧ ∀ j, j < 7 → f' j = f j +
    (if a'.isSome then (if (Spec.refs a').1 = ((j + 1 : Nat) : Int) then 1 else 0) + (if (Spec.refs a').2 = ((j + 1 : Nat) : Int) then 1 else 0) else 0) := by
  rw [h.isSome, h.refs]
  cases h with
  | out => exact ⟨f, rfl, fun _ _ => rfl⟩
  | @one e b h =>
    simp only [nbRefs, Option.map_some, Option.getD_some, Option.isSome_some, if_true]
    unfold countOne
    dsimp only
    rcases h.refs with ⟨h0, h1, h2⟩ | ⟨h0, h1, h2⟩
    · rw [if_neg (by simp [Mvref.Block.isInter, h0])]
      refine ⟨f, rfl, fun j hj => ?_⟩
      show _ = f j + ((if refInt e.blk.ref0 = ((j + 1 : Nat) : Int) then 1 else 0) + if refInt e.blk.ref1 = ((j + 1 : Nat) : Int) then 1 else 0)
      rw [h1, h2]
      simp only [refInt_succ _ hj]
      rw [if_neg (by omega), if_neg (by omega)]
      rfl
    · rw [if_pos (by simpa [Mvref.Block.isInter] using h0)]
      unfold toIndex
      rw [if_neg (by omega)]
      simp only [Option.bind_eq_bind, Option.bind_some]
      unfold hasSecondRef
      rcases h2 with h2 | h2
      · rw [if_neg (by simp [h2])]
        refine ⟨_, rfl, fun j hj => ?_⟩
        show _ = f j + ((if refInt e.blk.ref0 = ((j + 1 : Nat) : Int) then 1 else 0) + if refInt e.blk.ref1 = ((j + 1 : Nat) : Int) then 1 else 0)
        unfold bump
        simp only [refInt_succ _ hj]
        split_ifs <;> omega
      · rw [if_pos (by rw [decide_eq_true_eq]; omega), if_neg (by omega)]
        refine ⟨_, rfl, fun j hj => ?_⟩
        show _ = f j + ((if refInt e.blk.ref0 = ((j + 1 : Nat) : Int) then 1 else 0) + if refInt e.blk.ref1 = ((j + 1 : Nat) : Int) then 1 else 0)
        unfold bump
        simp only [refInt_succ _ hj]
        split_ifs <;> omega

theorem ref_counts (ha : Nb last a a') (hl : Nb last l l') : ∃ f, fillRefCounts a l = some f ∧ ∀ j : Nat, j < 7 → f j = Spec.countRefs a' l' ((j + 1 : Nat) : Int) := by
  obtain ⟨f1, h1, k1⟩ := ha.count fun _ => 0
  obtain ⟨f2, h2, k2⟩ := hl.count f1
  refine ⟨f2, ?_, fun j hj => ?_⟩
  · unfold fillRefCounts; rw [h1]; exact h2
  · rw [k2 j hj, k1 j hj]
    unfold Spec.countRefs
    omega

end Rav1e.Block
