import Verif.Resid.Fit

/-!
# The transform blocks of a block are those that the decoder expects
-/

namespace Rav1e.Resid

open Coef (BlockSize Arg Job Cx Fits outOf)
open Quant (TxType)
open Spec (Frame Hdr Place)
open TxSize.Spec (Inside)

variable {f : Frame} {C : Cfg} {e : Coded}

theorem mem_grid {w h : Nat} {p : Nat × Nat} : p ∈ grid w h ↔ p.1 < w ∧ p.2 < h := by
  obtain ⟨i, j⟩ := p
  simp only [grid, List.mem_flatMap, List.mem_range, List.mem_map, Prod.mk.injEq]
  constructor
  · rintro ⟨a, ha, b, hb, rfl, rfl⟩; exact ⟨hb, ha⟩
  · rintro ⟨h1, h2⟩; exact ⟨j, h2, i, h1, rfl, rfl⟩

theorem calls_nil {ι : Type} {fn : ι → Option (List Arg)} : ∀ {l : List ι}, (∀ i ∈ l, fn i = some []) → calls fn l = some [] := by
  intro l
  induction l with
  | nil => intro _; rfl
  | cons i l ih =>
    intro h
    rw [calls, h i (by simp), ih fun j hj => h j (List.mem_cons_of_mem _ hj)]
    rfl

theorem calls_rel {ι : Type} {fn : ι → Option (List Arg)} {pl : ι → Place} {q : Place → Bool} {R : Arg → Place → Prop} : ∀ {l : List ι},
    (∀ i ∈ l, (q (pl i) = false → fn i = some []) ∧ (q (pl i) = true → ∃ a, fn i = some [a] ∧ R a (pl i))) →
    ∃ as, calls fn l = some as ∧ List.Forall₂ R as ((l.map pl).filter q) := by
  intro l
  induction l with
  | nil => intro _; exact ⟨[], rfl, .nil⟩
  | cons i l ih =>
    intro h
    obtain ⟨as, e1, e2⟩ := ih fun j hj => h j (List.mem_cons_of_mem _ hj)
    obtain ⟨h1, h2⟩ := h i (by simp)
    cases hq : q (pl i) with
    | false =>
      refine ⟨as, by rw [calls, h1 hq, e1]; rfl, ?_⟩
      rw [List.map_cons, List.filter_cons_of_neg (by rw [hq]; decide)]
      exact e2
    | true =>
      obtain ⟨a, h3, h4⟩ := h2 hq
      refine ⟨a :: as, by rw [calls, h3, e1]; rfl, ?_⟩
      rw [List.map_cons, List.filter_cons_of_pos hq]
      exact .cons h4 e2

theorem grid_steps {w h s t a b : Nat} (k : Nat → Nat → Place) (h1 : Spec.steps w s = (List.range a).map (· * s)) (h2 : Spec.steps h t = (List.range b).map (· * t)) :
    ((Spec.steps h t).flatMap fun y => (Spec.steps w s).map fun x => k x y) = (grid a b).map fun p => k (p.1 * s) (p.2 * t) := by
  rw [h1, h2, grid, List.flatMap_map, List.map_flatMap]
  congr 1
  funext j
  rw [List.map_map, List.map_map]
  rfl

/-- The transform blocks of the luma plane of an intra block. -/
theorem places_intra (P : Placed f.g e) (H : Chosen C e) (hi : e.inter = false) (itx : Nat → Nat → TxSize.Spec.Tx) :
    f.planePlaces itx e.hdr 0 = ((grid (e.bs.widthMi / widthMi e.tx) (e.bs.heightMi / heightMi e.tx)).map (lumaPlace e)).filter f.inFrame := by
  have L := lumaFacts P.shape (trio_of H)
  have := L.twPos
  have := L.thPos
  have cw := L.w
  have ch := L.h
  have a1 : max 1 (e.bs.widthMi >>> 0) = e.bs.widthMi := by
    rw [Nat.shiftRight_zero]
    exact Nat.max_eq_right (Nat.one_le_iff_ne_zero.2 fun h => by have := (maxFacts P.shape).2.2.2.1; rw [h] at this; simp at this)
  have a2 : max 1 (e.bs.heightMi >>> 0) = e.bs.heightMi := by
    rw [Nat.shiftRight_zero]
    exact Nat.max_eq_right (Nat.one_le_iff_ne_zero.2 fun h => by have := (maxFacts P.shape).2.2.2.2.1; rw [h] at this; simp at this)
  unfold Spec.Frame.planePlaces
  rw [if_neg (by rintro ⟨h, _⟩; rw [show e.hdr.inter = e.inter from rfl, hi] at h; cases h)]
  show ((Spec.steps (max 1 (e.bs.heightMi >>> 0)) (e.tx.height >>> 2)).flatMap fun y => (Spec.steps (max 1 (e.bs.widthMi >>> 0)) (e.tx.width >>> 2)).map fun x =>
      (⟨0, (e.col >>> 0) * 4 + 4 * x, (e.row >>> 0) * 4 + 4 * y, px e.tx⟩ : Place)).filter f.inFrame = _
  rw [a1, a2]
  congr 1
  exact grid_steps (fun x y => (⟨0, (e.col >>> 0) * 4 + 4 * x, (e.row >>> 0) * 4 + 4 * y, px e.tx⟩ : Place)) L.stepsW L.stepsH

/-- The transform blocks of a chroma plane. -/
theorem places_chroma (O : Cor f C) {pb : BlockSize} (F : ChromaFacts e.bs (C.xdec, C.ydec) pb n) {uv : Quant.TxSize} (huv : uv = Coef.codedSize (maxTx pb)) {pl : Nat}
    (hpl : 0 < pl) (itx : Nat → Nat → TxSize.Spec.Tx) :
    f.planePlaces itx e.hdr pl = ((grid (pb.widthMi / widthMi uv) (pb.heightMi / heightMi uv)).map (chromaPlace f e uv pl)).filter f.inFrame := by
  have L := F.facts
  have w1 := F.uvW
  have w2 := F.uvH
  rw [← huv] at L w1 w2
  have q1 : f.subXOf pl = C.xdec := by rw [Spec.Frame.subXOf, if_pos hpl, O.subX]
  have q2 : f.subYOf pl = C.ydec := by rw [Spec.Frame.subYOf, if_pos hpl, O.subY]
  have n1 : f.num4x4W e.hdr pl = pb.widthMi := by rw [Spec.Frame.num4x4W, q1]; exact F.pw
  have n2 : f.num4x4H e.hdr pl = pb.heightMi := by rw [Spec.Frame.num4x4H, q2]; exact F.ph
  have ht : f.txSize e.hdr pl = px uv := by
    unfold Spec.Frame.txSize
    rw [if_neg (Nat.ne_of_gt hpl)]
    dsimp only
    rw [n1, n2]
    unfold px
    rw [w1, w2]
    split_ifs <;> rfl
  unfold Spec.Frame.planePlaces
  rw [if_neg (by rintro ⟨_, h⟩; omega)]
  dsimp only
  rw [n1, n2, ht, q1, q2]
  congr 1
  have := grid_steps (fun x y => (⟨pl, (e.col >>> C.xdec) * 4 + 4 * x, (e.row >>> C.ydec) * 4 + 4 * y, px uv⟩ : Place)) L.stepsW L.stepsH
  refine this.trans ?_
  refine List.map_congr_left fun p _ => ?_
  simp only [chromaPlace, O.subX, O.subY]

/-- A transform that is not split further. -/
theorem tree_leaf {itx : Nat → Nat → TxSize.Spec.Tx} {n x y w h : Nat} (ht : x < f.g.miCols * 4 → y < f.g.miRows * 4 → itx (y / 4) (x / 4) = (w, h)) :
    f.transformTree itx (n + 1) x y w h = [(⟨0, x, y, (w, h)⟩ : Place)].filter f.inFrame := by
  rw [Spec.Frame.transformTree]
  have hin : f.inFrame ⟨0, x, y, (w, h)⟩ = (decide (x < f.g.miCols * 4) && decide (y < f.g.miRows * 4)) := rfl
  by_cases hb : x ≥ f.g.miCols * 4 ∨ y ≥ f.g.miRows * 4
  · rw [if_pos hb, List.filter_cons_of_neg]
    · rfl
    · rw [hin, ← Bool.decide_and]; intro hd; have := of_decide_eq_true hd; omega
  · rw [if_neg hb]
    dsimp only
    rw [ht (by omega) (by omega), if_pos ⟨Nat.le_refl _, Nat.le_refl _⟩, List.filter_cons_of_pos]
    · rfl
    · rw [hin, ← Bool.decide_and]; exact decide_eq_true (by omega)

/-- The transform blocks of the luma plane of an inter block. -/
theorem places_inter (O : Cor f C) (P : Placed f.g e) (H : Chosen C e) (hi : e.inter = true) {itx : Nat → Nat → TxSize.Spec.Tx}
    (ht : ∀ r c, Inside e.row e.col e.bs.widthMi e.bs.heightMi r c → r < f.g.miRows → c < f.g.miCols → itx r c = px e.tx) :
    f.planePlaces itx e.hdr 0 = ((grid (e.bs.widthMi / widthMi e.tx) (e.bs.heightMi / heightMi e.tx)).map (lumaPlace e)).filter f.inFrame := by
  obtain ⟨-, -, m1, mw, mh, -, -, m2⟩ := maxFacts P.shape
  have L := lumaFacts P.shape (trio_of H)
  have hpx : px e.tx = (4 * widthMi e.tx, 4 * heightMi e.tx) := by unfold px; rw [L.tw, L.th]
  have hr : e.row < f.g.miRows := Nat.lt_of_lt_of_le P.rowHi O.geo.rowLe
  have hc : e.col < f.g.miCols := Nat.lt_of_lt_of_le P.colHi O.geo.colLe
  have two : px e.tx = TxSize.maxTx (e.bs.widthMi, e.bs.heightMi) ∨ px e.tx = TxSize.subTx (TxSize.maxTx (e.bs.widthMi, e.bs.heightMi)) := by
    have := H.tx.1
    unfold TxSize.rdoSizes Coded.base at this
    dsimp only at this
    rw [hi] at this
    rw [if_neg (show ¬ (C.select && C.rdo && !true) = true by simp)] at this
    split_ifs at this
    · exact Or.inr (by simpa using this)
    · exact Or.inl (by simpa using this)
  rw [m1] at two m2
  rw [m2] at two
  clear m2 m1
  have leaf : ∀ n i j, i + widthMi e.tx ≤ e.bs.widthMi → j + heightMi e.tx ≤ e.bs.heightMi →
      f.transformTree itx (n + 1) (e.col * 4 + 4 * i) (e.row * 4 + 4 * j) (4 * widthMi e.tx) (4 * heightMi e.tx) =
        [(⟨0, e.col * 4 + 4 * i, e.row * 4 + 4 * j, px e.tx⟩ : Place)].filter f.inFrame := by
    intro n i j h1 h2
    have := L.twPos
    have := L.thPos
    rw [hpx]
    refine tree_leaf fun a b => ?_
    rw [← hpx]
    exact ht _ _ ⟨by omega, by omega, by omega, by omega⟩ (by omega) (by omega)
  have root : itx (e.row * 4 / 4) (e.col * 4 / 4) = px e.tx :=
    ht _ _ ⟨by omega, by simp at mh; omega, by omega, by simp at mw; omega⟩ (by omega) (by omega)
  unfold Spec.Frame.planePlaces
  rw [if_pos ⟨hi, rfl⟩]
  show f.transformTree itx 9 (e.col * 4) (e.row * 4) (e.bs.widthMi * 4) (e.bs.heightMi * 4) = _
  have full : ∀ (_ : widthMi e.tx = e.bs.widthMi) (_ : heightMi e.tx = e.bs.heightMi),
      f.transformTree itx 9 (e.col * 4) (e.row * 4) (e.bs.widthMi * 4) (e.bs.heightMi * 4) =
      ((grid (e.bs.widthMi / widthMi e.tx) (e.bs.heightMi / heightMi e.tx)).map (lumaPlace e)).filter f.inFrame := by
    intro a b
    have l0 := leaf 8 0 0 (by omega) (by omega)
    rw [← a, ← b, Nat.div_self L.twPos, Nat.div_self L.thPos, Nat.mul_comm (widthMi e.tx) 4, Nat.mul_comm (heightMi e.tx) 4]
    refine l0.trans ?_
    simp [grid, lumaPlace]
  have start : ¬ (e.col * 4 ≥ f.g.miCols * 4 ∨ e.row * 4 ≥ f.g.miRows * 4) := by omega
  rcases two with h | h
  · rw [hpx, Prod.mk.injEq] at h
    exact full (by omega) (by omega)
  · rw [hpx] at h
    split_ifs at h with c1 c2 c3 <;> rw [Prod.mk.injEq] at h
    · exact full (by omega) (by omega)
    · have w2 : e.bs.widthMi / widthMi e.tx = 2 := by rw [show e.bs.widthMi = 2 * widthMi e.tx by omega]; exact Nat.mul_div_cancel _ L.twPos
      have h2 : e.bs.heightMi / heightMi e.tx = 1 := by rw [show e.bs.heightMi = heightMi e.tx by omega]; exact Nat.div_self L.thPos
      have l0 := leaf 7 0 0 (by omega) (by omega)
      have l1 := leaf 7 (widthMi e.tx) 0 (by omega) (by omega)
      rw [w2, h2, Spec.Frame.transformTree, if_neg start]
      dsimp only
      rw [root, hpx]
      dsimp only
      rw [if_neg (by have := L.twPos; omega), if_pos (by omega)]
      rw [show e.bs.widthMi * 4 / 2 = 4 * widthMi e.tx by omega, show e.bs.heightMi * 4 = 4 * heightMi e.tx by omega]
      simp only [Nat.mul_zero, Nat.add_zero] at l0 l1
      rw [l0, l1, ← List.filter_append]
      simp [grid, lumaPlace, List.range_succ]
    · have h2 : e.bs.heightMi / heightMi e.tx = 2 := by rw [show e.bs.heightMi = 2 * heightMi e.tx by omega]; exact Nat.mul_div_cancel _ L.thPos
      have w2 : e.bs.widthMi / widthMi e.tx = 1 := by rw [show e.bs.widthMi = widthMi e.tx by omega]; exact Nat.div_self L.twPos
      have l0 := leaf 7 0 0 (by omega) (by omega)
      have l1 := leaf 7 0 (heightMi e.tx) (by omega) (by omega)
      rw [w2, h2, Spec.Frame.transformTree, if_neg start]
      dsimp only
      rw [root, hpx]
      dsimp only
      rw [if_neg (by have := L.thPos; omega), if_neg (by omega), if_pos (by omega)]
      rw [show e.bs.heightMi * 4 / 2 = 4 * heightMi e.tx by omega, show e.bs.widthMi * 4 = 4 * widthMi e.tx by omega]
      simp only [Nat.mul_zero, Nat.add_zero] at l0 l1
      rw [l0, l1, ← List.filter_append]
      simp [grid, lumaPlace, List.range_succ]
    · have h2 : e.bs.heightMi / heightMi e.tx = 2 := by rw [show e.bs.heightMi = 2 * heightMi e.tx by omega]; exact Nat.mul_div_cancel _ L.thPos
      have w2 : e.bs.widthMi / widthMi e.tx = 2 := by rw [show e.bs.widthMi = 2 * widthMi e.tx by omega]; exact Nat.mul_div_cancel _ L.twPos
      have l0 := leaf 7 0 0 (by omega) (by omega)
      have l1 := leaf 7 (widthMi e.tx) 0 (by omega) (by omega)
      have l2 := leaf 7 0 (heightMi e.tx) (by omega) (by omega)
      have l3 := leaf 7 (widthMi e.tx) (heightMi e.tx) (by omega) (by omega)
      rw [w2, h2, Spec.Frame.transformTree, if_neg start]
      dsimp only
      rw [root, hpx]
      dsimp only
      rw [if_neg (by have := L.thPos; omega), if_neg (by omega), if_neg (by omega)]
      rw [show e.bs.heightMi * 4 / 2 = 4 * heightMi e.tx by omega, show e.bs.widthMi * 4 / 2 = 4 * widthMi e.tx by omega]
      simp only [Nat.mul_zero, Nat.add_zero] at l0 l1 l2 l3
      rw [l0, l1, l2, l3, ← List.filter_append, ← List.filter_append, ← List.filter_append]
      simp [grid, lumaPlace, List.range_succ]

end Rav1e.Resid
