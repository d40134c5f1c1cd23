import Verif.Resid.Model
import Verif.Resid.Spec
import Verif.Coef.Thms
import Verif.TxSize.Tile

/-!
# Facts about the sizes of blocks and transforms
-/

namespace Rav1e.Resid

open Coef (BlockSize Arg Job Cx allBs mem_allBs allTy mem_allTy)
open Quant (TxType allTx mem_allTx)
open TxSize (Shape)

/-- The sizes of the blocks of a partition. -/
def shapes : List BlockSize :=
  [.b4x4, .b4x8, .b8x4, .b8x8, .b8x16, .b16x8, .b16x16, .b16x32, .b32x16, .b32x32, .b32x64, .b64x32, .b64x64]

theorem shapes_check : (allBs.all fun b => decide (b ∈ shapes) || !([1, 2, 4, 8, 16].any fun n => decide ((b.widthMi = n ∧ b.heightMi = n) ∨
    (2 ≤ n ∧ b.widthMi = n ∧ b.heightMi = n / 2) ∨ (2 ≤ n ∧ b.widthMi = n / 2 ∧ b.heightMi = n)))) = true := by decide +kernel

theorem mem_shapes {b : BlockSize} (h : Shape b.widthMi b.heightMi) : b ∈ shapes := by
  have := List.all_eq_true.1 shapes_check b (mem_allBs b)
  rw [Bool.or_eq_true, decide_eq_true_eq] at this
  refine this.resolve_right fun hn => ?_
  obtain ⟨n, hn', hh⟩ := h
  have : ([1, 2, 4, 8, 16].any fun n => decide ((b.widthMi = n ∧ b.heightMi = n) ∨
    (2 ≤ n ∧ b.widthMi = n ∧ b.heightMi = n / 2) ∨ (2 ≤ n ∧ b.widthMi = n / 2 ∧ b.heightMi = n))) = true :=
    List.any_eq_true.2 ⟨n, hn', decide_eq_true hh⟩
  rw [this] at hn
  exact absurd hn (by decide)

/-- A transform size in pixels. -/
def px (t : Quant.TxSize) : TxSize.Spec.Tx := (t.width, t.height)

/-- The sizes that may be chosen for a block. -/
def trio (b : BlockSize) : List TxSize.Spec.Tx :=
  let m := TxSize.maxTx (b.widthMi, b.heightMi)
  [m, TxSize.subTx m, TxSize.subTx (TxSize.subTx m)]

structure LumaFacts (b : BlockSize) (t : Quant.TxSize) : Prop where
  w : b.widthMi = b.widthMi / widthMi t * widthMi t
  h : b.heightMi = b.heightMi / heightMi t * heightMi t
  tw : t.width = 4 * widthMi t
  th : t.height = 4 * heightMi t
  twPos : 0 < widthMi t
  thPos : 0 < heightMi t
  stepsW : Spec.steps b.widthMi (widthMi t) = (List.range (b.widthMi / widthMi t)).map (· * widthMi t)
  stepsH : Spec.steps b.heightMi (heightMi t) = (List.range (b.heightMi / heightMi t)).map (· * heightMi t)
  size : t ≠ .tx16x64 ∧ t ≠ .tx64x16

instance (b : BlockSize) (t : Quant.TxSize) : Decidable (LumaFacts b t) :=
  decidable_of_iff (b.widthMi = b.widthMi / widthMi t * widthMi t ∧ b.heightMi = b.heightMi / heightMi t * heightMi t ∧ t.width = 4 * widthMi t ∧
    t.height = 4 * heightMi t ∧ 0 < widthMi t ∧ 0 < heightMi t ∧
    Spec.steps b.widthMi (widthMi t) = (List.range (b.widthMi / widthMi t)).map (· * widthMi t) ∧
    Spec.steps b.heightMi (heightMi t) = (List.range (b.heightMi / heightMi t)).map (· * heightMi t) ∧ t ≠ .tx16x64 ∧ t ≠ .tx64x16)
    ⟨fun ⟨a, b, c, d, e, f, g, h, i⟩ => ⟨a, b, c, d, e, f, g, h, i⟩, fun ⟨a, b, c, d, e, f, g, h, i⟩ => ⟨a, b, c, d, e, f, g, h, i⟩⟩

theorem luma_check : (shapes.all fun b => allTx.all fun t => !decide (px t ∈ trio b) || decide (LumaFacts b t)) = true := by decide +kernel

theorem lumaFacts {b : BlockSize} {t : Quant.TxSize} (hb : b ∈ shapes) (ht : px t ∈ trio b) : LumaFacts b t := by
  have := List.all_eq_true.1 (List.all_eq_true.1 luma_check b hb) t (mem_allTx t)
  simp only [Bool.or_eq_true, decide_eq_true_eq, Bool.not_eq_true', decide_eq_false_iff_not] at this
  exact this.resolve_left fun hn => hn ht

/-- The subsamplings that exist. -/
def decs : List (Nat × Nat) := [(0, 0), (1, 0), (1, 1)]

structure ChromaFacts (b : BlockSize) (d : Nat × Nat) (p : BlockSize) (C : Nat × Nat) : Prop where
  pw : max 1 (b.widthMi >>> d.1) = p.widthMi
  ph : max 1 (b.heightMi >>> d.2) = p.heightMi
  lw : 2 ^ p.widthLog2 = 4 * p.widthMi
  lh : 2 ^ p.heightLog2 = 4 * p.heightMi
  cw : C.1 = p.widthMi / widthMi (Coef.codedSize (maxTx p))
  ch : C.2 = p.heightMi / heightMi (Coef.codedSize (maxTx p))
  facts : LumaFacts p (Coef.codedSize (maxTx p))
  uvW : (Coef.codedSize (maxTx p)).width =
    if min 64 (4 * p.widthMi) = 64 ∨ min 64 (4 * p.heightMi) = 64 then
      if min 64 (4 * p.widthMi) = 16 then 16 else 32 else min 64 (4 * p.widthMi)
  uvH : (Coef.codedSize (maxTx p)).height =
    if min 64 (4 * p.widthMi) = 64 ∨ min 64 (4 * p.heightMi) = 64 then
      if min 64 (4 * p.widthMi) = 16 then 32 else if min 64 (4 * p.heightMi) = 16 then 16 else 32 else min 64 (4 * p.heightMi)

instance (b : BlockSize) (d : Nat × Nat) (p : BlockSize) (C : Nat × Nat) : Decidable (ChromaFacts b d p C) :=
  decidable_of_iff (max 1 (b.widthMi >>> d.1) = p.widthMi ∧ max 1 (b.heightMi >>> d.2) = p.heightMi ∧ 2 ^ p.widthLog2 = 4 * p.widthMi ∧
    2 ^ p.heightLog2 = 4 * p.heightMi ∧ C.1 = p.widthMi / widthMi (Coef.codedSize (maxTx p)) ∧ C.2 = p.heightMi / heightMi (Coef.codedSize (maxTx p)) ∧
    LumaFacts p (Coef.codedSize (maxTx p)) ∧ ((Coef.codedSize (maxTx p)).width =
    if min 64 (4 * p.widthMi) = 64 ∨ min 64 (4 * p.heightMi) = 64 then
      if min 64 (4 * p.widthMi) = 16 then 16 else 32 else min 64 (4 * p.widthMi)) ∧ ((Coef.codedSize (maxTx p)).height =
    if min 64 (4 * p.widthMi) = 64 ∨ min 64 (4 * p.heightMi) = 64 then
      if min 64 (4 * p.widthMi) = 16 then 32 else if min 64 (4 * p.heightMi) = 16 then 16 else 32 else min 64 (4 * p.heightMi)))
    ⟨fun ⟨a, b, c, d, e, f, g, h, i⟩ => ⟨a, b, c, d, e, f, g, h, i⟩, fun ⟨a, b, c, d, e, f, g, h, i⟩ => ⟨a, b, c, d, e, f, g, h, i⟩⟩

/-- `uvCount` with the subsampling only. -/
def uvN (d : Nat × Nat) (w h : Nat) (uv : Quant.TxSize) : Nat × Nat :=
  let r := (w >>> d.1, h >>> d.2)
  let r := if r.1 = 0 ∨ r.2 = 0 then (1, 1) else r
  (r.1 / widthMi uv, r.2 / heightMi uv)

theorem chroma_check : (shapes.all fun b => decs.all fun d => match b.subsampled d.1 d.2 with
    | none => decide (d = (1, 0) ∧ b.widthMi < b.heightMi)
    | some p => decide (ChromaFacts b d p (uvN d b.widthMi b.heightMi (Coef.codedSize (maxTx p))))) = true := by decide +kernel

theorem chromaFacts {b : BlockSize} {d : Nat × Nat} (hb : b ∈ shapes) (hd : d ∈ decs) (hv : d = (1, 0) → b.heightMi ≤ b.widthMi) :
    ∃ p, b.subsampled d.1 d.2 = some p ∧ ChromaFacts b d p (uvN d b.widthMi b.heightMi (Coef.codedSize (maxTx p))) := by
  have := List.all_eq_true.1 (List.all_eq_true.1 chroma_check b hb) d hd
  cases hp : b.subsampled d.1 d.2 with
  | none =>
    rw [hp] at this
    have := of_decide_eq_true this
    have := hv this.1
    omega
  | some p =>
    rw [hp] at this
    exact ⟨p, rfl, of_decide_eq_true this⟩

theorem max_check : (shapes.all fun b => decide (widthMi (maxTx b) = b.widthMi ∧ heightMi (maxTx b) = b.heightMi ∧
    TxSize.maxTx (b.widthMi, b.heightMi) = (4 * b.widthMi, 4 * b.heightMi) ∧ b.widthMi ∈ [1, 2, 4, 8, 16] ∧ b.heightMi ∈ [1, 2, 4, 8, 16] ∧
    2 ^ b.widthLog2 = 4 * b.widthMi ∧ 2 ^ b.heightLog2 = 4 * b.heightMi ∧
    (TxSize.subTx (TxSize.maxTx (b.widthMi, b.heightMi)) = if b.widthMi = 1 ∧ b.heightMi = 1 then (4, 4) else
      if b.heightMi < b.widthMi then (2 * b.widthMi, 4 * b.heightMi) else
      if b.widthMi < b.heightMi then (4 * b.widthMi, 2 * b.heightMi) else (2 * b.widthMi, 2 * b.heightMi)))) = true := by decide +kernel

theorem maxFacts {b : BlockSize} (hb : b ∈ shapes) : widthMi (maxTx b) = b.widthMi ∧ heightMi (maxTx b) = b.heightMi ∧
    TxSize.maxTx (b.widthMi, b.heightMi) = (4 * b.widthMi, 4 * b.heightMi) ∧ b.widthMi ∈ [1, 2, 4, 8, 16] ∧ b.heightMi ∈ [1, 2, 4, 8, 16] ∧
    2 ^ b.widthLog2 = 4 * b.widthMi ∧ 2 ^ b.heightLog2 = 4 * b.heightMi ∧
    (TxSize.subTx (TxSize.maxTx (b.widthMi, b.heightMi)) = if b.widthMi = 1 ∧ b.heightMi = 1 then (4, 4) else
      if b.heightMi < b.widthMi then (2 * b.widthMi, 4 * b.heightMi) else
      if b.widthMi < b.heightMi then (4 * b.widthMi, 2 * b.heightMi) else (2 * b.widthMi, 2 * b.heightMi)) :=
  of_decide_eq_true (List.all_eq_true.1 max_check b hb)

theorem logs_check : (allTx.all fun t => decide (Spec.logs (px t) = Coef.txOf t)) = true := by decide +kernel

theorem logs_px (t : Quant.TxSize) : Spec.logs (px t) = Coef.txOf t := of_decide_eq_true (List.all_eq_true.1 logs_check t (mem_allTx t))

/-- The types that the encoder chooses are in the set. -/
theorem types_check : (allTx.all fun t => [true, false].all fun r => [true, false].all fun i => (allTy.all fun ty =>
    !decide ((Coef.txUsed.getD (Coef.getTxSet t false r).idx []).getD ty.idx 0 ≠ 0 ∧ ty ∈ rav1eTypes) ||
      decide (Av1Spec.Coef.inSet (Coef.txOf t) false r ty.idx ∧ ty ≠ .whtWht)) && decide (Av1Spec.Coef.inSet (Coef.txOf t) i r 0)) = true := by
  decide +kernel

theorem dct_inSet (t : Quant.TxSize) (i r : Bool) : Av1Spec.Coef.inSet (Coef.txOf t) i r 0 := by
  have := List.all_eq_true.1 (List.all_eq_true.1 (List.all_eq_true.1 types_check t (mem_allTx t)) r (by cases r <;> decide)) i (by cases i <;> decide)
  simp only [Bool.and_eq_true, decide_eq_true_eq] at this
  exact this.2

theorem types_inSet {C : Cfg} {t : Quant.TxSize} {i s : Bool} {ty : TxType} (h : ty ∈ rdoTypes C t i s) :
    Av1Spec.Coef.inSet (Coef.txOf t) i C.reduced ty.idx ∧ ty ≠ .whtWht ∧ (i = true → ty = .dctDct) := by
  unfold rdoTypes at h
  dsimp only at h
  split_ifs at h with hc
  · obtain ⟨_, _, rfl, _⟩ := hc
    obtain ⟨h1, h2⟩ := List.mem_filter.1 h
    have := List.all_eq_true.1 (List.all_eq_true.1 (List.all_eq_true.1 types_check t (mem_allTx t)) C.reduced (by cases C.reduced <;> decide)) false (by decide)
    simp only [Bool.and_eq_true] at this
    have := List.all_eq_true.1 this.1 ty (mem_allTy ty)
    simp only [Bool.or_eq_true, decide_eq_true_eq, Bool.not_eq_true', decide_eq_false_iff_not] at this
    have := this.resolve_left fun hn => hn ⟨of_decide_eq_true h2, h1⟩
    exact ⟨this.1, this.2, fun h => by cases h⟩
  · rw [List.mem_singleton] at h
    subst h
    exact ⟨dct_inSet t i C.reduced, by decide, fun _ => rfl⟩

/-- The type of intra chroma blocks. -/
theorem uv_check : (allTx.all fun t => [true, false].all fun r => (List.range 14).all fun m =>
    match (if t.width ≥ 32 ∨ t.height ≥ 32 then some .dctDct else uvIntraType m : Option TxType) with
    | none => false
    | some ty => decide (ty ≠ .whtWht ∧ Av1Spec.Coef.inSet (Coef.txOf t) false r ty.idx ∧
        (if Av1Spec.Coef.inSet (Coef.txOf t) false r (Spec.modeToTxfm.getD m 0) then Spec.modeToTxfm.getD m 0 else 0) = ty.idx)) = true := by
  decide +kernel

theorem uv_type (t : Quant.TxSize) (r : Bool) {m : Nat} (hm : m < 14) :
    ∃ ty, (if t.width ≥ 32 ∨ t.height ≥ 32 then some .dctDct else uvIntraType m : Option TxType) = some ty ∧ ty ≠ .whtWht ∧
      Av1Spec.Coef.inSet (Coef.txOf t) false r ty.idx ∧
      (if Av1Spec.Coef.inSet (Coef.txOf t) false r (Spec.modeToTxfm.getD m 0) then Spec.modeToTxfm.getD m 0 else 0) = ty.idx := by
  have := List.all_eq_true.1 (List.all_eq_true.1 (List.all_eq_true.1 uv_check t (mem_allTx t)) r (by cases r <;> decide)) m (List.mem_range.2 hm)
  cases h : (if t.width ≥ 32 ∨ t.height ≥ 32 then some .dctDct else uvIntraType m : Option TxType) with
  | none => rw [h] at this; cases this
  | some ty => rw [h] at this; exact ⟨ty, rfl, of_decide_eq_true this⟩

theorem uvInter_dct (uv : Quant.TxSize) : uvInter .dctDct uv = .dctDct := by
  unfold uvInter; split_ifs <;> simp_all

end Rav1e.Resid
