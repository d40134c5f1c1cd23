import Verif.Coef.Txb
import Verif.Quant.QuantThms

/-!
# Lemmas for C41: one block, and a reset
-/

namespace Rav1e.Coef
open Av1Spec (Src Rd rdBit rdSym rdGolomb)
open Rav1e.Ec (onToks_bind)
open Rav1e.Quant (TxSize TxType scanOf storage codedW codedH specOrder allTx mem_allTx EobExact scan_spec)

/-- The call `a` of the encoder is for the block `b` of the specification. -/
structure Fits (planes : Nat) (a : Arg) (b : Av1Spec.Coef.Blk) : Prop where
  plane : b.plane = a.plane
  planes : a.plane < planes
  tx : b.tx = txOf a.tx
  /-- position in the context arrays -/
  x4 : b.x4 = a.x >>> a.xdec
  y4 : b.y4 = (a.y % 16) >>> a.ydec
  roomX : b.x4 + (a.tx.width >>> 2) ≤ 1024
  roomY : b.y4 + (a.tx.height >>> 2) ≤ 16
  /-- size of the prediction block in the plane -/
  bw : b.bw = 2 ^ a.pb.widthLog2
  bh : b.bh = 2 ^ a.pb.heightLog2
  /-- size up to the edge of the frame -/
  clippedW : a.clippedW = min (4 * b.cols) a.tx.width
  clippedH : a.clippedH = min (4 * b.rows) a.tx.height
  /-- the transform type is allowed, and for chroma it is the one that the decoder derives -/
  inSet : Av1Spec.Coef.inSet b.tx b.isInter b.reduced a.ty.idx
  chroma : 0 < a.plane → b.chromaType = a.ty.idx
  isInter : a.plane = 0 → b.isInter = decide (14 ≤ a.mode)
  reduced : b.reduced = a.reduced
  mode : a.plane = 0 → b.isInter = false → b.intraDir = a.mode ∧ a.mode < 13
  notWht : a.ty ≠ .whtWht
  size : a.tx ≠ .tx16x64 ∧ a.tx ≠ .tx64x16
  /-- the coefficients -/
  length : a.coeffs.length = codedW a.tx * codedH a.tx
  small : ∀ v ∈ a.coeffs, v.natAbs < 2 ^ 20
  eob : EobExact ((specOrder a.tx a.ty).map (storage (codedH a.tx))) a.coeffs a.eob

/-- What the decoder should get for a block: its coefficients by row and column, the place of the last one in the
scan, and the transform type if there is a coefficient. -/
def outOf (a : Arg) : Av1Spec.Coef.Out :=
  { eob := a.eob
    type := if a.eob = 0 then 0 else a.ty.idx
    quant := fun row col =>
      if row < codedH a.tx ∧ col < codedW a.tx then a.coeffs.getD (col * codedH a.tx + row) 0 else 0 }

theorem inSet_class : (allTx.all fun tx => allTy.all fun ty => [true, false].all fun i => [true, false].all fun r =>
    decide (codedW tx * codedH tx < 512) || !decide (
      (if Av1Spec.Coef.txSet (txOf tx) i r = 0 then ty.idx = 0
        else if i then ty.idx ∈ Av1Spec.Coef.interInv (Av1Spec.Coef.txSet (txOf tx) i r)
        else ty.idx ∈ Av1Spec.Coef.intraInv (Av1Spec.Coef.txSet (txOf tx) i r))) ||
      decide (txClasses[ty.idx]? = some .two)) = true := by decide +kernel

theorem class_two {tx : TxSize} {ty : TxType} {i r : Bool} (h : Av1Spec.Coef.inSet (txOf tx) i r ty.idx)
    (ha : 512 ≤ codedW tx * codedH tx) : txClasses[ty.idx]? = some .two := by
  have hk := List.all_eq_true.1 inSet_class tx (mem_allTx tx)
  have hk := List.all_eq_true.1 hk ty (mem_allTy ty)
  have hk := List.all_eq_true.1 hk i (by cases i <;> simp)
  have hk := List.all_eq_true.1 hk r (by cases r <;> simp)
  rw [Bool.or_eq_true, Bool.or_eq_true] at hk
  rcases hk with (hk | hk) | hk
  · have := of_decide_eq_true hk; omega
  · rw [Bool.not_eq_true', decide_eq_false_iff_not] at hk
    exact absurd h hk
  · exact of_decide_eq_true hk

theorem gather_eq (coeffs : List Int) (h : Nat) : ∀ ps : List (Nat × Nat), (∀ x ∈ ps, storage h x < coeffs.length) →
    gather coeffs (ps.map (storage h)) = some (ps.map fun x => coefAt coeffs h x.1 x.2) := by
  intro ps
  induction ps with
  | nil => intro _; rfl
  | cons x ps ih =>
    intro hp
    have h1 := hp x List.mem_cons_self
    rw [List.map_cons, gather, List.getElem?_eq_getElem h1, Option.bind_some,
      ih fun y hy => hp y (List.mem_cons_of_mem _ hy), List.map_cons]
    have e : coefAt coeffs h x.1 x.2 = coeffs[storage h x] := by
      unfold coefAt
      rw [List.getD_eq_getElem _ _ (show x.2 * h + x.1 < coeffs.length from h1)]; rfl
    rw [e]; rfl

theorem storage_lt {tx : TxSize} {ty : TxType} {x : Nat × Nat} (hx : x ∈ specOrder tx ty) :
    storage (codedH tx) x < codedW tx * codedH tx := by
  obtain ⟨hr, hc⟩ := (mem_specOrder tx ty x).1 hx
  unfold storage
  have := Nat.mul_le_mul_right (codedH tx) (show x.2 + 1 ≤ codedW tx from hc)
  rw [Nat.succ_mul] at this; omega

theorem order_head (tx : TxSize) (ty : TxType) : (specOrder tx ty)[0]? = some (0, 0) := by
  obtain ⟨j, hj⟩ := List.mem_iff_getElem?.1
    ((mem_specOrder tx ty (0, 0)).2 ⟨codedH_pos tx, codedW_pos tx⟩)
  obtain ⟨x, hx⟩ : ∃ x, (specOrder tx ty)[0]? = some x := by
    have := (List.getElem?_eq_some_iff.1 hj).1
    exact ⟨_, List.getElem?_eq_getElem (by omega)⟩
  by_cases h : (0, 0) = x
  · rw [hx, h]
  · have := later (scan_after tx ty) hj hx ⟨Nat.zero_le _, Nat.zero_le _⟩ h
    omega

theorem wr_levels_block {planes : Nat} {a : Arg} {b : Av1Spec.Coef.Blk} (hf : Fits planes a b) (h0 : a.eob ≠ 0)
    {s : Cx} {c : Av1Spec.Coef.Ctx} (hr : Rel planes s c) {dcCtx : Nat} (hd : dcCtx < 3) :
    ∃ t s' c', writeLevels a s (((specOrder a.tx a.ty).map (storage (codedH a.tx))).take a.eob)
        (ordered a.tx a.ty a.coeffs a.eob) dcCtx = some (t, s') ∧ AllOk t ∧ Rel planes s' c' ∧
      ∀ ts,
        ((if b.plane = 0 then Av1Spec.Coef.rdTxType num b else .ret b.chromaType).bind fun ty =>
          (Av1Spec.Coef.rdEob num b.tx (if 0 < b.plane then 1 else 0) (Av1Spec.Coef.txClass ty)).bind fun eob =>
          (Av1Spec.Coef.rdLevels num b.tx (if 0 < b.plane then 1 else 0) (Av1Spec.Coef.txClass ty)
            (Av1Spec.Coef.scan b.tx ty) eob eob fun _ _ => 0).bind fun q =>
          (Av1Spec.Coef.rdSigns num (if 0 < b.plane then 1 else 0) dcCtx q 0 ((Av1Spec.Coef.scan b.tx ty).take eob)
            ⟨fun _ _ => 0, 0, 0⟩).bind fun x =>
          .ret ((⟨eob, ty, x.quant⟩ : Av1Spec.Coef.Out), c.put b (min 63 x.cul) x.dc)).onToks (t ++ ts) =
        some ((outOf a, c'), ts) := by
  have hpt : (if a.plane = 0 then 0 else 1) < 2 := by split_ifs <;> omega
  have ept : (if 0 < b.plane then 1 else 0) = (if a.plane = 0 then 0 else 1) := by
    rw [hf.plane]; split_ifs <;> omega
  obtain ⟨cls, hcls⟩ := class_some a.ty hf.notWht
  have hle : a.eob ≤ (specOrder a.tx a.ty).length := by simpa using hf.eob.le
  have hlen := specOrder_length a.tx a.ty hf.notWht
  have hst : ∀ x ∈ specOrder a.tx a.ty, storage (codedH a.tx) x < a.coeffs.length := fun x hx => by
    rw [hf.length]; exact storage_lt hx
  have hco : ∀ x ∈ specOrder a.tx a.ty, a.coeffs[storage (codedH a.tx) x]? =
      some (coefAt a.coeffs (codedH a.tx) x.1 x.2) := by
    intro x hx
    unfold coefAt
    have h1 : x.2 * codedH a.tx + x.1 < a.coeffs.length := hst x hx
    rw [List.getD_eq_getElem _ _ h1]
    exact List.getElem?_eq_getElem h1
  have hbound : ∀ x ∈ specOrder a.tx a.ty, (coefAt a.coeffs (codedH a.tx) x.1 x.2).natAbs < 2 ^ 20 := fun x hx =>
    hf.small _ (List.mem_of_getElem? (hco x hx))
  -- the parts
  have w1 : Wr (if a.plane = 0 then writeTxType a.tx a.ty a.mode (decide (14 ≤ a.mode)) a.reduced else some [])
      (if b.plane = 0 then Av1Spec.Coef.rdTxType num b else .ret b.chromaType) a.ty.idx := by
    rw [hf.plane]
    by_cases hp : a.plane = 0
    · rw [if_pos hp, if_pos hp, ← hf.isInter hp, ← hf.reduced]
      exact wr_txType hf.tx hf.inSet (fun h => (hf.mode hp h).2) (fun h => (hf.mode hp h).1)
    · rw [if_neg hp, if_neg hp, hf.chroma (by omega)]
      exact Wr.ret _
  have w2 := wr_eob (tx := a.tx) (cls := cls) hpt (show 0 < a.eob by omega) (by rw [← hlen]; exact hle) hf.size (by
    intro h
    have := class_two (by rw [← hf.tx]; exact hf.inSet) h
    rw [hcls] at this; exact Option.some.inj this)
  obtain ⟨q, w3, hq⟩ := wr_levels cls hf.length hle hpt (by
      intro x h hx
      obtain ⟨p, v, h1, h2, h3⟩ := hf.eob.last h
      rw [List.getElem?_map, hx] at h1
      have : storage (codedH a.tx) x = p := Option.some.inj h1
      rw [← this, hco x (List.mem_of_getElem? hx)] at h2
      rw [Option.some.inj h2]; exact h3) a.eob (fun _ _ => 0) (Nat.le_refl _) (by
      intro j x hj hx
      have h1 := hf.eob.zero j (storage (codedH a.tx) x) hj (by rw [List.getElem?_map, hx]; rfl)
      rw [hco x (List.mem_of_getElem? hx)] at h1
      rw [Option.some.inj h1]; rfl)
  have hmem : ∀ x ∈ (specOrder a.tx a.ty).take a.eob, x ∈ specOrder a.tx a.ty := fun x hx => List.mem_of_mem_take hx
  obtain ⟨acc, w4, hquant, hcul, hdc⟩ := wr_signs (h := codedH a.tx) (coeffs := a.coeffs) (q := q) hpt hd
    ((specOrder a.tx a.ty).take a.eob) 0 ⟨fun _ _ => 0, 0, 0⟩
    ((order_nodup (scan_after a.tx a.ty)).sublist (List.take_sublist _ _))
    (fun x hx => hbound x (hmem x hx)) (fun x hx => by
      obtain ⟨j, hj⟩ := List.mem_iff_getElem?.1 (hmem x hx)
      exact hq j x (Nat.zero_le _) hj)
  -- the contexts
  have hhead : (ordered a.tx a.ty a.coeffs a.eob)[0]? = some (coefAt a.coeffs (codedH a.tx) 0 0) := by
    unfold ordered
    rw [List.getElem?_map, List.getElem?_take_of_lt (by omega), order_head]; rfl
  have h00 : (0, 0) ∈ (specOrder a.tx a.ty).take a.eob := by
    refine List.mem_of_getElem? (i := 0) ?_
    rw [List.getElem?_take_of_lt (by omega), order_head]
  have hc63 : min 63 ((ordered a.tx a.ty a.coeffs a.eob).map Int.natAbs).sum < 64 := by omega
  obtain ⟨v1, v2⟩ := setDcSign_eq hc63 (coefAt a.coeffs (codedH a.tx) 0 0)
  obtain ⟨s', hs, hr'⟩ := setCoeffContext_ok hr hf.planes hf.plane hf.tx hf.x4 hf.y4 hf.roomX hf.roomY
    (v := setDcSign (min 63 ((ordered a.tx a.ty a.coeffs a.eob).map Int.natAbs).sum)
      (coefAt a.coeffs (codedH a.tx) 0 0)) (by rw [v2]; split_ifs <;> omega)
  obtain ⟨t1, e1, o1, r1⟩ := w1
  obtain ⟨t2, e2, o2, r2⟩ := w2
  obtain ⟨t3, e3, o3, r3⟩ := w3
  obtain ⟨t4, e4, o4, r4⟩ := w4
  refine ⟨t1 ++ t2 ++ t3 ++ t4, s', _, ?_, ((o1.append o2).append o3).append o4, hr', ?_⟩
  · unfold writeLevels
    simp only [Option.bind_eq_bind]
    rw [hcls, Option.bind_some, codedSize_h]
    have e5 : encodeSigns (if a.plane = 0 then 0 else 1) dcCtx 0 (ordered a.tx a.ty a.coeffs a.eob) = some t4 := e4
    have e6 : encodeCoeffs ⟨initLevels (codedH a.tx) (codedH a.tx + 4) a.coeffs
        (List.replicate (1384 - 2 * (codedH a.tx + 4)) 0), a.eob, a.tx, cls, txsCtx a.tx,
        if a.plane = 0 then 0 else 1⟩ (((specOrder a.tx a.ty).map (storage (codedH a.tx))).take a.eob)
        (ordered a.tx a.ty a.coeffs a.eob) a.eob = some t3 := e3
    by_cases hp : a.plane = 0
    · rw [if_pos hp] at e1 e2 e5 e6
      rw [if_pos hp, if_pos hp, e1, Option.bind_some, e2, Option.bind_some, e6, Option.bind_some, e5, Option.bind_some,
        hhead, Option.bind_some, hs, Option.bind_some]
    · rw [if_neg hp] at e1 e2 e5 e6
      rw [if_neg hp, if_neg hp, e1, Option.bind_some, e2, Option.bind_some, e6, Option.bind_some, e5, Option.bind_some,
        hhead, Option.bind_some, hs, Option.bind_some]
  · intro ts
    rw [onToks_bind, List.append_assoc, List.append_assoc, List.append_assoc, r1, Option.bind_some]
    dsimp only
    rw [onToks_bind, ept, class_eq a.ty hcls, hf.tx, r2, Option.bind_some]
    dsimp only
    rw [onToks_bind, ← specOrder_eq, r3, Option.bind_some]
    dsimp only
    rw [onToks_bind, r4, Option.bind_some]
    simp only [Rd.onToks]
    have q1 : acc.quant = (outOf a).quant := by
      funext r k
      rw [hquant]
      unfold outOf
      dsimp only
      have e : a.coeffs.getD (k * codedH a.tx + r) 0 = coefAt a.coeffs (codedH a.tx) r k := rfl
      rw [e]
      by_cases hrk : r < codedH a.tx ∧ k < codedW a.tx
      · rw [if_pos hrk]
        split_ifs with h
        · rfl
        · by_cases hz : coefAt a.coeffs (codedH a.tx) r k = 0
          · exact hz.symm
          · exfalso
            have hnm : (r, k) ∉ (specOrder a.tx a.ty).take a.eob := fun hm => h ⟨hm, hz⟩
            obtain ⟨j, hj⟩ := List.mem_iff_getElem?.1 ((mem_specOrder a.tx a.ty (r, k)).2 hrk)
            have hje : a.eob ≤ j := by
              by_contra hlt
              exact hnm (List.mem_of_getElem? (i := j) (by rw [List.getElem?_take_of_lt (by omega), hj]))
            have h1 := hf.eob.zero j (storage (codedH a.tx) (r, k)) hje (by rw [List.getElem?_map, hj]; rfl)
            rw [hco (r, k) (List.mem_of_getElem? hj)] at h1
            exact hz (Option.some.inj h1)
      · rw [if_neg hrk, if_neg]
        intro h
        exact hrk ((mem_specOrder a.tx a.ty (r, k)).1 (hmem _ h.1))
    have q2 : (⟨a.eob, a.ty.idx, acc.quant⟩ : Av1Spec.Coef.Out) = outOf a := by
      rw [q1]; unfold outOf; rw [if_neg h0]
    have q3 : min 63 acc.cul = setDcSign (min 63 ((ordered a.tx a.ty a.coeffs a.eob).map Int.natAbs).sum)
        (coefAt a.coeffs (codedH a.tx) 0 0) % 64 := by
      rw [v1, hcul, Nat.zero_add]; rfl
    have q4 : acc.dc = setDcSign (min 63 ((ordered a.tx a.ty a.coeffs a.eob).map Int.natAbs).sum)
        (coefAt a.coeffs (codedH a.tx) 0 0) / 64 := by
      rw [v2, hdc]
      simp only [h00, true_and]
      split_ifs <;> omega
    rw [q2, q3, q4]

/-- One block: the encoder does not panic, and the decoder reads what was written and goes on with matching
contexts. -/
theorem wr_block {planes : Nat} {a : Arg} {b : Av1Spec.Coef.Blk} (hf : Fits planes a b) {s : Cx}
    {c : Av1Spec.Coef.Ctx} (hr : Rel planes s c) :
    ∃ t s' c', writeCoeffs a s = some (t, s') ∧ AllOk t ∧ Rel planes s' c' ∧
      ∀ ts, (Av1Spec.Coef.rdCoeffs num b c).onToks (t ++ ts) = some ((outOf a, c'), ts) := by
  have hle : a.eob ≤ (specOrder a.tx a.ty).length := by simpa using hf.eob.le
  have hctx := getTxbCtx_eq hr hf.planes hf.plane hf.tx hf.x4 hf.y4 hf.bw hf.bh hf.clippedW hf.clippedH hf.roomX hf.roomY
  have hg : gather a.coeffs (((specOrder a.tx a.ty).map (storage (codedH a.tx))).take a.eob) =
      some (ordered a.tx a.ty a.coeffs a.eob) := by
    rw [← List.map_take]
    exact gather_eq _ _ _ fun x hx => by rw [hf.length]; exact storage_lt (List.mem_of_mem_take hx)
  have hz : Av1Spec.Coef.allZeroCtx b c < 13 := by
    unfold Av1Spec.Coef.allZeroCtx
    dsimp only
    by_cases hp : b.plane = 0
    · rw [if_pos hp]; split_ifs <;> omega
    · rw [if_neg hp]
      have h1 : ∀ x : Bool, x.toNat ≤ 1 := by decide
      have h2 := h1 ((Av1Spec.Coef.entries (c.aboveLevel b.plane) b.x4 (b.tx.w >>> 2) b.cols).any (· ≠ 0) ||
        (Av1Spec.Coef.entries (c.aboveDc b.plane) b.x4 (b.tx.w >>> 2) b.cols).any (· ≠ 0))
      have h3 := h1 ((Av1Spec.Coef.entries (c.leftLevel b.plane) b.y4 (b.tx.h >>> 2) b.rows).any (· ≠ 0) ||
        (Av1Spec.Coef.entries (c.leftDc b.plane) b.y4 (b.tx.h >>> 2) b.rows).any (· ≠ 0))
      split_ifs <;> omega
  have hd : Av1Spec.Coef.dcSignCtx b c < 3 := by
    unfold Av1Spec.Coef.dcSignCtx; dsimp only; split_ifs <;> omega
  have h5 := txsCtx_lt a.tx
  obtain ⟨t0, e0, o0, r0⟩ := wr_symbol (name := "txb_skip_cdf")
    (ix := [(txsCtx a.tx, 5), (Av1Spec.Coef.allZeroCtx b c, 13)]) (s := if a.eob = 0 then 1 else 0)
    (i := txsCtx a.tx * 13 + Av1Spec.Coef.allZeroCtx b c)
    (c := .txbSkip b.tx.ctx (Av1Spec.Coef.allZeroCtx b c)) (13 * 5) 2 (mem_field _)
    (by simp [flatIdx, h5, hz]) (by omega) (by split_ifs <;> omega) (by rw [hf.tx, ← txsCtx_eq]; rfl)
  unfold writeCoeffs Av1Spec.Coef.rdCoeffs
  simp only [Option.bind_eq_bind]
  rw [scan_spec a.tx a.ty hf.notWht, Option.bind_some, if_neg (by rw [List.length_map]; omega), hg, Option.bind_some,
    hctx, Option.bind_some]
  dsimp only
  rw [e0, Option.bind_some]
  by_cases h0 : a.eob = 0
  · rw [if_pos h0]
    obtain ⟨s', hs, hr'⟩ := setCoeffContext_ok hr hf.planes hf.plane hf.tx hf.x4 hf.y4 hf.roomX hf.roomY (v := 0)
      (by omega)
    refine ⟨t0, s', _, by rw [hs]; rfl, o0, hr', fun ts => ?_⟩
    rw [onToks_bind, r0, Option.bind_some]
    dsimp only
    rw [if_pos (by rw [if_pos h0]; omega)]
    simp only [Rd.onToks]
    have q : (⟨0, 0, fun _ _ => 0⟩ : Av1Spec.Coef.Out) = outOf a := by
      unfold outOf
      rw [if_pos h0, h0]
      congr 1
      funext r k
      split_ifs with hrk
      · obtain ⟨j, hj⟩ := List.mem_iff_getElem?.1 ((mem_specOrder a.tx a.ty (r, k)).2 hrk)
        have h1 := hf.eob.zero j (storage (codedH a.tx) (r, k)) (by omega) (by rw [List.getElem?_map, hj]; rfl)
        have h2 : a.coeffs[k * codedH a.tx + r]? = some 0 := h1
        rw [List.getD_eq_getElem?_getD, h2]; rfl
      · rfl
    rw [q]
  · rw [if_neg h0]
    obtain ⟨t, s', c', hw, ok, hr', hread⟩ := wr_levels_block hf h0 hr hd
    refine ⟨t0 ++ t, s', c', by rw [hw]; rfl, o0.append ok, hr', fun ts => ?_⟩
    rw [onToks_bind, List.append_assoc, r0, Option.bind_some]
    dsimp only
    rw [if_neg (by rw [if_neg h0]; simp)]
    exact hread ts

/-! ## Resets -/

/-- The call of `reset_skip_context` is for the block `b`. -/
structure FitsSkip (x y : Nat) (bs : BlockSize) (xdec ydec : Nat) (mono : Bool) (b : Av1Spec.Coef.Skip) : Prop where
  miCol : b.miCol = x
  miRow : b.miRow = y % 16
  bw4 : b.bw4 = bs.widthMi
  bh4 : b.bh4 = bs.heightMi
  subX : b.subX = xdec
  subY : b.subY = ydec
  mono : b.mono = mono
  dec : (xdec = 0 ∧ ydec = 0) ∨ (xdec = 1 ∧ ydec = 0) ∨ (xdec = 1 ∧ ydec = 1)
  /-- blocks start at a multiple of eight pixels unless they are four pixels wide or high -/
  alignX : 1 < bs.widthMi → x % 2 = 0
  alignY : 1 < bs.heightMi → y % 2 = 0
  roomX : x + bs.widthMi ≤ 1024
  roomY : y % 16 + bs.heightMi ≤ 16
  /-- the block has a size in the chroma planes -/
  chroma : b.hasChroma = true → bs.subsampled xdec ydec ≠ none

theorem mi_check : (allBs.all fun b => decide (b.widthMi = 1 ∨ b.widthMi % 2 = 0) &&
    decide (b.heightMi = 1 ∨ b.heightMi % 2 = 0) && decide (0 < b.widthMi) && decide (0 < b.heightMi) &&
    (decide (3 ≤ b.widthLog2) == decide (b.widthMi % 2 = 0)) && (decide (3 ≤ b.heightLog2) == decide (b.heightMi % 2 = 0)) &&
    [(0, 0), (1, 0), (1, 1)].all fun d => match b.subsampled d.1 d.2 with
      | none => true
      | some p => decide (p.widthMi = (if d.1 = 0 ∨ b.widthMi = 1 then b.widthMi else b.widthMi / 2)) &&
        decide (p.heightMi = (if d.2 = 0 ∨ b.heightMi = 1 then b.heightMi else b.heightMi / 2))) = true := by
  decide +kernel

theorem mi_ok (b : BlockSize) : (b.widthMi = 1 ∨ b.widthMi % 2 = 0) ∧ (b.heightMi = 1 ∨ b.heightMi % 2 = 0) ∧
    0 < b.widthMi ∧ 0 < b.heightMi ∧ (3 ≤ b.widthLog2 ↔ b.widthMi % 2 = 0) ∧ (3 ≤ b.heightLog2 ↔ b.heightMi % 2 = 0) ∧
    ∀ xdec ydec p, ((xdec = 0 ∧ ydec = 0) ∨ (xdec = 1 ∧ ydec = 0) ∨ (xdec = 1 ∧ ydec = 1)) →
      b.subsampled xdec ydec = some p →
      p.widthMi = (if xdec = 0 ∨ b.widthMi = 1 then b.widthMi else b.widthMi / 2) ∧
      p.heightMi = (if ydec = 0 ∨ b.heightMi = 1 then b.heightMi else b.heightMi / 2) := by
  have h := List.all_eq_true.1 mi_check b (mem_allBs b)
  simp only [Bool.and_eq_true, decide_eq_true_eq, beq_iff_eq, decide_eq_decide] at h
  obtain ⟨⟨⟨⟨⟨⟨h1, h2⟩, h3⟩, h4⟩, h5⟩, h6⟩, h7⟩ := h
  refine ⟨h1, h2, h3, h4, h5, h6, ?_⟩
  intro xdec ydec p hd hp
  have h8 := List.all_eq_true.1 h7 (xdec, ydec) (by rcases hd with ⟨rfl, rfl⟩ | ⟨rfl, rfl⟩ | ⟨rfl, rfl⟩ <;> simp)
  rw [hp] at h8
  simpa using h8

theorem hasChroma_eq {x y : Nat} {bs : BlockSize} {xdec ydec : Nat} {mono : Bool} {b : Av1Spec.Coef.Skip}
    (hf : FitsSkip x y bs xdec ydec mono b) : hasChroma x y bs xdec ydec mono = b.hasChroma := by
  unfold hasChroma Av1Spec.Coef.Skip.hasChroma
  rw [hf.miCol, hf.miRow, hf.bw4, hf.bh4, hf.subX, hf.subY, hf.mono]
  cases mono
  · obtain ⟨h1, h2, -⟩ := mi_ok bs
    rw [if_neg (by simp), Bool.eq_iff_iff]
    simp only [Bool.and_eq_true, Bool.or_eq_true, beq_iff_eq]
    have hd := hf.dec
    split_ifs with c1 c2 <;> simp <;> omega
  · simp

theorem clear_ok {planes : Nat} {s : Cx} {c : Av1Spec.Coef.Ctx} (hr : Rel planes s c) {p x w y h x1 y1 : Nat}
    (hp : p < planes) (hx : x + w ≤ 1024) (hy : y + h ≤ 16) (h1 : x1 + 1 = x + w) (h2 : y1 + 1 = y + h) :
    ∃ s', s.fill p x w y h 0 = some s' ∧ Rel planes s' (c.clear p x x1 y y1) := by
  have e : ∀ k, k ≤ x1 ↔ k < x + w := fun k => by omega
  have e' : ∀ k, k ≤ y1 ↔ k < y + h := fun k => by omega
  refine fill_ok hr hp hx hy (by omega) ?_ ?_ ?_ ?_ <;> intro q k <;> unfold Av1Spec.Coef.Ctx.clear <;> simp [e, e']

theorem wr_skip {x y : Nat} {bs : BlockSize} {xdec ydec : Nat} {mono : Bool} {b : Av1Spec.Coef.Skip}
    (hf : FitsSkip x y bs xdec ydec mono b) {s : Cx} {c : Av1Spec.Coef.Ctx}
    (hr : Rel (if mono then 1 else 3) s c) :
    ∃ s', resetSkip s x y bs xdec ydec mono = some s' ∧ Rel (if mono then 1 else 3) s' (c.resetBlock b) := by
  obtain ⟨m1, m2, m3, m4, m5, m6, m7⟩ := mi_ok bs
  have hc := hasChroma_eq hf
  have hn : (if 3 ≤ bs.widthLog2 ∧ 3 ≤ bs.heightLog2 then (if mono then 1 else 3)
      else 1 + ((if mono then 1 else 3) - 1) * (hasChroma x y bs xdec ydec mono).toNat) =
      1 + 2 * b.hasChroma.toNat := by
    rw [← hc]
    cases mono
    · by_cases h : 3 ≤ bs.widthLog2 ∧ 3 ≤ bs.heightLog2
      · rw [if_pos h]
        have : hasChroma x y bs xdec ydec false = true := by
          unfold hasChroma
          simp [m5.1 h.1, m6.1 h.2]
        rw [this]; rfl
      · rw [if_neg h]; simp
    · unfold hasChroma
      simp
  unfold resetSkip Av1Spec.Coef.Ctx.resetBlock
  dsimp only
  rw [hn]
  -- one plane
  have step : ∀ (p : Nat) (s : Cx) (c : Av1Spec.Coef.Ctx), p < (if mono then 1 else 3) → (0 < p → b.hasChroma = true) →
      Rel (if mono then 1 else 3) s c →
      ∃ s', (do
        let pb ← if p = 0 then some bs else bs.subsampled (if p = 0 then 0 else xdec) (if p = 0 then 0 else ydec)
        s.fill p (x >>> (if p = 0 then 0 else xdec)) pb.widthMi ((y % 16) >>> (if p = 0 then 0 else ydec)) pb.heightMi 0)
          = some s' ∧
        Rel (if mono then 1 else 3) s' (c.clear p (b.miCol >>> (if 0 < p then b.subX else 0))
          ((b.miCol + b.bw4 - 1) >>> (if 0 < p then b.subX else 0)) (b.miRow >>> (if 0 < p then b.subY else 0))
          ((b.miRow + b.bh4 - 1) >>> (if 0 < p then b.subY else 0))) := by
    intro p s c hp hpc hr
    rw [hf.miCol, hf.miRow, hf.bw4, hf.bh4, hf.subX, hf.subY]
    simp only [Option.bind_eq_bind]
    have rx := hf.roomX
    have ry := hf.roomY
    by_cases h0 : p = 0
    · simp only [h0, if_true, Nat.lt_irrefl, if_false, Option.bind_some, Nat.shiftRight_zero]
      exact clear_ok hr (by rw [← h0]; exact hp) rx ry (by omega) (by omega)
    · have h0' : 0 < p := by omega
      simp only [h0, if_false, h0', if_true]
      cases hs : bs.subsampled xdec ydec with
      | none => exact absurd hs (hf.chroma (hpc h0'))
      | some pb =>
        rw [Option.bind_some]
        obtain ⟨e1, e2⟩ := m7 xdec ydec pb hf.dec hs
        rw [e1, e2]
        have ax := hf.alignX
        have ay := hf.alignY
        have hd := hf.dec
        have key : ∀ (z n d : Nat), (d = 0 ∨ d = 1) → (n = 1 ∨ n % 2 = 0) → 0 < n → (1 < n → z % 2 = 0) →
            ((z + n - 1) >>> d) + 1 = (z >>> d) + (if d = 0 ∨ n = 1 then n else n / 2) := by
          intro z n d hd hn h0 ha
          rcases hd with rfl | rfl
          · simp; omega
          · rw [Nat.shiftRight_eq_div_pow, Nat.shiftRight_eq_div_pow]
            rcases hn with rfl | hn
            · simp
            · have := ha (by omega)
              rw [if_neg (by omega)]; omega
        have kx := key x bs.widthMi xdec (by omega) m1 m3 ax
        have ky := key (y % 16) bs.heightMi ydec (by omega) m2 m4 (by intro h; have := ay h; omega)
        have bound : ∀ (z n d m : Nat), z + n ≤ m → (z >>> d) + (if d = 0 ∨ n = 1 then n else n / 2) ≤ m := by
          intro z n d m h
          have : z >>> d ≤ z := by rw [Nat.shiftRight_eq_div_pow]; exact Nat.div_le_self _ _
          split_ifs <;> omega
        exact clear_ok hr hp (bound _ _ _ _ rx) (bound _ _ _ _ ry) kx ky
  have loop : ∀ (ps : List Nat) (s : Cx) (c : Av1Spec.Coef.Ctx), (∀ p ∈ ps, p < (if mono then 1 else 3) ∧ (0 < p → b.hasChroma = true)) →
      Rel (if mono then 1 else 3) s c →
      ∃ s', resetSkipLoop x y bs xdec ydec ps s = some s' ∧
        Rel (if mono then 1 else 3) s' (ps.foldl (fun s plane =>
          s.clear plane (b.miCol >>> (if 0 < plane then b.subX else 0))
            ((b.miCol + b.bw4 - 1) >>> (if 0 < plane then b.subX else 0))
            (b.miRow >>> (if 0 < plane then b.subY else 0))
            ((b.miRow + b.bh4 - 1) >>> (if 0 < plane then b.subY else 0))) c) := by
    intro ps
    induction ps with
    | nil => intro s c _ hr; exact ⟨s, rfl, hr⟩
    | cons p ps ih =>
      intro s c hp hr
      obtain ⟨s1, e1, r1⟩ := step p s c (hp p List.mem_cons_self).1 (hp p List.mem_cons_self).2 hr
      obtain ⟨s2, e2, r2⟩ := ih s1 _ (fun q hq => hp q (List.mem_cons_of_mem _ hq)) r1
      refine ⟨s2, ?_, by rw [List.foldl_cons]; exact r2⟩
      rw [resetSkipLoop]
      by_cases h0 : p = 0
      · simp only [h0, if_true, Option.bind_eq_bind, Option.bind_some] at e1 ⊢
        rw [e1, Option.bind_some, e2]
      · simp only [h0, if_false, Option.bind_eq_bind] at e1 ⊢
        obtain ⟨pb, hpb, e1⟩ := Option.bind_eq_some_iff.1 e1
        rw [hpb, Option.bind_some, e1, Option.bind_some, e2]
  refine loop _ s c ?_ hr
  intro p hp
  rw [List.mem_range] at hp
  refine ⟨?_, fun h0 => by
    cases hb : b.hasChroma
    · rw [hb] at hp; simp at hp; omega
    · rfl⟩
  cases hm : mono
  · have : b.hasChroma.toNat ≤ 1 := by cases b.hasChroma <;> decide
    simp; omega
  · have : b.hasChroma = false := by
      rw [← hc, hm]; unfold hasChroma; simp
    rw [this] at hp; simpa using hp

theorem row_ok {planes : Nat} {s : Cx} {c : Av1Spec.Coef.Ctx} (hr : Rel planes s c) :
    Rel planes (resetLeft s planes) c.clearLeft := by
  refine ⟨hr.aboveLen, ?_, hr.above, ?_⟩
  · intro p hp
    unfold resetLeft
    dsimp only
    rw [if_pos hp, List.length_map]; exact hr.leftLen p hp
  · intro p hp k v hv
    unfold resetLeft at hv
    dsimp only at hv
    rw [if_pos hp, List.getElem?_map] at hv
    obtain ⟨w, _, e⟩ := Option.map_eq_some_iff.1 hv
    subst e
    exact ⟨rfl, rfl, by omega⟩

end Rav1e.Coef
