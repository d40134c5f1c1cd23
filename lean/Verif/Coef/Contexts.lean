import Verif.Coef.Levels

/-!
# Lemmas for C41: the contexts of the levels are those of the specification
-/

namespace Rav1e.Coef
open Av1Spec
open Rav1e.Quant (TxSize TxType scanOf storage codedW codedH specOrder allTx mem_allTx)

theorem idx_col {h bhl r c : Nat} (hh : 2 ^ bhl = h) (hr : r < h) : (c * h + r) >>> bhl = c := by
  rw [Nat.shiftRight_eq_div_pow, hh, Nat.add_comm, Nat.add_mul_div_right _ _ (by omega), Nat.div_eq_of_lt hr]
  omega

theorem idx_row {h bhl r c : Nat} (hh : 2 ^ bhl = h) : (c * h + r) - (c <<< bhl) = r := by
  rw [Nat.shiftLeft_eq, hh]; omega

theorem idx_zero {h r c : Nat} (hh : 0 < h) : c * h + r = 0 ↔ r = 0 ∧ c = 0 := by
  constructor
  · intro h1
    rcases Nat.eq_zero_or_pos c with rfl | hc
    · omega
    · have := Nat.mul_le_mul_left h hc
      rw [Nat.mul_comm c h] at h1; omega
  · rintro ⟨rfl, rfl⟩; simp

/-- The table of offsets has the values of the rule that generates it. -/
theorem nz_table : (allTx.all fun tx => (List.range 5).all fun r => (List.range 5).all fun c =>
    !(decide (r < codedH tx) && decide (c < codedW tx)) ||
      decide (((nzMapCtxOffset[tx.idx]?.bind (·[r]?)).bind (·[c]?)) =
        some (Av1Spec.Coef.baseOffset (txOf tx) r c))) = true := by decide +kernel

theorem nz_offset (tx : TxSize) {r c : Nat} (hr : r < codedH tx) (hc : c < codedW tx) :
    ((nzMapCtxOffset[tx.idx]?.bind (·[min r 4]?)).bind (·[min c 4]?)) =
      some (Av1Spec.Coef.baseOffset (txOf tx) (min r 4) (min c 4)) := by
  have h := nz_table
  rw [List.all_eq_true] at h
  have h := h tx (mem_allTx tx)
  rw [List.all_eq_true] at h
  have h := h (min r 4) (List.mem_range.2 (by omega))
  rw [List.all_eq_true] at h
  have h := h (min c 4) (List.mem_range.2 (by omega))
  have h1 : min r 4 < codedH tx := by omega
  have h2 : min c 4 < codedW tx := by omega
  simpa [h1, h2] using h

theorem nz_1d : ∀ c < 32, nzMapCtxOffset1d[c]? = some ([26, 31, 36].getD (min c 2) 0) := by decide +kernel

theorem nzMapCtx_base {tx : TxSize} {ty : TxType} {coeffs : List Int} {c : Nat} {q : Nat → Nat → Nat}
    (hl : coeffs.length = codedW tx * codedH tx)
    (hk : Known tx ty coeffs (c + 1) q) {x : Nat × Nat} (hx : (specOrder tx ty)[c]? = some x) (cls : TxClass)
    (area : Nat) :
    nzMapCtx (levelsOf tx coeffs) (storage (codedH tx) x) (codedSize tx).heightLog2 area c false tx cls =
      some (Av1Spec.Coef.baseCtx (txOf tx) (clsOf cls) q x.1 x.2) := by
  obtain ⟨hr, hc⟩ := (mem_specOrder tx ty x).1 (List.mem_of_getElem? hx)
  have hh := codedSize_hl tx
  have hw := codedW_le tx
  have hH := codedH_le tx
  unfold nzMapCtx storage
  rw [if_neg (by simp), idx_col hh hr]
  have e : x.2 * codedH tx + x.1 + (x.2 <<< 2) = x.2 * (codedH tx + 4) + x.1 := by
    rw [Nat.shiftLeft_eq, Nat.mul_add]; omega
  rw [e, nzMag_eq tx hl cls hr hc, Option.bind_some]
  have hs := refSum_base hk hx (Av1Spec.Coef.sigRef (clsOf cls)) (by cases cls <;> decide)
  unfold nzMapCtxFromStats Av1Spec.Coef.baseCtx
  rw [hs]
  generalize padSum coeffs (codedH tx) (codedW tx) 3 x.1 x.2 (Av1Spec.Coef.sigRef (clsOf cls)) = n
  dsimp only
  rw [idx_col hh hr, idx_row hh]
  simp only [idx_zero (codedH_pos tx)]
  cases cls
  · simp only [true_and, clsOf]
    split_ifs with h0
    · rfl
    · have := nz_offset tx hr hc
      cases h1 : nzMapCtxOffset[tx.idx]? with
      | none => rw [h1] at this; simp at this
      | some t =>
        rw [h1, Option.bind_some] at this
        cases h2 : t[min x.1 4]? with
        | none => rw [h2] at this; simp at this
        | some u =>
          rw [h2, Option.bind_some] at this
          simp [h2, this]
  · simp only [clsOf]
    rw [if_neg (by simp), nz_1d _ (by omega)]; rfl
  · simp only [clsOf]
    rw [if_neg (by simp), nz_1d _ (by omega)]; rfl

theorem nzMapCtx_eob (tx : TxSize) (levels : List Nat) (pos c : Nat) (cls : TxClass) :
    nzMapCtx levels pos (codedSize tx).heightLog2 (codedSize tx).area c true tx cls =
      some (Av1Spec.Coef.baseEobCtx (txOf tx) c) := by
  unfold nzMapCtx Av1Spec.Coef.baseEobCtx
  rw [if_pos rfl, codedSize_area, codedH_eq]

theorem baseCtx_lt (tx : TxSize) (cls : TxClass) (q : Nat → Nat → Nat) (r c : Nat) :
    Av1Spec.Coef.baseCtx (txOf tx) (clsOf cls) q r c < 42 := by
  unfold Av1Spec.Coef.baseCtx
  dsimp only
  have h : ∀ k, [26, 31, 36].getD (min k 2) 0 ≤ 36 := by
    intro k
    have : min k 2 ≤ 2 := by omega
    generalize min k 2 = n at *
    interval_cases n <;> decide
  cases cls
  · dsimp only [clsOf]
    have : Av1Spec.Coef.baseOffset (txOf tx) (min r 4) (min c 4) ≤ 21 := by
      unfold Av1Spec.Coef.baseOffset; split_ifs <;> omega
    split_ifs <;> omega
  · dsimp only [clsOf]
    have := h c; omega
  · dsimp only [clsOf]
    have := h r; omega

theorem baseEobCtx_lt (t : Av1Spec.Coef.Tx) (c : Nat) : Av1Spec.Coef.baseEobCtx t c < 4 := by
  unfold Av1Spec.Coef.baseEobCtx; split_ifs <;> omega

theorem brCtx_lt (t : Av1Spec.Coef.Tx) (cls : Av1Spec.Coef.Class) (q : Nat → Nat → Nat) (r c : Nat) :
    Av1Spec.Coef.brCtx t cls q r c < 21 := by
  unfold Av1Spec.Coef.brCtx
  dsimp only
  cases cls <;> (dsimp only; split_ifs <;> omega)

theorem brCtx_eq {tx : TxSize} {ty : TxType} {coeffs : List Int} {c : Nat} {q : Nat → Nat → Nat}
    (hl : coeffs.length = codedW tx * codedH tx)
    (hk : Known tx ty coeffs (c + 1) q) {x : Nat × Nat} (hx : (specOrder tx ty)[c]? = some x) (cls : TxClass) :
    brCtx (levelsOf tx coeffs) (storage (codedH tx) x) (codedSize tx).heightLog2 cls =
      some (Av1Spec.Coef.brCtx (txOf tx) (clsOf cls) q x.1 x.2) := by
  obtain ⟨hr, hc⟩ := (mem_specOrder tx ty x).1 (List.mem_of_getElem? hx)
  have hh := codedSize_hl tx
  have g : ∀ dr dc, x.1 + dr < codedH tx + 4 → x.2 + dc < codedW tx + 4 →
      (levelsOf tx coeffs)[x.2 * (codedH tx + 4) + x.1 + (dc * (codedH tx + 4) + dr)]? =
        some (padded coeffs (codedH tx) (codedW tx) (x.1 + dr) (x.2 + dc)) := by
    intro dr dc h1 h2
    rw [← levels_get tx hl h1 h2, Nat.add_mul]
    congr 1; omega
  have hp : ∀ r k, padded coeffs (codedH tx) (codedW tx) r k ≤ 127 := by
    intro r k; unfold padded; split_ifs <;> omega
  have hs : ∀ dr dc, 0 < dr + dc →
      (if x.1 + dr < (txOf tx).adj.h ∧ x.2 + dc < (txOf tx).adj.w then min (q (x.1 + dr) (x.2 + dc)) 15 else 0) =
        min (padded coeffs (codedH tx) (codedW tx) (x.1 + dr) (x.2 + dc)) 15 := by
    intro dr dc hd
    rw [← codedH_eq, ← codedW_eq]
    unfold padded
    split_ifs with h
    · rw [known_at hk hx hd h.1 h.2]; omega
    · rfl
  have k01 := g 0 1 (by omega) (by omega)
  have k10 := g 1 0 (by omega) (by omega)
  have k11 := g 1 1 (by omega) (by omega)
  have k02 := g 0 2 (by omega) (by omega)
  have k20 := g 2 0 (by omega) (by omega)
  have s01 := hs 0 1 (by omega)
  have s10 := hs 1 0 (by omega)
  have s11 := hs 1 1 (by omega)
  have s02 := hs 0 2 (by omega)
  have s20 := hs 2 0 (by omega)
  have p01 := hp (x.1 + 0) (x.2 + 1)
  have p10 := hp (x.1 + 1) (x.2 + 0)
  unfold brCtx storage
  simp only [Option.bind_eq_bind]
  rw [idx_col hh hr, idx_row hh]
  simp only [idx_zero (codedH_pos tx)]
  have st : (1 <<< (codedSize tx).heightLog2) + 4 = codedH tx + 4 := by rw [Nat.shiftLeft_eq, hh, Nat.one_mul]
  rw [st]
  have a1 : x.2 * (codedH tx + 4) + x.1 + 1 = x.2 * (codedH tx + 4) + x.1 + (0 * (codedH tx + 4) + 1) := by omega
  have a2 : x.2 * (codedH tx + 4) + x.1 + (codedH tx + 4) =
      x.2 * (codedH tx + 4) + x.1 + (1 * (codedH tx + 4) + 0) := by omega
  have a3 : x.2 * (codedH tx + 4) + x.1 + (codedH tx + 4) + 1 =
      x.2 * (codedH tx + 4) + x.1 + (1 * (codedH tx + 4) + 1) := by omega
  have a4 : x.2 * (codedH tx + 4) + x.1 + ((codedH tx + 4) <<< 1) =
      x.2 * (codedH tx + 4) + x.1 + (2 * (codedH tx + 4) + 0) := by rw [Nat.shiftLeft_eq]; omega
  have a5 : x.2 * (codedH tx + 4) + x.1 + 2 = x.2 * (codedH tx + 4) + x.1 + (0 * (codedH tx + 4) + 2) := by omega
  rw [a3, a1, a2, a4, a5, k10, k01, k11, k02, k20]
  simp only [Option.bind_some]
  unfold addU8
  rw [if_pos (by omega), Option.bind_some]
  unfold Av1Spec.Coef.brCtx Av1Spec.Coef.refSum
  cases cls
  · simp only [clsOf, Av1Spec.Coef.magRef, List.map_cons, List.map_nil, List.sum_cons, List.sum_nil]
    rw [s01, s10, s11]
    generalize padded coeffs (codedH tx) (codedW tx) (x.1 + 0) (x.2 + 1) = n1 at *
    generalize padded coeffs (codedH tx) (codedW tx) (x.1 + 1) (x.2 + 0) = n2 at *
    generalize padded coeffs (codedH tx) (codedW tx) (x.1 + 1) (x.2 + 1) = n3 at *
    have e : min ((n2 + n1 + n3 + 1) >>> 1) 6 = min ((min n1 15 + (min n2 15 + (min n3 15 + 0)) + 1) >>> 1) 6 := by
      simp only [Nat.shiftRight_eq_div_pow]; omega
    rw [e]
  · simp only [clsOf, Av1Spec.Coef.magRef, List.map_cons, List.map_nil, List.sum_cons, List.sum_nil]
    rw [s01, s10, s02]
    generalize padded coeffs (codedH tx) (codedW tx) (x.1 + 0) (x.2 + 1) = n1 at *
    generalize padded coeffs (codedH tx) (codedW tx) (x.1 + 1) (x.2 + 0) = n2 at *
    generalize padded coeffs (codedH tx) (codedW tx) (x.1 + 0) (x.2 + 2) = n3 at *
    have e : min ((n2 + n1 + n3 + 1) >>> 1) 6 = min ((min n1 15 + (min n2 15 + (min n3 15 + 0)) + 1) >>> 1) 6 := by
      simp only [Nat.shiftRight_eq_div_pow]; omega
    rw [e]
  · simp only [clsOf, Av1Spec.Coef.magRef, List.map_cons, List.map_nil, List.sum_cons, List.sum_nil]
    rw [s01, s10, s20]
    generalize padded coeffs (codedH tx) (codedW tx) (x.1 + 0) (x.2 + 1) = n1 at *
    generalize padded coeffs (codedH tx) (codedW tx) (x.1 + 1) (x.2 + 0) = n2 at *
    generalize padded coeffs (codedH tx) (codedW tx) (x.1 + 2) (x.2 + 0) = n3 at *
    have e : min ((n2 + n1 + n3 + 1) >>> 1) 6 = min ((min n1 15 + (min n2 15 + (min n3 15 + 0)) + 1) >>> 1) 6 := by
      simp only [Nat.shiftRight_eq_div_pow]; omega
    rw [e]

end Rav1e.Coef
