import Verif.Itx.OneD
/-
C59: `rust::inverse_transform_add` leaves the pixels that the specification prescribes to a decoder.
-/
namespace Rav1e.Itx
open Rav1e.Wht (chkI wrapI clampValue)
open Rav1e.Quant (TxSize TxType)

/-- The transform types that the code implements for a size: no 32-point or 64-point ADST, no 64-point identity. -/
def Implemented (tx : TxSize) (ty : TxType) : Prop :=
  (get1dTxTypes ty).2.Has tx.widthLog2 ∧ (get1dTxTypes ty).1.Has tx.heightLog2

/-- The coefficients as an array of rows: the code stores the coded ones (at most 32x32) by columns. -/
def coefs (tx : TxSize) (input : List Int) (i j : Nat) : Int := input.getD (i + j * min tx.height 32) 0

theorem row_proc (ty : TxType) : (get1dTxTypes ty).2.proc = rowProc ty ∧ ((get1dTxTypes ty).2 = .flipadst ↔ flipLR ty = true) := by
  cases ty <;> exact ⟨rfl, by decide⟩

theorem col_proc (ty : TxType) : (get1dTxTypes ty).1.proc = colProc ty ∧ ((get1dTxTypes ty).1 = .flipadst ↔ flipUD ty = true) := by
  cases ty <;> exact ⟨rfl, by decide⟩

theorem zero_in (r : Nat) : InR r 0 := by
  unfold InR
  have : (1 : Int) ≤ 2 ^ (r - 1) := by exact_mod_cast Nat.one_le_two_pow
  omega

theorem round2_zero (n : Nat) : round2 0 n = 0 := by
  unfold round2
  split
  · rfl
  · rename_i h
    obtain ⟨m, rfl⟩ : ∃ m, n = m + 1 := ⟨n - 1, by omega⟩
    refine Int.ediv_eq_zero_of_lt (by positivity) ?_
    rw [pow_succ]
    have : (1 : Int) ≤ 2 ^ m := by exact_mod_cast Nat.one_le_two_pow
    simp only [Nat.add_sub_cancel]
    omega

theorem eval_zero (r : Nat) : ∀ e : E, eval r (fun _ => 0) e = 0
  | .inp _ => rfl
  | .btf c0 a c1 b => by simp only [eval, eval_zero r a, eval_zero r b, Int.mul_zero, Int.add_zero, round2_zero]
  | .add a b => by simp only [eval, eval_zero r a, eval_zero r b, Int.add_zero, clipR_id (zero_in r)]
  | .sub a b => by simp only [eval, eval_zero r a, eval_zero r b, Int.sub_zero, clipR_id (zero_in r)]
  | .nadd a b => by simp only [eval, eval_zero r a, eval_zero r b, Int.neg_zero, Int.add_zero, clipR_id (zero_in r)]
  | .neg a => by simp only [eval, eval_zero r a, Int.neg_zero]
  | .bad => rfl

/-- The transform of zeros is zero. -/
theorem apply_zero {k : Kind} {r n : Nat} (hk : k.Has n) : ∀ i < 2 ^ n, k.proc.apply r n (fun _ => 0) i = 0 := by
  intro i hi
  have dz : ∀ {n}, within (2 ^ n) (dctSteps n) = true → i < 2 ^ n → dct r n (fun _ => 0) i = 0 := by
    intro n hw hi
    obtain ⟨h1, h2, _⟩ := dct_means (r := r) (x := fun _ => 0) hw
    rw [h1 i (by rw [h2]; exact hi), eval_zero]
  have az : ∀ {n}, 2 ≤ n → n ≤ 4 → i < 2 ^ n → adst r n (fun _ => 0) i = 0 := by
    intro n h2 h4 hi
    have az' : ∀ {n}, within (2 ^ n) (adstSteps n) = true → n = 3 ∨ n = 4 → i < 2 ^ n → adst r n (fun _ => 0) i = 0 := by
      intro n hw hn hi
      obtain ⟨h1, h2, _⟩ := adst_means (r := r) (x := fun _ => 0) hw hn
      rw [h1 i (by rw [h2]; exact hi), eval_zero]
    rcases (show n = 2 ∨ n = 3 ∨ n = 4 by omega) with rfl | rfl | rfl
    · simp only [adst, adst4, if_true, Int.mul_zero, Int.sub_zero, Int.add_zero, ite_self, round2_zero]
    · exact az' (by decide +kernel) (Or.inl rfl) hi
    · exact az' (by decide +kernel) (Or.inr rfl) hi
  cases k with
  | dct =>
    obtain ⟨h1, h2⟩ := hk
    rcases (show n = 2 ∨ n = 3 ∨ n = 4 ∨ n = 5 ∨ n = 6 by omega) with rfl | rfl | rfl | rfl | rfl
    all_goals exact dz (by decide +kernel) hi
  | adst => exact az hk.1 hk.2 hi
  | flipadst => exact az hk.1 hk.2 hi
  | idtx =>
    show identity n (fun _ => 0) i = 0
    simp only [identity, Int.zero_mul, round2_zero, ite_self]
  | wht => exact hk.elim

section
variable {bd : Nat} {tx : TxSize} {ty : TxType} {input : List Int}

theorem sides (tx : TxSize) : tx.width ≤ 64 ∧ tx.height ≤ 64 ∧ 2 ^ tx.widthLog2 = tx.width ∧ 2 ^ tx.heightLog2 = tx.height ∧ 2 ≤ tx.widthLog2 ∧ 2 ≤ tx.heightLog2 := by
  cases tx <;> decide

theorem rowT_in (bd : Nat) (tx : TxSize) (res : Nat → Nat → Int) (i j : Nat) : InR (bd + 8) (rowT bd tx res i j) := by
  unfold rowT
  split
  · exact clipR_in _ _
  · exact zero_in _

theorem rect_iff (tx : TxSize) : (rectRatioLog2 tx).natAbs = 1 ↔ (tx.widthLog2 = tx.heightLog2 + 1 ∨ tx.heightLog2 = tx.widthLog2 + 1) := by
  unfold rectRatioLog2
  omega

theorem rowT_out {res : Nat → Nat → Int} {i j : Nat} (h : 32 ≤ i ∨ min tx.width 32 ≤ j) : rowT bd tx res i j = 0 := by
  unfold rowT
  split
  · rename_i hj
    rw [if_neg (by omega : ¬ (i < 32 ∧ j < 32))]
    simp only [Int.zero_mul, round2_zero, ite_self]
    exact clipR_id (zero_in _)
  · rfl

theorem rowInput_ok (hbd : bd ≤ 12) (hlen : input.length = min tx.width 32 * min tx.height 32) (hin : ∀ x ∈ input, InR (bd + 8) x) {i : Nat} (hi : i < min tx.height 32) :
    rowInput bd tx input i = some ((List.range 64).map (rowT bd tx (coefs tx input) i)) := by
  refine mapM_eq fun j hj => ?_
  by_cases hw : j < min tx.width 32
  · rw [if_pos hw]
    have hidx : i + j * min tx.height 32 < input.length := by
      rw [hlen]
      have : (j + 1) * min tx.height 32 ≤ min tx.width 32 * min tx.height 32 := Nat.mul_le_mul_right _ hw
      rw [Nat.add_mul] at this
      omega
    have hraw : input[i + j * min tx.height 32]? = some (coefs tx input i j) := by
      unfold coefs
      rw [List.getD_eq_getElem?_getD, List.getElem?_eq_getElem hidx, Option.getD_some]
    have hmem : InR (bd + 8) (coefs tx input i j) := hin _ (List.mem_of_getElem? hraw)
    rw [hraw, bind_some']
    unfold rowT
    rw [if_pos (show j < tx.width by omega), if_pos (show i < 32 ∧ j < 32 by omega)]
    obtain ⟨p1, p2, _⟩ := pow_r (r := bd + 8) (by omega)
    unfold InR at hmem
    by_cases hr : (rectRatioLog2 tx).natAbs = 1
    · rw [if_pos hr, bind_chk (by omega) (by omega), roundShift_ok (by omega) (by omega) (by omega), bind_some']
      simp only [clampValue_eq, if_pos ((rect_iff tx).1 hr)]
    · rw [if_neg hr, bind_some']
      simp only [clampValue_eq, if_neg (fun g => hr ((rect_iff tx).2 g))]
  · rw [if_neg hw, rowT_out (Or.inr (by omega))]

/-- The value in `buffer` before the intermediate shift. -/
def rowValue (bd : Nat) (tx : TxSize) (ty : TxType) (input : List Int) (i c : Nat) : Int :=
  (rowProc ty).apply (bd + 8) tx.widthLog2 (rowT bd tx (coefs tx input) i) (if flipLR ty then tx.width - 1 - c else c)

theorem rows_ok (hbd : bd = 8 ∨ bd = 10 ∨ bd = 12) (hk : Implemented tx ty) (hlen : input.length = min tx.width 32 * min tx.height 32)
    (hin : ∀ x ∈ input, InR (bd + 8) x)
    (hc : bd = 12 → ∀ i < min tx.height 32, (rowProc ty).Conforms (bd + 8) tx.widthLog2 (rowT bd tx (coefs tx input) i)) :
    rows bd tx ty input = some ((List.range tx.height).map fun i => (List.range tx.width).map fun c => rowValue bd tx ty input i c) ∧
      ∀ i < tx.height, ∀ c < tx.width, -4194304 ≤ rowValue bd tx ty input i c ∧ rowValue bd tx ty input i c ≤ 4194304 := by
  obtain ⟨s1, s2, s3, s4, _⟩ := sides tx
  obtain ⟨q1, q2⟩ := row_proc ty
  have one : ∀ i < min tx.height 32, invTxfm (get1dTxTypes ty).2 (bd + 8) tx.widthLog2 ((List.range 64).map (rowT bd tx (coefs tx input) i)) =
      some ((List.range tx.width).map fun c => rowValue bd tx ty input i c) ∧
      Bounded tx.widthLog2 ((rowProc ty).apply (bd + 8) tx.widthLog2 (rowT bd tx (coefs tx input) i)) := by
    intro i hi
    obtain ⟨h1, h2⟩ := invTxfm_eq_decoder (r := bd + 8) (by omega) (fun j _ => rowT_in bd tx (coefs tx input) i j) hk.1
      (by rw [q1]; rcases hbd with h | h | h
          · left; omega
          · left; omega
          · right; exact hc h i hi)
    rw [q1] at h1 h2
    refine ⟨?_, h2⟩
    rw [h1, s3]
    simp only [q2]
    rfl
  have zero : ∀ i, 32 ≤ i → ∀ c < tx.width, rowValue bd tx ty input i c = 0 := by
    intro i hi c hcw
    unfold rowValue
    rw [show rowT bd tx (coefs tx input) i = fun _ => 0 from funext fun j => rowT_out (Or.inl hi), ← q1]
    refine apply_zero hk.1 _ ?_
    rw [s3]
    split <;> omega
  constructor
  · unfold rows
    rw [mapM_eq (g := fun i => (List.range tx.width).map fun c => rowValue bd tx ty input i c) (fun i hi => ?_)]
    · rw [bind_some']
      congr 1
      refine List.ext_getElem (by simp) fun k h1 h2 => ?_
      have hk' : k < tx.height := by simpa using h2
      rw [List.getElem_map, List.getElem_range, List.getElem_append]
      split
      · rw [List.getElem_map, List.getElem_range]
      · rename_i hge
        rw [List.length_map, List.length_range] at hge
        rw [List.getElem_replicate]
        refine List.ext_getElem (by simp) fun c g1 g2 => ?_
        rw [List.getElem_replicate, List.getElem_map, List.getElem_range, zero k (by omega) c (by simpa using g2)]
    · have hi := List.mem_range.1 hi
      rw [rowInput_ok (by omega) hlen hin hi, bind_some', (one i hi).1]
  · intro i hi c hcw
    by_cases h32 : 32 ≤ i
    · rw [zero i h32 c hcw]
      omega
    · refine (one i (by omega)).2 _ ?_
      rw [s3]
      split <;> omega

theorem shifts (tx : TxSize) : invIntermediateShifts[tx.idx]? = some (transformRowShift tx) ∧ transformRowShift tx ≤ 2 := by
  cases tx <;> exact ⟨rfl, by decide⟩

theorem colT_in (j i : Nat) {res : Nat → Nat → Int} : InR (max (bd + 6) 16) (colT bd tx ty res j i) := by
  unfold colT
  split
  · exact clipR_in _ _
  · exact zero_in _

theorem colInput_ok (hb : ∀ i < tx.height, ∀ c < tx.width, -4194304 ≤ rowValue bd tx ty input i c ∧ rowValue bd tx ty input i c ≤ 4194304) {c : Nat} (hc : c < tx.width) :
    colInput bd tx ((List.range tx.height).map fun i => (List.range tx.width).map fun c => rowValue bd tx ty input i c) c =
      some ((List.range 64).map (colT bd tx ty (coefs tx input) (if flipLR ty then tx.width - 1 - c else c))) := by
  refine mapM_eq fun i _ => ?_
  by_cases hi : i < tx.height
  · obtain ⟨b1, b2⟩ := hb i hi c hc
    rw [if_pos hi, List.getElem?_map, List.getElem?_range hi, Option.map_some, bind_some', List.getElem?_map, List.getElem?_range hc, Option.map_some, bind_some',
      (shifts tx).1, bind_some', roundShift_ok (by have := (shifts tx).2; omega) (by omega) (by omega), bind_some', clampValue_eq]
    unfold colT
    rw [if_pos hi]
    rfl
  · rw [if_neg hi]
    unfold colT
    rw [if_neg hi]

/-- C59: the inverse transform of the code reads the dequantized coefficients and adds to the prediction what the specification says, for all
sizes, types, bit depths and coefficients of `bd + 8` bits. At bit depth 12 the rows have to meet the requirements of bitstream conformance. -/
theorem inverseTransformAdd_eq_decoder (hbd : bd = 8 ∨ bd = 10 ∨ bd = 12) (hk : Implemented tx ty)
    (hlen : input.length = min tx.width 32 * min tx.height 32) (hin : ∀ x ∈ input, InR (bd + 8) x)
    (hc : bd = 12 → ∀ i < min tx.height 32, (rowProc ty).Conforms (bd + 8) tx.widthLog2 (rowT bd tx (coefs tx input) i))
    {pred : Nat → Nat → Int} (hp : ∀ y < tx.height, ∀ x < tx.width, 0 ≤ pred y x ∧ pred y x < 2 ^ bd) :
    ∃ out, inverseTransformAdd bd tx ty input pred = some out ∧
      ∀ y x, out y x = if y < tx.height ∧ x < tx.width then reconstruct bd tx ty (coefs tx input) pred y x else pred y x := by
  obtain ⟨s1, s2, s3, s4, _⟩ := sides tx
  obtain ⟨q1, q2⟩ := col_proc ty
  obtain ⟨h1, h2⟩ := rows_ok hbd hk hlen hin hc
  have hcol : ∀ c ∈ List.range tx.width, column bd tx ty ((List.range tx.height).map fun i => (List.range tx.width).map fun c => rowValue bd tx ty input i c) pred c =
      some ((List.range tx.height).map fun y => reconstruct bd tx ty (coefs tx input) pred y c) := by
    intro c hcw
    have hcw := List.mem_range.1 hcw
    obtain ⟨g1, g2⟩ := invTxfm_eq_decoder (k := (get1dTxTypes ty).1) (n := tx.heightLog2) (r := max (bd + 6) 16) (by omega)
      (fun i _ => colT_in (tx := tx) (ty := ty) (if flipLR ty then tx.width - 1 - c else c) i (res := coefs tx input)) hk.2 (Or.inl (by omega))
    unfold column
    rw [colInput_ok h2 hcw, bind_some', g1, bind_some']
    rw [q1, s4]
    simp only [q2]
    refine mapM_eq fun y hy => ?_
    have hy := List.mem_range.1 hy
    obtain ⟨p1, p2⟩ := hp y hy c hcw
    have p3 : (2 : Int) ^ bd ≤ 4096 := by rcases hbd with rfl | rfl | rfl <;> norm_num
    rw [List.getElem?_map, List.getElem?_range hy, Option.map_some, bind_some']
    have hb := g2 (if flipUD ty then tx.height - 1 - y else y) (by rw [s4]; split <;> omega)
    rw [q1] at hb
    dsimp only [reconstruct, inverse2D]
    generalize (colProc ty).apply _ _ _ _ = v at *
    rw [roundShift_ok (by omega) (by omega) (by omega), bind_some']
    have r4 : -4194304 ≤ round2 v 4 ∧ round2 v 4 ≤ 4194304 := by
      unfold round2
      norm_num
      omega
    rw [bind_chk (by omega) (by omega)]
  refine ⟨fun i c => if i < tx.height ∧ c < tx.width then
    (((List.range tx.width).map fun c => (List.range tx.height).map fun y => reconstruct bd tx ty (coefs tx input) pred y c).getD c []).getD i 0 else pred i c, ?_, ?_⟩
  · unfold inverseTransformAdd
    rw [if_neg (by omega), h1, bind_some', mapM_eq hcol, bind_some']
  · intro y x
    dsimp only
    by_cases hyx : y < tx.height ∧ x < tx.width
    · rw [if_pos hyx, if_pos hyx, List.getD_eq_getElem?_getD, List.getD_eq_getElem?_getD, List.getElem?_map, List.getElem?_range hyx.2, Option.map_some, Option.getD_some,
        List.getElem?_map, List.getElem?_range hyx.1, Option.map_some, Option.getD_some]
    · rw [if_neg hyx, if_neg hyx]

end

end Rav1e.Itx
