import Verif.Itx.Theorems
import Verif.Quant.QuantThms
/-
C59, C38: the pixels after the inverse transform are in range; levels, dequantized and inverse transformed, give the pixels of a decoder;
the concrete cases that meet the hypotheses, and those that show that the hypotheses are needed.
-/
namespace Rav1e.Itx
open Rav1e.Wht (chkI wrapI clampValue)
open Rav1e.Quant

section
variable {bd : Nat} {tx : TxSize} {ty : TxType} {input : List Int}

/-- C38: the pixels after the inverse transform are in the range of the bit depth. -/
theorem inverseTransformAdd_range (hbd : bd = 8 ∨ bd = 10 ∨ bd = 12) (hk : Implemented tx ty)
    (hlen : input.length = min tx.width 32 * min tx.height 32) (hin : ∀ x ∈ input, InR (bd + 8) x)
    (hc : bd = 12 → ∀ i < min tx.height 32, (rowProc ty).Conforms (bd + 8) tx.widthLog2 (rowT bd tx (coefs tx input) i))
    {pred : Nat → Nat → Int} (hp : ∀ y < tx.height, ∀ x < tx.width, 0 ≤ pred y x ∧ pred y x < 2 ^ bd) :
    ∃ out, inverseTransformAdd bd tx ty input pred = some out ∧
      (∀ y < tx.height, ∀ x < tx.width, 0 ≤ out y x ∧ out y x < 2 ^ bd) ∧
      ∀ y x, ¬ (y < tx.height ∧ x < tx.width) → out y x = pred y x := by
  obtain ⟨out, h1, h2⟩ := inverseTransformAdd_eq_decoder hbd hk hlen hin hc hp
  refine ⟨out, h1, fun y hy x hx => ?_, fun y x h => by rw [h2, if_neg h]⟩
  rw [h2, if_pos ⟨hy, hx⟩]
  dsimp only [reconstruct]
  have : (0 : Int) < 2 ^ bd := by positivity
  omega

/-- `Dequant` of section 7.12.3 for the levels `Quant`, without quantizer matrices: `dq` and `aq` are the DC and AC quantizers. -/
def specResidual (bd : Nat) (tx : TxSize) (dq aq : Nat) (quant : Nat → Nat → Int) (i j : Nat) : Int :=
  clipR (bd + 8) (specDequant tx (if i = 0 ∧ j = 0 then dq else aq) (quant i j))

theorem recOf_spec {q : Nat} {l : Int} (h : l.natAbs * q < 2 ^ 24) : recOf (logTxScale tx) q l = specDequant tx q l := by
  unfold recOf specDequant
  rw [Nat.mod_eq_of_lt h, dqDenom_eq]
  rw [← sign_mul (fun h => by rw [h]; simp)]

/-- C59: the levels of a block, dequantized and inverse transformed, give the pixels that the specification (7.12.3) gives a decoder
that has read these levels. `width` is the width of the coefficient type: 16 bits at bit depth 8, else 32. -/
theorem block_eq_decoder {width qindex dq aq : Nat} {dcDelta acDelta : Int} {levels : List Int}
    (hbd : bd = 8 ∧ width = 16 ∨ bd = 10 ∧ width = 32 ∨ bd = 12 ∧ width = 32) (hk : Implemented tx ty)
    (hlen : levels.length = min tx.width 32 * min tx.height 32)
    (hdq : dcQ qindex dcDelta bd = some dq) (haq : acQ qindex acDelta bd = some aq)
    (hl : ∀ p l, levels[p]? = some l → l.natAbs * (if p = 0 then dq else aq) < 2 ^ 24 ∧
      (specDequant tx (if p = 0 then dq else aq) l).natAbs < 2 ^ (bd + 7))
    (hc : bd = 12 → ∀ i < min tx.height 32,
      (rowProc ty).Conforms (bd + 8) tx.widthLog2 (rowT bd tx (specResidual bd tx dq aq (coefs tx levels)) i))
    {pred : Nat → Nat → Int} (hp : ∀ y < tx.height, ∀ x < tx.width, 0 ≤ pred y x ∧ pred y x < 2 ^ bd) :
    ∃ rs out, dequantize qindex width levels tx bd dcDelta acDelta = some rs ∧ inverseTransformAdd bd tx ty rs pred = some out ∧
      ∀ y x, out y x = if y < tx.height ∧ x < tx.width then
        reconstruct bd tx ty (specResidual bd tx dq aq (coefs tx levels)) pred y x else pred y x := by
  have hbd' : bd = 8 ∨ bd = 10 ∨ bd = 12 := by omega
  have hw : width = 16 ∨ width = 32 := by omega
  have hlim : 2 ^ (bd + 7) ≤ lim width := by rcases hbd with ⟨rfl, rfl⟩ | ⟨rfl, rfl⟩ | ⟨rfl, rfl⟩ <;> decide
  have hInR : ∀ {v : Int}, v.natAbs < 2 ^ (bd + 7) → InR (bd + 8) v := by
    intro v hv
    unfold InR
    have : ((2 ^ (bd + 7) : Nat) : Int) = 2 ^ (bd + 8 - 1) := by push_cast; rfl
    omega
  obtain ⟨rs, r1, r2, r3⟩ := dequantLoop_ok (s := logTxScale tx) (dq := dq) (aq := aq) (w := width) (logTxScale_le tx) hw levels 0 (fun p l h => by
    obtain ⟨h1, h2⟩ := hl p l h
    simp only [Nat.zero_add]
    refine ⟨by omega, ?_⟩
    rw [← recOf_natAbs, recOf_spec h1]
    omega)
  simp only [Nat.zero_add] at r3
  have hmem : ∀ x ∈ rs, InR (bd + 8) x := by
    intro x hx
    obtain ⟨p, hp, rfl⟩ := List.getElem_of_mem hx
    obtain ⟨h1, h2⟩ := hl p levels[p] (List.getElem?_eq_getElem (by omega))
    have h3 := r3 p levels[p] (List.getElem?_eq_getElem (by omega))
    rw [List.getElem?_eq_getElem hp, Option.some.injEq, recOf_spec h1] at h3
    rw [h3]
    exact hInR h2
  have hres : coefs tx rs = specResidual bd tx dq aq (coefs tx levels) := by
    funext i j
    unfold specResidual coefs
    have hzero : (i + j * min tx.height 32 = 0) ↔ (i = 0 ∧ j = 0) := by
      have : 0 < min tx.height 32 := by cases tx <;> decide
      constructor
      · intro h
        rcases Nat.eq_zero_or_pos j with h0 | h0
        · omega
        · have := Nat.mul_pos h0 this
          omega
      · rintro ⟨rfl, rfl⟩
        simp
    simp only [← hzero]
    generalize i + j * min tx.height 32 = p
    by_cases hp : p < levels.length
    · obtain ⟨h1, h2⟩ := hl p levels[p] (List.getElem?_eq_getElem hp)
      have h3 := r3 p levels[p] (List.getElem?_eq_getElem hp)
      rw [List.getD_eq_getElem?_getD, h3, Option.getD_some, List.getD_eq_getElem?_getD, List.getElem?_eq_getElem hp, Option.getD_some,
        recOf_spec h1, clipR_id (hInR h2)]
    · rw [List.getD_eq_getElem?_getD, List.getElem?_eq_none (by omega), List.getD_eq_getElem?_getD, List.getElem?_eq_none (by omega)]
      simp only [Option.getD_none, specDequant, Int.natAbs_zero, Nat.zero_mul, Nat.zero_mod, Nat.zero_div]
      exact (clipR_id (zero_in _)).symm
  obtain ⟨out, o1, o2⟩ := inverseTransformAdd_eq_decoder (input := rs) hbd' hk (by omega) hmem (by rw [hres]; exact hc) hp
  refine ⟨rs, out, ?_, o1, by rw [← hres]; exact o2⟩
  unfold dequantize
  rw [hdq, bind_some', haq, bind_some', r1]
end

/-! ## The hypotheses are met, and needed -/

/-- `Conforms`, computed. -/
def conformsB (r : Nat) : List Step → (Nat → Int) → Bool
  | [], _ => true
  | s :: l, T => (match s with
      | .B a b _ _ => decide (-2 ^ (r - 1) ≤ s.apply r T a ∧ s.apply r T a ≤ 2 ^ (r - 1) - 1 ∧
          -2 ^ (r - 1) ≤ s.apply r T b ∧ s.apply r T b ≤ 2 ^ (r - 1) - 1)
      | .H .. => true) && conformsB r l (s.apply r T)

theorem conforms_of {r : Nat} : ∀ {l : List Step} {T : Nat → Int}, conformsB r l T = true → Conforms r l T
  | [], _, _ => trivial
  | .B a b angle flip :: l, T, h => by
    rw [conformsB, Bool.and_eq_true] at h
    refine ⟨fun a' b' angle' flip' hs => ?_, conforms_of h.2⟩
    obtain ⟨h1, h2, h3, h4⟩ := of_decide_eq_true h.1
    injection hs with e1 e2
    subst e1 e2
    exact ⟨⟨h1, h2⟩, ⟨h3, h4⟩⟩
  | .H .. :: l, T, h => by
    rw [conformsB, Bool.and_eq_true] at h
    exact ⟨fun a' b' angle' flip' hs => (by cases hs), conforms_of h.2⟩

/-- A block of 8x4 pixels at bit depth 8 with an ADST of the rows, flipped, and a DCT of the columns. -/
def sample84 : List Int := [-1000, 900, -1, 0, 300, 0, 5, 0] ++ List.replicate 24 (-7)

example : Implemented .tx8x4 .dctFlipadst ∧ sample84.length = min TxSize.tx8x4.width 32 * min TxSize.tx8x4.height 32 ∧
    (∀ x ∈ sample84, InR (8 + 8) x) ∧
    (inverseTransformAdd 8 .tx8x4 .dctFlipadst sample84 (fun _ _ => 100)).map (fun o => [o 0 0, o 0 7, o 3 7, o 1 3, o 4 0]) = some [96, 99, 96, 92, 100] := by
  refine ⟨⟨?_, ?_⟩, by decide, ?_, by decide +kernel⟩
  · show 2 ≤ 3 ∧ 3 ≤ 4
    omega
  · show 2 ≤ 2 ∧ 2 ≤ 6
    omega
  · unfold InR
    decide +kernel

/-- A block of 4x4 pixels at bit depth 12, with large coefficients. -/
def sample44 : List Int := [300000, -20000, 3000, 0, 50000, 0, 0, 1, 4000, 0, 0, 0, 0, 0, 0, -4000]

/-- The rows of `sample44` meet the requirements of bitstream conformance. -/
example : Implemented .tx4x4 .dctDct ∧ (∀ x ∈ sample44, InR (12 + 8) x) ∧
    (∀ i < min TxSize.tx4x4.height 32, (rowProc .dctDct).Conforms (12 + 8) TxSize.tx4x4.widthLog2 (rowT 12 .tx4x4 (coefs .tx4x4 sample44) i)) ∧
    inverseTransformAdd 12 .tx4x4 .dctDct sample44 (fun _ _ => 2048) ≠ none := by
  refine ⟨⟨?_, ?_⟩, ?_, ?_, by decide +kernel⟩
  · show 2 ≤ 2 ∧ 2 ≤ 6
    omega
  · show 2 ≤ 2 ∧ 2 ≤ 6
    omega
  · unfold InR
    decide +kernel
  · intro i hi
    have hi : i < 4 := hi
    refine conforms_of (?_ : conformsB 20 (dctSteps 2) (dctPerm 2 (rowT 12 .tx4x4 (coefs .tx4x4 sample44) i)) = true)
    rcases (show i = 0 ∨ i = 1 ∨ i = 2 ∨ i = 3 by omega) with rfl | rfl | rfl | rfl <;> decide +kernel

/-- Levels of a 4x8 block at bit depth 10 and quantizer index 100. -/
example : ∃ dq aq, dcQ 100 0 10 = some dq ∧ acQ 100 0 10 = some aq ∧ dq ≠ aq ∧
    (∀ p l, ([9, -3, 2, 0, 1, -1, 0, 0] ++ List.replicate 24 0 : List Int)[p]? = some l →
      l.natAbs * (if p = 0 then dq else aq) < 2 ^ 24 ∧ (specDequant .tx4x8 (if p = 0 then dq else aq) l).natAbs < 2 ^ (10 + 7)) := by
  refine ⟨(dcQ 100 0 10).getD 0, (acQ 100 0 10).getD 0, by decide +kernel, by decide +kernel, by decide +kernel, ?_⟩
  intro p l h
  have hp : p < 32 := by
    have := (List.getElem?_eq_some_iff.1 h).1
    simpa using this
  have key : ∀ p < 32, ∀ l ∈ (([9, -3, 2, 0, 1, -1, 0, 0] ++ List.replicate 24 0 : List Int)[p]?).toList,
      l.natAbs * (if p = 0 then (dcQ 100 0 10).getD 0 else (acQ 100 0 10).getD 0) < 2 ^ 24 ∧
      (specDequant .tx4x8 (if p = 0 then (dcQ 100 0 10).getD 0 else (acQ 100 0 10).getD 0) l).natAbs < 2 ^ (10 + 7) := by decide +kernel
  exact key p hp l (by rw [h]; simp)

/-- At bit depth 12 a row that does not meet the requirements of bitstream conformance is transformed differently: the sum of the rotation
wraps around. -/
theorem nonconforming_differs :
    invTxfm .dct 20 2 ((List.range 64).map fun i => if i = 0 ∨ i = 2 then 524287 else 0) ≠
      some ((List.range 4).map fun i => Proc.dct.apply 20 2 (fun i => if i = 0 ∨ i = 2 then 524287 else 0) i) := by
  decide +kernel

/-- At bit depth 12 a row that does not meet the requirements of bitstream conformance can end the program. -/
theorem nonconforming_panics :
    invTxfm .idtx 20 2 ((List.range 64).map fun _ => 524287) = none ∧
    invTxfm .adst 20 2 ((List.range 64).map fun _ => 524287) = none := by
  decide +kernel

/-- With a coefficient of more than `bd + 8` bits the code transforms other values than a decoder, which clamps before it scales a
block of ratio 2 to 1 (the code only clamps afterwards). -/
theorem unclamped_differs :
    (rowInput 10 .tx8x4 (200000 :: List.replicate 31 0) 0).map (·.head?) = some (some 131071) ∧
    rowT 10 .tx8x4 (fun _ _ => clipR (10 + 8) 200000) 0 0 = 92671 := by
  decide +kernel

end Rav1e.Itx
