import Verif.RateEst.Theorems
import Mathlib.Tactic.FieldSimp

/-!
# Distortion of coefficients, from which rates are estimated
-/

namespace Rav1e.RateEst

/-- `(c * c) as u64` with `c: i32` (src/encoder.rs:1629-1630, 1636-1637); `none`: the product overflows. -/
def square (c : Int) : Option Nat := if c * c < 2 ^ 31 then some (c * c).toNat else none

/-- `map` and `sum` (src/encoder.rs:1625-1632).  The sum is that of natural numbers: `u64` holds it for fewer than `2 ^ 33` coefficients. -/
def sumSquares : List Int → Option Nat
  | [] => some 0
  | c :: l => (square c).bind fun x => (sumSquares l).bind fun s => some (x + s)

/-- `get_log_tx_scale` (src/quantize/mod.rs:30-35). -/
def logTxScale (area : Nat) : Nat := (if area > 256 then 1 else 0) + (if area > 1024 then 1 else 0)

/-- `raw_tx_dist` of `encode_tx_block` (src/encoder.rs:1625-1645) for a transform with `area` coefficients. -/
def txDist (area : Nat) (coeffs rcoeffs : List Int) : Option Nat :=
  if rcoeffs.length ≤ coeffs.length then
    (sumSquares ((coeffs.zip rcoeffs).map fun x => x.1 - x.2)).bind fun s =>
      (sumSquares (coeffs.drop rcoeffs.length)).bind fun t =>
        some ((s + t + 2 ^ (2 * (3 - logTxScale area) - 1)) / 2 ^ (2 * (3 - logTxScale area)))
  else none

/-- The difference of coefficient `i` from what the decoder gets; coefficients that are not kept are 0 there. -/
def Spec.diff (coeffs rcoeffs : List Int) (i : Nat) : Int := coeffs.getD i 0 - rcoeffs.getD i 0

/-- The exact sum of squared differences. -/
def Spec.sse (coeffs rcoeffs : List Int) : Int := ((List.range coeffs.length).map fun i => Spec.diff coeffs rcoeffs i ^ 2).sum

/-- The square of the scale of the coefficients of a transform: they are 8, 4 or 2 times those of an orthonormal one. -/
def Spec.scale (area : Nat) : Nat := if area ≤ 256 then 8 ^ 2 else if area ≤ 1024 then 4 ^ 2 else 2 ^ 2

theorem sumSquares_append (l m : List Int) : sumSquares (l ++ m) = (sumSquares l).bind fun s => (sumSquares m).bind fun t => some (s + t) := by
  induction l with
  | nil => cases h : sumSquares m <;> simp [sumSquares, h]
  | cons c l ih =>
    simp only [List.cons_append, sumSquares, ih]
    cases square c <;> cases sumSquares l <;> cases sumSquares m <;> simp [Nat.add_assoc]

theorem square_small {c : Int} (h : |c| ≤ 46340) : square c = some (c ^ 2).toNat ∧ (c ^ 2).toNat ≤ 46340 ^ 2 := by
  have h2 : c ^ 2 ≤ 46340 ^ 2 := sq_le_sq' (by have := neg_le_of_abs_le h; omega) (le_of_abs_le h)
  have e : c * c = c ^ 2 := by ring
  refine ⟨?_, by omega⟩
  unfold square
  rw [e, if_pos (by omega)]

theorem square_large {c : Int} (h : 46341 ≤ |c|) : square c = none := by
  unfold square
  have : (46341 : Int) * 46341 ≤ |c| * |c| := Int.mul_le_mul h h (by norm_num) (abs_nonneg c)
  rw [abs_mul_abs_self] at this
  rw [if_neg (by omega)]

theorem sumSquares_small {l : List Int} (h : ∀ c ∈ l, |c| ≤ 46340) :
    ∃ s, sumSquares l = some s ∧ (s : Int) = (l.map fun c => c ^ 2).sum ∧ s ≤ l.length * 46340 ^ 2 := by
  induction l with
  | nil => exact ⟨0, rfl, by simp, by simp⟩
  | cons c l ih =>
    obtain ⟨s, e1, e2, e3⟩ := ih fun x hx => h x (List.mem_cons_of_mem _ hx)
    obtain ⟨q1, q2⟩ := square_small (h c List.mem_cons_self)
    refine ⟨(c ^ 2).toNat + s, by simp [sumSquares, q1, e1], ?_, ?_⟩
    · have : 0 ≤ c ^ 2 := sq_nonneg c
      rw [List.map_cons, List.sum_cons, ← e2]; omega
    · rw [List.length_cons]; omega

theorem sumSquares_large {l : List Int} {c : Int} (hc : c ∈ l) (h : 46341 ≤ |c|) : sumSquares l = none := by
  induction l with
  | nil => cases hc
  | cons x l ih =>
    rcases List.mem_cons.mp hc with rfl | hm
    · simp [sumSquares, square_large h]
    · simp [sumSquares, ih hm]

/-- The two parts of the sum are the differences. -/
theorem parts {coeffs rcoeffs : List Int} (h : rcoeffs.length ≤ coeffs.length) :
    ((coeffs.zip rcoeffs).map fun x => x.1 - x.2) ++ coeffs.drop rcoeffs.length = (List.range coeffs.length).map (Spec.diff coeffs rcoeffs) := by
  apply List.ext_getElem
  · simp; omega
  · intro i h1 h2
    have hi : i < coeffs.length := by simpa using h2
    rw [List.getElem_map, List.getElem_range]
    unfold Spec.diff
    rw [List.getD_eq_getElem _ _ hi]
    by_cases hr : i < rcoeffs.length
    · rw [List.getElem_append_left (by simp; omega), List.getD_eq_getElem _ _ hr]
      simp
    · rw [List.getElem_append_right (by simp; omega), List.getD_eq_default _ _ (by omega)]
      simp only [List.length_map, List.length_zip, List.getElem_drop, sub_zero]
      congr 1
      omega

theorem txDist_eq {area : Nat} {coeffs rcoeffs : List Int} (h : rcoeffs.length ≤ coeffs.length) :
    txDist area coeffs rcoeffs = (sumSquares ((List.range coeffs.length).map (Spec.diff coeffs rcoeffs))).bind fun s =>
      some ((s + 2 ^ (2 * (3 - logTxScale area) - 1)) / 2 ^ (2 * (3 - logTxScale area))) := by
  rw [← parts h, sumSquares_append]
  unfold txDist
  rw [if_pos h]
  cases sumSquares ((coeffs.zip rcoeffs).map fun x => x.1 - x.2) <;> cases sumSquares (coeffs.drop rcoeffs.length) <;> rfl

theorem scale_cases (area : Nat) : (Spec.scale area = 64 ∧ 2 * (3 - logTxScale area) = 6) ∨ (Spec.scale area = 16 ∧ 2 * (3 - logTxScale area) = 4) ∨
    (Spec.scale area = 4 ∧ 2 * (3 - logTxScale area) = 2) := by
  unfold logTxScale Spec.scale
  by_cases h1 : area ≤ 256
  · left; rw [if_pos h1, if_neg (by omega), if_neg (by omega)]; decide
  · by_cases h2 : area ≤ 1024
    · right; left; rw [if_neg h1, if_pos h2, if_pos (by omega), if_neg (by omega)]; decide
    · right; right; rw [if_neg h1, if_neg h2, if_pos (by omega), if_pos (by omega)]; decide

/-- **C71**, the distortion: if no coefficient is off by more than 46340, it is the exact sum of squared differences divided by the square of
the scale of the transform, rounded to the nearest number, and has an estimated rate. -/
theorem txDist_exact (area : Nat) (coeffs rcoeffs : List Int) (hl : rcoeffs.length ≤ coeffs.length) (ha : coeffs.length ≤ area) (hm : area ≤ 4096)
    (h : ∀ i, i < coeffs.length → |Spec.diff coeffs rcoeffs i| ≤ 46340) :
    ∃ d, txDist area coeffs rcoeffs = some d ∧
      |(d : ℚ) - (Spec.sse coeffs rcoeffs : ℚ) / Spec.scale area| ≤ 1 / 2 ∧
      ∀ q ts, q < 256 → ts < 19 → ∃ r, estimateRate q ts d = some r := by
  obtain ⟨s, e1, e2, e3⟩ := sumSquares_small (l := (List.range coeffs.length).map (Spec.diff coeffs rcoeffs)) (by
    intro c hc
    obtain ⟨i, hi, rfl⟩ := List.mem_map.mp hc
    exact h i (List.mem_range.mp hi))
  have e2 : (s : Int) = Spec.sse coeffs rcoeffs := by rw [e2, List.map_map]; rfl
  rw [List.length_map, List.length_range] at e3
  have e2q : (Spec.sse coeffs rcoeffs : ℚ) = s := by rw [← e2]; push_cast; rfl
  refine ⟨_, by rw [txDist_eq hl, e1, Option.bind_some], ?_, ?_⟩
  · rw [e2q]
    have key : ∀ m : Nat, ∀ d : Nat, d = (s + m) / (2 * m) → 0 < m → |(d : ℚ) - (s : ℚ) / ((2 * m : Nat) : ℚ)| ≤ 1 / 2 := by
      intro m d hd hm
      have a1 : d * (2 * m) ≤ s + m := by rw [hd]; exact Nat.div_mul_le_self _ _
      have a2 : s + m < d * (2 * m) + 2 * m := by
        rw [hd]; have := Nat.lt_div_mul_add (a := s + m) (b := 2 * m) (by omega); omega
      have b1 : (d : ℚ) * (2 * m) ≤ s + m := by exact_mod_cast a1
      have b2 : (s : ℚ) + m < d * (2 * m) + 2 * m := by exact_mod_cast a2
      have hm' : (0 : ℚ) < 2 * m := by exact_mod_cast (by omega : 0 < 2 * m)
      push_cast
      rw [abs_le]
      constructor
      · rw [le_sub_iff_add_le, ← sub_nonneg]
        have : (d : ℚ) - (-(1 / 2) + s / (2 * m)) = (d * (2 * m) + m - s) / (2 * m) := by field_simp; ring
        rw [this]; exact div_nonneg (by linarith) hm'.le
      · rw [← sub_nonneg]
        have : (1 / 2 : ℚ) - (d - s / (2 * m)) = (s + m - d * (2 * m)) / (2 * m) := by field_simp; ring
        rw [this]; exact div_nonneg (by linarith) hm'.le
    rcases scale_cases area with ⟨f, e⟩ | ⟨f, e⟩ | ⟨f, e⟩
    · rw [e, f]; have := key 32 _ rfl (by norm_num); norm_num at this ⊢; exact this
    · rw [e, f]; have := key 8 _ rfl (by norm_num); norm_num at this ⊢; exact this
    · rw [e, f]; have := key 2 _ rfl (by norm_num); norm_num at this ⊢; exact this
  · intro q ts hq ht
    apply estimate_total q ts _ hq ht
    have : s ≤ 4096 * 46340 ^ 2 := e3.trans (Nat.mul_le_mul_right _ (ha.trans hm))
    rcases scale_cases area with ⟨_, e⟩ | ⟨_, e⟩ | ⟨_, e⟩ <;> rw [e] <;> omega

/-- **C71**, a defect: the distortion cannot be computed exactly when some coefficient is off by more than 46340, as the square is one of
32 bits. -/
theorem txDist_overflows (area : Nat) (coeffs rcoeffs : List Int) (hl : rcoeffs.length ≤ coeffs.length) :
    txDist area coeffs rcoeffs = none ↔ ∃ i, i < coeffs.length ∧ 46340 < |Spec.diff coeffs rcoeffs i| := by
  rw [txDist_eq hl]
  constructor
  · intro hn
    by_contra hc
    push Not at hc
    obtain ⟨s, e, _⟩ := sumSquares_small (l := (List.range coeffs.length).map (Spec.diff coeffs rcoeffs)) (by
      intro c hc'
      obtain ⟨i, hi, rfl⟩ := List.mem_map.mp hc'
      exact hc i (List.mem_range.mp hi))
    rw [e] at hn
    cases hn
  · rintro ⟨i, hi, h⟩
    rw [sumSquares_large (List.mem_map.mpr ⟨i, List.mem_range.mpr hi, rfl⟩) (by omega)]
    rfl

/-- The hypotheses of `txDist_exact` are met: a 4x4 block (16 coefficients) that keeps only its first coefficients. -/
example : txDist 16 [1000, -300, 40, 7, 5, 0, 0, 0, 3, 0, 0, 0, 0, 0, 0, 1] [960, -320, 0, 0] = some 58 ∧
    Spec.sse [1000, -300, 40, 7, 5, 0, 0, 0, 3, 0, 0, 0, 0, 0, 0, 1] [960, -320, 0, 0] = 3684 ∧
    (∀ i, i < 16 → |Spec.diff [1000, -300, 40, 7, 5, 0, 0, 0, 3, 0, 0, 0, 0, 0, 0, 1] [960, -320, 0, 0] i| ≤ 46340) ∧
    estimateRate 100 0 58 ≠ none := by decide +kernel

end Rav1e.RateEst
