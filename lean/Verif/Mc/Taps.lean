import Verif.Mc.Model
import Verif.Mc.Spec
import Mathlib.Tactic.Ring
import Mathlib.Tactic.Linarith

/-! # Filters -/

namespace Rav1e.Mc

/-- The sum of 8 products. -/
def dot (f v : Nat → Int) : Int :=
  f 0 * v 0 + f 1 * v 1 + f 2 * v 2 + f 3 * v 3 + f 4 * v 4 + f 5 * v 5 + f 6 * v 6 + f 7 * v 7

theorem sum_range8 (g : Nat → Int) :
    ((List.range 8).map g).sum = g 0 + g 1 + g 2 + g 3 + g 4 + g 5 + g 6 + g 7 := by
  have : List.range 8 = [0, 1, 2, 3, 4, 5, 6, 7] := by decide
  rw [this]
  simp only [List.map_cons, List.map_nil, List.sum_cons, List.sum_nil]
  ring

theorem sum_dot (f v : Nat → Int) : ((List.range 8).map (fun t => f t * v t)).sum = dot f v := by
  rw [sum_range8]; rfl

theorem runFilter_ok (px : Nat → Option Int) (v : Nat → Int) (f : List Int) (h : ∀ i < 8, px i = some (v i)) :
    runFilter px f = some (dot (fun i => f.getD i 0) v) := by
  have e : List.range 8 = [0, 1, 2, 3, 4, 5, 6, 7] := by decide
  unfold runFilter
  rw [e]
  simp only [List.foldlM_cons, List.foldlM_nil, h 0 (by omega), h 1 (by omega), h 2 (by omega), h 3 (by omega),
    h 4 (by omega), h 5 (by omega), h 6 (by omega), h 7 (by omega), Option.map_some, Option.bind_eq_bind, Option.bind_some,
    dot, Option.pure_def, Int.zero_add]

/-- The sum of the positive and of the negative coefficients is bounded. -/
structure Tame (f : Nat → Int) : Prop where
  sum : dot f (fun _ => 1) = 128
  pos : dot (fun i => max (f i) 0) (fun _ => 1) ≤ 184
  neg : dot (fun i => max (-f i) 0) (fun _ => 1) ≤ 56

/-- A filter that copies. -/
def Copies (f : Nat → Int) : Prop := ∀ v, dot f v = 128 * v 3

theorem term_le (f v lo hi : Int) (h1 : lo ≤ v) (h2 : v ≤ hi) :
    f * v ≤ max f 0 * hi + max (-f) 0 * -lo ∧ max f 0 * lo + max (-f) 0 * -hi ≤ f * v := by
  rcases le_total 0 f with h | h
  · rw [max_eq_left h, max_eq_right (by omega)]
    constructor <;> nlinarith
  · rw [max_eq_right h, max_eq_left (by omega)]
    constructor <;> nlinarith

theorem dot_range {f v : Nat → Int} (t : Tame f) {lo hi : Int} (hlo : lo ≤ 0) (hhi : 0 ≤ hi)
    (h : ∀ i < 8, lo ≤ v i ∧ v i ≤ hi) : 184 * lo - 56 * hi ≤ dot f v ∧ dot f v ≤ 184 * hi - 56 * lo := by
  have hp := t.pos
  have hn := t.neg
  have g : ∀ i < 8, f i * v i ≤ max (f i) 0 * hi + max (-f i) 0 * -lo ∧
      max (f i) 0 * lo + max (-f i) 0 * -hi ≤ f i * v i := fun i hi' => term_le _ _ _ _ (h i hi').1 (h i hi').2
  have g0 := g 0 (by omega); have g1 := g 1 (by omega); have g2 := g 2 (by omega); have g3 := g 3 (by omega)
  have g4 := g 4 (by omega); have g5 := g 5 (by omega); have g6 := g 6 (by omega); have g7 := g 7 (by omega)
  simp only [dot, mul_one] at hp hn ⊢
  have a1 := mul_le_mul_of_nonneg_right hp hhi
  have a2 := mul_le_mul_of_nonneg_right hn hhi
  have a3 := mul_le_mul_of_nonneg_right hp (show 0 ≤ -lo by omega)
  have a4 := mul_le_mul_of_nonneg_right hn (show 0 ≤ -lo by omega)
  constructor <;> linarith [g0.1, g0.2, g1.1, g1.2, g2.1, g2.2, g3.1, g3.2, g4.1, g4.2, g5.1, g5.2, g6.1, g6.2, g7.1, g7.2]

/-- The encoder's filters are the decoder's. -/
theorem table_ok : ∀ idx < 6, ∀ frac < 16, ∃ f, (subpelFilters[idx]?).bind (fun rows => rows[frac]?) = some f ∧
    ∀ t < 8, f.getD t 0 = Spec.subpel idx frac t := by
  have h : ∀ idx < 6, ∀ frac < 16, ((subpelFilters[idx]?).bind (fun rows => rows[frac]?)).isSome = true ∧
      ∀ t < 8, (((subpelFilters[idx]?).bind (fun rows => rows[frac]?)).getD []).getD t 0 = Spec.subpel idx frac t := by
    decide +kernel
  intro idx hi frac hf
  obtain ⟨h1, h2⟩ := h idx hi frac hf
  obtain ⟨f, hf⟩ := Option.isSome_iff_exists.mp h1
  exact ⟨f, hf, by rw [hf] at h2; exact h2⟩

theorem subpel_tame : ∀ idx < 6, ∀ frac < 16, Tame (Spec.subpel idx frac) := by
  have h : ∀ idx < 6, ∀ frac < 16, dot (Spec.subpel idx frac) (fun _ => 1) = 128 ∧
      dot (fun i => max (Spec.subpel idx frac i) 0) (fun _ => 1) ≤ 184 ∧
      dot (fun i => max (-Spec.subpel idx frac i) 0) (fun _ => 1) ≤ 56 := by decide +kernel
  intro idx hi frac hf
  exact ⟨(h idx hi frac hf).1, (h idx hi frac hf).2.1, (h idx hi frac hf).2.2⟩

theorem subpel_copies : ∀ idx < 6, Copies (Spec.subpel idx 0) := by
  have h : ∀ idx < 6, ∀ t < 8, Spec.subpel idx 0 t = if t = 3 then 128 else 0 := by decide +kernel
  intro idx hi v
  simp only [dot, h idx hi 0 (by omega), h idx hi 1 (by omega), h idx hi 2 (by omega), h idx hi 3 (by omega),
    h idx hi 4 (by omega), h idx hi 5 (by omega), h idx hi 6 (by omega), h idx hi 7 (by omega)]
  simp

/-- `get_filter` gives the decoder's filter, unless the filter is sharp and the side short. -/
theorem getFilter_ok {mode frac len : Nat} (hm : mode < 4) (hs : mode ≠ 2 ∨ 4 < len) (hf : frac < 16) :
    ∃ f, getFilter mode frac len = some f ∧ ∀ t < 8, f.getD t 0 = Spec.subpel (Spec.interpFilter mode len) frac t := by
  have e : (if mode = 3 ∨ 4 < len then mode else min mode 1 + 4) = Spec.interpFilter mode len := by
    unfold Spec.interpFilter
    by_cases hl : len ≤ 4
    · rw [if_pos hl]
      have h4 : ¬ 4 < len := by omega
      have : mode = 0 ∨ mode = 1 ∨ mode = 3 := by omega
      rcases this with rfl | rfl | rfl <;> simp [h4]
    · rw [if_neg hl, if_pos (Or.inr (by omega))]
  have hi : Spec.interpFilter mode len < 6 := by
    unfold Spec.interpFilter
    split_ifs <;> omega
  obtain ⟨f, h1, h2⟩ := table_ok _ hi frac hf
  refine ⟨f, ?_, h2⟩
  unfold getFilter
  simp only [e]
  exact h1

theorem interpFilter_lt {mode len : Nat} (hm : mode < 4) : Spec.interpFilter mode len < 6 := by
  unfold Spec.interpFilter
  split_ifs <;> omega

theorem dot_congr {f g v w : Nat → Int} (h : ∀ t < 8, f t = g t) (h' : ∀ t < 8, v t = w t) : dot f v = dot g w := by
  simp only [dot, h 0 (by omega), h 1 (by omega), h 2 (by omega), h 3 (by omega), h 4 (by omega), h 5 (by omega),
    h 6 (by omega), h 7 (by omega), h' 0 (by omega), h' 1 (by omega), h' 2 (by omega), h' 3 (by omega), h' 4 (by omega),
    h' 5 (by omega), h' 6 (by omega), h' 7 (by omega)]

theorem dot_smul (f v : Nat → Int) (a : Int) : dot f (fun t => a * v t) = a * dot f v := by
  simp only [dot]; ring

end Rav1e.Mc
