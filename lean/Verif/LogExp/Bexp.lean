import Verif.LogExp.Exp

/-!
# `bexp64` is accurate
-/

namespace Rav1e.LogExp

open Real

/-! ### The last iterations -/

/-- Bounds along the iterations from 32 on: `Wm` bounds `w`, `S` the sum, `B` bounds `z`; `i` is the next iteration. -/
def lowOk (Wm : Int) : List (ℕ × Bool) → ℕ → Int → Int → Option (ℕ × Int)
  | [], i, _, B => some (i, B)
  | (k, d) :: r, i, S, B =>
    let m := max (tbl 31) (B - tbl 31)
    if k = i ∧ 32 ≤ i ∧ S + Wm >>> i < 2 ^ 31 ∧ (if d then 2 * m else m) < 2 ^ 63 then
      lowOk Wm r (if d then i + 1 else i) (S + Wm >>> i) (if d then 2 * m else m)
    else none

theorem tbl31_near : |(tbl 31 : ℝ) - 2 ^ 61 / log 2| ≤ 3 := by
  have a := tbl_near 31 (by norm_num)
  have b := at_small 31 (le_refl _)
  have hl := log_two_pos
  generalize (2 : ℝ) ^ (62 + 31) * at' 31 = u at a b
  obtain ⟨b1, b2⟩ := b
  obtain ⟨a1, a2⟩ := abs_le.mp a
  rw [show (tbl 31 : ℝ) - 2 ^ 61 / log 2 = ((tbl 31 : ℝ) * log 2 - 2 ^ 61) / log 2 by field_simp, abs_div, abs_of_pos (by linarith : (0 : ℝ) < log 2),
    div_le_iff₀ (by linarith), abs_le]
  constructor <;> linarith

theorem low_term (w : Int) (hw : 2 ^ 59 ≤ w) (i : ℕ) (hi : 32 ≤ i) :
    |2 ^ 61 / (w * log 2) * ((w >>> i : Int) : ℝ) - (tbl 31 : ℝ) / 2 ^ i| ≤ 7 := by
  have hl := log_two_pos
  obtain ⟨s1, s2⟩ := shr_bounds w i
  have hw' : (2 : ℝ) ^ 59 ≤ w := by exact_mod_cast hw
  have hw0 : (0 : ℝ) < w := by linarith
  have U0 : (0 : ℝ) < 2 ^ 61 / (w * log 2) := by positivity
  have U1 : 2 ^ 61 / (w * log 2) ≤ 6 := by
    rw [div_le_iff₀ (by positivity)]
    nlinarith
  have e : 2 ^ 61 / (w * log 2) * ((w : ℝ) / 2 ^ i) = 2 ^ 61 / log 2 / 2 ^ i := by field_simp
  have p : (3 : ℝ) ≤ 2 ^ i := by
    have : (2 : ℝ) ^ 2 ≤ 2 ^ i := pow_le_pow_right₀ (by norm_num) (by omega)
    linarith
  have t : |(tbl 31 : ℝ) / 2 ^ i - 2 ^ 61 / log 2 / 2 ^ i| ≤ 1 := by
    rw [← sub_div, abs_div, abs_of_pos (by linarith : (0 : ℝ) < 2 ^ i), div_le_iff₀ (by linarith)]
    linarith [tbl31_near]
  rw [← e] at t
  generalize 2 ^ 61 / ((w : ℝ) * log 2) = U at *
  have a1 : U * ((w >>> i : Int) : ℝ) ≤ U * ((w : ℝ) / 2 ^ i) := mul_le_mul_of_nonneg_left s1 U0.le
  have a2 : U * ((w : ℝ) / 2 ^ i) ≤ U * (((w >>> i : Int) : ℝ) + 1) := mul_le_mul_of_nonneg_left s2.le U0.le
  rw [abs_le] at t ⊢
  obtain ⟨t1, t2⟩ := t
  rw [mul_add] at a2
  constructor <;> linarith

theorem low_loop (Wm w : Int) (hw : 2 ^ 59 ≤ w) (hm : w ≤ Wm) : ∀ (l : List (ℕ × Bool)) (s z S B Bf : Int) (i j : ℕ), lowOk Wm l i S B = some (j, Bf) →
    |s| ≤ S → S < 2 ^ 31 → |z| ≤ B → ∃ s' z', l.foldlM (lowStep w) (s, z) = some (s', z') ∧ |z'| ≤ Bf ∧ |s'| < 2 ^ 31 ∧
      |2 ^ 61 / (w * log 2) * (s' : ℝ) + z' / 2 ^ j - (2 ^ 61 / (w * log 2) * (s : ℝ) + z / 2 ^ i)| ≤ 7 * (l.length : ℝ)
  | [], s, z, S, B, Bf, i, j, hk, h1, h2, h3 => by
    simp only [lowOk, Option.some.injEq, Prod.mk.injEq] at hk
    obtain ⟨rfl, rfl⟩ := hk
    exact ⟨s, z, rfl, h3, by omega, by simp⟩
  | (k, d) :: r, s, z, S, B, Bf, i, j, hk, h1, h2, h3 => by
    rw [lowOk] at hk
    by_cases hc : k = i ∧ 32 ≤ i ∧ S + Wm >>> i < 2 ^ 31 ∧ (if d then 2 * max (tbl 31) (B - tbl 31) else max (tbl 31) (B - tbl 31)) < 2 ^ 63
    swap
    · rw [if_neg hc] at hk
      cases hk
    rw [if_pos hc] at hk
    obtain ⟨rfl, c0, c1, c2⟩ := hc
    have zb := z_step z (tbl 31) B h3
    have lt := low_term w hw k c0
    have p0 : 0 ≤ w >>> k := by rw [Int.shiftRight_eq_div_pow]; exact Int.ediv_nonneg (by omega) (by positivity)
    have p1 := shr_mono w Wm k hm
    have S0 : 0 ≤ S := le_trans (abs_nonneg s) h1
    set s1 := s + flip (decide (z < 0)) (w >>> k) with hs1
    set z1 := z - flip (decide (z < 0)) (tbl 31) with hz1
    have hs : |s1| ≤ S + Wm >>> k := by
      rw [hs1, flip_eq]
      rw [abs_le] at h1 ⊢
      split <;> omega
    have h5 : |z1 * (if d then 2 else 1)| ≤ if d then 2 * max (tbl 31) (B - tbl 31) else max (tbl 31) (B - tbl 31) := by
      cases d
      · simpa using zb
      · rw [abs_le] at zb ⊢
        simp only [if_true]
        omega
    have step : lowStep w (s, z) (k, d) = some (s1, z1 * (if d then 2 else 1)) := by
      unfold lowStep
      dsimp only
      rw [abs_le] at zb
      have sr := abs_le.mp hs
      rw [wrap32_id _ (by rw [flip_eq]; split <;> omega) (by rw [flip_eq]; split <;> omega), ← hs1]
      rw [show i32 s1 = some s1 from if_pos ⟨by omega, by omega⟩]
      dsimp only [Option.bind_eq_bind, Option.bind_some]
      have zr : -2 ^ 63 ≤ z1 ∧ z1 < 2 ^ 63 := by
        cases d
        · simp only [if_false, Bool.false_eq_true] at c2
          omega
        · simp only [if_true] at c2
          omega
      rw [← hz1, i64_some z1 zr.1 zr.2]
      dsimp only [Option.bind_some]
      cases d
      · simp
      · simp only [if_true] at c2 ⊢
        rw [i64_some (z1 * 2) (by omega) (by omega)]
        rfl
    obtain ⟨s', z', e, k1, k2, k3⟩ := low_loop Wm w hw hm r s1 (z1 * (if d then 2 else 1)) _ _ Bf _ j hk hs c1 h5
    refine ⟨s', z', ?_, k1, k2, ?_⟩
    · rw [List.foldlM_cons, step]
      exact e
    · have sc : ((z1 * (if d then 2 else 1) : Int) : ℝ) / 2 ^ (if d then k + 1 else k) = (z1 : ℝ) / 2 ^ k := by
        cases d
        · simp
        · simp only [if_true]
          push_cast
          rw [pow_succ]
          field_simp
      rw [sc] at k3
      generalize 2 ^ 61 / ((w : ℝ) * log 2) = U at *
      have st : |U * (s1 : ℝ) + (z1 : ℝ) / 2 ^ k - (U * (s : ℝ) + (z : ℝ) / 2 ^ k)| ≤ 7 := by
        have hz2 : (z1 : ℝ) / 2 ^ k = (z : ℝ) / 2 ^ k - (if decide (z < 0) then -((tbl 31 : ℝ) / 2 ^ k) else (tbl 31 : ℝ) / 2 ^ k) := by
          rw [hz1, flip_eq]
          split
          · push_cast; ring
          · push_cast; ring
        have hs2 : U * (s1 : ℝ) = U * (s : ℝ) + (if decide (z < 0) then -(U * ((w >>> k : Int) : ℝ)) else U * ((w >>> k : Int) : ℝ)) := by
          rw [hs1, flip_eq]
          split
          · push_cast; ring
          · push_cast; ring
        rw [hz2, hs2]
        obtain ⟨g5, g6⟩ := abs_le.mp lt
        rw [abs_le]
        by_cases hh : decide (z < 0) = true
        · rw [if_pos hh, if_pos hh]
          constructor <;> linarith
        · rw [if_neg hh, if_neg hh]
          constructor <;> linarith
      rw [List.length_cons]
      push_cast
      obtain ⟨s1, s2⟩ := abs_le.mp st
      obtain ⟨s3, s4⟩ := abs_le.mp k3
      rw [abs_le]
      constructor <;> linarith

theorem lowOk30 : lowOk (2 ^ 62 * 256 / 257 - 1) lowSteps 32 0 6668107568154584310 = some (61, 6653256548922161246) := by decide +kernel

/-! ### No overflow for fractions near one -/

/-- All ways the iterations can go from `z` between `zl` and `zh` end with a small `w`. -/
def topOk : List (ℕ × Bool) → Int → Int → Int → Bool
  | [], _, _, w => decide (w < 2 ^ 62)
  | (i, d) :: r, zl, zh, w =>
    (decide (0 ≤ zl) || topOk r ((zl + tbl i) * (if d then 2 else 1)) ((min zh (-1) + tbl i) * (if d then 2 else 1)) (w - w >>> (i + 1))) &&
      (decide (zh < 0) || topOk r ((max zl 0 - tbl i) * (if d then 2 else 1)) ((zh - tbl i) * (if d then 2 else 1)) (w + w >>> (i + 1)))

theorem topOk_all : topOk expSteps (2 ^ 62 - 2 ^ 32) (2 ^ 62) 0x26A3D0E401DD846D = true := by decide +kernel

theorem i64_eq (v u : Int) (h : i64 v = some u) : u = v := by
  unfold i64 at h
  split at h
  · exact (Option.some.inj h).symm
  · cases h

theorem top_loop : ∀ (l : List (ℕ × Bool)) (zl zh w z w' z' : Int), topOk l zl zh w = true → zl ≤ z → z ≤ zh → l.foldlM expStep (w, z) = some (w', z') →
    w' < 2 ^ 62
  | [], zl, zh, w, z, w', z', hk, h1, h2, e => by
    obtain ⟨rfl, rfl⟩ := Prod.mk.inj (Option.some.inj e)
    simpa [topOk] using hk
  | (i, d) :: r, zl, zh, w, z, w', z', hk, h1, h2, e => by
    rw [List.foldlM_cons] at e
    simp only [Option.bind_eq_bind, Option.bind_eq_some_iff] at e
    obtain ⟨⟨w1, z1⟩, e1, e2⟩ := e
    have hstep : ∃ a b, i64 (w + flip (decide (z < 0)) (w >>> (i + 1))) = some a ∧ i64 (z - flip (decide (z < 0)) (tbl i)) = some b ∧ w1 = a ∧
        z1 = b * (if d then 2 else 1) := by
      cases d
      · simp only [expStep, Option.bind_eq_bind, Option.bind_eq_some_iff, Option.some.injEq, Prod.mk.injEq, if_false, Bool.false_eq_true] at e1
        obtain ⟨a, ea, b, eb, c, ec, g1, g2⟩ := e1
        exact ⟨a, b, ea, eb, g1.symm, by simp [← g2, ec]⟩
      · simp only [expStep, Option.bind_eq_bind, Option.bind_eq_some_iff, Option.some.injEq, Prod.mk.injEq, if_true] at e1
        obtain ⟨a, ea, b, eb, c, ec, g1, g2⟩ := e1
        exact ⟨a, b, ea, eb, g1.symm, by simp [← g2, i64_eq _ _ ec]⟩
    obtain ⟨a, b, ea, eb, rfl, hc⟩ := hstep
    have ha := i64_eq _ _ ea
    have hb := i64_eq _ _ eb
    simp only [topOk, Bool.and_eq_true, Bool.or_eq_true, decide_eq_true_eq] at hk
    obtain ⟨k1, k2⟩ := hk
    by_cases hz : z < 0
    · rw [flip_eq, decide_eq_true hz, if_pos rfl] at ha hb
      have k1 := k1.resolve_left (by omega)
      subst ha
      refine top_loop r _ _ _ z1 w' z' k1 ?_ ?_ e2
      · rw [hc, hb]
        cases d <;> simp only [if_true, if_false, Bool.false_eq_true] <;> omega
      · rw [hc, hb]
        cases d <;> simp only [if_true, if_false, Bool.false_eq_true] <;> omega
    · rw [flip_eq, decide_eq_false hz, if_neg (by simp)] at ha hb
      have k2 := k2.resolve_left (by omega)
      subst ha
      refine top_loop r _ _ _ z1 w' z' k2 ?_ ?_ e2
      · rw [hc, hb]
        cases d <;> simp only [if_true, if_false, Bool.false_eq_true] <;> omega
      · rw [hc, hb]
        cases d <;> simp only [if_true, if_false, Bool.false_eq_true] <;> omega

/-! ### The value of the loops -/

theorem vol_lt (w : Int) (hw : 0 < w) (a : ℕ) (h : vol w < a * 2 ^ 62) : w < 2 ^ a := by
  have hl := log_two_pos
  have hw' : (0 : ℝ) < w := by exact_mod_cast hw
  by_contra hc
  have : ((2 : ℝ) ^ a) ≤ w := by exact_mod_cast (not_lt.mp hc)
  have h2 : log ((2 : ℝ) ^ a) ≤ log w := log_le_log (by positivity) this
  rw [log_pow] at h2
  unfold vol at h
  have : 2 ^ 62 / log 2 * (a * log 2) ≤ 2 ^ 62 / log 2 * log w := mul_le_mul_of_nonneg_left h2 (by positivity)
  have e : 2 ^ 62 / log 2 * (a * log 2) = a * 2 ^ 62 := by field_simp
  linarith

theorem vol_double (w : ℝ) (hw : 0 < w) : vol (2 * w) = 2 ^ 62 + vol w := by
  have hl := log_two_pos
  unfold vol
  rw [log_mul (by norm_num) hw.ne']
  field_simp

theorem vol_add (w s : ℝ) (hw : 2 ^ 59 ≤ w) (hs : |s| ≤ 2 ^ 31) : |vol (2 * w + s) - (2 ^ 62 + vol w + 2 ^ 61 / (w * log 2) * s)| ≤ 50 := by
  have hl := log_two_pos
  have hw0 : 0 < w := by linarith
  set r := s / (2 * w) with hr
  have hr1 : |r| ≤ 1 / 2 ^ 29 := by
    rw [hr, abs_div, abs_of_pos (by linarith : 0 < 2 * w), div_le_iff₀ (by linarith)]
    linarith
  have e1 : 2 * w + s = 2 * w * (1 + r) := by
    rw [hr]
    field_simp
  obtain ⟨r1, r2⟩ := abs_le.mp hr1
  have r0 : 0 < 1 + r := by linarith
  have e2 : vol (2 * w + s) = vol (2 * w) + 2 ^ 62 / log 2 * log (1 + r) := by
    rw [e1]
    unfold vol
    rw [log_mul (by linarith) r0.ne', mul_add]
  have e3 : 2 ^ 61 / (w * log 2) * s = 2 ^ 62 / log 2 * r := by
    rw [hr]
    field_simp
  have q : |log (1 + r) - r| ≤ 2 * r ^ 2 := by
    rw [abs_le]
    constructor
    · have := one_sub_inv_le_log_of_pos r0
      have h3 : 1 - (1 + r)⁻¹ = r - r ^ 2 / (1 + r) := by
        field_simp
        ring
      have h4 : r ^ 2 / (1 + r) ≤ 2 * r ^ 2 := by
        rw [div_le_iff₀ r0]
        nlinarith [sq_nonneg r]
      linarith
    · have := log_le_sub_one_of_pos r0
      nlinarith [sq_nonneg r]
  rw [e2, vol_double w hw0, e3]
  rw [show 2 ^ 62 + vol w + 2 ^ 62 / log 2 * log (1 + r) - (2 ^ 62 + vol w + 2 ^ 62 / log 2 * r) = 2 ^ 62 / log 2 * (log (1 + r) - r) by ring, abs_mul,
    abs_of_pos (by positivity : (0 : ℝ) < 2 ^ 62 / log 2)]
  have q2 : 2 * r ^ 2 ≤ 2 / 2 ^ 58 := by
    have : r ^ 2 ≤ (1 / 2 ^ 29) ^ 2 := by
      rw [sq_le_sq]
      rw [abs_of_pos (by positivity : (0 : ℝ) < 1 / 2 ^ 29)]
      exact hr1
    calc 2 * r ^ 2 ≤ 2 * (1 / 2 ^ 29) ^ 2 := by linarith
      _ = 2 / 2 ^ 58 := by norm_num
  calc 2 ^ 62 / log 2 * |log (1 + r) - r| ≤ 2 ^ 62 / log 2 * (2 / 2 ^ 58) := mul_le_mul_of_nonneg_left (by linarith) (by positivity)
    _ = 32 / log 2 := by
      field_simp
      norm_num
    _ ≤ 50 := by
      rw [div_le_iff₀ (by linarith)]
      linarith

/-- For small integer parts, within 2^-31. -/
theorem expFrac_low (ip f : Int) (hip : ip ≤ 30) (h0 : 0 < f) (h1 : f < 2 ^ 57) : ∃ W, expFrac ip f = some W ∧ 0 < W ∧ W < 2 ^ 63 - 1 ∧
    |vol W - (62 * 2 ^ 62 + 32 * f)| ≤ 1552540534 := by
  obtain ⟨w, z, e, k1, k2, k3⟩ := exp34 (f * 2 ^ 5) (by rw [abs_of_nonneg (by omega)]; omega)
  have kz : |(z : ℝ) / 2 ^ 32| ≤ 1552540000 := by
    rw [abs_div, abs_of_pos (by positivity : (0 : ℝ) < 2 ^ 32), div_le_iff₀ (by positivity)]
    have : |(z : ℝ)| ≤ 6668107568154584310 := by exact_mod_cast k1
    linarith
  obtain ⟨a1, a2⟩ := abs_le.mp kz
  obtain ⟨b1, b2⟩ := abs_le.mp k3
  have ef : ((f * 2 ^ 5 : Int) : ℝ) = 32 * f := by push_cast; ring
  rw [ef] at b1 b2
  have hw : w < 2 ^ 62 := by
    by_cases ht : 2 ^ 62 - 2 ^ 32 ≤ f * 2 ^ 5
    · exact top_loop expSteps _ _ _ _ w z topOk_all ht (by omega) e
    · refine vol_lt w (by omega) 62 ?_
      have : ((f * 2 ^ 5 : Int) : ℝ) < 2 ^ 62 - 2 ^ 32 := by exact_mod_cast (not_le.mp ht)
      rw [ef] at this
      push_cast
      linarith
  refine ⟨w * 2, ?_, by omega, by omega, ?_⟩
  · unfold expFrac
    rw [if_pos (by omega), wrap64_id _ (by omega) (by omega), e]
    dsimp only [Option.bind_eq_bind, Option.bind_some]
    rw [if_neg (by omega), wrap64_id _ (by omega) (by omega)]
    rw [add_zero, i64_some _ (by omega) (by omega)]
  · have : ((w * 2 : Int) : ℝ) = 2 * w := by push_cast; ring
    have hw0 : (0 : ℝ) < w := by exact_mod_cast (by omega : 0 < w)
    rw [this, vol_double _ hw0, abs_le]
    constructor <;> linarith

theorem log_top : log ((2 : ℝ) ^ 62 * 256 / 257 - 2) ≥ 62 * log 2 - 1 / 250 := by
  have e : (2 : ℝ) ^ 62 * 256 / 257 - 2 = 2 ^ 62 * (256 / 257 - 1 / 2 ^ 61) := by norm_num
  rw [e, log_mul (by positivity) (by norm_num), log_pow]
  have := one_sub_inv_le_log_of_pos (show (0 : ℝ) < 256 / 257 - 1 / 2 ^ 61 by norm_num)
  have h : (1 : ℝ) - (256 / 257 - 1 / 2 ^ 61)⁻¹ ≥ -1 / 250 := by norm_num
  push_cast
  linarith

/-- For large integer parts and fractions that are not next to one, within 2^-52. -/
theorem expFrac_high (ip f : Int) (hip : 30 < ip) (h0 : 0 < f) (h1 : 128 * f ≤ 127 * 2 ^ 57) : ∃ W, expFrac ip f = some W ∧ 0 < W ∧ W < 2 ^ 63 - 1 ∧
    |vol W - (62 * 2 ^ 62 + 32 * f)| ≤ 800 := by
  obtain ⟨w, z, e, k1, k2, k3⟩ := exp34 (f * 2 ^ 5) (by rw [abs_of_nonneg (by omega)]; omega)
  have hl := log_two_pos
  have hl2 := log_two_lt
  have kz : |(z : ℝ) / 2 ^ 32| ≤ 1552540000 := by
    rw [abs_div, abs_of_pos (by positivity : (0 : ℝ) < 2 ^ 32), div_le_iff₀ (by positivity)]
    have : |(z : ℝ)| ≤ 6668107568154584310 := by exact_mod_cast k1
    linarith
  obtain ⟨a1, a2⟩ := abs_le.mp kz
  obtain ⟨b1, b2⟩ := abs_le.mp k3
  have ef : ((f * 2 ^ 5 : Int) : ℝ) = 32 * f := by push_cast; ring
  rw [ef] at b1 b2
  have h1' : 128 * (f : ℝ) ≤ 127 * 2 ^ 57 := by exact_mod_cast h1
  have hw0 : (0 : ℝ) < w := by exact_mod_cast (by omega : 0 < w)
  have hw : w ≤ 2 ^ 62 * 256 / 257 - 1 := by
    by_contra hc
    have hc' : (2 : ℝ) ^ 62 * 256 / 257 - 2 ≤ w := by
      have : ((2 ^ 62 * 256 / 257 : Int) : ℝ) ≤ w := by exact_mod_cast (by omega)
      have h5 : (2 : ℝ) ^ 62 * 256 / 257 - 2 ≤ ((2 ^ 62 * 256 / 257 : Int) : ℝ) := by norm_num
      linarith
    have h6 : log ((2 : ℝ) ^ 62 * 256 / 257 - 2) ≤ log w := log_le_log (by norm_num) hc'
    have h7 := log_top
    have h8 : (2 : ℝ) ^ 62 / log 2 * (62 * log 2 - 1 / 250) ≤ vol w := mul_le_mul_of_nonneg_left (by linarith) (by positivity)
    have h9 : (2 : ℝ) ^ 62 / log 2 * (62 * log 2 - 1 / 250) = 62 * 2 ^ 62 - 2 ^ 62 / 250 / log 2 := by
      field_simp
    have h10 : (2 : ℝ) ^ 62 / 250 / log 2 ≤ 2 ^ 62 / 250 * 3 / 2 := by
      rw [div_le_iff₀ (by linarith)]
      linarith
    linarith
  obtain ⟨s, z', e2, k4, k5, k6⟩ := low_loop _ w k2 hw lowSteps 0 z 0 _ _ 32 61 lowOk30 (by simp) (by norm_num) k1
  have hs : |(s : ℝ)| ≤ 2 ^ 31 := by exact_mod_cast k5.le
  have va := vol_add w s (by exact_mod_cast k2) hs
  have kz' : |(z' : ℝ) / 2 ^ 61| ≤ 3 := by
    rw [abs_div, abs_of_pos (by positivity : (0 : ℝ) < 2 ^ 61), div_le_iff₀ (by positivity)]
    have : |(z' : ℝ)| ≤ 6653256548922161246 := by exact_mod_cast k4
    linarith
  have hlen : (lowSteps.length : ℝ) = 30 := by norm_num [lowSteps]
  rw [hlen, Int.cast_zero, mul_zero, zero_add] at k6
  obtain ⟨s1, s2⟩ := abs_lt.mp k5
  refine ⟨w * 2 + s, ?_, by omega, by omega, ?_⟩
  · unfold expFrac
    rw [if_pos (by omega), wrap64_id _ (by omega) (by omega), e]
    dsimp only [Option.bind_eq_bind, Option.bind_some]
    rw [if_pos (by omega), e2, wrap64_id _ (by omega) (by omega)]
    dsimp only [Option.map_some, Option.bind_some]
    rw [i64_some _ (by omega) (by omega)]
  · have : ((w * 2 + s : Int) : ℝ) = 2 * w + s := by push_cast; ring
    rw [this]
    obtain ⟨c1, c2⟩ := abs_le.mp k6
    obtain ⟨d1, d2⟩ := abs_le.mp kz'
    obtain ⟨e1, e2⟩ := abs_le.mp va
    rw [abs_le]
    constructor <;> linarith

end Rav1e.LogExp
