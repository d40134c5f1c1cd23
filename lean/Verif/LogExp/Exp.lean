import Verif.LogExp.Blog

/-!
# The exponential

Every iteration of `bexp64` adds about `eta i` to the logarithm of `w`, or takes it away, and does the opposite with `z`; besides, `w` is divided by
the constant `sqrt (1 - 4^-(i+1))`.
-/

namespace Rav1e.LogExp

open Real

/-- The logarithm of `w` to base 2, in units of `2^-62`. -/
noncomputable def vol (w : ℝ) : ℝ := 2 ^ 62 / log 2 * log w

/-- What an iteration adds in any case. -/
noncomputable def gain (i : ℕ) : ℝ := 2 ^ 61 / log 2 * (log (1 + 1 / 2 ^ (i + 1)) + log (1 - 1 / 2 ^ (i + 1)))

theorem vol_step (w lo : Int) (i : ℕ) (neg : Bool) (hlo : lo ≤ w) (h : 2 ^ 59 ≤ lo - lo >>> (i + 1) - 1) :
    lo - lo >>> (i + 1) - 1 ≤ w + flip neg (w >>> (i + 1)) ∧
      |vol ((w + flip neg (w >>> (i + 1)) : Int) : ℝ) - (vol w + (if neg then -eta i else eta i) + gain i)| ≤ 12 := by
  obtain ⟨t0, t1⟩ := t_bounds i
  obtain ⟨wa, wb⟩ := shr_bounds w (i + 1)
  obtain ⟨la, lb⟩ := shr_bounds lo (i + 1)
  have hlo' : (lo : ℝ) ≤ w := by exact_mod_cast hlo
  have h' : (2 : ℝ) ^ 59 ≤ (lo : ℝ) - ((lo >>> (i + 1) : Int) : ℝ) - 1 := by exact_mod_cast h
  have hloq : (lo : ℝ) * (1 - 1 / 2 ^ (i + 1)) = lo - lo / 2 ^ (i + 1) := by ring
  have hlo0 : (0 : ℝ) < lo := by
    by_contra hc
    have hc' : (lo : ℝ) ≤ 0 := by linarith
    have : (lo : ℝ) - lo / 2 ^ (i + 1) ≤ 0 := by rw [← hloq]; exact mul_nonpos_of_nonpos_of_nonneg hc' (by linarith)
    linarith
  have low : (lo : ℝ) - ((lo >>> (i + 1) : Int) : ℝ) - 1 ≤ (w : ℝ) * (1 - 1 / 2 ^ (i + 1)) := by
    have := mul_le_mul_of_nonneg_right hlo' (show (0 : ℝ) ≤ 1 - 1 / 2 ^ (i + 1) by linarith)
    linarith
  have up : (w : ℝ) * (1 - 1 / 2 ^ (i + 1)) ≤ (w : ℝ) * (1 + 1 / 2 ^ (i + 1)) := mul_le_mul_of_nonneg_left (by linarith) (by linarith)
  have hl := log_two_pos
  have num : (2 : ℝ) ^ 62 / log 2 * (1 / 2 ^ 59) ≤ 12 := by
    rw [div_mul_eq_mul_div, div_le_iff₀ (by linarith)]
    norm_num
    linarith
  have scale : (0 : ℝ) < 2 ^ 62 / log 2 := by positivity
  have cast2 : ∀ a : Int, ((lo : ℝ) - ((lo >>> (i + 1) : Int) : ℝ) - 1 ≤ (a : ℝ) → lo - lo >>> (i + 1) - 1 ≤ a) := by
    intro a h
    exact_mod_cast h
  have ee := eta_eq i
  unfold gain
  generalize hT : (1 : ℝ) / 2 ^ (i + 1) = t at *
  have wq : (w : ℝ) / 2 ^ (i + 1) = w * t := by rw [← hT]; ring
  rw [wq] at wa wb
  rw [flip_eq]
  have key : ∀ u e : ℝ, 0 < u → 2 ^ 59 ≤ w * u → 2 ^ 59 ≤ w * u + e → |e| ≤ 1 → |vol (w * u + e) - (vol w + 2 ^ 62 / log 2 * log u)| ≤ 12 := by
    intro u e hu k1 k2 he
    unfold vol
    rw [← mul_add, ← log_mul (by linarith) hu.ne', ← mul_sub, abs_mul, abs_of_pos scale]
    refine (mul_le_mul_of_nonneg_left ?_ scale.le).trans num
    refine (log_near (w * u) (w * u + e) (2 ^ 59) (by norm_num) k1 k2).trans ?_
    apply div_le_div_of_nonneg_right _ (by norm_num)
    rw [show w * u + e - w * u = e by ring]
    exact he
  cases neg
  · rw [if_neg (by simp), if_neg (by simp)]
    have er : ((w + w >>> (i + 1) : Int) : ℝ) = w * (1 + t) + (((w >>> (i + 1) : Int) : ℝ) - w * t) := by push_cast; ring
    have ge : (0 : ℝ) ≤ ((w >>> (i + 1) : Int) : ℝ) := by
      have h1 : (-1 : ℝ) < ((w >>> (i + 1) : Int) : ℝ) := by nlinarith
      have h2 : (-1 : Int) < w >>> (i + 1) := by exact_mod_cast h1
      exact_mod_cast (show (0 : Int) ≤ w >>> (i + 1) by omega)
    refine ⟨cast2 _ (by push_cast; nlinarith), ?_⟩
    rw [er]
    have := key (1 + t) _ (by linarith) (by linarith)
      (show 2 ^ 59 ≤ (w : ℝ) * (1 + t) + (((w >>> (i + 1) : Int) : ℝ) - w * t) by nlinarith) (abs_le.mpr ⟨by linarith, by linarith⟩)
    rw [ee, show vol (w : ℝ) + 2 ^ 61 / log 2 * (log (1 + t) - log (1 - t)) + 2 ^ 61 / log 2 * (log (1 + t) + log (1 - t)) =
      vol w + 2 ^ 62 / log 2 * log (1 + t) by ring]
    exact this
  · rw [if_pos rfl, if_pos rfl]
    have er : ((w + -(w >>> (i + 1)) : Int) : ℝ) = w * (1 - t) + (w * t - ((w >>> (i + 1) : Int) : ℝ)) := by push_cast; ring
    refine ⟨cast2 _ (by rw [er]; linarith), ?_⟩
    rw [er]
    have := key (1 - t) _ (by linarith) (by linarith)
      (show 2 ^ 59 ≤ (w : ℝ) * (1 - t) + (w * t - ((w >>> (i + 1) : Int) : ℝ)) by linarith) (abs_le.mpr ⟨by linarith, by linarith⟩)
    rw [ee, show vol (w : ℝ) + -(2 ^ 61 / log 2 * (log (1 + t) - log (1 - t))) + 2 ^ 61 / log 2 * (log (1 + t) + log (1 - t)) =
      vol w + 2 ^ 62 / log 2 * log (1 - t) by ring]
    exact this

/-- Bounds that hold along the iterations: `lo` and `hi` bound `w`, `B` bounds `z`; `i` is the next iteration. -/
def expOk : List (ℕ × Bool) → ℕ → Int → Int → Int → Option (ℕ × Int)
  | [], i, _, _, B => some (i, B)
  | (j, d) :: r, i, lo, hi, B =>
    let lo' := lo - lo >>> (i + 1) - 1
    let m := max (tbl i) (B - tbl i)
    if j = i ∧ i < 32 ∧ 2 ^ 59 ≤ lo' ∧ hi + hi >>> (i + 1) < 2 ^ 63 ∧ (if d then 2 * m else m) < 2 ^ 63 ∧ 0 ≤ tbl i then
      expOk r (if d then i + 1 else i) lo' (hi + hi >>> (i + 1)) (if d then 2 * m else m)
    else none

/-- All that is added in any case. -/
noncomputable def gains (l : List (ℕ × Bool)) : ℝ := (l.map fun p => gain p.1).sum

theorem shr_mono (a b : Int) (k : ℕ) (h : a ≤ b) : a >>> k ≤ b >>> k := by
  rw [Int.shiftRight_eq_div_pow, Int.shiftRight_eq_div_pow]
  exact Int.ediv_le_ediv (by positivity) h

theorem z_step (z T B : Int) (h : |z| ≤ B) : |z - flip (decide (z < 0)) T| ≤ max T (B - T) := by
  rw [flip_eq]
  have m1 := le_max_left T (B - T)
  have m2 := le_max_right T (B - T)
  rw [abs_le] at h ⊢
  by_cases hz : z < 0
  · rw [decide_eq_true hz, if_pos rfl]; omega
  · rw [decide_eq_false hz, if_neg (by simp)]; omega

/-- The iterations. -/
theorem exp_loop : ∀ (l : List (ℕ × Bool)) (w z lo hi B Bf : Int) (i j : ℕ), expOk l i lo hi B = some (j, Bf) → lo ≤ w → 2 ^ 59 ≤ lo → w ≤ hi → |z| ≤ B →
    ∃ w' z', l.foldlM expStep (w, z) = some (w', z') ∧ |z'| ≤ Bf ∧ 2 ^ 59 ≤ w' ∧
      |vol w' + z' / 2 ^ j - (vol w + z / 2 ^ i + gains l)| ≤ 15 * l.length
  | [], w, z, lo, hi, B, Bf, i, j, hk, h1, h2, h3, h4 => by
    simp only [expOk, Option.some.injEq, Prod.mk.injEq] at hk
    obtain ⟨rfl, rfl⟩ := hk
    exact ⟨w, z, rfl, h4, by omega, by simp [gains]⟩
  | (k, d) :: r, w, z, lo, hi, B, Bf, i, j, hk, h1, h2, h3, h4 => by
    rw [expOk] at hk
    by_cases hc : k = i ∧ i < 32 ∧ 2 ^ 59 ≤ lo - lo >>> (i + 1) - 1 ∧ hi + hi >>> (i + 1) < 2 ^ 63 ∧
      (if d then 2 * max (tbl i) (B - tbl i) else max (tbl i) (B - tbl i)) < 2 ^ 63 ∧ 0 ≤ tbl i
    swap
    · rw [if_neg hc] at hk
      cases hk
    rw [if_pos hc] at hk
    obtain ⟨rfl, c0, c1, c2, c3, c4⟩ := hc
    obtain ⟨g1, g2⟩ := vol_step w lo k (decide (z < 0)) h1 c1
    have hT := tbl_eta k
    rw [show min k 31 = k by omega] at hT
    have zb := z_step z (tbl k) B h4
    set w1 := w + flip (decide (z < 0)) (w >>> (k + 1)) with hw1
    set z1 := z - flip (decide (z < 0)) (tbl k) with hz1
    have hw : w1 ≤ hi + hi >>> (k + 1) := by
      have := shr_mono w hi (k + 1) h3
      have p : 0 ≤ w >>> (k + 1) := by rw [Int.shiftRight_eq_div_pow]; exact Int.ediv_nonneg (by omega) (by positivity)
      rw [hw1, flip_eq]
      split <;> omega
    have h5 : |z1 * (if d then 2 else 1)| ≤ if d then 2 * max (tbl k) (B - tbl k) else max (tbl k) (B - tbl k) := by
      cases d
      · simpa using zb
      · rw [abs_le] at zb ⊢
        simp only [if_true]
        omega
    have step : expStep (w, z) (k, d) = some (w1, z1 * (if d then 2 else 1)) := by
      unfold expStep
      dsimp only
      rw [abs_le] at zb
      rw [← hw1, i64_some w1 (by omega) (by omega)]
      dsimp only [Option.bind_eq_bind, Option.bind_some]
      have zr : -2 ^ 63 ≤ z1 ∧ z1 < 2 ^ 63 := by
        cases d
        · simp only [if_false, Bool.false_eq_true] at c3
          omega
        · simp only [if_true] at c3
          omega
      rw [← hz1, i64_some z1 zr.1 zr.2]
      dsimp only [Option.bind_some]
      cases d
      · simp
      · simp only [if_true] at c3 ⊢
        rw [i64_some (z1 * 2) (by omega) (by omega)]
        rfl
    obtain ⟨w', z', e, k1, k2, k3⟩ := exp_loop r w1 (z1 * (if d then 2 else 1)) _ _ _ Bf _ j hk g1 c1 hw h5
    refine ⟨w', z', ?_, k1, k2, ?_⟩
    · rw [List.foldlM_cons, step]
      exact e
    · have sc : ((z1 * (if d then 2 else 1) : Int) : ℝ) / 2 ^ (if d then k + 1 else k) = (z1 : ℝ) / 2 ^ k := by
        cases d
        · simp
        · simp only [if_true]
          push_cast
          rw [pow_succ]
          field_simp
      rw [sc] at k3
      have p : (1 : ℝ) ≤ 2 ^ k := one_le_pow₀ (by norm_num)
      have hT2 : |(tbl k : ℝ) / 2 ^ k - eta k| ≤ 3 := by
        rw [show (tbl k : ℝ) / 2 ^ k - eta k = ((tbl k : ℝ) - 2 ^ k * eta k) / 2 ^ k by field_simp, abs_div,
          abs_of_pos (by linarith : (0 : ℝ) < 2 ^ k), div_le_iff₀ (by linarith)]
        nlinarith
      have st : |vol w1 + (z1 : ℝ) / 2 ^ k - (vol w + (z : ℝ) / 2 ^ k + gain k)| ≤ 15 := by
        have hz2 : (z1 : ℝ) / 2 ^ k = (z : ℝ) / 2 ^ k - (if decide (z < 0) then -((tbl k : ℝ) / 2 ^ k) else (tbl k : ℝ) / 2 ^ k) := by
          rw [hz1, flip_eq]
          split
          · push_cast; ring
          · push_cast; ring
        rw [hz2]
        rw [abs_le] at g2 hT2 ⊢
        obtain ⟨g3, g4⟩ := g2
        obtain ⟨g5, g6⟩ := hT2
        split at g3
        · rename_i hh
          rw [if_pos hh] at g4 ⊢
          constructor <;> linarith
        · rename_i hh
          rw [if_neg hh] at g4 ⊢
          constructor <;> linarith
      have gs : gains ((k, d) :: r) = gain k + gains r := by simp [gains]
      rw [List.length_cons, gs]
      push_cast
      obtain ⟨s1, s2⟩ := abs_le.mp st
      obtain ⟨s3, s4⟩ := abs_le.mp k3
      rw [abs_le]
      constructor <;> linarith

theorem expOk34 : expOk expSteps 0 0x26A3D0E401DD846D 0x26A3D0E401DD846D (2 ^ 62) = some (32, 6668107568154584310) := by decide +kernel

/-! ### The constant -/

def prodNum (l : List (ℕ × Bool)) : ℕ := (l.map fun p => 4 ^ (p.1 + 1) - 1).prod
def prodDen (l : List (ℕ × Bool)) : ℕ := (l.map fun p => 4 ^ (p.1 + 1)).prod

theorem gain_eq (i : ℕ) : gain i = 2 ^ 61 / log 2 * (log ((4 ^ (i + 1) - 1 : ℕ) : ℝ) - log ((4 ^ (i + 1) : ℕ) : ℝ)) := by
  obtain ⟨t0, t1⟩ := t_bounds i
  have p : 1 < 4 ^ (i + 1) := Nat.one_lt_pow (by omega) (by norm_num)
  have p' : (1 : ℝ) < 4 ^ (i + 1) := by exact_mod_cast p
  unfold gain
  rw [← log_mul (by linarith) (by linarith), ← log_div (by rw [Nat.cast_ne_zero]; omega) (by positivity)]
  congr 2
  rw [Nat.cast_sub p.le]
  push_cast
  rw [show (4 : ℝ) ^ (i + 1) = 2 ^ (i + 1) * 2 ^ (i + 1) by rw [← mul_pow]; norm_num]
  field_simp
  ring

theorem gains_eq : ∀ l : List (ℕ × Bool), 0 < prodNum l ∧ 0 < prodDen l ∧ gains l = 2 ^ 61 / log 2 * (log (prodNum l : ℝ) - log (prodDen l : ℝ))
  | [] => by simp [gains, prodNum, prodDen]
  | p :: l => by
    obtain ⟨a, b, c⟩ := gains_eq l
    have q : 1 < 4 ^ (p.1 + 1) := Nat.one_lt_pow (by omega) (by norm_num)
    have hN : prodNum (p :: l) = (4 ^ (p.1 + 1) - 1) * prodNum l := by simp [prodNum]
    have hD : prodDen (p :: l) = 4 ^ (p.1 + 1) * prodDen l := by simp [prodDen]
    have hG : gains (p :: l) = gain p.1 + gains l := by simp [gains]
    have a' : (0 : ℝ) < prodNum l := by exact_mod_cast a
    have b' : (0 : ℝ) < prodDen l := by exact_mod_cast b
    have q' : 0 < 4 ^ (p.1 + 1) - 1 := by omega
    refine ⟨by rw [hN]; positivity, by rw [hD]; positivity, ?_⟩
    rw [hN, hD, hG, c, gain_eq, Nat.cast_mul, Nat.cast_mul, log_mul (by positivity) (by positivity), log_mul (by positivity) (by positivity)]
    ring

theorem const_ok : prodDen expSteps * 2 ^ 122 ≤ 0x26A3D0E401DD846D ^ 2 * prodNum expSteps + prodDen expSteps * 2 ^ 65 ∧
    0x26A3D0E401DD846D ^ 2 * prodNum expSteps ≤ prodDen expSteps * 2 ^ 122 + prodDen expSteps * 2 ^ 65 := by decide +kernel

/-- The first `w` makes up for what the iterations add in any case. -/
theorem const_near : |vol 0x26A3D0E401DD846D + gains expSteps - 61 * 2 ^ 62| ≤ 24 := by
  obtain ⟨a, b, c⟩ := gains_eq expSteps
  obtain ⟨k1, k2⟩ := const_ok
  have a' : (0 : ℝ) < prodNum expSteps := by exact_mod_cast a
  have b' : (0 : ℝ) < prodDen expSteps := by exact_mod_cast b
  have k1' : (prodDen expSteps : ℝ) * 2 ^ 122 ≤ 0x26A3D0E401DD846D ^ 2 * prodNum expSteps + prodDen expSteps * 2 ^ 65 := by exact_mod_cast k1
  have k2' : (0x26A3D0E401DD846D : ℝ) ^ 2 * prodNum expSteps ≤ prodDen expSteps * 2 ^ 122 + prodDen expSteps * 2 ^ 65 := by exact_mod_cast k2
  generalize (prodNum expSteps : ℝ) = N at *
  generalize (prodDen expSteps : ℝ) = D at *
  have hl := log_two_pos
  rw [c]
  unfold vol
  have e : (2 : ℝ) ^ 62 / log 2 * log 0x26A3D0E401DD846D + 2 ^ 61 / log 2 * (log N - log D) - 61 * 2 ^ 62 =
      2 ^ 61 / log 2 * (log (0x26A3D0E401DD846D ^ 2 * N) - log (D * 2 ^ 122)) := by
    rw [log_mul (by positivity) (by positivity), log_mul (by positivity) (by positivity), log_pow, log_pow]
    field_simp
    push_cast
    ring
  rw [e, abs_mul, abs_of_pos (by positivity)]
  have hN : D * (2 ^ 122 * (99 / 100)) ≤ 0x26A3D0E401DD846D ^ 2 * N := by nlinarith
  have near := log_near (D * 2 ^ 122) (0x26A3D0E401DD846D ^ 2 * N) (D * (2 ^ 122 * (99 / 100))) (by positivity) (by nlinarith) hN
  have : |log (0x26A3D0E401DD846D ^ 2 * N) - log (D * 2 ^ 122)| ≤ (8 + 1 / 10) / 2 ^ 60 := by
    refine near.trans ?_
    rw [div_le_iff₀ (by positivity)]
    rw [abs_le]
    constructor <;> nlinarith
  refine (mul_le_mul_of_nonneg_left this (by positivity)).trans ?_
  rw [div_mul_eq_mul_div, div_le_iff₀ (by linarith)]
  norm_num
  linarith

/-- The first loops: `w` is `2^(61 + z / 2^62)`, but for what is left in `z`. -/
theorem exp34 (z : Int) (h : |z| ≤ 2 ^ 62) : ∃ w' z', expSteps.foldlM expStep (0x26A3D0E401DD846D, z) = some (w', z') ∧ |z'| ≤ 6668107568154584310 ∧
    2 ^ 59 ≤ w' ∧ |vol w' + z' / 2 ^ 32 - (61 * 2 ^ 62 + z)| ≤ 534 := by
  obtain ⟨w', z', e, k1, k2, k3⟩ := exp_loop expSteps 0x26A3D0E401DD846D z _ _ _ _ 0 32 expOk34 (le_refl _) (by norm_num) (le_refl _) h
  refine ⟨w', z', e, k1, k2, ?_⟩
  have c := const_near
  have hlen : (expSteps.length : ℝ) = 34 := by norm_num [expSteps]
  rw [hlen] at k3
  have e0 : (((0x26A3D0E401DD846D : Int)) : ℝ) = 0x26A3D0E401DD846D := by norm_num
  rw [e0, pow_zero, div_one] at k3
  obtain ⟨s1, s2⟩ := abs_le.mp k3
  obtain ⟨s3, s4⟩ := abs_le.mp c
  rw [abs_le]
  constructor <;> linarith

end Rav1e.LogExp
