import Verif.LogExp.Table

/-!
# The logarithm

Every iteration of `blog64` takes about `eta i` from the logarithm of `(x + y) / (x - y)` and adds about as much to `z`.
-/

namespace Rav1e.LogExp

open Real

/-- The logarithm of `(x + y) / (x - y)` to base 2, in units of `2^-61`. -/
noncomputable def ell (x y : Int) : ℝ := 2 ^ 61 / log 2 * (log ((x : ℝ) + y) - log ((x : ℝ) - y))

theorem not_eq (v : Int) : Int.not v = -v - 1 := by
  cases v with
  | ofNat n => simp only [Int.not, Int.negSucc_eq, Int.ofNat_eq_natCast]; omega
  | negSucc n => simp only [Int.not, Int.negSucc_eq, Int.ofNat_eq_natCast]; omega

theorem flip_eq (neg : Bool) (v : Int) : flip neg v = if neg then -v else v := by
  unfold flip
  split
  · rw [not_eq]; omega
  · rfl

theorem i64_some (v : Int) (h1 : -2 ^ 63 ≤ v) (h2 : v < 2 ^ 63) : i64 v = some v := if_pos ⟨h1, h2⟩

/-- Bounds that hold along the iterations: `lo` bounds `x + y` and `x - y` from below, `B` the logarithm, `X` bounds `x`, `Z` bounds `z`.  The last `B`, if
nothing can overflow. -/
def logOk : List ℕ → Int → Int → Int → Int → Option Int
  | [], _, B, _, _ => some B
  | i :: r, lo, B, X, Z =>
    let c := tbl (min i 31) >>> i
    let lo' := lo - lo >>> (i + 1) - 3
    if 2 ^ 60 ≤ lo' ∧ X + 1 < 2 ^ 63 ∧ Z + c < 2 ^ 63 ∧ 0 ≤ c then logOk r lo' (max c (B - c) + 16) (X + 1) (Z + c) else none

theorem log_pert (S u e : ℝ) (hS : 0 < S) (hu : 0 < u) (h1 : 2 ^ 60 ≤ S * u) (h2 : 2 ^ 60 ≤ S * u + e) (he : |e| ≤ 2) :
    |log (S * u + e) - (log S + log u)| ≤ 2 / 2 ^ 60 := by
  rw [← log_mul hS.ne' hu.ne']
  refine (log_near (S * u) (S * u + e) (2 ^ 60) (by norm_num) h1 h2).trans ?_
  apply div_le_div_of_nonneg_right _ (by norm_num)
  rw [show S * u + e - S * u = e by ring]
  exact he

theorem eta_eq (i : ℕ) : eta i = 2 ^ 61 / log 2 * (log (1 + 1 / 2 ^ (i + 1)) - log (1 - 1 / 2 ^ (i + 1))) := by
  have p : (2 : ℝ) ≤ 2 ^ (i + 1) := by rw [pow_succ]; nlinarith [one_le_pow₀ (show (1 : ℝ) ≤ 2 by norm_num) (n := i)]
  have t : (1 : ℝ) / 2 ^ (i + 1) ≤ 1 / 2 := one_div_le_one_div_of_le (by norm_num) p
  have t0 : (0 : ℝ) < 1 / 2 ^ (i + 1) := by positivity
  unfold eta at'
  rw [log_div (by linarith) (by linarith)]
  ring

theorem t_bounds (i : ℕ) : (0 : ℝ) < 1 / 2 ^ (i + 1) ∧ (1 : ℝ) / 2 ^ (i + 1) ≤ 1 / 2 := by
  have p : (2 : ℝ) ≤ 2 ^ (i + 1) := by rw [pow_succ]; nlinarith [one_le_pow₀ (show (1 : ℝ) ≤ 2 by norm_num) (n := i)]
  exact ⟨by positivity, one_div_le_one_div_of_le (by norm_num) p⟩

/-- An iteration, in real numbers. -/
theorem log_step_real (x y lo : Int) (i : ℕ) (hs : lo ≤ x + y) (hd : lo ≤ x - y) (hlo : 2 ^ 60 ≤ lo - lo >>> (i + 1) - 3) (neg : Bool)
    (hn : neg = decide (y < 0)) (x' y' : Int) (hx : x' = x - flip neg (y >>> (i + 1))) (hy : y' = y - flip neg (x >>> (i + 1))) :
    lo - lo >>> (i + 1) - 3 ≤ x' + y' ∧ lo - lo >>> (i + 1) - 3 ≤ x' - y' ∧ x' ≤ x + 1 ∧ |ell x' y' - (ell x y - (if neg then -eta i else eta i))| ≤ 12 := by
  obtain ⟨t0, t1⟩ := t_bounds i
  obtain ⟨xa, xb⟩ := shr_bounds x (i + 1)
  obtain ⟨ya, yb⟩ := shr_bounds y (i + 1)
  obtain ⟨la, lb⟩ := shr_bounds lo (i + 1)
  have hs' : (lo : ℝ) ≤ x + y := by exact_mod_cast hs
  have hd' : (lo : ℝ) ≤ x - y := by exact_mod_cast hd
  have hlo' : (2 : ℝ) ^ 60 ≤ (lo : ℝ) - ((lo >>> (i + 1) : Int) : ℝ) - 3 := by exact_mod_cast hlo
  have hloq : (lo : ℝ) * (1 - 1 / 2 ^ (i + 1)) = lo - lo / 2 ^ (i + 1) := by ring
  have hlo0 : (0 : ℝ) < lo := by
    by_contra hc
    have hc' : (lo : ℝ) ≤ 0 := by linarith
    have : (lo : ℝ) - lo / 2 ^ (i + 1) ≤ 0 := by rw [← hloq]; exact mul_nonpos_of_nonpos_of_nonneg hc' (by linarith)
    linarith
  rw [flip_eq] at hx hy
  have low1 : (lo : ℝ) - ((lo >>> (i + 1) : Int) : ℝ) - 1 ≤ ((x : ℝ) + y) * (1 - 1 / 2 ^ (i + 1)) := by
    have := mul_le_mul_of_nonneg_right hs' (show (0 : ℝ) ≤ 1 - 1 / 2 ^ (i + 1) by linarith)
    linarith
  have low2 : (lo : ℝ) - ((lo >>> (i + 1) : Int) : ℝ) - 1 ≤ ((x : ℝ) - y) * (1 - 1 / 2 ^ (i + 1)) := by
    have := mul_le_mul_of_nonneg_right hd' (show (0 : ℝ) ≤ 1 - 1 / 2 ^ (i + 1) by linarith)
    linarith
  have up1 : ((x : ℝ) + y) * (1 - 1 / 2 ^ (i + 1)) ≤ ((x : ℝ) + y) * (1 + 1 / 2 ^ (i + 1)) :=
    mul_le_mul_of_nonneg_left (by linarith) (by linarith)
  have up2 : ((x : ℝ) - y) * (1 - 1 / 2 ^ (i + 1)) ≤ ((x : ℝ) - y) * (1 + 1 / 2 ^ (i + 1)) :=
    mul_le_mul_of_nonneg_left (by linarith) (by linarith)
  have hl := log_two_pos
  have num : (2 : ℝ) ^ 61 / log 2 * (2 / 2 ^ 60 + 2 / 2 ^ 60) ≤ 12 := by
    rw [div_mul_eq_mul_div, div_le_iff₀ (by linarith)]
    norm_num
    linarith
  have scale : (0 : ℝ) < 2 ^ 61 / log 2 := by positivity
  have cast2 : ∀ a b : Int, ((lo : ℝ) - ((lo >>> (i + 1) : Int) : ℝ) - 3 ≤ (a : ℝ) + b → lo - lo >>> (i + 1) - 3 ≤ a + b) := by
    intro a b h
    exact_mod_cast h
  have cast3 : ∀ a b : Int, ((lo : ℝ) - ((lo >>> (i + 1) : Int) : ℝ) - 3 ≤ (a : ℝ) - b → lo - lo >>> (i + 1) - 3 ≤ a - b) := by
    intro a b h
    exact_mod_cast h
  generalize hT : (1 : ℝ) / 2 ^ (i + 1) = t at *
  have xq : (x : ℝ) / 2 ^ (i + 1) = x * t := by rw [← hT]; ring
  have yq : (y : ℝ) / 2 ^ (i + 1) = y * t := by rw [← hT]; ring
  rw [xq] at xa xb
  rw [yq] at ya yb
  by_cases hneg : y < 0
  · rw [decide_eq_true hneg] at hn
    subst hn
    rw [if_pos rfl] at hx hy
    rw [if_pos rfl]
    have hxr : (x' : ℝ) = x + ((y >>> (i + 1) : Int) : ℝ) := by rw [hx]; push_cast; ring
    have hyr : (y' : ℝ) = y + ((x >>> (i + 1) : Int) : ℝ) := by rw [hy]; push_cast; ring
    have es : (x' : ℝ) + y' = ((x : ℝ) + y) * (1 + t) + (((x >>> (i + 1) : Int) : ℝ) - x * t + (((y >>> (i + 1) : Int) : ℝ) - y * t)) := by
      rw [hxr, hyr]; ring
    have ed : (x' : ℝ) - y' = ((x : ℝ) - y) * (1 - t) + (((y >>> (i + 1) : Int) : ℝ) - y * t - (((x >>> (i + 1) : Int) : ℝ) - x * t)) := by
      rw [hxr, hyr]; ring
    have p1 := log_pert ((x : ℝ) + y) (1 + t) _ (by linarith) (by linarith) (by linarith)
      (show 2 ^ 60 ≤ ((x : ℝ) + y) * (1 + t) + (((x >>> (i + 1) : Int) : ℝ) - x * t + (((y >>> (i + 1) : Int) : ℝ) - y * t)) by linarith)
      (abs_le.mpr ⟨by linarith, by linarith⟩)
    have p2 := log_pert ((x : ℝ) - y) (1 - t) _ (by linarith) (by linarith) (by linarith)
      (show 2 ^ 60 ≤ ((x : ℝ) - y) * (1 - t) + (((y >>> (i + 1) : Int) : ℝ) - y * t - (((x >>> (i + 1) : Int) : ℝ) - x * t)) by linarith)
      (abs_le.mpr ⟨by linarith, by linarith⟩)
    rw [← es] at p1
    rw [← ed] at p2
    refine ⟨cast2 _ _ (by linarith), cast3 _ _ (by linarith), ?_, ?_⟩
    · rw [hx]
      have : y >>> (i + 1) ≤ 0 := by
        have : ((y >>> (i + 1) : Int) : ℝ) ≤ 0 := by
          have : (y : ℝ) < 0 := by exact_mod_cast hneg
          nlinarith
        exact_mod_cast this
      omega
    · have := eta_eq i
      rw [hT] at this
      rw [this]
      unfold ell
      rw [show (2 : ℝ) ^ 61 / log 2 * (log ((x' : ℝ) + y') - log ((x' : ℝ) - y')) - (2 ^ 61 / log 2 * (log ((x : ℝ) + y) - log ((x : ℝ) - y)) -
        -(2 ^ 61 / log 2 * (log (1 + t) - log (1 - t)))) = 2 ^ 61 / log 2 * ((log ((x' : ℝ) + y') - (log ((x : ℝ) + y) + log (1 + t))) -
          (log ((x' : ℝ) - y') - (log ((x : ℝ) - y) + log (1 - t)))) by ring, abs_mul, abs_of_pos scale]
      refine (mul_le_mul_of_nonneg_left ?_ scale.le).trans num
      exact (abs_sub _ _).trans (add_le_add p1 p2)
  · rw [decide_eq_false hneg] at hn
    subst hn
    rw [if_neg (by simp)] at hx hy
    rw [if_neg (by simp)]
    have hxr : (x' : ℝ) = x - ((y >>> (i + 1) : Int) : ℝ) := by rw [hx]; push_cast; ring
    have hyr : (y' : ℝ) = y - ((x >>> (i + 1) : Int) : ℝ) := by rw [hy]; push_cast; ring
    have es : (x' : ℝ) + y' = ((x : ℝ) + y) * (1 - t) + ((x * t - ((x >>> (i + 1) : Int) : ℝ)) + (y * t - ((y >>> (i + 1) : Int) : ℝ))) := by
      rw [hxr, hyr]; ring
    have ed : (x' : ℝ) - y' = ((x : ℝ) - y) * (1 + t) + ((y * t - ((y >>> (i + 1) : Int) : ℝ)) - (x * t - ((x >>> (i + 1) : Int) : ℝ))) := by
      rw [hxr, hyr]; ring
    have p1 := log_pert ((x : ℝ) + y) (1 - t) _ (by linarith) (by linarith) (by linarith)
      (show 2 ^ 60 ≤ ((x : ℝ) + y) * (1 - t) + ((x * t - ((x >>> (i + 1) : Int) : ℝ)) + (y * t - ((y >>> (i + 1) : Int) : ℝ))) by linarith)
      (abs_le.mpr ⟨by linarith, by linarith⟩)
    have p2 := log_pert ((x : ℝ) - y) (1 + t) _ (by linarith) (by linarith) (by linarith)
      (show 2 ^ 60 ≤ ((x : ℝ) - y) * (1 + t) + ((y * t - ((y >>> (i + 1) : Int) : ℝ)) - (x * t - ((x >>> (i + 1) : Int) : ℝ))) by linarith)
      (abs_le.mpr ⟨by linarith, by linarith⟩)
    rw [← es] at p1
    rw [← ed] at p2
    refine ⟨cast2 _ _ (by linarith), cast3 _ _ (by linarith), ?_, ?_⟩
    · rw [hx]
      have : -1 < y >>> (i + 1) := by
        have : (-1 : ℝ) < ((y >>> (i + 1) : Int) : ℝ) := by
          have : (0 : ℝ) ≤ y := by exact_mod_cast not_lt.mp hneg
          nlinarith
        exact_mod_cast this
      omega
    · have := eta_eq i
      rw [hT] at this
      rw [this]
      unfold ell
      rw [show (2 : ℝ) ^ 61 / log 2 * (log ((x' : ℝ) + y') - log ((x' : ℝ) - y')) - (2 ^ 61 / log 2 * (log ((x : ℝ) + y) - log ((x : ℝ) - y)) -
        (2 ^ 61 / log 2 * (log (1 + t) - log (1 - t)))) = 2 ^ 61 / log 2 * ((log ((x' : ℝ) + y') - (log ((x : ℝ) + y) + log (1 - t))) -
          (log ((x' : ℝ) - y') - (log ((x : ℝ) - y) + log (1 + t)))) by ring, abs_mul, abs_of_pos scale]
      refine (mul_le_mul_of_nonneg_left ?_ scale.le).trans num
      exact (abs_sub _ _).trans (add_le_add p1 p2)

/-- The iterations. -/
theorem log_loop : ∀ (is : List ℕ) (x y z lo B X Z Bf : Int), logOk is lo B X Z = some Bf → lo ≤ x + y → lo ≤ x - y → 0 < lo → x ≤ X → X < 2 ^ 63 → |z| ≤ Z →
    |ell x y| ≤ B → ∃ x' y' z', is.foldlM logStep (x, y, z) = some (x', y', z') ∧ |ell x' y'| ≤ Bf ∧ |ell x' y' + z' - (ell x y + z)| ≤ 16 * is.length
  | [], x, y, z, lo, B, X, Z, Bf, hk, hs, hd, hp, hx, hX, hz, hB => by
    simp only [logOk, Option.some.injEq] at hk
    subst hk
    exact ⟨x, y, z, rfl, hB, by simp⟩
  | i :: r, x, y, z, lo, B, X, Z, Bf, hk, hs, hd, hp, hx, hX, hz, hB => by
    rw [logOk] at hk
    split at hk
    case isFalse => cases hk
    case isTrue hc =>
    obtain ⟨c1, c2, c3, c4⟩ := hc
    obtain ⟨g1, g2, g3, g4⟩ := log_step_real x y lo i hs hd c1 (decide (y < 0)) rfl _ _ rfl rfl
    have hsh := shr_eta i
    generalize hc : tbl (min i 31) >>> i = c at *
    set x1 := x - flip (decide (y < 0)) (y >>> (i + 1)) with hx1
    set y1 := y - flip (decide (y < 0)) (x >>> (i + 1)) with hy1
    set z1 := z + flip (decide (y < 0)) c with hz1
    have zb : |z1| ≤ Z + c := by
      rw [hz1, flip_eq]
      rw [abs_le] at hz ⊢
      split <;> omega
    have sgn : (y < 0 → ell x y ≤ 0) ∧ (¬ y < 0 → 0 ≤ ell x y) := by
      have hl := log_two_pos
      have scale : (0 : ℝ) ≤ 2 ^ 61 / log 2 := by positivity
      have a : (0 : ℝ) < (x : ℝ) + y := by exact_mod_cast lt_of_lt_of_le hp hs
      have b : (0 : ℝ) < (x : ℝ) - y := by exact_mod_cast lt_of_lt_of_le hp hd
      constructor
      · intro h
        have h' : (y : ℝ) < 0 := by exact_mod_cast h
        exact mul_nonpos_of_nonneg_of_nonpos scale (sub_nonpos.mpr (log_le_log a (by linarith)))
      · intro h
        have h' : (0 : ℝ) ≤ y := by exact_mod_cast not_lt.mp h
        exact mul_nonneg scale (sub_nonneg.mpr (log_le_log b (by linarith)))
    have hB1 : |ell x1 y1| ≤ ((max c (B - c) + 16 : Int) : ℝ) := by
      push_cast
      have m1 := le_max_left (c : ℝ) ((B : ℝ) - c)
      have m2 := le_max_right (c : ℝ) ((B : ℝ) - c)
      rw [abs_le] at g4 hsh hB ⊢
      by_cases h : y < 0
      · have := sgn.1 h
        rw [decide_eq_true h, if_pos rfl] at g4
        constructor <;> linarith [g4.1, g4.2, hsh.1, hsh.2, hB.1, hB.2]
      · have := sgn.2 h
        rw [decide_eq_false h, if_neg (by simp)] at g4
        constructor <;> linarith [g4.1, g4.2, hsh.1, hsh.2, hB.1, hB.2]
    obtain ⟨x', y', z', e, k1, k2⟩ := log_loop r x1 y1 z1 _ _ _ _ Bf hk g1 g2 (by omega) (show x1 ≤ X + 1 by omega) c2 zb hB1
    refine ⟨x', y', z', ?_, k1, ?_⟩
    · rw [List.foldlM_cons]
      have step : logStep (x, y, z) i = some (x1, y1, z1) := by
        unfold logStep
        dsimp only
        rw [hc, ← hz1, i64_some z1 (by rw [abs_le] at zb; omega) (by rw [abs_le] at zb; omega)]
        dsimp only [Option.bind_eq_bind, Option.bind_some]
        rw [← hx1, i64_some x1 (by omega) (by omega)]
        dsimp only [Option.bind_some]
        rw [← hy1, i64_some y1 (by omega) (by omega)]
        rfl
      rw [step]
      exact e
    · have st : |ell x1 y1 + z1 - (ell x y + z)| ≤ 16 := by
        rw [hz1, flip_eq]
        rw [abs_le] at g4 hsh ⊢
        by_cases h : y < 0
        · rw [decide_eq_true h, if_pos rfl] at g4
          rw [decide_eq_true h, if_pos rfl]
          push_cast
          constructor <;> linarith [g4.1, g4.2, hsh.1, hsh.2]
        · rw [decide_eq_false h, if_neg (by simp)] at g4
          rw [decide_eq_false h, if_neg (by simp)]
          push_cast
          constructor <;> linarith [g4.1, g4.2, hsh.1, hsh.2]
      rw [List.length_cons]
      push_cast
      rw [abs_le] at st k2 ⊢
      constructor <;> linarith [st.1, st.2, k2.1, k2.2]

theorem logOk64 : logOk logSteps (2 ^ 62) (2 ^ 61) (3 * 2 ^ 61) 0 = some 380 := by decide +kernel

theorem logOk32 : logOk logSteps32 (2 ^ 62) (2 ^ 61) (3 * 2 ^ 61) 0 = some 6199786086 := by decide +kernel

/-- The fraction of the logarithm. -/
theorem logFrac_near (steps : List ℕ) (Bf : Int) (hk : logOk steps (2 ^ 62) (2 ^ 61) (3 * 2 ^ 61) 0 = some Bf) (w : Int) (h1 : 2 ^ 61 ≤ w) (h2 : w < 2 ^ 62) :
    ∃ z, logFrac steps w = some z ∧ |(z : ℝ) - 2 ^ 61 * (log (w : ℝ) / log 2 - 61)| ≤ (Bf : ℝ) + 16 * (steps.length : ℝ) := by
  have hl := log_two_pos
  have w1 : (2 : ℝ) ^ 61 ≤ w := by exact_mod_cast h1
  have w2 : (w : ℝ) ≤ 2 ^ 62 := by exact_mod_cast h2.le
  have e : ell (w + 2 ^ 61) (w - 2 ^ 61) = 2 ^ 61 * (log (w : ℝ) / log 2 - 61) := by
    unfold ell
    simp only [Int.cast_add, Int.cast_sub, Int.cast_pow, Int.cast_ofNat]
    rw [show (w : ℝ) + 2 ^ 61 + (w - 2 ^ 61) = 2 * w by ring, show (w : ℝ) + 2 ^ 61 - (w - 2 ^ 61) = 2 ^ 62 by ring,
      log_mul (by norm_num) (by linarith), log_pow]
    field_simp
    push_cast
    ring
  have b : |ell (w + 2 ^ 61) (w - 2 ^ 61)| ≤ ((2 ^ 61 : Int) : ℝ) := by
    rw [e]
    push_cast
    have l1 : 61 * log 2 ≤ log w := by
      rw [show (61 : ℝ) * log 2 = log (2 ^ 61) by rw [log_pow]; norm_num]
      exact log_le_log (by norm_num) w1
    have l2 : log w ≤ 62 * log 2 := by
      rw [show (62 : ℝ) * log 2 = log (2 ^ 62) by rw [log_pow]; norm_num]
      exact log_le_log (by linarith) w2
    have l3 : 61 ≤ log w / log 2 := by rwa [le_div_iff₀ (by linarith)]
    have l4 : log w / log 2 ≤ 62 := by rwa [div_le_iff₀ (by linarith)]
    rw [abs_mul, abs_of_pos (by norm_num), abs_of_nonneg (by linarith)]
    linarith
  obtain ⟨x', y', z', f, k1, k2⟩ := log_loop steps (w + 2 ^ 61) (w - 2 ^ 61) 0 (2 ^ 62) (2 ^ 61) (3 * 2 ^ 61) 0 Bf hk (by omega) (by omega) (by norm_num)
    (by omega) (by norm_num) (by simp) b
  refine ⟨z', ?_, ?_⟩
  · unfold logFrac
    rw [i64_some _ (by omega) (by omega)]
    dsimp only [Option.bind_eq_bind, Option.bind_some]
    rw [i64_some _ (by omega) (by omega)]
    dsimp only [Option.bind_some]
    rw [f]
    rfl
  · rw [e] at k2
    rw [abs_le] at k1 k2 ⊢
    push_cast at k2
    constructor <;> linarith [k1.1, k1.2, k2.1, k2.2]

end Rav1e.LogExp
