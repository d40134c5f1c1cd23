import Verif.Dist.Theorems

/-!
# The psychovisual distortion of video of 10 bits

Squared error and factor can not be large at the same time to the extent that the product exceeds 32 bits.
-/

namespace Rav1e.Dist

open Spec (total sse var64 boosted)

variable {a b : Nat → Nat → Nat} {w h : Nat}

/-- The errors of an approximation by a block that is nearly flat: `c / n` is its mean. -/
theorem error_le {α : Type} (f g : α → Nat) (n c : ℤ) : ∀ l : List α, 10 * n ^ 2 * ((l.map fun p => ((f p : ℤ) - g p).natAbs ^ 2).sum : ℕ) ≤
    11 * (n ^ 2 * ((l.map fun p => f p * f p).sum : ℕ) - 2 * n * c * ((l.map f).sum : ℕ) + l.length * c ^ 2) +
    110 * (n ^ 2 * ((l.map fun p => g p * g p).sum : ℕ) - 2 * n * c * ((l.map g).sum : ℕ) + l.length * c ^ 2) := by
  intro l
  induction l with
  | nil => simp
  | cons p l ih =>
    simp only [List.map_cons, List.sum_cons, List.length_cons]
    push_cast
    push_cast at ih
    rw [sq_abs]
    nlinarith [sq_nonneg ((n * f p - c) + 10 * (n * g p - c))]

theorem sse_flat (w h : Nat) (a b : Nat → Nat → Nat) (n c : ℤ) : 10 * n ^ 2 * (sse a b w h : ℤ) ≤
    11 * (n ^ 2 * (total w h fun y x => a y x * a y x : ℕ) - 2 * n * c * (total w h a : ℕ) + (w * h : ℕ) * c ^ 2) +
    110 * (n ^ 2 * (total w h fun y x => b y x * b y x : ℕ) - 2 * n * c * (total w h b : ℕ) + (w * h : ℕ) * c ^ 2) := by
  have := error_le (fun p : Nat × Nat => a p.1 p.2) (fun p : Nat × Nat => b p.1 p.2) n c (pos w h)
  rw [length_pos] at this
  unfold sse
  simp only [total_eq]
  exact this

theorem sse_comm (w h : Nat) (a b : Nat → Nat → Nat) : sse a b w h = sse b a w h := by
  unfold sse
  congr
  funext y x
  rw [← Int.natAbs_neg, neg_sub]

/-- A large variance. -/
theorem large_var {S S2 d v : Nat} (hS2 : S2 ≤ 1023 * S) (hd : d ≤ 16384) (hv : v = ((S2 - (S * S * d + 8192) / 2 ^ 14) * d + 128) / 2 ^ 8) (h0 : 0 < v) :
    (v : ℝ) ≤ 64 * (S * d / 16384 * (1023 - S * d / 16384)) + 33 := by
  generalize hq : (S * S * d + 8192) / 2 ^ 14 = q at hv
  have q1 : S * S * d ≤ 16384 * q + 8191 := by omega
  have h1 : q ≤ S2 := by
    by_contra hc
    rw [Nat.sub_eq_zero_of_le (by omega)] at hv
    omega
  obtain ⟨z, rfl⟩ := Nat.exists_eq_add_of_le h1
  rw [Nat.add_sub_cancel_left] at hv
  have v1 : 256 * v ≤ z * d + 128 := by omega
  have V1 : (256 : ℝ) * v ≤ z * d + 128 := by exact_mod_cast v1
  have Q1 : (S : ℝ) * S * d ≤ 16384 * q + 8191 := by exact_mod_cast q1
  have H2 : (q : ℝ) + z ≤ 1023 * S := by exact_mod_cast hS2
  have D : (d : ℝ) ≤ 16384 := by exact_mod_cast hd
  have D0 : (0 : ℝ) ≤ d := by positivity
  have h3 := mul_le_mul_of_nonneg_left H2 D0
  have h4 := mul_le_mul_of_nonneg_left Q1 D0
  nlinarith

/-- A small variance. -/
theorem small_var {S S2 d v n : Nat} (hn : n ≤ 64) (hS : S ≤ n * 1023) (hd : 256 ≤ d) (hnd : n * d ≤ 16384 + 32)
    (hv : v = ((S2 - (S * S * d + 8192) / 2 ^ 14) * d + 128) / 2 ^ 8) (h0 : v ≤ 255) : n * S2 ≤ S * S + n * 131073 := by
  generalize hq : (S * S * d + 8192) / 2 ^ 14 = q at hv
  have q1 : 16384 * q ≤ S * S * d + 8192 := by omega
  have h1 : S2 ≤ q + 255 := by
    by_contra hc
    have : 256 * 256 ≤ (S2 - q) * d := Nat.mul_le_mul (by omega) hd
    omega
  have h2 : n * (16384 * q) ≤ S * S * (16384 + 32) + n * 8192 := by
    calc n * (16384 * q) ≤ n * (S * S * d + 8192) := Nat.mul_le_mul_left _ q1
      _ = S * S * (n * d) + n * 8192 := by ring
      _ ≤ S * S * (16384 + 32) + n * 8192 := Nat.add_le_add_right (Nat.mul_le_mul_left _ hnd) _
  have h3 : S * S ≤ n * (64 * (1023 * 1023)) := by
    calc S * S ≤ (n * 1023) * (n * 1023) := Nat.mul_le_mul hS hS
      _ = n * (n * (1023 * 1023)) := by ring
      _ ≤ n * (64 * (1023 * 1023)) := Nat.mul_le_mul_left _ (Nat.mul_le_mul_right _ hn)
  have h4 : n * S2 ≤ n * (q + 255) := Nat.mul_le_mul_left _ h1
  have e1 : n * (16384 * q) = 16384 * (n * q) := by ring
  rw [Nat.mul_add] at h4
  omega

/-- Squared error times factor. -/
theorem product_le {τ i z : ℝ} (h0 : 0 ≤ τ) (h1 : τ ≤ 1023) (hi : i ≤ 72160 * τ + 1585800) (i0 : 0 ≤ i) (hz : z ≤ 4 * (τ * (1023 - τ)) + 16146) : i * z ≤ 5.1e13 := by
  have z0 : 0 ≤ 4 * (τ * (1023 - τ)) + 16146 := by nlinarith
  have h2 : i * z ≤ (72160 * τ + 1585800) * (4 * (τ * (1023 - τ)) + 16146) := by
    calc i * z ≤ i * (4 * (τ * (1023 - τ)) + 16146) := mul_le_mul_of_nonneg_left hz i0
      _ ≤ _ := mul_le_mul_of_nonneg_right hi z0
  have h3 : τ * τ * (1023 - τ) ≤ 158607284.1 := by nlinarith [mul_nonneg (sq_nonneg (τ - 682)) (by linarith : 0 ≤ τ + 341)]
  have h4 : τ * (1023 - τ) ≤ 261632.25 := by nlinarith [sq_nonneg (τ - 511.5)]
  nlinarith

/-- A block with a large variance and one that is nearly flat. -/
theorem one_flat {d : Nat} (hn : 1 ≤ w * h ∧ w * h ≤ 64) (ha : Pix a w h 10) (hb : Pix b w h 10) (d1 : 256 ≤ d) (d2 : d ≤ 16384) (d3 : w * h * d ≤ 16384 + 32)
    (d4 : 16384 ≤ w * h * d + 32) (hs : 700000 ≤ kvar a w h d / 16) (hd : kvar b w h d / 16 ≤ 15) :
    (sse a b w h : ℝ) * ((kvar a w h d / 16 : ℕ) + (kvar b w h d / 16 : ℕ) + 16128) ≤ 5.1e13 := by
  have a1 := total_le ha.le
  have b1 := total_le hb.le
  have a2 := total_sq_le ha.le
  have L := large_var (d := d) a2 d2 (v := kvar a w h d) rfl (by omega)
  have F := small_var (n := w * h) hn.2 b1 d1 d3 (v := kvar b w h d) rfl (by omega)
  have E := sse_flat w h a b (w * h : ℕ) (total w h b : ℕ)
  have K : ((kvar a w h d / 16 : ℕ) : ℝ) ≤ kvar a w h d / 16 := by
    have := floor_le (kvar a w h d) 16
    push_cast at this
    exact this
  have K2 : ((kvar b w h d / 16 : ℕ) : ℝ) ≤ 15 := by exact_mod_cast hd
  have K3 : (700000 : ℝ) ≤ ((kvar a w h d / 16 : ℕ) : ℝ) := by exact_mod_cast hs
  generalize ((kvar a w h d / 16 : ℕ) : ℝ) = s at K K3 ⊢
  generalize ((kvar b w h d / 16 : ℕ) : ℝ) = δ at K2 ⊢
  generalize kvar a w h d = v at L K
  generalize sse a b w h = i at E ⊢
  generalize (total w h fun y x => a y x * a y x) = A2 at a2 E
  generalize (total w h fun y x => b y x * b y x) = B2 at F E
  generalize total w h a = A at a1 a2 E L
  generalize total w h b = B at b1 E F
  generalize w * h = n at *
  norm_num at a1 a2 b1
  have N1 : (1 : ℝ) ≤ n := by exact_mod_cast hn.1
  have N2 : (n : ℝ) ≤ 64 := by exact_mod_cast hn.2
  have B1 : (B : ℝ) ≤ n * 1023 := by exact_mod_cast b1
  have A2' : (A2 : ℝ) ≤ 1023 * A := by exact_mod_cast a2
  have F' : (n : ℝ) * B2 ≤ B * B + n * 131073 := by exact_mod_cast F
  have E' : 10 * (n : ℝ) ^ 2 * i ≤ 11 * (n ^ 2 * A2 - 2 * n * B * A + n * B ^ 2) + 110 * (n ^ 2 * B2 - 2 * n * B * B + n * B ^ 2) := by exact_mod_cast E
  have D1 : (256 : ℝ) ≤ d := by exact_mod_cast d1
  have D3 : (n : ℝ) * d ≤ 16416 := by exact_mod_cast d3
  have D4 : (16384 : ℝ) ≤ n * d + 32 := by exact_mod_cast d4
  have A0 : (0 : ℝ) ≤ A := by positivity
  have i0 : (0 : ℝ) ≤ i := by positivity
  clear E F a1 a2 b1 hs hd d1 d2 d3 d4 hn ha hb
  -- the mean of `b`
  obtain ⟨m, hm⟩ : ∃ m : ℝ, m * n = B := ⟨B / n, by field_simp⟩
  have m0 : 0 ≤ m := by
    have : (0 : ℝ) ≤ m * n := by rw [hm]; positivity
    exact nonneg_of_mul_nonneg_left this (by linarith)
  have m1 : m ≤ 1023 := by
    have : m * n ≤ 1023 * n := by rw [hm]; linarith
    exact le_of_mul_le_mul_right this (by linarith)
  have nn : (0 : ℝ) < n * n := by positivity
  have I : (i : ℝ) ≤ 1.1 * (1023 * A - 2 * m * A + n * m ^ 2) + 11 * 131073 := by
    have e1 : 11 * ((n : ℝ) ^ 2 * A2 - 2 * n * B * A + n * B ^ 2) + 110 * (n ^ 2 * B2 - 2 * n * B * B + n * B ^ 2) =
        (n * n) * (11 * (A2 - 2 * m * A + n * m ^ 2)) + 110 * n * (n * B2 - B * B) := by rw [← hm]; ring
    rw [e1] at E'
    have h1 : (n : ℝ) * (n * B2 - B * B) ≤ n * (n * 131073) := mul_le_mul_of_nonneg_left (by linarith) (by linarith)
    have h2 : (n * n : ℝ) * (10 * i) ≤ (n * n) * (11 * (A2 - 2 * m * A + n * m ^ 2) + 110 * 131073) := by nlinarith
    have := le_of_mul_le_mul_left h2 nn
    linarith
  -- the mean of `a` as far as the divisor is exact
  obtain ⟨t, ht⟩ : ∃ t : ℝ, t = A * d / 16384 := ⟨_, rfl⟩
  rw [← ht] at L
  have t0 : 0 ≤ t := by rw [ht]; positivity
  have s1 : s ≤ 4 * (t * (1023 - t)) + 3 := by linarith
  have t1 : t ≤ 1023 := by
    by_contra hc
    have : t * (1023 - t) ≤ 0 := by nlinarith
    linarith
  obtain ⟨q, hq⟩ : ∃ q : ℝ, q * d = 16384 := ⟨16384 / d, by field_simp⟩
  have q0 : 0 ≤ q := by
    have : (0 : ℝ) ≤ q * d := by rw [hq]; norm_num
    exact nonneg_of_mul_nonneg_left this (by linarith)
  have dpos : (0 : ℝ) < d := by linarith
  have q1 : q ≤ 64.125 := by
    have : q * d ≤ 64.125 * d := by rw [hq]; nlinarith
    exact le_of_mul_le_mul_right this dpos
  have q2 : (n : ℝ) ≤ q + 0.125 := by
    have : (n : ℝ) * d ≤ (q + 0.125) * d := by rw [add_mul, hq]; linarith
    exact le_of_mul_le_mul_right this dpos
  have eA : (A : ℝ) = q * t := by
    have : (A : ℝ) * d = q * t * d := by rw [mul_right_comm, hq, ht]; ring
    exact mul_right_cancel₀ (ne_of_gt dpos) this
  rcases le_total (n * m) (2 * A) with hc | hc
  · refine product_le t0 t1 ?_ i0 (by linarith)
    have h1 : m * (n * m - 2 * A) ≤ 0 := mul_nonpos_of_nonneg_of_nonpos m0 (by linarith)
    have h2 : q * t ≤ 64.125 * t := mul_le_mul_of_nonneg_right q1 t0
    rw [← eA] at h2
    nlinarith
  · refine product_le (τ := 1023 - t) (by linarith) (by linarith) ?_ i0 (by linarith)
    have h1 : (1023 - m) * (2 * A - n * (m + 1023)) ≤ 0 := mul_nonpos_of_nonneg_of_nonpos (by linarith) (by nlinarith)
    have h2 : q * (1023 - t) ≤ 64.125 * (1023 - t) := mul_le_mul_of_nonneg_right q1 (by linarith)
    rw [mul_sub, ← eA] at h2
    have e : 1023 * A - 2 * m * A + n * m ^ 2 = n * 1023 ^ 2 - 1023 * A + (1023 - m) * (2 * A - n * (m + 1023)) := by ring
    rw [e] at I
    linarith

/-- A bound for the factor that gets better with the product of the variances. -/
theorem boosted_le' {i s d : ℕ} (hs : s ≤ 1046531) (hd : d ≤ 1046531) {y : ℝ} (y0 : 0 < y) (hy : y ^ 2 ≤ 3355 ^ 2 + s * d) :
    boosted i s d ≤ i * (3355 / 12338 * (1064228 / y + 1)) := by
  unfold boosted
  have S : (s : ℝ) ≤ 1046531 := by exact_mod_cast hs
  have D : (d : ℝ) ≤ 1046531 := by exact_mod_cast hd
  have s0 : (0 : ℝ) ≤ s := by positivity
  have d0 : (0 : ℝ) ≤ d := by positivity
  have hY : y ≤ √(3355 ^ 2 + s * d) := Real.le_sqrt_of_sq_le hy
  have e : √(3355 ^ 2 + s * d : ℝ) * √(3355 ^ 2 + s * d) = 3355 ^ 2 + s * d := Real.mul_self_sqrt (by positivity)
  have hV : √(3355 ^ 2 + s * d : ℝ) ≤ 1048100 := by
    rw [Real.sqrt_le_left (by norm_num)]
    have : (s : ℝ) * d ≤ 1046531 * 1046531 := mul_le_mul S D d0 (by norm_num)
    linarith
  generalize √(3355 ^ 2 + s * d : ℝ) = Y at *
  have Y0 : 0 < Y := by linarith
  have h1 : (s + d + 16128 : ℝ) ≤ (1064228 / y + 1) * Y := by
    have h2 : 1064228 ≤ 1064228 / y * Y := by
      rw [div_mul_eq_mul_div, le_div_iff₀ y0]
      linarith
    have h3 : 1048100 * (s + d : ℝ) ≤ 1048100 * 1048100 + s * d := by nlinarith [mul_nonneg (by linarith : (0 : ℝ) ≤ 1048100 - s) (by linarith : (0 : ℝ) ≤ 1048100 - d)]
    have h4 : Y * Y ≤ 1048100 * Y := mul_le_mul_of_nonneg_right hV Y0.le
    nlinarith
  rw [div_le_iff₀ Y0]
  have i0 : (0 : ℝ) ≤ i * (3355 / 12338) := by positivity
  have := mul_le_mul_of_nonneg_left h1 i0
  linarith

/-- **C67, for video of 10 bits**: the result fits in 32 bits. -/
theorem kernel_10bit_partial (hw : 1 ≤ w ∧ w ≤ 8) (hh : 1 ≤ h ∧ h ≤ 8) (ha : Pix a w h 10) (hb : Pix b w h 10) : ∃ sv dv v : ℕ,
    (w * h ∈ [1, 2, 4, 8, 16, 32, 64] → |(sv : ℝ) - var64 a w h| ≤ 32 / (w * h) + 1 / 2 ∧ |(dv : ℝ) - var64 b w h| ≤ 32 / (w * h) + 1 / 2) ∧
    distKernel a b w h 10 = some v ∧ 39 / 40 * boosted (sse a b w h) (sv / 16) (dv / 16) - 1 ≤ v ∧
    (v : ℝ) ≤ 41 / 40 * boosted (sse a b w h) (sv / 16) (dv / 16) := by
  obtain ⟨sv, dv, e, hs, hd, hi, hv, d, d1, d2, d3, d4, es, ed⟩ := args_eq (by simp) hw hh ha hb
  obtain ⟨v, e1, l, u⟩ := boost_accurate hi hs hd (by norm_num) (shr_lbd sv 10) (shr_lbd dv 10)
  have n1 : 1 ≤ w * h := Nat.mul_le_mul hw.1 hh.1
  have n2 : w * h ≤ 64 := Nat.mul_le_mul hw.2 hh.2
  have vs : sv / 16 ≤ 1046531 := by
    have := (scaledVar_eq n2 (M := 1023) (by norm_num) (total_le ha.le) (total_sq_le ha.le) d2 d3).2
    change kvar a w h d ≤ _ at this
    omega
  have vd : dv / 16 ≤ 1046531 := by
    have := (scaledVar_eq n2 (M := 1023) (by norm_num) (total_le hb.le) (total_sq_le hb.le) d2 d3).2
    change kvar b w h d ≤ _ at this
    omega
  have ls : lbd sv 10 = sv / 16 := by unfold lbd; norm_num
  have ld : lbd dv 10 = dv / 16 := by unfold lbd; norm_num
  rw [ls, ld] at l u
  refine ⟨sv, dv, v, hv, ?_, l, u⟩
  have key : boosted (sse a b w h) (sv / 16) (dv / 16) < 4190211000 := by
    have I := sse_le ha.le hb.le
    norm_num at I
    rcases Nat.lt_or_ge 32 (w * h) with hn | hn
    · have i1 : (sse a b w h : ℝ) ≤ 64 * 1046529 := by exact_mod_cast le_trans I (Nat.mul_le_mul_right _ n2)
      rcases Nat.lt_or_ge (sv / 16 * (dv / 16)) 11000000 with hp | hp
      · by_cases h1 : 700000 ≤ sv / 16
        · have h2 : dv / 16 ≤ 15 := by
            by_contra hc
            have : 700000 * 16 ≤ sv / 16 * (dv / 16) := Nat.mul_le_mul h1 (by omega)
            omega
          have := one_flat ⟨n1, n2⟩ ha hb d1 d2 d3 d4 (by omega) (by omega)
          rw [← es, ← ed] at this
          have := boosted_le (sse a b w h) (sv / 16) (dv / 16)
          linarith
        · by_cases h3 : 700000 ≤ dv / 16
          · have h2 : sv / 16 ≤ 15 := by
              by_contra hc
              have : 16 * 700000 ≤ sv / 16 * (dv / 16) := Nat.mul_le_mul (by omega) h3
              omega
            have := one_flat ⟨n1, n2⟩ hb ha d1 d2 d3 d4 (by omega) (by omega)
            rw [← es, ← ed, sse_comm] at this
            have := boosted_le (sse a b w h) (sv / 16) (dv / 16)
            linarith
          · have h4 : sv / 16 + dv / 16 ≤ 703400 := by
              rcases Nat.lt_or_ge 3316 (sv / 16) with c1 | c1
              · rcases Nat.lt_or_ge 3316 (dv / 16) with c2 | c2
                · have : 3317 * 3317 ≤ sv / 16 * (dv / 16) := Nat.mul_le_mul c1 c2
                  omega
                · omega
              · omega
            have h5 : ((sv / 16 : ℕ) : ℝ) + (dv / 16 : ℕ) ≤ 703400 := by exact_mod_cast h4
            have := boosted_le (sse a b w h) (sv / 16) (dv / 16)
            have h6 : (sse a b w h : ℝ) * ((sv / 16 : ℕ) + (dv / 16 : ℕ) + 16128) ≤ 64 * 1046529 * 719528 := mul_le_mul i1 (by linarith) (by positivity) (by norm_num)
            linarith
      · have hp' : (11000000 : ℝ) ≤ (sv / 16 : ℕ) * (dv / 16 : ℕ) := by exact_mod_cast hp
        have := boosted_le' (i := sse a b w h) vs vd (y := 4717) (by norm_num) (by linarith)
        norm_num at this
        linarith
    · have i1 : (sse a b w h : ℝ) ≤ 32 * 1046529 := by exact_mod_cast le_trans I (Nat.mul_le_mul_right _ hn)
      have p0 : (0 : ℝ) ≤ (sv / 16 : ℕ) * (dv / 16 : ℕ) := by positivity
      have := boosted_le' (i := sse a b w h) vs vd (y := 3355) (by norm_num) (by linarith)
      norm_num at this
      linarith
  have hv : v < 2 ^ 32 := by
    have : (v : ℝ) < 4294967296 := by linarith
    exact_mod_cast this
  unfold distKernel
  rw [e]
  show applySsimBoost _ _ _ _ = _
  unfold applySsimBoost
  rw [e1, Option.map_some, Nat.mod_eq_of_lt hv]

/-- The hypotheses hold for the worst blocks that are possible, and the result comes near to the largest number of 32 bits. -/
example : Pix (fun _ x => if x < 5 then 1023 else 0) 8 8 10 ∧ Pix (fun _ _ => 0) 8 8 10 ∧
    distKernel (fun _ x => if x < 5 then 1023 else 0) (fun _ _ => 0) 8 8 10 = some 3337085910 := by
  refine ⟨?_, ?_, by decide +kernel⟩
  · intro y _ x _; dsimp only; split_ifs <;> norm_num
  · intro y _ x _; norm_num

end Rav1e.Dist
