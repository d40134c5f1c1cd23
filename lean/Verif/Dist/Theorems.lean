import Verif.Dist.Args

/-!
# C67: the psychovisual distortion
-/

namespace Rav1e.Dist

open Spec (total sse var64 boosted)

variable {a b : Nat → Nat → Nat} {w h bd : Nat}

theorem boosted_le (i s d : ℕ) : boosted i s d ≤ i * (s + d + 16128) / 12338 := by
  unfold boosted
  have hy : (3355 : ℝ) ≤ √(3355 ^ 2 + s * d) := by
    refine Real.le_sqrt_of_sq_le ?_
    have : (0 : ℝ) ≤ s * d := by positivity
    linarith
  rw [div_le_iff₀ (by linarith)]
  have h0 : (0 : ℝ) ≤ i * (s + d + 16128) / 12338 := by positivity
  have := mul_le_mul_of_nonneg_left hy h0
  calc (i * (3355 / 12338) * (s + d + 16128) : ℝ) = i * (s + d + 16128) / 12338 * 3355 := by ring
    _ ≤ _ := this

theorem boosted_ge (i s d : ℕ) : i * (6710 / 12338 : ℝ) ≤ boosted i s d := by
  unfold boosted
  have hp : (0 : ℝ) < 3355 ^ 2 + s * d := by positivity
  have hy := Real.sqrt_pos.2 hp
  rw [le_div_iff₀ hy]
  have h1 : √(3355 ^ 2 + s * d : ℝ) ≤ (s + d + 16128) / 2 := by
    rw [Real.sqrt_le_left (by positivity)]
    have hs : (0 : ℝ) ≤ s := by positivity
    have hd : (0 : ℝ) ≤ d := by positivity
    nlinarith [sq_nonneg ((s : ℝ) - d)]
  have h0 : (0 : ℝ) ≤ i * (6710 / 12338) := by positivity
  have := mul_le_mul_of_nonneg_left h1 h0
  linarith

/-- **C67. The distortion of a block is what the documentation says, up to 2.5 % and 1.**  For all pixels of all bit depths and all sizes of blocks up to 8x8, no step
of `cdef_dist_kernel` overflows; the squared error that it weights is exact; and before it is converted to 32 bits the result is the squared error times the
documented factor for two variances `sv` and `dv`, which for areas that are powers of two are the variances of the blocks up to rounding. -/
theorem kernel_accurate (hbd : bd ∈ [8, 10, 12]) (hw : 1 ≤ w ∧ w ≤ 8) (hh : 1 ≤ h ∧ h ≤ 8) (ha : Pix a w h bd) (hb : Pix b w h bd) : ∃ sv dv v : ℕ,
    (w * h ∈ [1, 2, 4, 8, 16, 32, 64] → |(sv : ℝ) - var64 a w h| ≤ 32 / (w * h) + 1 / 2 ∧ |(dv : ℝ) - var64 b w h| ≤ 32 / (w * h) + 1 / 2) ∧
    kernel64 a b w h bd = some v ∧ distKernel a b w h bd = some (v % 2 ^ 32) ∧
    39 / 40 * boosted (sse a b w h) (lbd sv bd) (lbd dv bd) - 1 ≤ v ∧ (v : ℝ) ≤ 41 / 40 * boosted (sse a b w h) (lbd sv bd) (lbd dv bd) := by
  obtain ⟨sv, dv, e, hs, hd, hi, hv, -⟩ := args_eq hbd hw hh ha hb
  have h8 : 8 ≤ bd := by
    simp only [List.mem_cons, List.not_mem_nil, or_false] at hbd
    omega
  obtain ⟨v, e1, l, u⟩ := boost_accurate hi hs hd h8 (shr_lbd sv bd) (shr_lbd dv bd)
  refine ⟨sv, dv, v, hv, ?_, ?_, l, u⟩
  · unfold kernel64
    rw [e]
    exact e1
  · unfold distKernel
    rw [e]
    show applySsimBoost _ _ _ _ = _
    unfold applySsimBoost
    rw [e1]
    rfl

/-- **C67, for video of 8 bits**: the result fits in 32 bits. -/
theorem kernel_8bit_partial (hw : 1 ≤ w ∧ w ≤ 8) (hh : 1 ≤ h ∧ h ≤ 8) (ha : Pix a w h 8) (hb : Pix b w h 8) : ∃ sv dv v : ℕ,
    (w * h ∈ [1, 2, 4, 8, 16, 32, 64] → |(sv : ℝ) - var64 a w h| ≤ 32 / (w * h) + 1 / 2 ∧ |(dv : ℝ) - var64 b w h| ≤ 32 / (w * h) + 1 / 2) ∧
    distKernel a b w h 8 = some v ∧ 39 / 40 * boosted (sse a b w h) sv dv - 1 ≤ v ∧ (v : ℝ) ≤ 41 / 40 * boosted (sse a b w h) sv dv := by
  obtain ⟨sv, dv, e, hs, hd, hi, hv, -⟩ := args_eq (by simp) hw hh ha hb
  obtain ⟨v, e1, l, u⟩ := boost_accurate hi hs hd le_rfl (shr_lbd sv 8) (shr_lbd dv 8)
  have es : lbd sv 8 = sv := by simp [lbd]
  have ed : lbd dv 8 = dv := by simp [lbd]
  rw [es] at hs l u
  rw [ed] at hd l u
  refine ⟨sv, dv, v, hv, ?_, l, u⟩
  have hv : v < 2 ^ 32 := by
    have h1 := boosted_le (sse a b w h) sv dv
    have h2 : sse a b w h ≤ 64 * (255 * 255) := le_trans (sse_le ha.le hb.le) (Nat.mul_le_mul_right _ (Nat.mul_le_mul hw.2 hh.2))
    have h3 : (sse a b w h : ℝ) ≤ 64 * (255 * 255) := by exact_mod_cast h2
    have h4 : (sv : ℝ) ≤ 1048100 := by exact_mod_cast hs
    have h5 : (dv : ℝ) ≤ 1048100 := by exact_mod_cast hd
    have h6 : (sse a b w h : ℝ) * (sv + dv + 16128) ≤ 64 * (255 * 255) * 2112328 := mul_le_mul h3 (by linarith) (by positivity) (by norm_num)
    have : (v : ℝ) < 4294967296 := by linarith
    exact_mod_cast this
  unfold distKernel
  rw [e]
  show applySsimBoost _ _ _ _ = _
  unfold applySsimBoost
  rw [e1, Option.map_some, Nat.mod_eq_of_lt hv]

/-- **C67. Equal blocks have no distortion**, whatever the bit depth. -/
theorem kernel_self (hbd : bd ∈ [8, 10, 12]) (hw : 1 ≤ w ∧ w ≤ 8) (hh : 1 ≤ h ∧ h ≤ 8) (ha : Pix a w h bd) : distKernel a a w h bd = some 0 := by
  obtain ⟨sv, dv, v, -, -, e, -, u⟩ := kernel_accurate hbd hw hh ha ha
  have h0 : sse a a w h = 0 := by
    unfold sse
    simp [total]
  rw [h0] at u
  have : boosted 0 (lbd sv bd) (lbd dv bd) = 0 := by unfold boosted; simp
  rw [this] at u
  have : v = 0 := by
    have : (v : ℝ) ≤ 0 := by linarith
    exact_mod_cast le_antisymm this (by positivity)
  rw [e, this, Nat.zero_mod]

/-- **C67. Blocks that differ by more than one pixel by one have a distortion.** -/
theorem kernel_differ (hw : 1 ≤ w ∧ w ≤ 8) (hh : 1 ≤ h ∧ h ≤ 8) (ha : Pix a w h 8) (hb : Pix b w h 8) (hs : 2 ≤ sse a b w h) :
    ∃ v, distKernel a b w h 8 = some v ∧ 0 < v ∧ 53 / 100 * (sse a b w h : ℝ) - 1 ≤ v := by
  obtain ⟨sv, dv, v, -, e, l, -⟩ := kernel_8bit_partial hw hh ha hb
  have h1 := boosted_ge (sse a b w h) sv dv
  have h2 : (2 : ℝ) ≤ sse a b w h := by exact_mod_cast hs
  refine ⟨v, e, ?_, by linarith⟩
  have : (0 : ℝ) < v := by linarith
  exact_mod_cast this

/-- One pixel that differs by one may have no distortion. -/
theorem kernel_one : ∃ a b, Pix a 8 8 8 ∧ Pix b 8 8 8 ∧ sse a b 8 8 = 1 ∧ distKernel a b 8 8 8 = some 0 :=
  ⟨fun _ x => if x < 4 then 255 else 0, fun y x => if y = 0 ∧ x = 0 then 254 else if x < 4 then 255 else 0,
    by intro y _ x _; dsimp only; split_ifs <;> norm_num, by intro y _ x _; dsimp only; split_ifs <;> norm_num, by decide +kernel, by decide +kernel⟩

/-- **The same is false for 12 bits**: the conversion to 32 bits cuts off what does not fit.  Of two approximations of a block, one is worse in every pixel and has
the larger distortion by far, but the kernel returns the smaller number for it. -/
theorem kernel_12bit_wraps : ∃ a b c, Pix a 8 8 12 ∧ Pix b 8 8 12 ∧ Pix c 8 8 12 ∧
    (∀ y < 8, ∀ x < 8, ((a y x : ℤ) - c y x).natAbs ≤ ((a y x : ℤ) - b y x).natAbs) ∧
    ∃ vb vc rb rc, kernel64 a b 8 8 12 = some vb ∧ kernel64 a c 8 8 12 = some vc ∧ 10 * vc < vb ∧
      distKernel a b 8 8 12 = some rb ∧ distKernel a c 8 8 12 = some rc ∧ rb < rc ∧ 15 * rb < vb ∧ rc = vc := by
  refine ⟨fun _ x => if x < 4 then 4095 else 0, fun _ _ => 0, fun _ x => if x < 4 then 140 else 0, ?_, ?_, ?_, by decide +kernel, 45648943943, ?_⟩
  · intro y _ x _; dsimp only; split_ifs <;> norm_num
  · intro y _ x _; norm_num
  · intro y _ x _; dsimp only; split_ifs <;> norm_num
  · refine ⟨_, _, _, by decide +kernel, rfl, ?_, rfl, rfl, ?_, ?_, rfl⟩ <;> decide +kernel

/-! ### Activity -/

theorem mapM_some {α β : Type} {f : α → Option β} {g : α → β} : ∀ {l : List α}, (∀ x ∈ l, f x = some (g x)) → l.mapM f = some (l.map g) := by
  intro l
  induction l with
  | nil => intro _; rfl
  | cons x l ih =>
    intro h
    rw [List.mapM_cons, h x (by simp), ih fun y hy => h y (List.mem_cons_of_mem _ hy)]
    rfl

theorem variance_eq (hbd : bd ∈ [8, 10, 12]) (ha : Pix a 8 8 bd) : ∃ v, variance8x8 a = some v ∧ v ≤ 16 * ((2 ^ bd - 1) * (2 ^ bd - 1)) + 32 ∧
    |(v : ℝ) - var64 a 8 8| ≤ 1 := by
  have hM := max_le hbd
  have a1 := total_le ha.le
  have a2 := total_sq_le ha.le
  have hc := total_cauchy 8 8 a
  have w1 : 8 * 8 * (2 ^ bd - 1) ≤ 64 * 4095 := Nat.mul_le_mul_left _ hM
  have w2 : (2 ^ bd - 1) * total 8 8 a ≤ 4095 * (64 * 4095) := Nat.mul_le_mul hM (le_trans a1 w1)
  have px : ∀ y < 8, ∀ x < 8, a y x ≤ 4095 := fun y hy x hx => le_trans (ha.le y hy x hx) hM
  obtain ⟨-, bnd⟩ := scaledVar_eq (n := 64) (d := 256) le_rfl hM (by simpa using a1) a2 (by norm_num) (by norm_num)
  have acc := var_accurate (a := a) (w := 8) (h := 8) (d := 256) (by decide) (by norm_num)
  have e1 : ((List.range 8).mapM fun x => sumChk 16 ((List.range 8).map fun y => a y x)) = some ((List.range 8).map fun x => ((List.range 8).map fun y => a y x).sum) := by
    refine mapM_some fun x hx => ?_
    have := sum_le (f := fun y => a y x) (B := 4095) (List.range 8) fun y hy => px y (List.mem_range.1 hy) x (List.mem_range.1 hx)
    rw [List.length_range] at this
    exact sumChk_eq (by omega)
  have e2 : ((List.range 8).mapM fun x => sumChk 32 ((List.range 8).map fun y => a y x * a y x)) =
      some ((List.range 8).map fun x => ((List.range 8).map fun y => a y x * a y x).sum) := by
    refine mapM_some fun x hx => ?_
    have := sum_le (f := fun y => a y x * a y x) (B := 4095 * 4095) (List.range 8) fun y hy =>
      Nat.mul_le_mul (px y (List.mem_range.1 hy) x (List.mem_range.1 hx)) (px y (List.mem_range.1 hy) x (List.mem_range.1 hx))
    rw [List.length_range] at this
    exact sumChk_eq (by omega)
  have t1 : ((List.range 8).map fun x => ((List.range 8).map fun y => a y x).sum).sum = total 8 8 a := (total_swap 8 8 a).symm
  have t2 : ((List.range 8).map fun x => ((List.range 8).map fun y => a y x * a y x).sum).sum = total 8 8 fun y x => a y x * a y x :=
    (total_swap 8 8 fun y x => a y x * a y x).symm
  have sq : total 8 8 a * total 8 8 a ≤ (64 * 4095) * (64 * 4095) := Nat.mul_le_mul (le_trans a1 w1) (le_trans a1 w1)
  generalize hS : total 8 8 a = S at *
  generalize hQ : (total 8 8 fun y x => a y x * a y x) = Q at *
  have key : ((Q - (S * S * 256 + 8192) / 2 ^ 14) * 256 + 128) / 2 ^ 8 = Q - (S * S + 32) / 2 ^ 6 := by omega
  rw [key] at bnd acc
  refine ⟨Q - (S * S + 32) / 2 ^ 6, ?_, bnd, le_trans acc (by norm_num)⟩
  unfold variance8x8
  rw [e1, e2]
  simp only [Option.bind_eq_bind, Option.bind_some]
  rw [sumChk_eq (by rw [t1]; omega), Option.bind_some, sumChk_eq (by rw [t2]; omega), Option.bind_some, t1, t2, chk_lt (by omega), Option.bind_some,
    chk_lt (by omega), Option.bind_some, Nat.shiftRight_eq_div_pow]
  unfold sub
  rw [if_pos (by omega), Option.bind_some, Nat.min_eq_left (by omega)]

/-- **C67. Activity scales**: for every 8x8 block of every video nothing overflows, and the scale (in units of 1/16384) is the documented factor for the variance of the
block up to 2.5 % and 1; it is between 0.53 and 1.46, so that no block is ignored by the encoder and no scale exceeds its 28 bits. -/
theorem activity_scale (hbd : bd ∈ [8, 10, 12]) (ha : Pix a 8 8 bd) : ∃ s v : ℕ, |(s : ℝ) - var64 a 8 8| ≤ 1 ∧ activityScale a bd = some v ∧
    39 / 40 * boosted 16384 (lbd s bd) (lbd s bd) - 1 ≤ v ∧ (v : ℝ) ≤ 41 / 40 * boosted 16384 (lbd s bd) (lbd s bd) ∧ 8683 ≤ v ∧ v ≤ 23779 := by
  obtain ⟨s, e, hs, hv⟩ := variance_eq hbd ha
  have h8 : 8 ≤ bd := by
    simp only [List.mem_cons, List.not_mem_nil, or_false] at hbd
    omega
  have hl := lbd_le hbd hs
  obtain ⟨v, e1, l, u⟩ := boost_accurate (input := 16384) (by norm_num) hl hl h8 (shr_lbd s bd) (shr_lbd s bd)
  have lo : 8683 ≤ v := by
    have := boosted_ge 16384 (lbd s bd) (lbd s bd)
    norm_num at this
    have : (8683 : ℝ) - 1 < v := by linarith
    have : (8682 : ℝ) < v := by linarith
    exact_mod_cast this
  have hi : v ≤ 23779 := by
    have h1 : boosted 16384 (lbd s bd) (lbd s bd) ≤ 23199 := by
      unfold boosted
      generalize lbd s bd = z
      have hy : 0 < √(3355 ^ 2 + z * z : ℝ) := Real.sqrt_pos.2 (by positivity)
      rw [div_le_iff₀ hy]
      have : (z + z + 16128 : ℝ) * (1000 / 5207) ≤ √(3355 ^ 2 + z * z : ℝ) := by
        refine Real.le_sqrt_of_sq_le ?_
        nlinarith [sq_nonneg (2 * 3355 - 16128 / 3355 * (z : ℝ)), mul_self_nonneg (z : ℝ)]
      push_cast
      linarith
    have : (v : ℝ) < 23780 := by linarith
    have : v < 23780 := by exact_mod_cast this
    omega
  refine ⟨s, v, hv, ?_, l, u, lo, hi⟩
  unfold activityScale
  rw [e]
  show applySsimBoost _ _ _ _ = _
  unfold applySsimBoost
  rw [show (1 <<< 14 : Nat) = 16384 by decide, e1, Option.map_some, Nat.mod_eq_of_lt (by omega)]

/-! ### Concrete blocks that meet the hypotheses -/

/-- A ramp of the bit depth `bd` in a block of 8x4 pixels, its approximation by a block that is too dark by 3, and what the kernel says. -/
example : Pix (fun y x => 20 * x + 5 * y + 3) 8 4 8 ∧ Pix (fun y x => 20 * x + 5 * y) 8 4 8 ∧ sse (fun y x => 20 * x + 5 * y + 3) (fun y x => 20 * x + 5 * y) 8 4 = 288 ∧
    distKernel (fun y x => 20 * x + 5 * y + 3) (fun y x => 20 * x + 5 * y) 8 4 8 = some 164 := by
  refine ⟨?_, ?_, by decide +kernel, by decide +kernel⟩ <;> (intro y hy x hx; dsimp only; omega)

/-- A flat block counts more and a busy block less. -/
example : activityScale (fun _ _ => 200) 10 = some 21122 ∧ activityScale (fun y x => 500 * ((x + y) % 2)) 10 = some 9105 ∧ Pix (fun y x => 500 * ((x + y) % 2)) 8 8 10 := by
  refine ⟨by decide +kernel, by decide +kernel, ?_⟩
  intro y hy x hx
  dsimp only
  omega

end Rav1e.Dist
