import Verif.Intra.Plain

/-!
# The filters of the edges
-/

namespace Rav1e.Intra

/-- An edge with its corner at index 0 holds `f (-1), f 0, ..., f (n - 1)`. -/
def IsE (a : Arr) (f : Int → Int) (n bd : Nat) : Prop := ∀ k ≤ n, (a.at_ k : Int) = f ((k : Int) - 1) ∧ a.at_ k < 2 ^ bd

theorem edgeKernel_ok : ∀ s ∈ [1, 2, 3], ∃ a b c : Nat, edgeKernel[s - 1]? = some [a, b, c, b, a] ∧
    Spec.intraEdgeKernel.getD (s - 1) [] = [(a : Int), b, c, b, a] ∧ a + b + c + b + a = 16 ∧ a + b ≤ 6 := by
  intro s hs
  simp only [List.mem_cons, List.not_mem_nil, or_false] at hs
  rcases hs with rfl | rfl | rfl
  · exact ⟨0, 4, 8, rfl, rfl, rfl, by decide⟩
  · exact ⟨0, 5, 6, rfl, rfl, rfl, by decide⟩
  · exact ⟨2, 4, 4, rfl, rfl, rfl, by decide⟩

theorem five {a b c x0 x1 x2 x3 x4 : Nat} {M : Nat} (hs : a + b + c + b + a = 16) (h0 : x0 < M) (h1 : x1 < M) (h2 : x2 < M) (h3 : x3 < M)
    (h4 : x4 < M) : (a * x0 + (b * x1 + (c * x2 + (b * x3 + a * x4))) + 8) >>> 4 < M := by
  rw [Nat.shiftRight_eq_div_pow]
  have e0 := Nat.mul_le_mul_left a (Nat.le_sub_one_of_lt h0)
  have e1 := Nat.mul_le_mul_left b (Nat.le_sub_one_of_lt h1)
  have e2 := Nat.mul_le_mul_left c (Nat.le_sub_one_of_lt h2)
  have e3 := Nat.mul_le_mul_left b (Nat.le_sub_one_of_lt h3)
  have e4 := Nat.mul_le_mul_left a (Nat.le_sub_one_of_lt h4)
  have e5 : a * (M - 1) + (b * (M - 1) + (c * (M - 1) + (b * (M - 1) + a * (M - 1)))) = 16 * (M - 1) := by
    rw [← hs]; ring
  omega

theorem range5 {α : Type} (f : Nat → α) : (List.range 5).map f = [f 0, f 1, f 2, f 3, f 4] := rfl

theorem filter_ok {a : Arr} {f : Int → Int} {n bd sz st : Nat} (h : IsE a f n bd) (h1 : 1 ≤ sz) (h2 : sz ≤ n + 1) (h3 : a.len ≤ 257)
    (h4 : sz ≤ a.len) (h5 : st ≤ 3) :
    ∃ b, filterEdge sz st a = some b ∧ b.len = a.len ∧ IsE b (Spec.edgeFilter sz st f) n bd := by
  unfold filterEdge
  by_cases h0 : st = 0
  · rw [if_pos h0]
    refine ⟨a, rfl, rfl, ?_⟩
    unfold Spec.edgeFilter
    rw [if_pos h0]; exact h
  · obtain ⟨x, y, z, e1, e2, e3, _⟩ := edgeKernel_ok st (by simp; omega)
    rw [if_neg h0, if_pos ⟨h3, h4⟩, e1, Option.map_some]
    refine ⟨_, rfl, rfl, fun k hk => ?_⟩
    unfold Spec.edgeFilter
    rw [if_neg h0, e2]
    simp only
    by_cases hc : 1 ≤ k ∧ k < sz
    · rw [if_pos hc, if_pos (by omega)]
      unfold Spec.sum
      rw [range5, range5]
      simp only [List.sum_cons, List.sum_nil, List.getD_cons_zero, List.getD_cons_succ, Nat.add_zero]
      have g : ∀ j : Nat, (a.at_ (min (k + j - 2) (sz - 1)) : Int) = f (max 0 (min ((sz : Int) - 1) ((k : Int) - 1 + 1 - 2 + j)) - 1) ∧
          a.at_ (min (k + j - 2) (sz - 1)) < 2 ^ bd := by
        intro j
        have := h (min (k + j - 2) (sz - 1)) (by omega)
        rw [show (((min (k + j - 2) (sz - 1) : Nat) : Int) - 1) = max 0 (min ((sz : Int) - 1) ((k : Int) - 1 + 1 - 2 + j)) - 1 by omega] at this
        exact this
      have g0 := g 0
      have g1 := g 1
      have g2 := g 2
      have g3 := g 3
      have g4 := g 4
      rw [← g0.1, ← g1.1, ← g2.1, ← g3.1, ← g4.1]
      refine ⟨?_, five e3 g0.2 g1.2 g2.2 g3.2 g4.2⟩
      rw [Nat.shiftRight_eq_div_pow, Int.shiftRight_eq_div_pow]
      push_cast
      simp only [Int.add_zero]
      norm_num
    · rw [if_neg hc, if_neg (by omega)]
      exact h k hk

/-- The filter leaves a flat edge as it is, even if the corner is off by one. -/
theorem filter_flat {a : Arr} {f : Int → Int} {n bd sz st c : Nat} (h : IsE a f n bd) (h2 : sz ≤ n + 1) (h3 : a.len ≤ 257)
    (h4 : sz ≤ a.len) (h5 : st ≤ 3) (hc : ∀ k ≤ n, 1 ≤ k → a.at_ k = c) (h0 : c ≤ a.at_ 0 + 1) (h0' : a.at_ 0 ≤ c + 1) :
    ∃ b, filterEdge sz st a = some b ∧ b.len = a.len ∧ IsE b f n bd := by
  unfold filterEdge
  by_cases hs : st = 0
  · rw [if_pos hs]; exact ⟨a, rfl, rfl, h⟩
  · obtain ⟨x, y, z, e1, _, e3, e4⟩ := edgeKernel_ok st (by simp; omega)
    rw [if_neg hs, if_pos ⟨h3, h4⟩, e1, Option.map_some]
    refine ⟨_, rfl, rfl, fun k hk => ?_⟩
    have key : (if 1 ≤ k ∧ k < sz then
        (((List.range 5).map fun j => [x, y, z, y, x].getD j 0 * a.at_ (min (k + j - 2) (sz - 1))).sum + 8) >>> 4 else a.at_ k) = a.at_ k := by
      split
      · next hk' =>
        rw [range5]
        simp only [List.sum_cons, List.sum_nil, List.getD_cons_zero, List.getD_cons_succ, Nat.add_zero]
        have k2 : a.at_ (min (k + 2 - 2) (sz - 1)) = c := hc _ (by omega) (by omega)
        have k3 : a.at_ (min (k + 3 - 2) (sz - 1)) = c := hc _ (by omega) (by omega)
        have k4 : a.at_ (min (k + 4 - 2) (sz - 1)) = c := hc _ (by omega) (by omega)
        rw [k2, k3, k4, hc k hk hk'.1, Nat.shiftRight_eq_div_pow]
        have e5 : x * c + (y * c + (z * c + (y * c + x * c))) = 16 * c := by rw [← e3]; ring
        have lo : ∀ j, j ≤ 1 → c ≤ a.at_ (min (k + j - 2) (sz - 1)) + 1 ∧ a.at_ (min (k + j - 2) (sz - 1)) ≤ c + 1 := by
          intro j hj
          by_cases hz : min (k + j - 2) (sz - 1) = 0
          · rw [hz]; exact ⟨h0, h0'⟩
          · rw [hc _ (by omega) (by omega)]; omega
        have l0 := lo 0 (by omega)
        have l1 := lo 1 (by omega)
        simp only [Nat.add_zero] at l0
        generalize a.at_ (min (k - 2) (sz - 1)) = u at l0 ⊢
        generalize a.at_ (min (k + 1 - 2) (sz - 1)) = v at l1 ⊢
        have m0 := Nat.mul_le_mul_left x l0.1
        have m0' := Nat.mul_le_mul_left x l0.2
        have m1 := Nat.mul_le_mul_left y l1.1
        have m1' := Nat.mul_le_mul_left y l1.2
        rw [Nat.mul_add, Nat.mul_one] at m0 m0' m1 m1'
        rw [show (2 : Nat) ^ 4 = 16 from rfl]
        omega
      · rfl
    show ((if _ then _ else _ : Nat) : Int) = _ ∧ (if _ then _ else _) < _
    rw [key]
    exact h k hk

theorem dup_ok {a : Arr} {f : Int → Int} {n bd : Nat} (h : IsE a f n bd) {k : Nat} (hk : k ≤ n + 2) :
    (dup n a k : Int) = (if (k : Int) = 0 then f (-1) else if (k : Int) = (n : Int) + 2 then f ((n : Int) - 1) else f ((k : Int) - 2)) ∧
    dup n a k < 2 ^ bd := by
  unfold dup
  by_cases h0 : k = 0
  · rw [if_pos h0, if_pos (by omega)]
    exact h 0 (by omega)
  · rw [if_neg h0, if_neg (show ¬ (k : Int) = 0 by omega)]
    by_cases h1 : k ≤ n + 1
    · rw [if_pos h1, if_neg (by omega)]
      have := h (k - 1) (by omega)
      rwa [show (((k - 1 : Nat) : Int) - 1) = (k : Int) - 2 by omega] at this
    · rw [if_neg h1, if_pos (by omega)]
      exact h n (by omega)

theorem clip_tdiv {bd : Nat} (v : Int) :
    (((max 0 (min ((v + 8).tdiv 16) ((1 <<< bd : Nat) - 1))).toNat : Nat) : Int) = Spec.clip1 bd (Spec.round2 v 4) ∧
    (max 0 (min ((v + 8).tdiv 16) ((1 <<< bd : Nat) - 1))).toNat < 2 ^ bd := by
  have hp : 0 < 2 ^ bd := Nat.pow_pos (by decide)
  have e : ((1 <<< bd : Nat) : Int) = ((2 ^ bd : Nat) : Int) := by rw [Nat.one_shiftLeft]
  have e' : (2 : Int) ^ bd = ((2 ^ bd : Nat) : Int) := by push_cast; rfl
  unfold Spec.clip1 Spec.round2
  rw [if_neg (by decide), Int.shiftRight_eq_div_pow, e, e', show ((2 ^ 4 : Nat) : Int) = 16 from rfl, show (2 : Int) ^ (4 - 1) = 8 from rfl]
  rcases Int.le_total 0 (v + 8) with h | h
  · rw [Int.tdiv_eq_ediv_of_nonneg h]; omega
  · have h1 : (v + 8).tdiv 16 ≤ 0 := by
      have := Int.tdiv_nonneg (a := -(v + 8)) (b := 16) (by omega) (by omega)
      rw [Int.neg_tdiv] at this
      omega
    omega

/-- An edge that may be upsampled holds `g (-2^u), ..., g ((n - 1) * 2^u)`. -/
def IsU (a : Arr) (g : Int → Int) (n u bd : Nat) : Prop := ∀ k ≤ n * 2 ^ u, (a.at_ k : Int) = g ((k : Int) - 2 ^ u) ∧ a.at_ k < 2 ^ bd

theorem upsample_ok {a : Arr} {f : Int → Int} {n bd : Nat} (h : IsE a f n bd) (h1 : n + 3 ≤ 64) (h2 : 2 * n < a.len) :
    ∃ b, upsampleEdge n a bd = some b ∧ b.len = a.len ∧ IsU b (Spec.edgeUpsample bd n f) n 1 bd := by
  unfold upsampleEdge
  rw [if_pos ⟨h1, by omega, h2⟩]
  refine ⟨_, rfl, rfl, fun k hk => ?_⟩
  rw [Nat.pow_one] at hk
  unfold Spec.edgeUpsample
  simp only [Int.pow_succ, Int.pow_zero, Int.one_mul]
  by_cases h0 : k = 0
  · subst h0
    have := h 0 (by omega)
    simp only [true_or, if_true]
    exact this
  · rw [if_neg (show ¬ (k = 0 ∨ 2 * n < k) by omega), if_neg (show ¬ ((k : Int) - 2 = -2) by omega),
      if_pos (show -1 ≤ (k : Int) - 2 ∧ (k : Int) - 2 ≤ 2 * (n : Int) - 2 by omega)]
    by_cases hp : k % 2 = 1
    · rw [if_pos hp, if_pos (show ((k : Int) - 2) % 2 = 1 by omega)]
      have d0 := dup_ok h (k := k / 2) (by omega)
      have d1 := dup_ok h (k := k / 2 + 1) (by omega)
      have d2 := dup_ok h (k := k / 2 + 2) (by omega)
      have d3 := dup_ok h (k := k / 2 + 3) (by omega)
      rw [show ((k / 2 : Nat) : Int) = ((k : Int) - 2 + 1) / 2 by omega] at d0
      rw [show ((k / 2 + 1 : Nat) : Int) = ((k : Int) - 2 + 1) / 2 + 1 by omega] at d1
      rw [show ((k / 2 + 2 : Nat) : Int) = ((k : Int) - 2 + 1) / 2 + 2 by omega] at d2
      rw [show ((k / 2 + 3 : Nat) : Int) = ((k : Int) - 2 + 1) / 2 + 3 by omega] at d3
      rw [d0.1, d1.1, d2.1, d3.1]
      exact clip_tdiv _
    · rw [if_neg hp, if_neg (show ¬ ((k : Int) - 2) % 2 = 1 by omega)]
      have d0 := dup_ok h (k := k / 2 + 1) (by omega)
      rw [show ((k / 2 + 1 : Nat) : Int) = ((k : Int) - 2) / 2 + 2 by omega] at d0
      exact d0

theorem IsE.isU {a : Arr} {f : Int → Int} {n bd : Nat} (h : IsE a f n bd) : IsU a f n 0 bd := by
  intro k hk
  have := h k (by omega)
  simpa using this

theorem strength_le (w h : Nat) (sm : Bool) (d : Int) : iefStrength w h sm d ≤ 3 := by
  unfold iefStrength
  simp only
  repeat' split
  all_goals omega

theorem strength_eq (w h : Nat) (sm : Bool) (d : Int) : iefStrength w h sm d = Spec.edgeStrength (w + h) sm d.natAbs := by
  unfold iefStrength Spec.edgeStrength
  cases sm <;> simp only [Bool.not_true, Bool.not_false, Bool.false_eq_true, if_false, if_true]
  all_goals repeat' split
  all_goals first | rfl | omega

theorem upsample_eq (w h : Nat) (sm : Bool) (d : Int) : iefUpsample w h sm d = Spec.useUpsample (w + h) sm d.natAbs := by
  unfold iefUpsample Spec.useUpsample
  rfl

theorem upsample_small {w h : Nat} {sm : Bool} {d : Int} (hu : iefUpsample w h sm d = true) : w + h ≤ 16 := by
  unfold iefUpsample at hu
  simp only at hu
  split at hu
  · cases hu
  · split at hu <;> simp at hu <;> omega

/-- Filter and upsampling of one edge. -/
theorem side_ok {a : Arr} {f : Int → Int} {n bd sz w h : Nat} {sm : Bool} {d : Int} {have_ : Bool} {c : Nat} (hE : IsE a f n bd) (h1 : 1 ≤ sz)
    (h2 : sz ≤ n + 1) (h3 : a.len = (w + h) * 2 + 1) (hn : n ≤ w + h) (hwh : w + h ≤ 128)
    (hflat : have_ = false → (∀ k ≤ n, 1 ≤ k → a.at_ k = c) ∧ c ≤ a.at_ 0 + 1 ∧ a.at_ 0 ≤ c + 1) :
    ∃ b e, filterEdge sz (iefStrength w h sm d) a = some b ∧
      (if iefUpsample w h sm d = true then upsampleEdge n b bd else some b) = some e ∧ e.len = a.len ∧
      IsU e (if Spec.useUpsample (w + h) sm d.natAbs = true then
          Spec.edgeUpsample bd n (if have_ = true then Spec.edgeFilter sz (Spec.edgeStrength (w + h) sm d.natAbs) f else f)
        else if have_ = true then Spec.edgeFilter sz (Spec.edgeStrength (w + h) sm d.natAbs) f else f)
        n (Spec.useUpsample (w + h) sm d.natAbs).toNat bd := by
  have key : ∃ b, filterEdge sz (iefStrength w h sm d) a = some b ∧ b.len = a.len ∧
      IsE b (if have_ = true then Spec.edgeFilter sz (Spec.edgeStrength (w + h) sm d.natAbs) f else f) n bd := by
    have hs := strength_le w h sm d
    cases have_ with
    | true =>
      have := filter_ok (st := iefStrength w h sm d) hE h1 h2 (by omega) (by omega) hs
      rw [strength_eq] at this ⊢
      simpa using this
    | false =>
      obtain ⟨f1, f2, f3⟩ := hflat rfl
      have := filter_flat (st := iefStrength w h sm d) hE h2 (by omega) (by omega) hs f1 f2 f3
      simpa using this
  obtain ⟨b, hb, hl, hI⟩ := key
  by_cases hu : iefUpsample w h sm d = true
  · have hsm := upsample_small hu
    obtain ⟨e, he, hl', hU⟩ := upsample_ok hI (by omega) (by omega)
    refine ⟨b, e, hb, by rw [if_pos hu, he], by omega, ?_⟩
    rw [upsample_eq] at hu
    rw [hu]
    exact hU
  · refine ⟨b, b, hb, by rw [if_neg hu], hl, ?_⟩
    rw [upsample_eq] at hu
    rw [Bool.not_eq_true] at hu
    rw [hu]
    exact hI.isU

end Rav1e.Intra
