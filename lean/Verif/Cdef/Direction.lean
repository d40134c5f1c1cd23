import Verif.Cdef.Model
import Verif.Cdef.Spec
import Mathlib.Tactic.Ring
import Mathlib.Tactic.Linarith
import Mathlib.Tactic.IntervalCases

/-!
# The direction search finds the direction of the specification
-/

namespace Rav1e.Cdef

theorem shr_eq (a : Int) (n : Nat) : a >>> n = a / 2 ^ n := by
  rw [Int.shiftRight_eq_div_pow]; norm_cast

theorem mem_pairs {ij : Nat × Nat} (h : ij ∈ pairs) : ij.1 < 8 ∧ ij.2 < 8 := by
  unfold pairs at h
  rw [List.mem_flatMap] at h
  obtain ⟨i, hi, hm⟩ := h
  rw [List.mem_map] at hm
  obtain ⟨j, hj, rfl⟩ := hm
  exact ⟨List.mem_range.1 hi, List.mem_range.1 hj⟩

theorem addPixel_eq (img : Nat → Nat → Int) (shift : Nat) (p : Nat → Nat → Int) (ij : Nat × Nat) (h : ij.1 < 8 ∧ ij.2 < 8)
    (d k : Nat) (hd : d < 8) : addPixel img shift p ij d k =
      p d k + if Spec.line d ij.1 ij.2 == k then img ij.1 ij.2 / 2 ^ shift - 128 else 0 := by
  obtain ⟨i, j⟩ := ij
  simp only at h
  have h5 : 3 - i / 2 + j = 3 + j - i / 2 := by omega
  interval_cases d <;>
    · simp [addPixel, lineIdx, addPartial, shr_eq, Spec.line, h5]
      split <;> split <;> first | (exfalso; omega) | simp

/-- The partial sums are the sums over the lines. -/
theorem partials_eq (img : Nat → Nat → Int) (shift d k : Nat) (hd : d < 8) : partials img shift d k =
    ((Spec.onLine d k).map (fun ij => img ij.1 ij.2 / 2 ^ shift - 128)).sum := by
  have key : ∀ (l : List (Nat × Nat)) (p : Nat → Nat → Int), (∀ ij ∈ l, ij.1 < 8 ∧ ij.2 < 8) →
      l.foldl (addPixel img shift) p d k = p d k +
        ((l.filter (fun ij => Spec.line d ij.1 ij.2 == k)).map (fun ij => img ij.1 ij.2 / 2 ^ shift - 128)).sum := by
    intro l
    induction l with
    | nil => intro p _; simp
    | cons ij l ih =>
      intro p h
      rw [List.foldl_cons, ih _ (fun x hx => h x (by simp [hx])), addPixel_eq img shift p ij (h ij (by simp)) d k hd,
        List.filter_cons]
      split <;> simp
      ring
  have := key pairs (fun _ _ => 0) (fun ij h => mem_pairs h)
  unfold partials
  rw [this]
  simp only [Int.zero_add]
  rfl

/-- The weight of line `k` in direction `d`. -/
theorem weights : ∀ d < 8, ∀ k < 15, 840 / (Spec.onLine d k).length =
    if d = 2 ∨ d = 6 then (if k < 8 then 105 else 0)
    else if d % 2 = 1 then (if k < 3 then 840 / (2 * k + 2) else if k < 8 then 105 else if k < 11 then 840 / (2 * (10 - k) + 2) else 0)
    else if k < 8 then 840 / (k + 1) else 840 / (15 - k) := by
  decide +kernel

theorem costs_eq (img : Nat → Nat → Int) (shift : Nat) : costs (partials img shift) =
    (List.range 8).map (Spec.cost (fun i j => img i j / 2 ^ shift - 128)) := by
  have hc : ∀ d < 8, Spec.cost (fun i j => img i j / 2 ^ shift - 128) d = ((List.range 15).map (fun k =>
      partials img shift d k * partials img shift d k * ((if d = 2 ∨ d = 6 then (if k < 8 then 105 else 0)
    else if d % 2 = 1 then (if k < 3 then 840 / (2 * k + 2) else if k < 8 then 105 else if k < 11 then 840 / (2 * (10 - k) + 2) else 0)
    else if k < 8 then 840 / (k + 1) else 840 / (15 - k) : Nat) : Int))).sum := by
    intro d hd
    unfold Spec.cost
    congr 1
    apply List.map_congr_left
    intro k hk
    rw [partials_eq img shift d k hd, weights d hd k (List.mem_range.1 hk)]
  have e8 : List.range 8 = [0, 1, 2, 3, 4, 5, 6, 7] := rfl
  rw [e8]
  simp only [List.map_cons, List.map_nil]
  rw [hc 0 (by omega), hc 1 (by omega), hc 2 (by omega), hc 3 (by omega), hc 4 (by omega), hc 5 (by omega),
    hc 6 (by omega), hc 7 (by omega)]
  have e7 : List.range 7 = [0, 1, 2, 3, 4, 5, 6] := rfl
  have e5 : List.range 5 = [0, 1, 2, 3, 4] := rfl
  have e3 : List.range 3 = [0, 1, 2] := rfl
  have e15 : List.range 15 = [0, 1, 2, 3, 4, 5, 6, 7, 8, 9, 10, 11, 12, 13, 14] := rfl
  simp only [costs, e8, e7, e5, e3, e15, List.foldl_cons, List.foldl_nil, List.map_cons, List.map_nil, List.sum_cons,
    List.sum_nil, div, divTable]
  generalize partials img shift = q
  simp only [List.cons.injEq, and_true]
  refine ⟨?_, ?_, ?_, ?_, ?_, ?_, ?_, ?_⟩ <;> simp <;> ring

/-- The first largest element. -/
theorem firstMax_spec (l : List Int) (hl : l ≠ []) : ∃ (i : Nat) (v : Int), firstMax l = some (i, v) ∧ l[i]? = some v ∧
    (∀ (j : Nat) (w : Int), l[j]? = some w → w ≤ v) ∧ ∀ (j : Nat) (w : Int), j < i → l[j]? = some w → w < v := by
  have key : ∀ (r : List Int) (d : List Int) (i : Nat) (v : Int), d[i]? = some v → (∀ (j : Nat) (w : Int), d[j]? = some w → w ≤ v) →
      (∀ (j : Nat) (w : Int), j < i → d[j]? = some w → w < v) →
      ∃ (i' : Nat) (v' : Int), (r.zipIdx d.length).foldl (fun b x =>
        match b with
        | none => some (x.2, x.1)
        | some (i, v) => if v < x.1 ∨ v = x.1 ∧ (-i : Int) ≤ (-x.2 : Int) then some (x.2, x.1) else some (i, v))
        (some (i, v)) = some (i', v') ∧ (d ++ r)[i']? = some v' ∧ (∀ (j : Nat) (w : Int), (d ++ r)[j]? = some w → w ≤ v') ∧
        ∀ (j : Nat) (w : Int), j < i' → (d ++ r)[j]? = some w → w < v' := by
    intro r
    induction r with
    | nil =>
      intro d i v h1 h2 h3
      exact ⟨i, v, rfl, by simpa using h1, by simpa using h2, by simpa using h3⟩
    | cons x r ih =>
      intro d i v h1 h2 h3
      have hi : i < d.length := by
        rcases Nat.lt_or_ge i d.length with h | h
        · exact h
        · rw [List.getElem?_eq_none h] at h1; cases h1
      rw [List.zipIdx_cons, List.foldl_cons]
      simp only
      have hcons : d ++ x :: r = (d ++ [x]) ++ r := by simp
      have hlen : d.length + 1 = (d ++ [x]).length := by simp
      rw [hcons, hlen]
      have hat : (d ++ [x])[d.length]? = some x := by simp
      have hold : ∀ j w, (d ++ [x])[j]? = some w → d[j]? = some w ∨ j = d.length ∧ w = x := by
        intro j w hj
        rcases Nat.lt_trichotomy j d.length with h | h | h
        · rw [List.getElem?_append_left h] at hj; exact Or.inl hj
        · subst h; rw [hat] at hj; cases hj; exact Or.inr ⟨rfl, rfl⟩
        · rw [List.getElem?_eq_none (by simp; omega)] at hj; cases hj
      split
      · rename_i hc
        have hvx : v < x := by omega
        refine ih (d ++ [x]) d.length x hat ?_ ?_
        · intro j w hj
          rcases hold j w hj with h | ⟨-, h⟩
          · have := h2 j w h; omega
          · omega
        · intro j w hlt hj
          rcases hold j w hj with h | ⟨h, -⟩
          · have := h2 j w h; omega
          · omega
      · rename_i hc
        refine ih (d ++ [x]) i v (by rw [List.getElem?_append_left hi]; exact h1) ?_ ?_
        · intro j w hj
          rcases hold j w hj with h | ⟨h, h'⟩
          · exact h2 j w h
          · omega
        · intro j w hlt hj
          rcases hold j w hj with h | ⟨h, -⟩
          · exact h3 j w hlt h
          · omega
  cases l with
  | nil => exact absurd rfl hl
  | cons x r =>
    obtain ⟨i, v, h1, h2, h3, h4⟩ := key r [x] 0 x rfl
      (by intro j w hj; cases j <;> simp at hj; omega) (by intro j w hj; omega)
    refine ⟨i, v, ?_, h2, h3, h4⟩
    unfold firstMax
    rw [List.zipIdx_cons, List.foldl_cons]
    exact h1

/-- **C52**: the search finds the direction and the variance of the specification. -/
theorem findDir_eq (img : Nat → Nat → Int) (shift : Nat) :
    findDir img shift = some (Spec.yDir (fun i j => img i j / 2 ^ shift - 128),
      Spec.variance (fun i j => img i j / 2 ^ shift - 128)) := by
  unfold findDir
  rw [costs_eq]
  generalize hpx : (fun i j => img i j / 2 ^ shift - 128) = px
  obtain ⟨i, v, h1, h2, h3, h4⟩ := firstMax_spec ((List.range 8).map (Spec.cost px)) (by simp)
  simp only [h1, Option.bind_eq_bind, Option.bind_some]
  have hget : ∀ j, j < 8 → ((List.range 8).map (Spec.cost px))[j]? = some (Spec.cost px j) := by
    intro j hj; simp [hj]
  have hi : i < 8 := by
    rcases Nat.lt_or_ge i 8 with h | h
    · exact h
    · rw [List.getElem?_eq_none (by simpa using h)] at h2; cases h2
  rw [hget i hi] at h2
  cases h2
  rw [hget _ (Nat.mod_lt _ (by omega))]
  simp only [Option.bind_some, pure]
  have hdir : Spec.yDir px = i := by
    unfold Spec.yDir
    have : (List.range 8).find? (fun d => (List.range 8).all (fun d' => decide (Spec.cost px d' ≤ Spec.cost px d))) = some i := by
      rw [List.find?_range_eq_some]
      refine ⟨?_, List.mem_range.2 hi, ?_⟩
      · rw [List.all_eq_true]
        intro d hd
        exact decide_eq_true (h3 d _ (hget d (List.mem_range.1 hd)))
      · intro j hj
        simp only [Bool.not_eq_true']
        rw [List.all_eq_false]
        refine ⟨i, List.mem_range.2 hi, ?_⟩
        have := h4 j _ hj (hget j (by omega))
        simp only [decide_eq_true_eq]
        omega
    rw [this]; rfl
  unfold Spec.variance
  rw [hdir, shr_eq]
  norm_num

theorem onLine_lt {d k : Nat} {ij : Nat × Nat} (h : ij ∈ Spec.onLine d k) : ij.1 < 8 ∧ ij.2 < 8 :=
  mem_pairs (List.mem_filter.1 h).1

theorem sum_bound (l : List (Nat × Nat)) (f : Nat × Nat → Int) (h : ∀ x ∈ l, -128 ≤ f x ∧ f x ≤ 127) :
    -128 * (l.length : Int) ≤ (l.map f).sum ∧ (l.map f).sum ≤ 128 * (l.length : Int) := by
  induction l with
  | nil => simp
  | cons x l ih =>
    obtain ⟨h1, h2⟩ := ih (fun y hy => h y (by simp [hy]))
    obtain ⟨h3, h4⟩ := h x (by simp)
    simp only [List.map_cons, List.sum_cons, List.length_cons]
    push_cast
    omega

theorem line_lengths : ∀ d < 8, ((List.range 15).map (fun k => (Spec.onLine d k).length)).sum = 64 := by decide +kernel

/-- **C52**: nothing overflows in the search: the sums over the lines and the costs, which are sums of terms that are not
negative, stay within 31 bits. -/
theorem findDir_no_overflow (px : Nat → Nat → Int) (h : ∀ i j, i < 8 → j < 8 → -128 ≤ px i j ∧ px i j ≤ 127) (d : Nat)
    (hd : d < 8) : 0 ≤ Spec.cost px d ∧ Spec.cost px d < 2 ^ 31 ∧
      ∀ k, |((Spec.onLine d k).map (fun ij => px ij.1 ij.2)).sum| ≤ 8192 := by
  have hk : ∀ k, (-128 * ((Spec.onLine d k).length : Int) ≤ ((Spec.onLine d k).map (fun ij => px ij.1 ij.2)).sum) ∧
      ((Spec.onLine d k).map (fun ij => px ij.1 ij.2)).sum ≤ 128 * ((Spec.onLine d k).length : Int) := by
    intro k
    exact sum_bound _ _ (fun x hx => h _ _ (onLine_lt hx).1 (onLine_lt hx).2)
  have hterm : ∀ k, 0 ≤ ((Spec.onLine d k).map (fun ij => px ij.1 ij.2)).sum * ((Spec.onLine d k).map (fun ij => px ij.1 ij.2)).sum *
      (840 / (Spec.onLine d k).length : Nat) ∧
      ((Spec.onLine d k).map (fun ij => px ij.1 ij.2)).sum * ((Spec.onLine d k).map (fun ij => px ij.1 ij.2)).sum *
      (840 / (Spec.onLine d k).length : Nat) ≤ 13762560 * ((Spec.onLine d k).length : Int) := by
    intro k
    obtain ⟨h1, h2⟩ := hk k
    generalize ((Spec.onLine d k).map (fun ij => px ij.1 ij.2)).sum = s at *
    generalize (Spec.onLine d k).length = n at *
    have hq : ((840 / n : Nat) : Int) * n ≤ 840 := by exact_mod_cast Nat.div_mul_le_self 840 n
    have hq0 : (0 : Int) ≤ ((840 / n : Nat) : Int) := by positivity
    have hn0 : (0 : Int) ≤ n := by positivity
    generalize ((840 / n : Nat) : Int) = q at *
    have hs : s * s ≤ 128 * (n : Int) * (128 * n) := by nlinarith
    refine ⟨mul_nonneg (mul_self_nonneg s) hq0, ?_⟩
    calc s * s * q ≤ 128 * (n : Int) * (128 * n) * q := by nlinarith
      _ = 16384 * n * (q * n) := by ring
      _ ≤ 16384 * n * 840 := by nlinarith
      _ = 13762560 * n := by ring
  have hsum : ∀ l : List Nat, 0 ≤ (l.map (fun k =>
      ((Spec.onLine d k).map (fun ij => px ij.1 ij.2)).sum * ((Spec.onLine d k).map (fun ij => px ij.1 ij.2)).sum *
      ((840 / (Spec.onLine d k).length : Nat) : Int))).sum ∧ (l.map (fun k =>
      ((Spec.onLine d k).map (fun ij => px ij.1 ij.2)).sum * ((Spec.onLine d k).map (fun ij => px ij.1 ij.2)).sum *
      ((840 / (Spec.onLine d k).length : Nat) : Int))).sum ≤
      13762560 * (((l.map (fun k => (Spec.onLine d k).length)).sum : Nat) : Int) := by
    intro l
    induction l with
    | nil => simp
    | cons k l ih =>
      obtain ⟨a, b⟩ := hterm k
      obtain ⟨c, e⟩ := ih
      simp only [List.map_cons, List.sum_cons]
      rw [Nat.cast_add]
      refine ⟨Int.add_nonneg a c, ?_⟩
      rw [Int.mul_add]
      exact Int.add_le_add b e
  obtain ⟨a, b⟩ := hsum (List.range 15)
  rw [line_lengths d hd] at b
  refine ⟨a, ?_, ?_⟩
  · refine lt_of_le_of_lt b ?_
    norm_num
  · intro k
    have hlen : (Spec.onLine d k).length ≤ 64 := by
      refine Nat.le_trans (List.length_filter_le _ _) ?_
      decide
    obtain ⟨h1, h2⟩ := hk k
    rw [abs_le]
    omega

end Rav1e.Cdef
