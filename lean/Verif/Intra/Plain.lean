import Verif.Intra.Assemble
import Mathlib.Tactic.Ring
import Mathlib.Tactic.Linarith

/-!
# The predictions that have no angle
-/

namespace Rav1e.Intra

variable {p : Region} {s : Site} {S : Spec.Input}

theorem IsL.last {a : Arr} {n : Nat} (h : IsL a S n) (m : Nat) : IsL (a.last m) S (min n m) := by
  have e : ∀ k < min n m, (a.last m).at_ (min n m - 1 - k) = a.at_ (n - 1 - k) := by
    intro k hk
    show a.at_ (a.len - m + (min n m - 1 - k)) = _
    rw [h.len]
    congr 1
    omega
  refine ⟨?_, fun k hk => ?_, fun k hk => ?_⟩
  · show a.len - (a.len - m) = _
    rw [h.len]; omega
  · rw [e k hk]; exact h.eq k (by omega)
  · rw [e k hk]; exact h.lt k (by omega)

theorem IsL.last' {a : Arr} {n m : Nat} (h : IsL a S n) (hm : m ≤ n) : IsL (a.last m) S m := by
  have := h.last m
  rwa [Nat.min_eq_right hm] at this

theorem IsA.get {a : Arr} {n k : Nat} (h : IsA a S n) (hk : k < n) : Good S.bitDepth (a.get k) (S.aboveRow k) := by
  refine ⟨a.at_ k, ?_, h.eq k hk, h.lt k hk⟩
  unfold Arr.get
  rw [if_pos (by rw [h.len]; exact hk)]

theorem IsL.get {a : Arr} {n k : Nat} (h : IsL a S n) (hk : k < n) : Good S.bitDepth (a.get (n - 1 - k)) (S.leftCol k) := by
  refine ⟨a.at_ (n - 1 - k), ?_, h.eq k hk, h.lt k hk⟩
  unfold Arr.get
  rw [if_pos (by rw [h.len]; omega)]

/-! ### Averages -/

theorem sum_cast {n : Nat} {f : Nat → Nat} {g : Nat → Int} (h : ∀ k < n, (f k : Int) = g k) :
    ((((List.range n).map f).sum : Nat) : Int) = Spec.sum n g := by
  unfold Spec.sum
  induction n with
  | zero => rfl
  | succ n ih =>
    rw [List.range_succ, List.map_append, List.map_append, List.sum_append, List.sum_append, Int.natCast_add,
      ih (fun k hk => h k (by omega))]
    simp [h n (by omega)]

theorem sum_le {n M : Nat} {f : Nat → Nat} (h : ∀ k < n, f k < M) : ((List.range n).map f).sum ≤ n * (M - 1) := by
  induction n with
  | zero => simp
  | succ n ih =>
    rw [List.range_succ, List.map_append, List.sum_append, Nat.succ_mul]
    have := ih (fun k hk => h k (by omega))
    have := h n (by omega)
    simp
    omega

theorem avg_lt {n t M : Nat} (hn : 0 < n) (hM : 0 < M) (h : t ≤ n * (M - 1)) : (t + (n >>> 1)) / n < M := by
  apply Nat.div_lt_of_lt_mul
  rw [Nat.shiftRight_eq_div_pow]
  obtain ⟨m, rfl⟩ : ∃ m, M = m + 1 := ⟨M - 1, by omega⟩
  rw [Nat.add_sub_cancel] at h
  rw [Nat.mul_add, Nat.mul_one]
  have : n / 2 ^ 1 < n := by omega
  omega

theorem clip_of_lt {bd n : Nat} (h : n < 2 ^ bd) : Spec.clip1 bd (n : Int) = n := by
  unfold Spec.clip1
  have : ((2 ^ bd : Nat) : Int) = (2 : Int) ^ bd := by push_cast; rfl
  omega

theorem rev_sum {n : Nat} {a : Nat → Nat} : ((List.range n).map a).sum = ((List.range n).map fun k => a (n - 1 - k)).sum := by
  induction n generalizing a with
  | zero => rfl
  | succ n ih =>
    rw [List.range_succ, List.map_append, List.sum_append, ih]
    have e : (List.range n ++ [n]) = 0 :: (List.range n).map Nat.succ := by rw [← List.range_succ, List.range_succ_eq_map]
    rw [e]; simp only [List.map_cons, List.sum_cons, List.map_map]
    have : (List.map ((fun k => a (n + 1 - 1 - k)) ∘ Nat.succ) (List.range n)) = List.map (fun k => a (n - 1 - k)) (List.range n) := by
      apply List.map_congr_left
      intro k hk
      simp only [Function.comp]
      congr 1
      omega
    rw [this]
    simp
    omega

theorem IsA.sum {a : Arr} {n m : Nat} (h : IsA a S n) (hm : m ≤ n) :
    ∃ t, a.sum m = some t ∧ (t : Int) = Spec.sum m (fun k => S.aboveRow k) ∧ t ≤ m * (2 ^ S.bitDepth - 1) := by
  unfold Arr.sum
  rw [if_pos (by rw [h.len]; exact hm)]
  exact ⟨_, rfl, sum_cast (fun k hk => h.eq k (by omega)), sum_le (fun k hk => h.lt k (by omega))⟩

theorem IsL.sum {a : Arr} {n : Nat} (h : IsL a S n) :
    ∃ t, a.sum n = some t ∧ (t : Int) = Spec.sum n (fun k => S.leftCol k) ∧ t ≤ n * (2 ^ S.bitDepth - 1) := by
  unfold Arr.sum
  rw [if_pos (by rw [h.len])]
  refine ⟨_, rfl, ?_, ?_⟩
  · rw [rev_sum]; exact sum_cast h.eq
  · rw [rev_sum]; exact sum_le h.lt

theorem dc_ok (A : Agree p s S) {above left : Arr} {n : Nat} (hA : IsA above S n) (hn : s.w ≤ n) (hL : s.x ≠ 0 → IsL left S s.h)
    (r c : Nat) : Good S.bitDepth (predDcAny above left s.x s.y s.w s.h S.bitDepth r c) S.dc := by
  have hw := side_pos A.sizeW
  have hh := side_pos A.sizeH
  have hb := base_eq A.bitDepth
  have hM : 0 < 2 ^ S.bitDepth := Nat.pow_pos (by decide)
  obtain ⟨ta, ea, ga, la⟩ := hA.sum hn
  unfold predDcAny Spec.Input.dc
  simp only
  rw [A.haveAbove, A.haveLeft, A.w, A.h]
  by_cases h0 : s.x = 0
  · by_cases h1 : s.y = 0
    · rw [if_pos ⟨h0, h1⟩]
      simp only [h0, h1, ne_eq, not_true_eq_false, decide_false, Bool.and_self, Bool.false_eq_true, if_false]
      exact ⟨_, rfl, hb.2.2.2, by show base S.bitDepth < _; omega⟩
    · rw [if_neg (by omega), if_neg h1, if_pos h0]
      simp only [h0, h1, ne_eq, not_true_eq_false, decide_false, not_false_eq_true, decide_true, Bool.and_true, Bool.false_eq_true,
        if_false, if_true]
      have hl := avg_lt (n := s.w) (by omega) hM la
      refine ⟨_, by unfold predDcTop; rw [ea]; rfl, ?_, hl⟩
      rw [← ga, ← clip_of_lt hl]
      rfl
  · obtain ⟨tl, el, gl, ll⟩ := (hL h0).sum
    by_cases h1 : s.y = 0
    · rw [if_neg (by omega), if_pos h1]
      simp only [h0, h1, ne_eq, not_true_eq_false, decide_false, not_false_eq_true, decide_true, Bool.and_false, Bool.false_eq_true,
        if_false, if_true]
      have hl := avg_lt (n := s.h) (by omega) hM ll
      refine ⟨_, by unfold predDcLeft; rw [(hL h0).len, el]; rfl, ?_, hl⟩
      rw [← gl, ← clip_of_lt hl]
      rfl
    · rw [if_neg (by omega), if_neg h1, if_neg h0]
      simp only [h0, h1, ne_eq, not_false_eq_true, decide_true, Bool.and_self, if_true]
      have hl := avg_lt (n := s.w + s.h) (t := tl + ta) (by omega) hM (by rw [Nat.add_mul]; omega)
      refine ⟨_, by unfold predDc; rw [el, ea]; rfl, ?_, hl⟩
      rw [← gl, ← ga]
      rfl

/-! ### Copies and Paeth -/

theorem v_ok {above : Arr} {n w : Nat} (hA : IsA above S n) (hn : w ≤ n) {r c : Nat} (hc : c < w) :
    Good S.bitDepth (predV above w r c) (S.aboveRow c) := by
  unfold predV
  rw [if_pos (by rw [hA.len]; exact hn)]
  exact hA.get (by omega)

theorem h_ok {left : Arr} {h : Nat} (hL : IsL left S h) {r c : Nat} (hr : r < h) :
    Good S.bitDepth (predH left h r c) (S.leftCol r) := by
  unfold predH
  rw [if_pos (by rw [hL.len])]
  exact hL.get hr

theorem paeth_ok {above left : Arr} {n h t : Nat} (hA : IsA above S n) (hL : IsL left S h) (ht : (t : Int) = S.aboveRow (-1))
    (ht' : t < 2 ^ S.bitDepth) {r c : Nat} (hr : r < h) (hc : c < n) :
    Good S.bitDepth (predPaeth above left t h r c) (S.paeth r c) := by
  obtain ⟨l, el, gl, ll⟩ := hL.get hr
  obtain ⟨a, ea, ga, la⟩ := hA.get hc
  unfold predPaeth Spec.Input.paeth
  rw [el, ea, ← gl, ← ga, ← ht]
  simp only [Option.bind_some, Option.map_some]
  refine ⟨_, rfl, ?_, ?_⟩
  · split
    · rfl
    · split <;> rfl
  · split
    · exact ll
    · split
      · exact la
      · exact ht'

theorem aboveRow_corner (hA : S.haveAbove = true) (hL : S.haveLeft = false) : S.aboveRow (-1) = S.cur (S.y - 1) S.x := by
  unfold Spec.Input.aboveRow; simp [hA, hL]

theorem aboveRow_corner' (hA : S.haveAbove = false) (hL : S.haveLeft = true) : S.aboveRow (-1) = S.cur S.y (S.x - 1) := by
  unfold Spec.Input.aboveRow; simp [hA, hL]

theorem aboveRow_corner'' (hA : S.haveAbove = false) (hL : S.haveLeft = false) : S.aboveRow (-1) = 2 ^ (S.bitDepth - 1) := by
  unfold Spec.Input.aboveRow; simp [hA, hL]

/-- Without the column to the left Paeth is a copy of the row above. -/
theorem paeth_top (hA : S.haveAbove = true) (hL : S.haveLeft = false) (r c : Nat) : S.paeth r c = S.aboveRow c := by
  unfold Spec.Input.paeth
  rw [leftCol_none hL (by omega), aboveRow_corner hA hL, hA]
  simp only [if_true]
  generalize S.aboveRow c = a
  generalize S.cur (S.y - 1) S.x = t
  split
  · omega
  · split
    · rfl
    · omega

/-- Without the row above Paeth is a copy of the column to the left. -/
theorem paeth_left (hA : S.haveAbove = false) (hL : S.haveLeft = true) (r c : Nat) : S.paeth r c = S.leftCol r := by
  unfold Spec.Input.paeth
  rw [aboveRow_none hA (by omega), aboveRow_corner' hA hL, hL]
  simp only [if_true]
  generalize S.leftCol r = a
  generalize S.cur S.y (S.x - 1) = t
  split
  · rfl
  · omega

/-- Without either, it is the middle of the range. -/
theorem paeth_none (hA : S.haveAbove = false) (hL : S.haveLeft = false) (r c : Nat) : S.paeth r c = S.dc := by
  unfold Spec.Input.paeth Spec.Input.dc
  rw [leftCol_none hL (by omega), aboveRow_none hA (by omega), aboveRow_corner'' hA hL, hA, hL]
  simp only [Bool.and_self, Bool.false_eq_true, if_false]
  generalize (2 : Int) ^ (S.bitDepth - 1) = t
  split
  · omega
  · split
    · omega
    · rfl

/-! ### Smooth -/

theorem smWeights_ok : ∀ n ∈ [4, 8, 16, 32, 64], smOk n = true ∧ ∀ i < n, ∃ v ≤ 255, smWeight n i = some v ∧ Spec.smWeight n i = (v : Int) := by
  decide +kernel

theorem blend9 {M a b l r u v : Nat} (ha : a < M) (hb : b < M) (hl : l < M) (hr : r < M) (hu : u ≤ 255) (hv : v ≤ 255) :
    (((u * a + (256 - u) * b + v * l + (256 - v) * r + (1 <<< 8)) >>> 9 : Nat) : Int) =
      Spec.round2 ((u : Int) * a + (256 - u) * b + v * l + (256 - v) * r) 9 ∧
    (u * a + (256 - u) * b + v * l + (256 - v) * r + (1 <<< 8)) >>> 9 < M := by
  obtain ⟨u', hu'⟩ : ∃ u', u + u' = 256 := ⟨256 - u, by omega⟩
  obtain ⟨v', hv'⟩ : ∃ v', v + v' = 256 := ⟨256 - v, by omega⟩
  rw [show 256 - u = u' by omega, show 256 - v = v' by omega, show (256 : Int) - u = u' by omega, show (256 : Int) - v = v' by omega]
  have e1 : u * a + u' * b ≤ 256 * (M - 1) := by
    rw [← hu', Nat.add_mul]; exact Nat.add_le_add (Nat.mul_le_mul_left _ (by omega)) (Nat.mul_le_mul_left _ (by omega))
  have e2 : v * l + v' * r ≤ 256 * (M - 1) := by
    rw [← hv', Nat.add_mul]; exact Nat.add_le_add (Nat.mul_le_mul_left _ (by omega)) (Nat.mul_le_mul_left _ (by omega))
  have e3 : (u : Int) * a + u' * b + v * l + v' * r = ((u * a + u' * b + v * l + v' * r : Nat) : Int) := by push_cast; rfl
  rw [e3]
  unfold Spec.round2
  rw [if_neg (by decide), Int.shiftRight_eq_div_pow, Nat.shiftRight_eq_div_pow, show ((2 ^ 9 : Nat) : Int) = 512 from rfl,
    show (2 : Int) ^ (9 - 1) = 256 from rfl, show (1 : Nat) <<< 8 = 256 from rfl, show (2 : Nat) ^ 9 = 512 from rfl]
  omega

theorem blend8 {M a b u : Nat} (ha : a < M) (hb : b < M) (hu : u ≤ 255) :
    (((u * a + (256 - u) * b + (1 <<< 7)) >>> 8 : Nat) : Int) = Spec.round2 ((u : Int) * a + (256 - u) * b) 8 ∧
    (u * a + (256 - u) * b + (1 <<< 7)) >>> 8 < M := by
  obtain ⟨u', hu'⟩ : ∃ u', u + u' = 256 := ⟨256 - u, by omega⟩
  rw [show 256 - u = u' by omega, show (256 : Int) - u = u' by omega]
  have e1 : u * a + u' * b ≤ 256 * (M - 1) := by
    rw [← hu', Nat.add_mul]; exact Nat.add_le_add (Nat.mul_le_mul_left _ (by omega)) (Nat.mul_le_mul_left _ (by omega))
  have e3 : (u : Int) * a + u' * b = ((u * a + u' * b : Nat) : Int) := by push_cast; rfl
  rw [e3]
  unfold Spec.round2
  rw [if_neg (by decide), Int.shiftRight_eq_div_pow, Nat.shiftRight_eq_div_pow, show ((2 ^ 8 : Nat) : Int) = 256 from rfl,
    show (2 : Int) ^ (8 - 1) = 128 from rfl, show (1 : Nat) <<< 7 = 128 from rfl, show (2 : Nat) ^ 8 = 256 from rfl]
  omega

theorem leftCol_last {left : Arr} {h : Nat} (hL : IsL left S h) (h0 : 0 < h) : Good S.bitDepth (left.get 0) (S.leftCol ((h : Int) - 1)) := by
  have := hL.get (k := h - 1) (by omega)
  rw [show h - 1 - (h - 1) = 0 by omega, show ((h - 1 : Nat) : Int) = (h : Int) - 1 by omega] at this
  exact this

theorem aboveRow_last {above : Arr} {n w : Nat} (hA : IsA above S n) (hn : w ≤ n) (h0 : 0 < w) :
    Good S.bitDepth (above.get (w - 1)) (S.aboveRow ((w : Int) - 1)) := by
  have := hA.get (k := w - 1) (by omega)
  rwa [show ((w - 1 : Nat) : Int) = (w : Int) - 1 by omega] at this

theorem smooth_ok (A : Agree p s S) {above left : Arr} {n : Nat} (hA : IsA above S n) (hn : s.w ≤ n) (hL : IsL left S s.h)
    {r c : Nat} (hr : r < s.h) (hc : c < s.w) : Good S.bitDepth (predSmooth above left s.w s.h r c) (S.smooth r c) := by
  have hw := side_pos A.sizeW
  have hh := side_pos A.sizeH
  obtain ⟨ow, vw⟩ := smWeights_ok s.w A.sizeW
  obtain ⟨oh, vh⟩ := smWeights_ok s.h A.sizeH
  obtain ⟨u, hu, eu, gu⟩ := vh r hr
  obtain ⟨v, hv, ev, gv⟩ := vw c hc
  obtain ⟨a, ea, ga, la⟩ := hA.get (k := c) (by omega)
  obtain ⟨l, el, gl, ll⟩ := hL.get hr
  obtain ⟨b, eb, gb, lb⟩ := leftCol_last hL (by omega)
  obtain ⟨t, et, gt, lt⟩ := aboveRow_last hA hn (by omega)
  unfold predSmooth Spec.Input.smooth
  rw [ow, oh, A.w, A.h, gu, gv, ← gb, ← gt, ← gl, ← ga]
  simp only [Bool.and_self, if_true]
  rw [eb, et, ea, el, eu, ev]
  simp only [Option.bind_some]
  rw [if_pos ⟨by omega, by omega⟩]
  have key := blend9 la lb ll lt hu hv
  exact ⟨_, rfl, key.1, key.2⟩

theorem smoothV_ok (A : Agree p s S) {above left : Arr} {n : Nat} (hA : IsA above S n) (hn : s.w ≤ n) (hL : IsL left S s.h)
    {r c : Nat} (hr : r < s.h) (hc : c < s.w) : Good S.bitDepth (predSmoothV above left s.h r c) (S.smoothV r c) := by
  have hh := side_pos A.sizeH
  obtain ⟨oh, vh⟩ := smWeights_ok s.h A.sizeH
  obtain ⟨u, hu, eu, gu⟩ := vh r hr
  obtain ⟨a, ea, ga, la⟩ := hA.get (k := c) (by omega)
  obtain ⟨b, eb, gb, lb⟩ := leftCol_last hL (by omega)
  unfold predSmoothV Spec.Input.smoothV
  rw [oh, A.h, gu, ← gb, ← ga]
  simp only [if_true]
  rw [eb, ea, eu]
  simp only [Option.bind_some]
  rw [if_pos (by omega)]
  have key := blend8 la lb hu
  exact ⟨_, rfl, key.1, key.2⟩

theorem smoothH_ok (A : Agree p s S) {above left : Arr} {n : Nat} (hA : IsA above S n) (hn : s.w ≤ n) (hL : IsL left S s.h)
    {r c : Nat} (hr : r < s.h) (hc : c < s.w) : Good S.bitDepth (predSmoothH above left s.w s.h r c) (S.smoothH r c) := by
  have hw := side_pos A.sizeW
  obtain ⟨ow, vw⟩ := smWeights_ok s.w A.sizeW
  obtain ⟨v, hv, ev, gv⟩ := vw c hc
  obtain ⟨l, el, gl, ll⟩ := hL.get hr
  obtain ⟨t, et, gt, lt⟩ := aboveRow_last hA hn (by omega)
  unfold predSmoothH Spec.Input.smoothH
  rw [ow, A.w, gv, ← gt, ← gl]
  simp only [if_true]
  rw [et, el, ev]
  simp only [Option.bind_some]
  rw [if_pos (by omega)]
  have key := blend8 ll lt hv
  exact ⟨_, rfl, key.1, key.2⟩

end Rav1e.Intra
