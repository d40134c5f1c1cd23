import Verif.Lrf.Model
import Verif.Lrf.Spec

/-!
# The integral images

An entry of an integral image is the sum of the values above and to the left of it modulo `2^32`, so that the four corners
of a box give the sum over the box, whatever wrapped around in between.
-/

namespace Rav1e.Lrf

open Spec (sum)

theorem sum_congr {n : Nat} {f g : Nat → Nat} (h : ∀ i, i < n → f i = g i) : sum n f = sum n g := by
  induction n with
  | zero => rfl
  | succ n ih =>
    show sum n f + f n = sum n g + g n
    rw [ih (fun i hi => h i (by omega)), h n (by omega)]

theorem sum_add {n : Nat} (f g : Nat → Nat) : sum n (fun i => f i + g i) = sum n f + sum n g := by
  induction n with
  | zero => rfl
  | succ n ih =>
    show sum n (fun i => f i + g i) + (f n + g n) = sum n f + f n + (sum n g + g n)
    rw [ih]; omega

theorem sum_split (m n : Nat) (f : Nat → Nat) : sum (m + n) f = sum m f + sum n (fun i => f (m + i)) := by
  induction n with
  | zero => rfl
  | succ n ih =>
    show sum (m + n) f + f (m + n) = sum m f + (sum n (fun i => f (m + i)) + f (m + n))
    rw [ih]; omega

/-- The sum over the first `i` rows and `k` columns. -/
def rect (px : Nat → Nat → Nat) (i k : Nat) : Nat := sum i (fun i' => sum k (px i'))

theorem rect_succ (px : Nat → Nat → Nat) (i k : Nat) : rect px (i + 1) k = rect px i k + sum k (px i) := rfl

/-- The sum over a box from the four corners. -/
theorem rect_box (px : Nat → Nat → Nat) (y x m n : Nat) :
    rect px (y + m) (x + n) + rect px y x = rect px (y + m) x + rect px y (x + n) +
      sum m (fun i => sum n (fun j => px (y + i) (x + j))) := by
  have h : ∀ z, rect px (y + m) z = rect px y z + sum m (fun i => sum z (px (y + i))) := fun z => sum_split y m _
  rw [h, h]
  have e : sum m (fun i => sum (x + n) (px (y + i))) =
      sum m (fun i => sum x (px (y + i))) + sum m (fun i => sum n (fun j => px (y + i) (x + j))) := by
    rw [← sum_add]
    exact sum_congr (fun i _ => sum_split x n (px (y + i)))
  omega

theorem u32_some {x : Nat} (h : x < 4294967296) : u32 x = some x := if_pos h

/-! ## The rows of an image -/

theorem first_row (px : Nat → Nat) (buf : Nat → Nat) (n : Nat) :
    ((List.range n).foldl (firstStep px) (buf, 0)).2 = sum n px % 2 ^ 32 ∧
    ∀ j, ((List.range n).foldl (firstStep px) (buf, 0)).1 j = if j < n then sum (j + 1) px % 2 ^ 32 else buf j := by
  induction n with
  | zero => exact ⟨rfl, fun j => rfl⟩
  | succ n ih =>
    rw [List.range_succ, List.foldl_append]
    simp only [List.foldl_cons, List.foldl_nil]
    generalize (List.range n).foldl (firstStep px) (buf, 0) = st at ih ⊢
    obtain ⟨h1, h2⟩ := ih
    have e : (st.2 + px n) % 2 ^ 32 = sum (n + 1) px % 2 ^ 32 := by
      rw [h1]
      show _ = (sum n px + px n) % 2 ^ 32
      omega
    refine ⟨e, fun j => ?_⟩
    show setAt st.1 n ((st.2 + px n) % 2 ^ 32) j = _
    unfold setAt
    by_cases hj : j = n
    · subst hj
      rw [if_pos rfl, if_pos (by omega), e]
    · rw [if_neg hj, h2]
      by_cases h : j < n
      · rw [if_pos h, if_pos (by omega)]
      · rw [if_neg h, if_neg (by omega)]

theorem next_row (px : Nat → Nat) (buf : Nat → Nat) (stride base : Nat) (hb : stride ≤ base) (n : Nat) (hn : n ≤ stride) :
    ((List.range n).foldl (nextStep px stride base) (buf, 0)).2 = sum n px % 2 ^ 32 ∧
    ∀ j, ((List.range n).foldl (nextStep px stride base) (buf, 0)).1 j =
      if base ≤ j ∧ j < base + n then (sum (j - base + 1) px + buf (j - stride)) % 2 ^ 32 else buf j := by
  induction n with
  | zero =>
    refine ⟨rfl, fun j => ?_⟩
    rw [if_neg (by omega)]; rfl
  | succ n ih =>
    rw [List.range_succ, List.foldl_append]
    simp only [List.foldl_cons, List.foldl_nil]
    have ih := ih (by omega)
    generalize (List.range n).foldl (nextStep px stride base) (buf, 0) = st at ih ⊢
    obtain ⟨h1, h2⟩ := ih
    have e : (st.2 + px n) % 2 ^ 32 = sum (n + 1) px % 2 ^ 32 := by
      rw [h1]
      show _ = (sum n px + px n) % 2 ^ 32
      omega
    refine ⟨e, fun j => ?_⟩
    show setAt st.1 (base + n) (((st.2 + px n) % 2 ^ 32 + st.1 (base - stride + n)) % 2 ^ 32) j = _
    unfold setAt
    by_cases hj : j = base + n
    · subst hj
      rw [if_pos rfl, if_pos (by omega), e, h2, if_neg (by omega), show base + n - base + 1 = n + 1 by omega,
        show base + n - stride = base - stride + n by omega]
      omega
    · rw [if_neg hj, h2]
      by_cases h : base ≤ j ∧ j < base + n
      · rw [if_pos h, if_pos (by omega)]
      · rw [if_neg h, if_neg (by omega)]

/-- The image holds the sums over the rectangles from the top left corner. -/
theorem image_ok (px : Nat → Nat → Nat) (rows rowLen size stride : Nat) (buf : Nat → Nat) (hr : 0 < rows)
    (hl : rowLen ≤ stride) (hs : rows * stride ≤ size) :
    ∃ im, image px rows rowLen size stride buf = some im ∧
      ∀ i k, i < rows → k < rowLen → im (i * stride + k) = rect px (i + 1) (k + 1) % 2 ^ 32 := by
  obtain ⟨r, rfl⟩ : ∃ r, rows = r + 1 := ⟨rows - 1, by omega⟩
  unfold image
  rw [Nat.add_sub_cancel]
  have key : ∀ n, n ≤ r → ∃ im, (List.range n).foldlM (imageRow px rowLen size stride)
      ((List.range (min rowLen size)).foldl (firstStep (px 0)) (buf, 0)).1 = some im ∧
      ∀ i k, i ≤ n → k < rowLen → im (i * stride + k) = rect px (i + 1) (k + 1) % 2 ^ 32 := by
    intro n
    induction n with
    | zero =>
      intro _
      refine ⟨_, rfl, fun i k hi hk => ?_⟩
      have h0 : i = 0 := by omega
      subst h0
      have hsz : stride ≤ size := Nat.le_trans (Nat.le_mul_of_pos_left _ (by omega)) hs
      rw [(first_row (px 0) buf _).2, if_pos (by omega), Nat.zero_mul, Nat.zero_add]
      show _ = (0 + sum (k + 1) (px 0)) % 2 ^ 32
      rw [Nat.zero_add]
    | succ n ih =>
      intro hn
      obtain ⟨im, h1, h2⟩ := ih (by omega)
      rw [List.range_succ, List.foldlM_append, h1]
      have hsz : (n + 2) * stride ≤ size := Nat.le_trans (Nat.mul_le_mul_right _ (by omega)) hs
      have e2 : (n + 2) * stride = n * stride + stride + stride := by rw [Nat.add_mul]; omega
      have e1 : (n + 1) * stride = n * stride + stride := by rw [Nat.add_mul]; omega
      simp only [Option.bind_eq_bind, Option.bind_some, List.foldlM_cons, List.foldlM_nil]
      unfold imageRow
      rw [if_pos (by omega), show min rowLen (min stride (size - (n + 1) * stride)) = rowLen by omega]
      refine ⟨_, rfl, fun i k hi hk => ?_⟩
      rw [(next_row (px (n + 1)) im stride ((n + 1) * stride) (by omega) rowLen hl).2]
      by_cases hin : i = n + 1
      · subst hin
        rw [if_pos (by omega), show (n + 1) * stride + k - (n + 1) * stride + 1 = k + 1 by omega,
          show (n + 1) * stride + k - stride = n * stride + k by omega, h2 n k (by omega) hk, rect_succ px (n + 1)]
        omega
      · have hm : i * stride ≤ n * stride := Nat.mul_le_mul_right _ (by omega)
        rw [if_neg (by omega)]
        exact h2 i k (by omega) hk
  obtain ⟨im, h1, h2⟩ := key r (Nat.le_refl _)
  exact ⟨im, h1, fun i k hi hk => h2 i k (by omega) hk⟩

/-- The four corners give the sum over a box. -/
theorem integralSquare_eq (px : Nat → Nat → Nat) (im : Nat → Nat) (rows rowLen stride : Nat)
    (h : ∀ i k, i < rows → k < rowLen → im (i * stride + k) = rect px (i + 1) (k + 1) % 2 ^ 32)
    (x y d o : Nat) (hx : o + x + d < rowLen) (hy : o + y + d < rows)
    (hb : sum d (fun i => sum d (fun j => px (o + y + 1 + i) (o + x + 1 + j))) < 2 ^ 32) :
    integralSquare (fun i => im (o * stride + o + i)) stride x y d =
      sum d (fun i => sum d (fun j => px (o + y + 1 + i) (o + x + 1 + j))) := by
  unfold integralSquare
  have e : ∀ a b, o * stride + o + (a * stride + b) = (o + a) * stride + (o + b) := by
    intro a b; rw [Nat.add_mul]; omega
  have e1 : im (o * stride + o + (y * stride + x)) = rect px (o + y + 1) (o + x + 1) % 2 ^ 32 := by
    rw [e, h _ _ (by omega) (by omega)]
  have e2 : im (o * stride + o + (y * stride + x + d)) = rect px (o + y + 1) (o + x + 1 + d) % 2 ^ 32 := by
    rw [Nat.add_assoc (y * stride), e, h _ _ (by omega) (by omega)]
    congr 2; omega
  have e3 : im (o * stride + o + ((y + d) * stride + x)) = rect px (o + y + 1 + d) (o + x + 1) % 2 ^ 32 := by
    rw [e, h _ _ (by omega) (by omega)]
    congr 2; omega
  have e4 : im (o * stride + o + ((y + d) * stride + x + d)) = rect px (o + y + 1 + d) (o + x + 1 + d) % 2 ^ 32 := by
    rw [Nat.add_assoc ((y + d) * stride), e, h _ _ (by omega) (by omega)]
    congr 2 <;> omega
  have hbox := rect_box px (o + y + 1) (o + x + 1) d d
  simp only [e1, e2, e3, e4]
  generalize sum d (fun i => sum d (fun j => px (o + y + 1 + i) (o + x + 1 + j))) = S at hb hbox ⊢
  omega

/-! ## One box of the specification -/

/-- `a2` of the specification. -/
def a2 (z : Nat) : Nat := if z ≥ 255 then 256 else if z = 0 then 1 else (z * 2 ^ 8 + z / 2) / (z + 1)

/-- The same as it is computed. -/
def a2c (z : Nat) : Nat := if 255 ≤ z then 256 else if z = 0 then 1 else (z <<< 8 + z / 2) / (z + 1)

theorem a2_code (z : Nat) : a2c z = a2 z := by
  unfold a2c
  rw [Nat.shiftLeft_eq]; rfl

theorem finish_eq (bd n eps ssq S : Nat) : Spec.Dec.finish bd n eps ssq S =
    (a2 (Spec.round2 ((Spec.round2 ssq (2 * (bd - 8)) * n - Spec.round2 S (bd - 8) * Spec.round2 S (bd - 8)) *
        ((1048576 + n * n * eps / 2) / (n * n * eps))) 20),
      Spec.round2 ((256 - a2 (Spec.round2 ((Spec.round2 ssq (2 * (bd - 8)) * n - Spec.round2 S (bd - 8) * Spec.round2 S (bd - 8)) *
        ((1048576 + n * n * eps / 2) / (n * n * eps))) 20)) * S * ((4096 + n / 2) / n)) 12) := rfl

theorem round20 (x : Nat) : Spec.round2 x 20 = (x + (1 <<< 20 >>> 1)) >>> 20 := by
  rw [Nat.shiftRight_eq_div_pow]; rfl

theorem round12 (x : Nat) : Spec.round2 x 12 = (x + (1 <<< 12 >>> 1)) >>> 12 := by
  rw [Nat.shiftRight_eq_div_pow]; rfl

/-- `sgrproj_sum_finish` when nothing overflows. -/
theorem sumFinish_steps (bd ssq S n o s : Nat)
    (c1 : ssq + (1 <<< (2 * (bd - 8)) >>> 1) < 4294967296) (c2 : S + (1 <<< (bd - 8) >>> 1) < 4294967296)
    (a d : Nat) (ha : a = (ssq + (1 <<< (2 * (bd - 8)) >>> 1)) >>> (2 * (bd - 8)))
    (hd : d = (S + (1 <<< (bd - 8) >>> 1)) >>> (bd - 8))
    (c3 : a * n < 4294967296) (c4 : d * d < 4294967296) (c5 : (a * n - d * d) * s + (1 <<< 20 >>> 1) < 4294967296)
    (z : Nat) (hz : z = ((a * n - d * d) * s + (1 <<< 20 >>> 1)) >>> 20)
    (c6 : ((1 <<< 8) - a2c z) * S < 4294967296)
    (c7 : ((1 <<< 8) - a2c z) * S * o + (1 <<< 12 >>> 1) < 4294967296) :
    sumFinish bd ssq S n o s = some (a2c z, (((1 <<< 8) - a2c z) * S * o + (1 <<< 12 >>> 1)) >>> 12) := by
  have c5' : (a * n - d * d) * s < 4294967296 := Nat.lt_of_le_of_lt (Nat.le_add_right _ _) c5
  have c7' : ((1 <<< 8) - a2c z) * S * o < 4294967296 := Nat.lt_of_le_of_lt (Nat.le_add_right _ _) c7
  subst ha hd hz
  unfold sumFinish
  refine Option.bind_eq_some_iff.mpr ⟨_, u32_some c1, ?_⟩
  refine Option.bind_eq_some_iff.mpr ⟨_, u32_some c2, ?_⟩
  refine Option.bind_eq_some_iff.mpr ⟨_, u32_some c3, ?_⟩
  refine Option.bind_eq_some_iff.mpr ⟨_, u32_some c4, ?_⟩
  refine Option.bind_eq_some_iff.mpr ⟨_, u32_some c5', ?_⟩
  refine Option.bind_eq_some_iff.mpr ⟨_, u32_some c5, ?_⟩
  refine Option.bind_eq_some_iff.mpr ⟨_, u32_some c6, ?_⟩
  refine Option.bind_eq_some_iff.mpr ⟨_, u32_some c7', ?_⟩
  refine Option.bind_eq_some_iff.mpr ⟨_, u32_some c7, ?_⟩
  rfl

end Rav1e.Lrf
