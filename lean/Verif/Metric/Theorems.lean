import Verif.Metric.Had
import Mathlib.Data.Rat.Cast.Order

/-!
# C69: the metrics of motion search and mode decision
-/

namespace Rav1e.Metric

open Finset
open Rav1e.Dist (chk chkI sumChk sumChk_eq)
open Spec (sign coeff transformed shift)

theorem mapM_some {α β : Type} {f : α → Option β} {g : α → β} : ∀ {l : List α}, (∀ x ∈ l, f x = some (g x)) → l.mapM f = some (l.map g) := by
  intro l
  induction l with
  | nil => intro _; rfl
  | cons x l ih =>
    intro h
    rw [List.mapM_cons, h x (by simp), ih fun y hy => h y (by simp [hy])]
    rfl

theorem sum_map_range (n : Nat) (f : Nat → Nat) : ((List.range n).map f).sum = ∑ i ∈ range n, f i := rfl

theorem sum_bound {n B : Nat} {f : Nat → Nat} (h : ∀ i < n, f i ≤ B) : ∑ i ∈ range n, f i ≤ n * B := by
  refine le_trans (sum_le_card_nsmul _ _ B fun i hi => h i (by simpa using hi)) ?_
  simp

theorem diff_le {p q M : Nat} (hp : p ≤ M) (hq : q ≤ M) : ((p : Int) - q).natAbs ≤ M := by omega

theorem spec_sad_le {a b : Nat → Nat → Nat} {w h M : Nat} (ha : ∀ y < h, ∀ x < w, a y x ≤ M) (hb : ∀ y < h, ∀ x < w, b y x ≤ M) : Spec.sad a b w h ≤ h * (w * M) :=
  sum_bound fun y hy => sum_bound fun x hx => diff_le (ha y hy x hx) (hb y hy x hx)

/-- **C69.** The sum of absolute differences is computed without overflow, for blocks of up to 128x128 pixels of up to 16 bits. -/
theorem sad_eq {a b : Nat → Nat → Nat} {w h : Nat} (hw : w ≤ 128) (hh : h ≤ 128) (ha : ∀ y < h, ∀ x < w, a y x ≤ 65535) (hb : ∀ y < h, ∀ x < w, b y x ≤ 65535) :
    sad a b w h = some (Spec.sad a b w h) := by
  have hrow : ∀ y < h, ∑ x ∈ range w, ((a y x : Int) - b y x).natAbs ≤ 128 * 65535 := fun y hy =>
    le_trans (sum_bound fun x hx => diff_le (ha y hy x hx) (hb y hy x hx)) (Nat.mul_le_mul_right _ hw)
  unfold sad
  rw [if_neg (by omega)]
  have e : (List.range h).mapM (fun y => sumChk 32 ((List.range w).map fun x => ((a y x : Int) - b y x).natAbs)) =
      some ((List.range h).map fun y => ∑ x ∈ range w, ((a y x : Int) - b y x).natAbs) := by
    refine mapM_some fun y hy => ?_
    have := hrow y (by simpa using hy)
    rw [sumChk_eq (by rw [sum_map_range]; omega), sum_map_range]
  simp only [e, Option.bind_eq_bind, Option.bind_some]
  have := sum_bound hrow
  have : h * (128 * 65535) ≤ 128 * (128 * 65535) := Nat.mul_le_mul_right _ hh
  rw [sumChk_eq (by rw [sum_map_range]; omega), sum_map_range]
  rfl

example : sad (fun y x => 3 * y + x) (fun y x => y + 2 * x) 8 4 = some (Spec.sad (fun y x => 3 * y + x) (fun y x => y + 2 * x) 8 4) :=
  sad_eq (by norm_num) (by norm_num) (fun y _ x _ => by omega) (fun y _ x _ => by omega)

/-- A square of `Spec.satd`. -/
def part (a b : Nat → Nat → Nat) (w h n y x : Nat) : Nat :=
  if y + n ≤ h ∧ x + n ≤ w then transformed n fun i j => (shift a y x i j : Int) - shift b y x i j
  else Spec.sad (shift a y x) (shift b y x) (min n (w - x)) (min n (h - y))

theorem chunk_ok {a b : Nat → Nat → Nat} {w h n : Nat} (hn : n = 4 ∨ n = 8) (ha : ∀ y < h, ∀ x < w, a y x ≤ 4095) (hb : ∀ y < h, ∀ x < w, b y x ≤ 4095) {y x : Nat} (hy : y < h)
    (hx : x < w) : chunk a b w h n (y, x) = some (part a b w h n y x) ∧ part a b w h n y x ≤ n * n * (n * (n * 4095)) := by
  unfold chunk part
  dsimp only
  by_cases hc : y + n ≤ h ∧ x + n ≤ w
  · have hd : ∀ i < n, ∀ j < n, |(shift a y x i j : Int) - shift b y x i j| ≤ 4095 := by
      intro i hi j hj
      have h1 := ha (y + i) (by omega) (x + j) (by omega)
      have h2 := hb (y + i) (by omega) (x + j) (by omega)
      unfold shift
      rw [abs_le]
      omega
    have hB := transformed_le n fun i j => (shift a y x i j : Int) - shift b y x i j
    have hB2 : ∑ i ∈ range n, ∑ j ∈ range n, ((shift a y x i j : Int) - shift b y x i j).natAbs ≤ n * (n * 4095) :=
      sum_bound fun i hi => sum_bound fun j hj => by have := hd i hi j hj; rw [abs_le] at this; omega
    have hB3 := le_trans hB (Nat.mul_le_mul_left (n * n) hB2)
    obtain ⟨d', e, he⟩ := hadamard_ok hn (d := fun i j => (shift a y x i j : Int) - shift b y x i j) hd (by norm_num)
    rw [if_neg (by omega), if_pos hc]
    refine ⟨?_, hB3⟩
    have es : ((List.range (n * n)).map fun p => (d' p).natAbs).sum = transformed n fun i j => (shift a y x i j : Int) - shift b y x i j := by
      rw [sum_map_range, sum_square]
      unfold transformed
      refine sum_congr rfl fun u hu => sum_congr rfl fun v hv => ?_
      rw [he u (by simpa using hu) v (by simpa using hv)]
    have e' : hadamard2d n (fun p => ((a (y + p / n) (x + p % n) : Nat) : Int) - (b (y + p / n) (x + p % n) : Nat)) = some d' := e
    rw [e']
    simp only [Option.bind_eq_bind, Option.bind_some]
    rw [sumChk_eq, es]
    rw [es]
    rcases hn with rfl | rfl <;> omega
  · rw [if_pos (by omega), if_neg hc]
    have e1 : min (w - x) n = min n (w - x) := Nat.min_comm _ _
    have e2 : min (h - y) n = min n (h - y) := Nat.min_comm _ _
    rw [e1, e2]
    have g1 : ∀ i < min n (h - y), ∀ j < min n (w - x), shift a y x i j ≤ 4095 := fun i hi j hj => ha _ (by omega) _ (by omega)
    have g2 : ∀ i < min n (h - y), ∀ j < min n (w - x), shift b y x i j ≤ 4095 := fun i hi j hj => hb _ (by omega) _ (by omega)
    constructor
    · exact sad_eq (by omega) (by omega) (fun i hi j hj => le_trans (g1 i hi j hj) (by norm_num)) (fun i hi j hj => le_trans (g2 i hi j hj) (by norm_num))
    · refine le_trans (spec_sad_le g1 g2) (le_trans (Nat.mul_le_mul (Nat.min_le_left _ _) (Nat.mul_le_mul_right _ (Nat.min_le_left _ _))) ?_)
      exact Nat.le_mul_of_pos_left _ (by rcases hn with rfl | rfl <;> norm_num)

theorem spec_satd (a b : Nat → Nat → Nat) (w h n : Nat) : Spec.satd a b w h n = ∑ i ∈ range ((h + n - 1) / n), ∑ j ∈ range ((w + n - 1) / n), part a b w h n (i * n) (j * n) := by
  unfold Spec.satd part
  refine sum_congr rfl fun i _ => sum_congr rfl fun j _ => ?_
  rw [Nat.succ_mul, Nat.succ_mul]

theorem starts_sum (h w n : Nat) (f : Nat × Nat → Nat) : (((starts h n).flatMap fun y => (starts w n).map fun x => (y, x)).map f).sum =
    ∑ i ∈ range ((h + n - 1) / n), ∑ j ∈ range ((w + n - 1) / n), f (i * n, j * n) := by
  unfold starts
  rw [List.map_flatMap, List.flatMap_def, List.sum_flatten, List.map_map, List.map_map]
  rw [sum_map_range]
  refine sum_congr rfl fun i _ => ?_
  show (List.map f (List.map (fun x => (i * n, x)) (List.map (· * n) (List.range ((w + n - 1) / n))))).sum = _
  rw [List.map_map, List.map_map]
  rfl

/-- **C69.** The sum of absolute transformed differences never panics or overflows for blocks of 4xn, nx4 or at least 8x8 pixels, up to 128x128 with up to 12 bits; it is
the sum of the absolute values of the Hadamard coefficients of the difference, in squares of 4 or 8, divided by 4 or 8 and rounded. -/
theorem satd_eq {a b : Nat → Nat → Nat} {w h n : Nat} (hw : w ≤ 128) (hh : h ≤ 128) (en : n = min (min w h) 8) (hn : n = 4 ∨ n = 8)
    (ha : ∀ y < h, ∀ x < w, a y x ≤ 4095) (hb : ∀ y < h, ∀ x < w, b y x ≤ 4095) : satd a b w h = some ((Spec.satd a b w h n + n / 2) / n) := by
  have n0 : 0 < n := by omega
  have hlt : ∀ {m i : Nat}, i < (m + n - 1) / n → i * n < m := by
    intro m i hi
    have : (i + 1) * n ≤ m + n - 1 := (Nat.le_div_iff_mul_le n0).1 hi
    rw [Nat.succ_mul] at this
    omega
  have hparts : ((starts h n).flatMap fun y => (starts w n).map fun x => (y, x)).mapM (chunk a b w h n) =
      some (((starts h n).flatMap fun y => (starts w n).map fun x => (y, x)).map fun c => part a b w h n c.1 c.2) := by
    refine mapM_some fun c hc => ?_
    simp only [starts, List.mem_flatMap, List.mem_map, List.mem_range] at hc
    obtain ⟨y, ⟨i, hi, rfl⟩, x, ⟨j, hj, rfl⟩, rfl⟩ := hc
    exact (chunk_ok hn ha hb (hlt hi) (hlt hj)).1
  have hsum := starts_sum h w n fun c => part a b w h n c.1 c.2
  rw [← spec_satd] at hsum
  have hbound : Spec.satd a b w h n ≤ (h + n - 1) / n * ((w + n - 1) / n * (n * n * (n * (n * 4095)))) := by
    rw [spec_satd]
    exact sum_bound fun i hi => sum_bound fun j hj => (chunk_ok hn ha hb (hlt hi) (hlt hj)).2
  have hbound2 : Spec.satd a b w h n < 2 ^ 33 := by
    rcases hn with rfl | rfl
    · have h1 : (h + 4 - 1) / 4 ≤ 32 := by omega
      have h2 : (w + 4 - 1) / 4 ≤ 32 := by omega
      have := Nat.mul_le_mul h1 (Nat.mul_le_mul_right (4 * 4 * (4 * (4 * 4095))) h2)
      omega
    · have h1 : (h + 8 - 1) / 8 ≤ 16 := by omega
      have h2 : (w + 8 - 1) / 8 ≤ 16 := by omega
      have := Nat.mul_le_mul h1 (Nat.mul_le_mul_right (8 * 8 * (8 * (8 * 4095))) h2)
      omega
  obtain ⟨T, hT⟩ : ∃ T, T = Spec.satd a b w h n := ⟨_, rfl⟩
  rw [← hT] at hsum hbound2 ⊢
  unfold satd
  rw [if_neg (by omega)]
  simp only [← en]
  rw [if_neg (by omega)]
  simp only [hparts, Option.bind_eq_bind, Option.bind_some]
  rw [sumChk_eq (by rw [hsum]; omega), hsum]
  simp only [Option.bind_some]
  unfold chk
  rcases hn with e | e
  · rw [e]
    have : Nat.log2 4 = 2 := by decide
    rw [this]
    norm_num only [Nat.shiftLeft_eq, Nat.shiftRight_eq_div_pow]
    rw [if_pos (by omega), Option.bind_some]
    congr 1
    omega
  · rw [e]
    have : Nat.log2 8 = 3 := by decide
    rw [this]
    norm_num only [Nat.shiftLeft_eq, Nat.shiftRight_eq_div_pow]
    rw [if_pos (by omega), Option.bind_some]
    congr 1
    omega

theorem sum_blocks (H W n : Nat) (f : Nat → Nat → Nat) : ∑ i ∈ range H, ∑ j ∈ range W, ∑ y ∈ range n, ∑ x ∈ range n, f (i * n + y) (j * n + x) =
    ∑ y ∈ range (H * n), ∑ x ∈ range (W * n), f y x := by
  rw [sum_square]
  refine sum_congr rfl fun i _ => ?_
  rw [sum_comm]
  refine sum_congr rfl fun y _ => ?_
  rw [sum_square]

/-- **C69.** If the squares cover the block, the result lies between `n` times the largest difference of two pixels and `n` times the sum of absolute differences. -/
theorem satd_bounds {a b : Nat → Nat → Nat} {w h n r : Nat} (hw : w ≤ 128) (hh : h ≤ 128) (en : n = min (min w h) 8) (hn : n = 4 ∨ n = 8) (dw : n ∣ w) (dh : n ∣ h)
    (ha : ∀ y < h, ∀ x < w, a y x ≤ 4095) (hb : ∀ y < h, ∀ x < w, b y x ≤ 4095) (e : satd a b w h = some r) :
    (∀ y < h, ∀ x < w, n * ((a y x : Int) - b y x).natAbs ≤ r) ∧ r ≤ n * Spec.sad a b w h := by
  rw [satd_eq hw hh en hn ha hb] at e
  cases e
  have n0 : 0 < n := by omega
  obtain ⟨W, rfl⟩ := dw
  obtain ⟨H, rfl⟩ := dh
  have eW : (n * W + n - 1) / n = W := by rcases hn with rfl | rfl <;> omega
  have eH : (n * H + n - 1) / n = H := by rcases hn with rfl | rfl <;> omega
  have es : Spec.satd a b (n * W) (n * H) n = ∑ i ∈ range H, ∑ j ∈ range W, transformed n fun y x => (shift a (i * n) (j * n) y x : Int) - shift b (i * n) (j * n) y x := by
    unfold Spec.satd
    rw [eW, eH]
    refine sum_congr rfl fun i hi => sum_congr rfl fun j hj => ?_
    rw [if_pos]
    rw [Nat.mul_comm n H, Nat.mul_comm n W]
    exact ⟨Nat.mul_le_mul_right _ (by simpa using hi), Nat.mul_le_mul_right _ (by simpa using hj)⟩
  constructor
  · intro y hy x hx
    have hi : y / n < H := Nat.div_lt_of_lt_mul hy
    have hj : x / n < W := Nat.div_lt_of_lt_mul hx
    have t := transformed_ge hn (fun i j => (shift a (y / n * n) (x / n * n) i j : Int) - shift b (y / n * n) (x / n * n) i j) (Nat.mod_lt y n0) (Nat.mod_lt x n0)
    have ey : y / n * n + y % n = y := Nat.div_add_mod' y n
    have ex : x / n * n + x % n = x := Nat.div_add_mod' x n
    unfold shift at t
    rw [ey, ex] at t
    have s1 := single_le_sum (f := fun j => transformed n fun i k => (shift a (y / n * n) (j * n) i k : Int) - shift b (y / n * n) (j * n) i k) (fun _ _ => Nat.zero_le _)
      (mem_range.2 hj)
    have s2 := single_le_sum (f := fun i => ∑ j ∈ range W, transformed n fun y x => (shift a (i * n) (j * n) y x : Int) - shift b (i * n) (j * n) y x) (fun _ _ => Nat.zero_le _)
      (mem_range.2 hi)
    rw [← es] at s2
    have := le_trans t (le_trans s1 s2)
    rw [Nat.le_div_iff_mul_le n0]
    rw [Nat.mul_assoc] at this
    rw [Nat.mul_comm]
    omega
  · have hle : Spec.satd a b (n * W) (n * H) n ≤ n * n * Spec.sad a b (n * W) (n * H) := by
      rw [es]
      have : Spec.sad a b (n * W) (n * H) = ∑ i ∈ range H, ∑ j ∈ range W, ∑ y ∈ range n, ∑ x ∈ range n, ((shift a (i * n) (j * n) y x : Int) - shift b (i * n) (j * n) y x).natAbs := by
        unfold Spec.sad shift
        rw [Nat.mul_comm n H, Nat.mul_comm n W]
        exact (sum_blocks H W n fun y x => ((a y x : Int) - b y x).natAbs).symm
      rw [this, mul_sum]
      refine sum_le_sum fun i _ => ?_
      rw [mul_sum]
      exact sum_le_sum fun j _ => transformed_le n _
    rw [Nat.div_le_iff_le_mul n0]
    rw [Nat.mul_assoc] at hle
    rw [Nat.mul_comm _ n]
    omega

/-- **C69.** If the squares cover the block, the result is zero only for equal blocks. -/
theorem satd_zero_iff {a b : Nat → Nat → Nat} {w h n : Nat} (hw : w ≤ 128) (hh : h ≤ 128) (en : n = min (min w h) 8) (hn : n = 4 ∨ n = 8) (dw : n ∣ w) (dh : n ∣ h)
    (ha : ∀ y < h, ∀ x < w, a y x ≤ 4095) (hb : ∀ y < h, ∀ x < w, b y x ≤ 4095) : satd a b w h = some 0 ↔ ∀ y < h, ∀ x < w, a y x = b y x := by
  have e := satd_eq hw hh en hn ha hb
  obtain ⟨h1, h2⟩ := satd_bounds hw hh en hn dw dh ha hb e
  constructor
  · intro e0 y hy x hx
    rw [e] at e0
    rw [Option.some.injEq] at e0
    have := h1 y hy x hx
    rw [e0] at this
    have : ((a y x : Int) - b y x).natAbs = 0 := by
      rcases hn with rfl | rfl <;> omega
    omega
  · intro heq
    have : Spec.sad a b w h = 0 := by
      unfold Spec.sad
      refine sum_eq_zero fun y hy => sum_eq_zero fun x hx => ?_
      rw [heq y (by simpa using hy) x (by simpa using hx)]
      simp
    rw [this, Nat.mul_zero] at h2
    rw [e, Nat.le_zero.1 h2]

/-- **C69.** At the edge this is false: in a block of 12x8 pixels, a difference of one in the last columns is lost, while it counts 8 in the first ones. -/
theorem satd_edge_loses : ∃ a b c : Nat → Nat → Nat, a 0 8 ≠ b 0 8 ∧ satd a b 12 8 = some 0 ∧ satd c b 12 8 = some 8 ∧ Spec.sad a b 12 8 = Spec.sad c b 12 8 := by
  refine ⟨fun y x => if y = 0 ∧ x = 8 then 1 else 0, fun _ _ => 0, fun y x => if y = 0 ∧ x = 7 then 1 else 0, by decide, ?_, ?_, by decide +kernel⟩
  · rw [satd_eq (n := 8) (by norm_num) (by norm_num) (by norm_num) (by norm_num) (fun y _ x _ => by split_ifs <;> norm_num) (fun y _ x _ => by norm_num)]
    decide +kernel
  · rw [satd_eq (n := 8) (by norm_num) (by norm_num) (by norm_num) (by norm_num) (fun y _ x _ => by split_ifs <;> norm_num) (fun y _ x _ => by norm_num)]
    decide +kernel

/-- The hypotheses are met by a block of 16x8 pixels of 12 bits. -/
example : satd (fun y x => 100 * y + x) (fun y x => 4095 - y * x) 16 8 = some ((Spec.satd (fun y x => 100 * y + x) (fun y x => 4095 - y * x) 16 8 8 + 8 / 2) / 8) :=
  satd_eq (by norm_num) (by norm_num) (by norm_num) (by norm_num) (fun y _ x _ => by omega) (fun y _ x _ => by omega)

/-! ### Weighted squared error -/

theorem sq_le {p q M : Nat} (hp : p ≤ M) (hq : q ≤ M) : ((p : Int) - q).natAbs ^ 2 ≤ M ^ 2 := Nat.pow_le_pow_left (diff_le hp hq) 2

theorem weightedChunk_ok {a b : Nat → Nat → Nat} {s : Nat} (ha : ∀ y < 4, ∀ x < 4, a y x ≤ 4095) (hb : ∀ y < 4, ∀ x < 4, b y x ≤ 4095) (hs : s < 2 ^ 32) :
    weightedChunk a b s = some ((Spec.sse a b 4 4 * s + 128) / 256) ∧ (Spec.sse a b 4 4 * s + 128) / 256 ≤ 2 ^ 53 := by
  have hrow : ∀ y < 4, ∑ x ∈ range 4, ((a y x : Int) - b y x).natAbs ^ 2 ≤ 4 * 4095 ^ 2 := fun y hy => sum_bound fun x hx => sq_le (ha y hy x hx) (hb y hy x hx)
  have hsum : Spec.sse a b 4 4 ≤ 4 * (4 * 4095 ^ 2) := sum_bound hrow
  have e1 : ∀ y ∈ List.range 4, (do
      let sq ← (List.range 4).mapM fun x => chkI (((a y x : Int) - b y x) * ((a y x : Int) - b y x))
      sumChk 32 (sq.map Int.toNat)) = some (∑ x ∈ range 4, ((a y x : Int) - b y x).natAbs ^ 2) := by
    intro y hy
    have hy' : y < 4 := by simpa using hy
    have e : (List.range 4).mapM (fun x => chkI (((a y x : Int) - b y x) * ((a y x : Int) - b y x))) = some ((List.range 4).map fun x => ((a y x : Int) - b y x) * ((a y x : Int) - b y x)) := by
      refine mapM_some fun x hx => ?_
      have hx' : x < 4 := by simpa using hx
      have h1 := ha y hy' x hx'
      have h2 := hb y hy' x hx'
      unfold chkI
      rw [if_pos]
      constructor <;> nlinarith
    simp only [e, Option.bind_eq_bind, Option.bind_some]
    have e2 : ((List.range 4).map fun x => ((a y x : Int) - b y x) * ((a y x : Int) - b y x)).map Int.toNat = (List.range 4).map fun x => ((a y x : Int) - b y x).natAbs ^ 2 := by
      rw [List.map_map]
      refine List.map_congr_left fun x _ => ?_
      show (((a y x : Int) - b y x) * ((a y x : Int) - b y x)).toNat = _
      rw [← Int.natAbs_mul_self, Int.toNat_natCast, sq]
    rw [e2]
    have := hrow y hy'
    rw [sumChk_eq (by rw [sum_map_range]; omega), sum_map_range]
  have hmul : Spec.sse a b 4 4 * s ≤ 4 * (4 * 4095 ^ 2) * (2 ^ 32 - 1) := Nat.mul_le_mul hsum (by omega)
  constructor
  · unfold weightedChunk
    rw [mapM_some e1]
    simp only [Option.bind_eq_bind, Option.bind_some]
    have e3 : ((List.range 4).map fun y => ∑ x ∈ range 4, ((a y x : Int) - b y x).natAbs ^ 2).sum = Spec.sse a b 4 4 := rfl
    rw [sumChk_eq (by rw [e3]; omega), e3]
    simp only [Option.bind_some]
    unfold chk
    rw [if_pos (by omega), Option.bind_some, if_pos (by norm_num only [Nat.shiftLeft_eq, Nat.shiftRight_eq_div_pow]; omega), Option.bind_some]
    norm_num only [Nat.shiftLeft_eq, Nat.shiftRight_eq_div_pow]
  · omega

/-- The sum of the rounded weighted errors. -/
def cells (a b scale : Nat → Nat → Nat) (w h : Nat) : Nat :=
  ∑ i ∈ range (h / 4), ∑ j ∈ range (w / 4), (Spec.sse (shift a (4 * i) (4 * j)) (shift b (4 * i) (4 * j)) 4 4 * scale i j + 128) / 256

theorem weighted_eq {a b scale : Nat → Nat → Nat} {w h : Nat} (hw : w ≤ 128) (hh : h ≤ 128) (ha : ∀ y < h, ∀ x < w, a y x ≤ 4095) (hb : ∀ y < h, ∀ x < w, b y x ≤ 4095)
    (hs : ∀ y x, scale y x < 2 ^ 32) : weightedSse a b scale w h = some ((cells a b scale w h + 32) / 64) := by
  have hc : ∀ i < h / 4, ∀ j < w / 4, _ := fun i hi j hj => weightedChunk_ok (a := shift a (4 * i) (4 * j)) (b := shift b (4 * i) (4 * j)) (s := scale i j)
    (fun y hy x hx => ha _ (by omega) _ (by omega)) (fun y hy x hx => hb _ (by omega) _ (by omega)) (hs i j)
  have hrow : ∀ i < h / 4, ∑ j ∈ range (w / 4), (Spec.sse (shift a (4 * i) (4 * j)) (shift b (4 * i) (4 * j)) 4 4 * scale i j + 128) / 256 ≤ 32 * 2 ^ 53 := fun i hi =>
    le_trans (sum_bound fun j hj => (hc i hi j hj).2) (Nat.mul_le_mul_right _ (by omega))
  have hsum : cells a b scale w h ≤ 32 * (32 * 2 ^ 53) := le_trans (sum_bound hrow) (Nat.mul_le_mul_right _ (by omega))
  have e : (List.range (h / 4)).mapM (fun y => do
      let cells ← (List.range (w / 4)).mapM fun x => weightedChunk (fun i j => a (4 * y + i) (4 * x + j)) (fun i j => b (4 * y + i) (4 * x + j)) (scale y x)
      sumChk 64 cells) = some ((List.range (h / 4)).map fun i => ∑ j ∈ range (w / 4), (Spec.sse (shift a (4 * i) (4 * j)) (shift b (4 * i) (4 * j)) 4 4 * scale i j + 128) / 256) := by
    refine mapM_some fun i hi => ?_
    have hi' : i < h / 4 := by simpa using hi
    have e1 : (List.range (w / 4)).mapM (fun x => weightedChunk (fun k j => a (4 * i + k) (4 * x + j)) (fun k j => b (4 * i + k) (4 * x + j)) (scale i x)) =
        some ((List.range (w / 4)).map fun j => (Spec.sse (shift a (4 * i) (4 * j)) (shift b (4 * i) (4 * j)) 4 4 * scale i j + 128) / 256) :=
      mapM_some fun j hj => (hc i hi' j (by simpa using hj)).1
    simp only [e1, Option.bind_eq_bind, Option.bind_some]
    have := hrow i hi'
    rw [sumChk_eq (by rw [sum_map_range]; omega), sum_map_range]
  have e3 : ((List.range (h / 4)).map fun i => ∑ j ∈ range (w / 4), (Spec.sse (shift a (4 * i) (4 * j)) (shift b (4 * i) (4 * j)) 4 4 * scale i j + 128) / 256).sum = cells a b scale w h := rfl
  have ed : Seg.scaleNew 1 (1 <<< 8) = some 64 := by decide
  unfold weightedSse
  rw [e]
  simp only [Option.bind_eq_bind, Option.bind_some]
  rw [sumChk_eq (by rw [e3]; omega), e3]
  simp only [ed, Option.bind_some]
  unfold chk
  rw [if_pos (by norm_num only [Nat.shiftRight_eq_div_pow]; omega), Option.bind_some]
  norm_num only [Nat.shiftRight_eq_div_pow]
  rw [if_neg (by norm_num)]

/-- **C69.** The weighted squared error never overflows, for blocks up to 128x128 with up to 12 bits and any 32-bit weights; it differs from the exact sum, in which a weight of
2^14 stands for 1, by at most 1/2 and 1/128 for every 4x4 block. -/
theorem weighted_accurate {a b scale : Nat → Nat → Nat} {w h : Nat} (hw : w ≤ 128) (hh : h ≤ 128) (ha : ∀ y < h, ∀ x < w, a y x ≤ 4095) (hb : ∀ y < h, ∀ x < w, b y x ≤ 4095)
    (hs : ∀ y x, scale y x < 2 ^ 32) : ∃ r, weightedSse a b scale w h = some r ∧ |(r : ℚ) - Spec.weighted a b scale w h / 2 ^ 14| ≤ 1 / 2 + ((h / 4 * (w / 4) : ℕ) : ℚ) / 128 := by
  refine ⟨_, weighted_eq hw hh ha hb hs, ?_⟩
  have h1 : 256 * cells a b scale w h ≤ Spec.weighted a b scale w h + h / 4 * (w / 4) * 128 := by
    unfold cells Spec.weighted
    rw [mul_sum]
    calc _ ≤ ∑ i ∈ range (h / 4), (∑ j ∈ range (w / 4), scale i j * Spec.sse (shift a (4 * i) (4 * j)) (shift b (4 * i) (4 * j)) 4 4 + w / 4 * 128) := by
          refine sum_le_sum fun i _ => ?_
          rw [mul_sum]
          calc _ ≤ ∑ j ∈ range (w / 4), (scale i j * Spec.sse (shift a (4 * i) (4 * j)) (shift b (4 * i) (4 * j)) 4 4 + 128) := by
                refine sum_le_sum fun j _ => ?_
                rw [Nat.mul_comm (scale i j)]
                omega
            _ = _ := by rw [sum_add_distrib]; simp
      _ = _ := by rw [sum_add_distrib]; simp [Nat.mul_assoc]
  have h2 : Spec.weighted a b scale w h ≤ 256 * cells a b scale w h + h / 4 * (w / 4) * 128 := by
    unfold cells Spec.weighted
    rw [mul_sum]
    calc _ ≤ ∑ i ∈ range (h / 4), (256 * ∑ j ∈ range (w / 4), (Spec.sse (shift a (4 * i) (4 * j)) (shift b (4 * i) (4 * j)) 4 4 * scale i j + 128) / 256 + w / 4 * 128) := by
          refine sum_le_sum fun i _ => ?_
          rw [mul_sum]
          calc _ ≤ ∑ j ∈ range (w / 4), (256 * ((Spec.sse (shift a (4 * i) (4 * j)) (shift b (4 * i) (4 * j)) 4 4 * scale i j + 128) / 256) + 128) := by
                refine sum_le_sum fun j _ => ?_
                rw [Nat.mul_comm (scale i j)]
                omega
            _ = _ := by rw [sum_add_distrib]; simp
      _ = _ := by rw [sum_add_distrib]; simp [Nat.mul_assoc]
  generalize h / 4 * (w / 4) = N at *
  generalize cells a b scale w h = C at *
  generalize Spec.weighted a b scale w h = X at *
  have h3 : 64 * ((C + 32) / 64) ≤ C + 32 := by omega
  have h4 : C ≤ 64 * ((C + 32) / 64) + 32 := by omega
  generalize (C + 32) / 64 = r at *
  have h1' : (256 : ℚ) * C ≤ X + N * 128 := by exact_mod_cast h1
  have h2' : (X : ℚ) ≤ 256 * C + N * 128 := by exact_mod_cast h2
  have h3' : (64 : ℚ) * r ≤ C + 32 := by exact_mod_cast h3
  have h4' : (C : ℚ) ≤ 64 * r + 32 := by exact_mod_cast h4
  rw [abs_le]
  constructor <;> norm_num <;> linarith

/-- **C69.** With weights of 1 it is the sum of squared errors. -/
theorem weighted_one {a b : Nat → Nat → Nat} {w h : Nat} (hw : w ≤ 128) (hh : h ≤ 128) (dw : 4 ∣ w) (dh : 4 ∣ h) (ha : ∀ y < h, ∀ x < w, a y x ≤ 4095)
    (hb : ∀ y < h, ∀ x < w, b y x ≤ 4095) : weightedSse a b (fun _ _ => 2 ^ 14) w h = some (Spec.sse a b w h) := by
  rw [weighted_eq hw hh ha hb fun _ _ => by norm_num]
  obtain ⟨W, rfl⟩ := dw
  obtain ⟨H, rfl⟩ := dh
  have e : cells a b (fun _ _ => 2 ^ 14) (4 * W) (4 * H) = 64 * Spec.sse a b (4 * W) (4 * H) := by
    have e1 : Spec.sse a b (4 * W) (4 * H) = ∑ i ∈ range H, ∑ j ∈ range W, Spec.sse (shift a (4 * i) (4 * j)) (shift b (4 * i) (4 * j)) 4 4 := by
      unfold Spec.sse shift
      simp only [Nat.mul_comm 4]
      exact (sum_blocks H W 4 fun y x => ((a y x : Int) - b y x).natAbs ^ 2).symm
    unfold cells
    rw [e1, Nat.mul_div_cancel_left _ (by norm_num), Nat.mul_div_cancel_left _ (by norm_num), mul_sum]
    refine sum_congr rfl fun i _ => ?_
    rw [mul_sum]
    refine sum_congr rfl fun j _ => ?_
    show (_ * 2 ^ 14 + 128) / 256 = 64 * _
    omega
  rw [e]
  congr 1
  omega

/-- **C69.** With weights of at least 1/2 it is zero only for equal blocks. -/
theorem weighted_zero_iff {a b scale : Nat → Nat → Nat} {w h : Nat} (hw : w ≤ 128) (hh : h ≤ 128) (dw : 4 ∣ w) (dh : 4 ∣ h) (ha : ∀ y < h, ∀ x < w, a y x ≤ 4095)
    (hb : ∀ y < h, ∀ x < w, b y x ≤ 4095) (hs : ∀ y x, 2 ^ 13 ≤ scale y x ∧ scale y x < 2 ^ 32) :
    weightedSse a b scale w h = some 0 ↔ ∀ y < h, ∀ x < w, a y x = b y x := by
  rw [weighted_eq hw hh ha hb fun y x => (hs y x).2]
  obtain ⟨W, rfl⟩ := dw
  obtain ⟨H, rfl⟩ := dh
  have eW : 4 * W / 4 = W := by omega
  have eH : 4 * H / 4 = H := by omega
  constructor
  · intro e y hy x hx
    by_contra hne
    have hc : cells a b scale (4 * W) (4 * H) < 32 := by
      rw [Option.some.injEq] at e
      omega
    unfold cells at hc
    rw [eW, eH] at hc
    have s1 := single_le_sum (f := fun j => (Spec.sse (shift a (4 * (y / 4)) (4 * j)) (shift b (4 * (y / 4)) (4 * j)) 4 4 * scale (y / 4) j + 128) / 256) (fun _ _ => Nat.zero_le _)
      (mem_range.2 (by omega : x / 4 < W))
    have s2 := single_le_sum (f := fun i => ∑ j ∈ range W, (Spec.sse (shift a (4 * i) (4 * j)) (shift b (4 * i) (4 * j)) 4 4 * scale i j + 128) / 256) (fun _ _ => Nat.zero_le _)
      (mem_range.2 (by omega : y / 4 < H))
    have s3 : 1 ≤ Spec.sse (shift a (4 * (y / 4)) (4 * (x / 4))) (shift b (4 * (y / 4)) (4 * (x / 4))) 4 4 := by
      unfold Spec.sse
      have t1 := single_le_sum (f := fun j => ((shift a (4 * (y / 4)) (4 * (x / 4)) (y % 4) j : Int) - shift b (4 * (y / 4)) (4 * (x / 4)) (y % 4) j).natAbs ^ 2) (fun _ _ => Nat.zero_le _)
        (mem_range.2 (by omega : x % 4 < 4))
      have t2 := single_le_sum (f := fun i => ∑ j ∈ range 4, ((shift a (4 * (y / 4)) (4 * (x / 4)) i j : Int) - shift b (4 * (y / 4)) (4 * (x / 4)) i j).natAbs ^ 2) (fun _ _ => Nat.zero_le _)
        (mem_range.2 (by omega : y % 4 < 4))
      have t3 : 1 ≤ ((shift a (4 * (y / 4)) (4 * (x / 4)) (y % 4) (x % 4) : Int) - shift b (4 * (y / 4)) (4 * (x / 4)) (y % 4) (x % 4)).natAbs ^ 2 := by
        unfold shift
        rw [show 4 * (y / 4) + y % 4 = y by omega, show 4 * (x / 4) + x % 4 = x by omega]
        exact Nat.one_le_pow _ _ (by omega)
      exact le_trans t3 (le_trans t1 t2)
    have s4 := Nat.mul_le_mul s3 (hs (y / 4) (x / 4)).1
    have s5 : 32 ≤ (Spec.sse (shift a (4 * (y / 4)) (4 * (x / 4))) (shift b (4 * (y / 4)) (4 * (x / 4))) 4 4 * scale (y / 4) (x / 4) + 128) / 256 := by omega
    exact absurd (le_trans s5 (le_trans s1 s2)) (by omega)
  · intro heq
    have : cells a b scale (4 * W) (4 * H) = 0 := by
      unfold cells
      rw [eW, eH]
      refine sum_eq_zero fun i hi => sum_eq_zero fun j hj => ?_
      have hi' : i < H := by simpa using hi
      have hj' : j < W := by simpa using hj
      have : Spec.sse (shift a (4 * i) (4 * j)) (shift b (4 * i) (4 * j)) 4 4 = 0 := by
        unfold Spec.sse shift
        refine sum_eq_zero fun y hy => sum_eq_zero fun x hx => ?_
        have hy' : y < 4 := by simpa using hy
        have hx' : x < 4 := by simpa using hx
        rw [heq _ (by omega) _ (by omega)]
        simp
      rw [this]
      omega
    rw [this]

/-- The hypotheses are met by a block of 16x8 pixels with weights between 1/2 and 2. -/
example : weightedSse (fun y x => 100 * y + x) (fun y x => 4095 - y * x) (fun y x => 8192 + (8192 * x + y) % 2 ^ 14) 16 8 ≠ some 0 := by
  rw [Ne, weighted_zero_iff (by norm_num) (by norm_num) (by norm_num) (by norm_num) (fun y _ x _ => by omega) (fun y _ x _ => by omega) (fun y x => by omega)]
  intro h
  have := h 0 (by norm_num) 0 (by norm_num)
  omega

end Rav1e.Metric
