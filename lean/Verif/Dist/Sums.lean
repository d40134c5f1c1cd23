import Mathlib.Algebra.BigOperators.Group.Finset.Basic
import Verif.Dist.Boost

/-!
# Sums over the pixels of a block
-/

namespace Rav1e.Dist

open Spec (total)

theorem sumChk_from {bits : Nat} : ∀ (l : List Nat) (a : Nat), a + l.sum < 2 ^ bits → l.foldlM (fun s v => chk bits (s + v)) a = some (a + l.sum) := by
  intro l
  induction l with
  | nil => intro a _; rfl
  | cons b l ih =>
    intro a h
    rw [List.sum_cons] at h ⊢
    rw [List.foldlM_cons, chk_lt (by omega)]
    show l.foldlM _ (a + b) = _
    rw [ih _ (by omega), Nat.add_assoc]

theorem sumChk_eq {bits : Nat} {l : List Nat} (h : l.sum < 2 ^ bits) : sumChk bits l = some l.sum := by
  unfold sumChk
  rw [sumChk_from l 0 (by omega), Nat.zero_add]

/-- The positions of a block. -/
def pos (w h : Nat) : List (Nat × Nat) := (List.range h).flatMap fun y => (List.range w).map fun x => (y, x)

theorem mem_pos {w h : Nat} {p : Nat × Nat} (hp : p ∈ pos w h) : p.1 < h ∧ p.2 < w := by
  simp only [pos, List.mem_flatMap, List.mem_map, List.mem_range] at hp
  obtain ⟨y, hy, x, hx, rfl⟩ := hp
  exact ⟨hy, hx⟩

theorem length_pos (w h : Nat) : (pos w h).length = w * h := by
  simp [pos, List.length_flatMap, Nat.mul_comm]

theorem pixels_eq (w h : Nat) (f : Nat → Nat → Nat) : pixels w h f = (pos w h).map fun p => f p.1 p.2 := by
  unfold pixels pos
  rw [List.map_flatMap]
  simp only [List.map_map]
  rfl

theorem total_eq (w h : Nat) (f : Nat → Nat → Nat) : total w h f = ((pos w h).map fun p => f p.1 p.2).sum := by
  rw [← pixels_eq]
  unfold total pixels
  rw [List.flatMap_def, List.sum_flatten, List.map_map]
  rfl

theorem total_swap (w h : Nat) (f : Nat → Nat → Nat) : total w h f = total h w (fun x y => f y x) := by
  have e : ∀ (n : Nat) (g : Nat → Nat), ((List.range n).map g).sum = ∑ i ∈ Finset.range n, g i := fun _ _ => rfl
  unfold total
  simp only [e]
  exact Finset.sum_comm

theorem sum_le {α : Type} {f : α → Nat} {B : Nat} : ∀ (l : List α), (∀ p ∈ l, f p ≤ B) → (l.map f).sum ≤ l.length * B := by
  intro l
  induction l with
  | nil => intro _; simp
  | cons a l ih =>
    intro h
    have h1 := h a (by simp)
    have h2 := ih fun p hp => h p (List.mem_cons_of_mem _ hp)
    rw [List.map_cons, List.sum_cons, List.length_cons, Nat.add_mul, Nat.one_mul]
    omega

theorem sum_mul_le {α : Type} {f g : α → Nat} {B : Nat} : ∀ (l : List α), (∀ p ∈ l, g p ≤ B * f p) → (l.map g).sum ≤ B * (l.map f).sum := by
  intro l
  induction l with
  | nil => intro _; simp
  | cons a l ih =>
    intro h
    have h1 := h a (by simp)
    have h2 := ih fun p hp => h p (List.mem_cons_of_mem _ hp)
    rw [List.map_cons, List.sum_cons, List.map_cons, List.sum_cons, Nat.mul_add]
    omega

theorem sum_sub {α : Type} {f g : α → Nat} : ∀ (l : List α),
    (l.map fun p => g p * g p).sum + (l.map fun p => f p * f p).sum = 2 * (l.map fun p => f p * g p).sum + (l.map fun p => ((f p : ℤ) - g p).natAbs ^ 2).sum := by
  intro l
  induction l with
  | nil => rfl
  | cons a l ih =>
    simp only [List.map_cons, List.sum_cons]
    have : g a * g a + f a * f a = 2 * (f a * g a) + ((f a : ℤ) - g a).natAbs ^ 2 := by
      zify
      rw [sq_abs]
      ring
    omega

theorem two_mul_sum {α : Type} {f : α → Nat} (b : Nat) : ∀ (l : List α), 2 * b * (l.map f).sum ≤ l.length * (b * b) + (l.map fun p => f p * f p).sum := by
  intro l
  induction l with
  | nil => simp
  | cons a l ih =>
    simp only [List.map_cons, List.sum_cons, List.length_cons]
    have : 2 * b * f a ≤ b * b + f a * f a := by
      zify
      nlinarith [sq_nonneg ((b : ℤ) - f a)]
    rw [Nat.mul_add, Nat.add_mul, Nat.one_mul]
    omega

theorem cauchy {α : Type} {f : α → Nat} : ∀ (l : List α), (l.map f).sum * (l.map f).sum ≤ l.length * (l.map fun p => f p * f p).sum := by
  intro l
  induction l with
  | nil => simp
  | cons a l ih =>
    have := two_mul_sum (f := f) (f a) l
    simp only [List.map_cons, List.sum_cons, List.length_cons]
    generalize (l.map f).sum = S at *
    generalize (l.map fun p => f p * f p).sum = Q at *
    nlinarith

variable {w h M : Nat} {a b : Nat → Nat → Nat}

theorem total_le (hM : ∀ y < h, ∀ x < w, a y x ≤ M) : total w h a ≤ w * h * M := by
  rw [total_eq, ← length_pos w h]
  exact sum_le _ fun p hp => hM _ (mem_pos hp).1 _ (mem_pos hp).2

theorem total_sq_le (hM : ∀ y < h, ∀ x < w, a y x ≤ M) : (total w h fun y x => a y x * a y x) ≤ M * total w h a := by
  rw [total_eq, total_eq]
  exact sum_mul_le _ fun p hp => Nat.mul_le_mul_right _ (hM _ (mem_pos hp).1 _ (mem_pos hp).2)

theorem total_prod_le (hM : ∀ y < h, ∀ x < w, a y x ≤ M) : (total w h fun y x => a y x * b y x) ≤ M * total w h b := by
  rw [total_eq, total_eq]
  exact sum_mul_le _ fun p hp => Nat.mul_le_mul_right _ (hM _ (mem_pos hp).1 _ (mem_pos hp).2)

theorem total_sse (w h : Nat) (a b : Nat → Nat → Nat) : (total w h fun y x => b y x * b y x) + (total w h fun y x => a y x * a y x) =
    2 * (total w h fun y x => a y x * b y x) + Spec.sse a b w h := by
  unfold Spec.sse
  rw [total_eq, total_eq, total_eq, total_eq]
  exact sum_sub (f := fun p : Nat × Nat => a p.1 p.2) (g := fun p : Nat × Nat => b p.1 p.2) _

theorem total_cauchy (w h : Nat) (a : Nat → Nat → Nat) : total w h a * total w h a ≤ w * h * total w h fun y x => a y x * a y x := by
  rw [total_eq, total_eq, ← length_pos w h]
  exact cauchy (f := fun p : Nat × Nat => a p.1 p.2) _

theorem sse_le (hM : ∀ y < h, ∀ x < w, a y x ≤ M) (hM' : ∀ y < h, ∀ x < w, b y x ≤ M) : Spec.sse a b w h ≤ w * h * (M * M) := by
  unfold Spec.sse
  rw [total_eq, ← length_pos w h]
  refine sum_le _ fun p hp => ?_
  have h1 := hM _ (mem_pos hp).1 _ (mem_pos hp).2
  have h2 := hM' _ (mem_pos hp).1 _ (mem_pos hp).2
  rw [pow_two]
  exact Nat.mul_le_mul (by omega) (by omega)

/-! ### Variances -/

theorem div_table : ∀ n < 65, 1 ≤ n → ∃ d, areaDivisors[n - 1]? = some d ∧ 256 ≤ d ∧ d ≤ 16384 ∧ n * d ≤ 16384 + 32 ∧ 16384 ≤ n * d + 32 := by decide

theorem scaledVar_eq {S S2 n d : Nat} (hn : n ≤ 64) (hM : M ≤ 4095) (hS : S ≤ n * M) (hS2 : S2 ≤ M * S) (hd : d ≤ 16384) (hnd : n * d ≤ 16384 + 32) :
    scaledVar S S2 d = some (((S2 - (S * S * d + 8192) / 2 ^ 14) * d + 128) / 2 ^ 8) ∧
    ((S2 - (S * S * d + 8192) / 2 ^ 14) * d + 128) / 2 ^ 8 ≤ 16 * (M * M) + 32 := by
  have s0 : S ≤ 64 * 4095 := le_trans hS (Nat.mul_le_mul hn hM)
  have s1 : S * S ≤ (64 * 4095) * (64 * 4095) := Nat.mul_le_mul s0 s0
  have s2 : S2 ≤ 4095 * (64 * 4095) := le_trans hS2 (Nat.mul_le_mul hM s0)
  have s3 : S * S * d ≤ 64 * (4095 * 4095) * 16416 := by
    calc S * S * d ≤ (n * M) * (n * M) * d := Nat.mul_le_mul_right _ (Nat.mul_le_mul hS hS)
      _ = n * (M * M) * (n * d) := by ring
      _ ≤ 64 * (4095 * 4095) * 16416 := Nat.mul_le_mul (Nat.mul_le_mul hn (Nat.mul_le_mul hM hM)) hnd
  have mm : M * M ≤ 4095 * 4095 := Nat.mul_le_mul hM hM
  generalize hq : (S * S * d + 8192) / 2 ^ 14 = q
  have q1 : S * S * d ≤ 2 ^ 14 * q + 8191 := by omega
  have v2 : S2 - q ≤ S2 := Nat.sub_le _ _
  have bound : (S2 - q) * d ≤ 2 ^ 12 * (M * M) + 8192 := by
    rcases Nat.le_total S2 q with h0 | h0
    · rw [Nat.sub_eq_zero_of_le h0]; omega
    · obtain ⟨v, rfl⟩ := Nat.exists_eq_add_of_le h0
      rw [Nat.add_sub_cancel_left]
      zify at q1 hS2 hd ⊢
      have d0 : (0 : ℤ) ≤ d := by positivity
      have h1 : (d : ℤ) * (q + v) ≤ d * (M * S) := mul_le_mul_of_nonneg_left hS2 d0
      have h2 : (d : ℤ) * (S * S * d) ≤ d * (2 ^ 14 * q + 8191) := mul_le_mul_of_nonneg_left q1 d0
      nlinarith [sq_nonneg ((d : ℤ) * S - 2 ^ 13 * M)]
  unfold scaledVar
  rw [chk_lt (by omega)]
  simp only [Option.bind_eq_bind, Option.bind_some]
  rw [chk_lt (by omega), Option.bind_some, chk_lt (by norm_num; omega), Option.bind_some, Nat.shiftRight_eq_div_pow (m := S * S * d + _),
    show (1 <<< 14 >>> 1 : Nat) = 8192 by decide, hq, Nat.mod_eq_of_lt (by omega), chk_lt (by omega), Option.bind_some, chk_lt (by norm_num; omega), Option.bind_some,
    Nat.shiftRight_eq_div_pow, show (1 <<< 8 >>> 1 : Nat) = 128 by decide, Nat.mod_eq_of_lt (by omega)]
  exact ⟨rfl, by omega⟩

end Rav1e.Dist
