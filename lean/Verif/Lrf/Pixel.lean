import Verif.Lrf.Stripe

/-!
# One pixel

The weighted sums over nine boxes and the last step of the self-guided filter.
-/

namespace Rav1e.Lrf

open Spec (sum)

theorem box_stripe {d : Spec.Dec} {t : Stripe} {M : Nat} (H : Fits d t M) (r eps y x dy dx : Nat) (hy : y < t.h) :
    d.box (t.y + y) r eps (((t.y + y : Nat) : Int) - 1 + dy) (((t.x + x : Nat) : Int) - 1 + dx) = bx d t r eps (y + dy) (x + dx) := by
  have e : d.sample (t.y + y) = d.sample t.y := by
    funext a b
    unfold Spec.Dec.sample Spec.Dec.stripeEndY Spec.Dec.stripeStartY
    rw [H.stripe y hy]
  unfold bx Spec.Dec.box
  rw [e, show (((t.y + y : Nat) : Int) - 1 + dy) = (t.y : Int) + ((y + dy : Nat) : Int) - 1 by omega,
    show (((t.x + x : Nat) : Int) - 1 + dx) = (t.x : Int) + ((x + dx : Nat) : Int) - 1 by omega]

theorem sum3 (f : Nat → Nat) : sum 3 f = f 0 + f 1 + f 2 := by
  show 0 + f 0 + f 1 + f 2 = _
  omega

theorem round9 (x : Nat) : (x + (1 <<< 9 >>> 1)) >>> 9 = Spec.round2 x 9 := by
  rw [Nat.shiftRight_eq_div_pow]; rfl

theorem round8 (x : Nat) : (x + (1 <<< 8 >>> 1)) >>> 8 = Spec.round2 x 8 := by
  rw [Nat.shiftRight_eq_div_pow]; rfl

/-- The last step of the three filters. -/
theorem fin9 (a b v : Nat) (ha : a ≤ 8192) (hb : b < 33554432) (hv : v < 65536) :
    a * v + b + (1 <<< 9 >>> 1) < 4294967296 ∧ Spec.round2 (a * v + b) 9 ≤ 1200000 := by
  have := Nat.mul_le_mul ha (Nat.le_of_lt_succ hv)
  have e : Spec.round2 (a * v + b) 9 = (a * v + b + 256) / 512 := rfl
  rw [e, show (1 <<< 9 >>> 1 : Nat) = 256 from rfl]
  omega

theorem fin8 (a b v : Nat) (ha : a ≤ 4096) (hb : b < 16777216) (hv : v < 65536) :
    a * v + b + (1 <<< 8 >>> 1) < 4294967296 ∧ Spec.round2 (a * v + b) 8 ≤ 1200000 := by
  have := Nat.mul_le_mul ha (Nat.le_of_lt_succ hv)
  have e : Spec.round2 (a * v + b) 8 = (a * v + b + 128) / 256 := rfl
  rw [e, show (1 <<< 8 >>> 1 : Nat) = 128 from rfl]
  omega

theorem le_of_add_lt {a b c : Nat} (h : a + b < c) : a < c := Nat.lt_of_le_of_lt (Nat.le_add_right _ _) h

theorem px_eq {d : Spec.Dec} {t : Stripe} {M : Nat} (H : Fits d t M) (y x : Nat) :
    d.cdef ((t.y + y : Nat) : Int) ((t.x + x : Nat) : Int) = t.px y x := by
  rw [H.cdef]
  unfold Stripe.px
  congr 1

theorem bx_range {d : Spec.Dec} {t : Stripe} {M : Nat} (H : Fits d t M) (r s eps : Nat) (hs : Strength r s eps) (k x : Nat)
    (hx : x < t.w + 2) : (bx d t r eps k x).1 ≤ 256 ∧ (bx d t r eps k x).2 < 1048576 := by
  obtain ⟨-, -, h1, h2, -, -⟩ := finish_box H r s eps k x hs hx
  exact ⟨h1, h2⟩

/-- Radius 1. -/
theorem f1_ok {d : Spec.Dec} {t : Stripe} {M : Nat} (H : Fits d t M) (s eps y x : Nat) (hs : Strength 1 s eps) (hy : y < t.h)
    (hx : x < t.w) (a0 a1 a2 : Row) (h0 : IsRow d t 1 eps y a0) (h1 : IsRow d t 1 eps (y + 1) a1)
    (h2 : IsRow d t 1 eps (y + 2) a2) :
    f1 a0 a1 a2 (t.px y x) x = some (d.flt 1 1 eps (t.y + y) (t.x + x)) ∧ d.flt 1 1 eps (t.y + y) (t.x + x) ≤ 1200000 := by
  have hv : t.px y x < 65536 := H.px16 _ _
  have b00 := bx_range H 1 s eps hs y x (by omega)
  have b01 := bx_range H 1 s eps hs y (x + 1) (by omega)
  have b02 := bx_range H 1 s eps hs y (x + 2) (by omega)
  have b10 := bx_range H 1 s eps hs (y + 1) x (by omega)
  have b11 := bx_range H 1 s eps hs (y + 1) (x + 1) (by omega)
  have b12 := bx_range H 1 s eps hs (y + 1) (x + 2) (by omega)
  have b20 := bx_range H 1 s eps hs (y + 2) x (by omega)
  have b21 := bx_range H 1 s eps hs (y + 2) (x + 1) (by omega)
  have b22 := bx_range H 1 s eps hs (y + 2) (x + 2) (by omega)
  have e : d.flt 1 1 eps (t.y + y) (t.x + x) = Spec.round2 (
      (3 * ((bx d t 1 eps y x).1 + (bx d t 1 eps (y + 2) x).1 + (bx d t 1 eps y (x + 2)).1 + (bx d t 1 eps (y + 2) (x + 2)).1)
        + 4 * ((bx d t 1 eps (y + 1) x).1 + (bx d t 1 eps y (x + 1)).1 + (bx d t 1 eps (y + 1) (x + 1)).1 +
          (bx d t 1 eps (y + 2) (x + 1)).1 + (bx d t 1 eps (y + 1) (x + 2)).1)) * t.px y x +
      (3 * ((bx d t 1 eps y x).2 + (bx d t 1 eps (y + 2) x).2 + (bx d t 1 eps y (x + 2)).2 + (bx d t 1 eps (y + 2) (x + 2)).2)
        + 4 * ((bx d t 1 eps (y + 1) x).2 + (bx d t 1 eps y (x + 1)).2 + (bx d t 1 eps (y + 1) (x + 1)).2 +
          (bx d t 1 eps (y + 2) (x + 1)).2 + (bx d t 1 eps (y + 1) (x + 2)).2))) 9 := by
    unfold Spec.Dec.flt
    simp only [sum3, box_stripe H 1 eps y x _ _ hy, px_eq H, Nat.add_zero]
    congr 1
    congr 1
    · congr 1
      simp only [Spec.Dec.weight]
      simp only [if_false, if_true, or_true, or_false, one_ne_zero, zero_ne_one, OfNat.ofNat_ne_one]
      omega
    · simp only [Spec.Dec.weight]
      simp only [if_false, if_true, or_true, or_false, one_ne_zero, zero_ne_one, OfNat.ofNat_ne_one]
      omega
  rw [e]
  unfold f1
  rw [h0 x (by omega), h0 (x + 1) (by omega), h0 (x + 2) (by omega), h1 x (by omega), h1 (x + 1) (by omega), h1 (x + 2) (by omega),
    h2 x (by omega), h2 (x + 1) (by omega), h2 (x + 2) (by omega)]
  have hA : 3 * ((bx d t 1 eps y x).1 + (bx d t 1 eps (y + 2) x).1 + (bx d t 1 eps y (x + 2)).1 + (bx d t 1 eps (y + 2) (x + 2)).1)
        + 4 * ((bx d t 1 eps (y + 1) x).1 + (bx d t 1 eps y (x + 1)).1 + (bx d t 1 eps (y + 1) (x + 1)).1 +
          (bx d t 1 eps (y + 2) (x + 1)).1 + (bx d t 1 eps (y + 1) (x + 2)).1) ≤ 8192 := by omega
  have hB : 3 * ((bx d t 1 eps y x).2 + (bx d t 1 eps (y + 2) x).2 + (bx d t 1 eps y (x + 2)).2 + (bx d t 1 eps (y + 2) (x + 2)).2)
        + 4 * ((bx d t 1 eps (y + 1) x).2 + (bx d t 1 eps y (x + 1)).2 + (bx d t 1 eps (y + 1) (x + 1)).2 +
          (bx d t 1 eps (y + 2) (x + 1)).2 + (bx d t 1 eps (y + 1) (x + 2)).2) < 33554432 := by omega
  generalize 3 * ((bx d t 1 eps y x).1 + (bx d t 1 eps (y + 2) x).1 + (bx d t 1 eps y (x + 2)).1 + (bx d t 1 eps (y + 2) (x + 2)).1)
        + 4 * ((bx d t 1 eps (y + 1) x).1 + (bx d t 1 eps y (x + 1)).1 + (bx d t 1 eps (y + 1) (x + 1)).1 +
          (bx d t 1 eps (y + 2) (x + 1)).1 + (bx d t 1 eps (y + 1) (x + 2)).1) = A at hA ⊢
  generalize 3 * ((bx d t 1 eps y x).2 + (bx d t 1 eps (y + 2) x).2 + (bx d t 1 eps y (x + 2)).2 + (bx d t 1 eps (y + 2) (x + 2)).2)
        + 4 * ((bx d t 1 eps (y + 1) x).2 + (bx d t 1 eps y (x + 1)).2 + (bx d t 1 eps (y + 1) (x + 1)).2 +
          (bx d t 1 eps (y + 2) (x + 1)).2 + (bx d t 1 eps (y + 1) (x + 2)).2) = B at hB ⊢
  obtain ⟨c, hc⟩ := fin9 A B _ hA hB hv
  refine ⟨?_, hc⟩
  refine Option.bind_eq_some_iff.mpr ⟨_, u32_some (by omega), ?_⟩
  refine Option.bind_eq_some_iff.mpr ⟨_, u32_some (by omega), ?_⟩
  refine Option.bind_eq_some_iff.mpr ⟨_, u32_some (le_of_add_lt (le_of_add_lt c)), ?_⟩
  refine Option.bind_eq_some_iff.mpr ⟨_, u32_some (le_of_add_lt c), ?_⟩
  refine Option.bind_eq_some_iff.mpr ⟨_, u32_some c, ?_⟩
  rw [round9]

theorem weight0_even (i : Nat) (h : i % 2 = 0) (dx : Nat) :
    Spec.Dec.weight 0 i 0 dx = (if dx = 1 then 6 else 5) ∧ Spec.Dec.weight 0 i 1 dx = 0 ∧
      Spec.Dec.weight 0 i 2 dx = (if dx = 1 then 6 else 5) := by
  unfold Spec.Dec.weight
  rw [if_pos rfl, if_pos rfl, if_pos rfl, if_pos (show (i + 0 + 1) % 2 = 1 by omega),
    if_neg (show ¬ (i + 1 + 1) % 2 = 1 by omega), if_pos (show (i + 2 + 1) % 2 = 1 by omega)]
  exact ⟨rfl, rfl, rfl⟩

theorem weight0_odd (i : Nat) (h : i % 2 = 1) (dx : Nat) :
    Spec.Dec.weight 0 i 0 dx = 0 ∧ Spec.Dec.weight 0 i 1 dx = (if dx = 1 then 6 else 5) ∧ Spec.Dec.weight 0 i 2 dx = 0 := by
  unfold Spec.Dec.weight
  rw [if_pos rfl, if_pos rfl, if_pos rfl, if_neg (show ¬ (i + 0 + 1) % 2 = 1 by omega),
    if_pos (show (i + 1 + 1) % 2 = 1 by omega), if_neg (show ¬ (i + 2 + 1) % 2 = 1 by omega)]
  exact ⟨rfl, rfl, rfl⟩

/-- Radius 2, even rows. -/
theorem f2even_ok {d : Spec.Dec} {t : Stripe} {M : Nat} (H : Fits d t M) (s eps y x : Nat) (hs : Strength 2 s eps) (hy : y < t.h)
    (hx : x < t.w) (h2 : y % 2 = 0) (a0 a1 : Row) (h0 : IsRow d t 2 eps y a0) (h1 : IsRow d t 2 eps (y + 2) a1) :
    f2even a0 a1 (t.px y x) x = some (d.flt 0 2 eps (t.y + y) (t.x + x)) ∧ d.flt 0 2 eps (t.y + y) (t.x + x) ≤ 1200000 := by
  have hv : t.px y x < 65536 := H.px16 _ _
  have b00 := bx_range H 2 s eps hs y x (by omega)
  have b01 := bx_range H 2 s eps hs y (x + 1) (by omega)
  have b02 := bx_range H 2 s eps hs y (x + 2) (by omega)
  have b20 := bx_range H 2 s eps hs (y + 2) x (by omega)
  have b21 := bx_range H 2 s eps hs (y + 2) (x + 1) (by omega)
  have b22 := bx_range H 2 s eps hs (y + 2) (x + 2) (by omega)
  have hpar := H.parity y hy
  have e : d.flt 0 2 eps (t.y + y) (t.x + x) = Spec.round2 (
      ((5 * ((bx d t 2 eps y x).1 + (bx d t 2 eps y (x + 2)).1) + 6 * (bx d t 2 eps y (x + 1)).1) +
        (5 * ((bx d t 2 eps (y + 2) x).1 + (bx d t 2 eps (y + 2) (x + 2)).1) + 6 * (bx d t 2 eps (y + 2) (x + 1)).1)) * t.px y x +
      ((5 * ((bx d t 2 eps y x).2 + (bx d t 2 eps y (x + 2)).2) + 6 * (bx d t 2 eps y (x + 1)).2) +
        (5 * ((bx d t 2 eps (y + 2) x).2 + (bx d t 2 eps (y + 2) (x + 2)).2) + 6 * (bx d t 2 eps (y + 2) (x + 1)).2))) 9 := by
    unfold Spec.Dec.flt
    simp only [sum3, box_stripe H 2 eps y x _ _ hy, px_eq H, Nat.add_zero]
    rw [if_neg (by omega)]
    have w := weight0_even (d.inBlock (t.y + y)) (by omega)
    simp only [(w _).1, (w _).2.1, (w _).2.2, if_true, if_false, zero_ne_one, OfNat.ofNat_ne_one]
    congr 1
    congr 1
    · congr 1
      omega
    · omega
  rw [e]
  unfold f2even
  rw [h0 x (by omega), h0 (x + 1) (by omega), h0 (x + 2) (by omega), h1 x (by omega), h1 (x + 1) (by omega), h1 (x + 2) (by omega)]
  generalize (bx d t 2 eps y x) = c00 at b00 ⊢
  generalize (bx d t 2 eps y (x + 1)) = c01 at b01 ⊢
  generalize (bx d t 2 eps y (x + 2)) = c02 at b02 ⊢
  generalize (bx d t 2 eps (y + 2) x) = c20 at b20 ⊢
  generalize (bx d t 2 eps (y + 2) (x + 1)) = c21 at b21 ⊢
  generalize (bx d t 2 eps (y + 2) (x + 2)) = c22 at b22 ⊢
  obtain ⟨c, hc⟩ := fin9 (5 * (c00.1 + c02.1) + 6 * c01.1 + (5 * (c20.1 + c22.1) + 6 * c21.1))
    (5 * (c00.2 + c02.2) + 6 * c01.2 + (5 * (c20.2 + c22.2) + 6 * c21.2)) _ (by omega) (by omega) hv
  refine ⟨?_, hc⟩
  refine Option.bind_eq_some_iff.mpr ⟨_, u32_some (by omega), ?_⟩
  refine Option.bind_eq_some_iff.mpr ⟨_, u32_some (by omega), ?_⟩
  refine Option.bind_eq_some_iff.mpr ⟨_, u32_some (by omega), ?_⟩
  refine Option.bind_eq_some_iff.mpr ⟨_, u32_some (by omega), ?_⟩
  refine Option.bind_eq_some_iff.mpr ⟨_, u32_some (le_of_add_lt (le_of_add_lt c)), ?_⟩
  rw [← Nat.add_assoc] at c
  refine Option.bind_eq_some_iff.mpr ⟨_, u32_some (le_of_add_lt c), ?_⟩
  refine Option.bind_eq_some_iff.mpr ⟨_, u32_some c, ?_⟩
  rw [round9, Nat.add_assoc]

/-- Radius 2, odd rows. -/
theorem f2odd_ok {d : Spec.Dec} {t : Stripe} {M : Nat} (H : Fits d t M) (s eps y x : Nat) (hs : Strength 2 s eps) (hy : y < t.h)
    (hx : x < t.w) (h2 : y % 2 = 1) (a1 : Row) (h1 : IsRow d t 2 eps (y + 1) a1) :
    f2odd a1 (t.px y x) x = some (d.flt 0 2 eps (t.y + y) (t.x + x)) ∧ d.flt 0 2 eps (t.y + y) (t.x + x) ≤ 1200000 := by
  have hv : t.px y x < 65536 := H.px16 _ _
  have b10 := bx_range H 2 s eps hs (y + 1) x (by omega)
  have b11 := bx_range H 2 s eps hs (y + 1) (x + 1) (by omega)
  have b12 := bx_range H 2 s eps hs (y + 1) (x + 2) (by omega)
  have hpar := H.parity y hy
  have e : d.flt 0 2 eps (t.y + y) (t.x + x) = Spec.round2 (
      (5 * ((bx d t 2 eps (y + 1) x).1 + (bx d t 2 eps (y + 1) (x + 2)).1) + 6 * (bx d t 2 eps (y + 1) (x + 1)).1) * t.px y x +
      (5 * ((bx d t 2 eps (y + 1) x).2 + (bx d t 2 eps (y + 1) (x + 2)).2) + 6 * (bx d t 2 eps (y + 1) (x + 1)).2)) 8 := by
    unfold Spec.Dec.flt
    simp only [sum3, box_stripe H 2 eps y x _ _ hy, px_eq H, Nat.add_zero]
    rw [if_pos ⟨trivial, by omega⟩]
    have w := weight0_odd (d.inBlock (t.y + y)) (by omega)
    simp only [(w _).1, (w _).2.1, (w _).2.2, if_true, if_false, zero_ne_one, OfNat.ofNat_ne_one]
    congr 1
    congr 1
    · congr 1
      omega
    · omega
  rw [e]
  unfold f2odd
  rw [h1 x (by omega), h1 (x + 1) (by omega), h1 (x + 2) (by omega)]
  generalize (bx d t 2 eps (y + 1) x) = c10 at b10 ⊢
  generalize (bx d t 2 eps (y + 1) (x + 1)) = c11 at b11 ⊢
  generalize (bx d t 2 eps (y + 1) (x + 2)) = c12 at b12 ⊢
  obtain ⟨c, hc⟩ := fin8 (5 * (c10.1 + c12.1) + 6 * c11.1) (5 * (c10.2 + c12.2) + 6 * c11.2) _ (by omega) (by omega) hv
  refine ⟨?_, hc⟩
  refine Option.bind_eq_some_iff.mpr ⟨_, u32_some (by omega), ?_⟩
  refine Option.bind_eq_some_iff.mpr ⟨_, u32_some (by omega), ?_⟩
  refine Option.bind_eq_some_iff.mpr ⟨_, u32_some (le_of_add_lt (le_of_add_lt c)), ?_⟩
  refine Option.bind_eq_some_iff.mpr ⟨_, u32_some (le_of_add_lt c), ?_⟩
  refine Option.bind_eq_some_iff.mpr ⟨_, u32_some c, ?_⟩
  rw [round8]

/-- The odd row also does not overflow when its pixels are those below the rectangle. -/
theorem f2odd_some {d : Spec.Dec} {t : Stripe} {M : Nat} (H : Fits d t M) (s eps k x : Nat) (hs : Strength 2 s eps)
    (hx : x < t.w) (a1 : Row) (h1 : IsRow d t 2 eps k a1) (v : Nat) (hv : v < 65536) : ∃ f, f2odd a1 v x = some f := by
  have b10 := bx_range H 2 s eps hs k x (by omega)
  have b11 := bx_range H 2 s eps hs k (x + 1) (by omega)
  have b12 := bx_range H 2 s eps hs k (x + 2) (by omega)
  unfold f2odd
  rw [h1 x (by omega), h1 (x + 1) (by omega), h1 (x + 2) (by omega)]
  generalize (bx d t 2 eps k x) = c10 at b10 ⊢
  generalize (bx d t 2 eps k (x + 1)) = c11 at b11 ⊢
  generalize (bx d t 2 eps k (x + 2)) = c12 at b12 ⊢
  obtain ⟨c, -⟩ := fin8 (5 * (c10.1 + c12.1) + 6 * c11.1) (5 * (c10.2 + c12.2) + 6 * c11.2) v (by omega) (by omega) hv
  refine ⟨((5 * (c10.1 + c12.1) + 6 * c11.1) * v + (5 * (c10.2 + c12.2) + 6 * c11.2) + (1 <<< 8 >>> 1)) >>> 8,
    Option.bind_eq_some_iff.mpr ⟨_, u32_some (by omega), ?_⟩⟩
  refine Option.bind_eq_some_iff.mpr ⟨_, u32_some (by omega), ?_⟩
  refine Option.bind_eq_some_iff.mpr ⟨_, u32_some (le_of_add_lt (le_of_add_lt c)), ?_⟩
  refine Option.bind_eq_some_iff.mpr ⟨_, u32_some (le_of_add_lt c), ?_⟩
  refine Option.bind_eq_some_iff.mpr ⟨_, u32_some c, rfl⟩

theorem i32_some {x : Int} (h : -2147483648 ≤ x ∧ x < 2147483648) : i32 x = some x := if_pos h

theorem mul_bound (w f W F : Int) (hw : -W ≤ w ∧ w ≤ W) (hf : 0 ≤ f ∧ f ≤ F) : -(W * F) ≤ w * f ∧ w * f ≤ W * F := by
  have h1 : 0 ≤ W := by omega
  constructor <;> nlinarith [mul_nonneg h1 hf.1, mul_nonneg h1 (show 0 ≤ F - f by omega),
    mul_nonneg (show 0 ≤ W - w by omega) hf.1, mul_nonneg (show 0 ≤ w + W by omega) hf.1]

/-- The last step. -/
theorem applyFilter_ok (bd : Nat) (w0 w1 : Int) (u f2 f1 : Nat) (h0 : -96 ≤ w0 ∧ w0 ≤ 31) (h1 : -32 ≤ w1 ∧ w1 ≤ 95)
    (hu : u < 65536) (hf2 : f2 ≤ 1200000) (hf1 : f1 ≤ 1200000) :
    applyFilter bd w0 w1 u f2 f1 = some (Spec.clip3 0 (2 ^ bd - 1)
      (Spec.round2i (w1 * ((u : Int) * 2 ^ 4) + w0 * f2 + (2 ^ 7 - w0 - w1) * f1) (4 + 7))).toNat := by
  have b2 := mul_bound w0 f2 96 1200000 (by omega) (by omega)
  have b1 := mul_bound w1 ((u : Int) <<< 4) 95 1048560 (by omega) (by rw [Int.shiftLeft_eq]; omega)
  have b0 := mul_bound (((1 <<< 7 : Nat) : Int) - w0 - w1) f1 256 1200000 (by rw [show (((1 <<< 7 : Nat) : Int)) = 128 from rfl]; omega) (by omega)
  unfold applyFilter
  refine Option.bind_eq_some_iff.mpr ⟨_, i32_some (by omega), ?_⟩
  refine Option.bind_eq_some_iff.mpr ⟨_, i32_some (by omega), ?_⟩
  refine Option.bind_eq_some_iff.mpr ⟨_, i32_some (by omega), ?_⟩
  refine Option.bind_eq_some_iff.mpr ⟨_, i32_some (by omega), ?_⟩
  refine Option.bind_eq_some_iff.mpr ⟨_, i32_some (by omega), ?_⟩
  refine Option.bind_eq_some_iff.mpr ⟨_, i32_some (by rw [show (((1 <<< 11 >>> 1 : Nat) : Int)) = 1024 from rfl]; omega), ?_⟩
  have e1 : ((1 <<< 7 : Nat) : Int) = 2 ^ 7 := rfl
  have e2 : ((1 <<< bd : Nat) : Int) = 2 ^ bd := by rw [Nat.shiftLeft_eq]; push_cast; omega
  have e3 : ((u : Int) <<< 4) = (u : Int) * 2 ^ 4 := by rw [Int.shiftLeft_eq]
  rw [e2, e3, e1, Int.shiftRight_eq_div_pow]
  have e4 : ∀ v : Int, Spec.round2i v (4 + 7) = (v + ((1 <<< 11 >>> 1 : Nat) : Int)) / ((2 ^ 11 : Nat) : Int) := fun v => rfl
  rw [e4, Int.add_comm (w1 * _)]
  rfl

end Rav1e.Lrf
