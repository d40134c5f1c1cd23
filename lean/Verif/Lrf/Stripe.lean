import Verif.Lrf.Bounds

/-!
# One unit of a stripe

The self-guided filter of a rectangle of a stripe writes what the specification says for every pixel.
-/

namespace Rav1e.Lrf

open Spec (sum)

/-- A loop keeps an invariant. -/
theorem foldlM_inv {σ : Type} (f : σ → Nat → Option σ) (P : Nat → σ → Prop) (n : Nat) (s : σ) (h0 : P 0 s)
    (step : ∀ k s, k < n → P k s → ∃ s', f s k = some s' ∧ P (k + 1) s') :
    ∃ s', (List.range n).foldlM f s = some s' ∧ P n s' := by
  induction n with
  | zero => exact ⟨s, rfl, h0⟩
  | succ n ih =>
    obtain ⟨s1, h1, p1⟩ := ih (fun k s hk => step k s (by omega))
    obtain ⟨s2, h2, p2⟩ := step n s1 (by omega) p1
    refine ⟨s2, ?_, p2⟩
    rw [List.range_succ, List.foldlM_append, h1]
    simp only [Option.bind_eq_bind, Option.bind_some, List.foldlM_cons, List.foldlM_nil, h2]
    rfl

/-- A rectangle of a stripe and the decoder that filters the same plane; `M` is the largest pixel value. -/
structure Fits (d : Spec.Dec) (t : Stripe) (M : Nat) : Prop where
  depth : d.bitDepth = 8 ∧ M = 255 ∨ d.bitDepth = 10 ∧ M = 1023 ∨ d.bitDepth = 12 ∧ M = 4095
  left : t.x = 0 ∨ 4 ≤ t.x
  right : t.x + t.w ≤ t.cropW
  w0 : 0 < t.w
  w384 : t.w ≤ 384
  h64 : t.h ≤ 64
  top : t.y < t.cropH
  cw : t.cropW = d.planeW
  ch : t.cropH = d.planeH
  cdef : d.cdef = t.cdeffed
  curr : d.curr = t.deblocked
  /-- all rows are in one stripe -/
  stripe : ∀ y, y < t.h → d.stripeNum (t.y + y) = d.stripeNum t.y
  start : d.stripeStartY t.y = t.y ∨ t.y = 0 ∧ d.stripeStartY t.y ≤ 0
  fin : d.stripeEndY t.y = t.y + t.h - 1 ∧ t.h % 2 = 0 ∨ t.cropH = t.y + t.h ∧ (t.cropH : Int) - 1 ≤ d.stripeEndY t.y
  parity : ∀ y, y < t.h → d.inBlock (t.y + y) % 2 = y % 2
  px : ∀ y x : Nat, y < t.cropH → x < t.cropW → t.cdeffed y x ≤ M ∧ t.deblocked y x ≤ M
  px16 : ∀ y x, t.cdeffed y x < 65536

/-- The padded rectangle has the samples of the specification. -/
theorem padded_eq {d : Spec.Dec} {t : Stripe} {M : Nat} (H : Fits d t M) (i j : Nat) (hj : j < t.w + 7) :
    padded t i j = d.sample t.y ((t.x : Int) + j - 4) ((t.y : Int) + i - 4) := by
  obtain ⟨-, hl, hr, hw0, hw, hh, ht, cw, ch, hc, hd, -, hs, hf, -, -, -⟩ := H
  unfold padded vertPadded Spec.Dec.sample
  simp only []
  rw [hc, hd, ← cw, ← ch]
  have ex : ((t.x : Int) - leftUniques t + clamp ((if t.x = 0 then -4 else 0) + j) 0
      (((leftUniques t + t.w + rightUniques t : Nat) : Int) - 1)) = max 0 (min ((t.cropW : Int) - 1) ((t.x : Int) + j - 4)) := by
    unfold leftUniques rightUniques clamp
    rcases hl with hl | hl
    · rw [if_pos hl, if_pos hl, hl]
      split
      · omega
      · split <;> omega
    · rw [if_neg (by omega), if_neg (by omega)]
      split
      · omega
      · split <;> omega
  rw [ex]
  have ey : clamp ((t.y : Int) - 4 + i) 0 (((t.cropH - t.y : Nat) : Int) + t.y - 1) =
      max 0 (min ((t.cropH : Int) - 1) ((t.y : Int) + i - 4)) := by
    unfold clamp
    split
    · omega
    · split <;> omega
  rw [ey]
  have hy0 : 0 ≤ max 0 (min ((t.cropH : Int) - 1) ((t.y : Int) + i - 4)) := by omega
  have hy1 : max 0 (min ((t.cropH : Int) - 1) ((t.y : Int) + i - 4)) ≤ (t.cropH : Int) - 1 := by omega
  generalize max 0 (min ((t.cropH : Int) - 1) ((t.y : Int) + i - 4)) = Y at hy0 hy1 ⊢
  generalize max 0 (min ((t.cropW : Int) - 1) ((t.x : Int) + j - 4)) = X
  generalize d.stripeStartY t.y = s0 at hs ⊢
  generalize d.stripeEndY t.y = s1 at hf ⊢
  have el : clamp Y ((t.y : Int) - 2) (((t.h + t.h % 2 : Nat) : Int) + t.y + 1) =
      max ((t.y : Int) - 2) (min (((t.h + t.h % 2 : Nat) : Int) + t.y + 1) Y) := by
    unfold clamp
    split
    · omega
    · split <;> omega
  rw [el]
  by_cases c1 : Y < s0
  · rw [if_pos c1, if_neg (by omega)]
    congr 1; omega
  · rw [if_neg c1]
    by_cases c2 : Y > s1
    · rw [if_pos c2, if_neg (by omega)]
      congr 1; omega
    · rw [if_neg c2, if_pos (by omega)]
      congr 1; omega

theorem sample_le {d : Spec.Dec} {t : Stripe} {M : Nat} (H : Fits d t M) (x y : Int) : d.sample t.y x y ≤ M := by
  obtain ⟨-, hl, hr, hw0, hw, hh, ht, cw, ch, hc, hd, -, hs, hf, -, hp, -⟩ := H
  unfold Spec.Dec.sample
  simp only []
  rw [hc, hd, ← cw, ← ch]
  have hy0 : 0 ≤ max 0 (min ((t.cropH : Int) - 1) y) := by omega
  have hy1 : max 0 (min ((t.cropH : Int) - 1) y) < (t.cropH : Int) := by omega
  have hx0 : 0 ≤ max 0 (min ((t.cropW : Int) - 1) x) := by omega
  have hx1 : max 0 (min ((t.cropW : Int) - 1) x) < (t.cropW : Int) := by omega
  generalize max 0 (min ((t.cropH : Int) - 1) y) = Y at hy0 hy1 ⊢
  generalize max 0 (min ((t.cropW : Int) - 1) x) = X at hx0 hx1 ⊢
  have hp' : ∀ z : Int, 0 ≤ z → z < t.cropH → t.cdeffed z X ≤ M ∧ t.deblocked z X ≤ M := by
    intro z h0 h1
    have := hp z.toNat X.toNat (by omega) (by omega)
    rwa [Int.toNat_of_nonneg h0, Int.toNat_of_nonneg hx0] at this
  split
  · exact (hp' _ (by omega) (by omega)).2
  · split
    · exact (hp' _ (by omega) (by omega)).2
    · exact (hp' _ hy0 hy1).1

/-- The box of a row and column of the arrays `a` and `b`: they start one row above and one column left of the rectangle. -/
def bx (d : Spec.Dec) (t : Stripe) (r eps k x : Nat) : Nat × Nat :=
  d.box t.y r eps ((t.y : Int) + k - 1) ((t.x : Int) + x - 1)

theorem sum2_congr {m n : Nat} {f g : Nat → Nat → Nat} (h : ∀ i j, i < m → j < n → f i j = g i j) :
    sum m (fun i => sum n (f i)) = sum m (fun i => sum n (g i)) :=
  sum_congr (fun i hi => sum_congr (fun j hj => h i j hi hj))

/-- The sums over the box from the padded rectangle. -/
theorem bx_eq {d : Spec.Dec} {t : Stripe} {M : Nat} (H : Fits d t M) (r eps k x : Nat) (hr : r ≤ 2) (hx : x < t.w + 2) :
    bx d t r eps k x = Spec.Dec.finish d.bitDepth ((2 * r + 1) * (2 * r + 1)) eps
      (sum (2 * r + 1) (fun dy => sum (2 * r + 1) (fun dx =>
        padded t (2 - r + k + 1 + dy) (2 - r + x + 1 + dx) * padded t (2 - r + k + 1 + dy) (2 - r + x + 1 + dx))))
      (sum (2 * r + 1) (fun dy => sum (2 * r + 1) (fun dx => padded t (2 - r + k + 1 + dy) (2 - r + x + 1 + dx)))) := by
  have e : ∀ dy dx : Nat, dx < 2 * r + 1 → d.sample t.y ((t.x : Int) + x - 1 - r + dx) ((t.y : Int) + k - 1 - r + dy) =
      padded t (2 - r + k + 1 + dy) (2 - r + x + 1 + dx) := by
    intro dy dx hdx
    rw [padded_eq H _ _ (by omega)]
    congr 1 <;> omega
  unfold bx Spec.Dec.box
  congr 1
  · exact sum2_congr (fun i j _ hj => by rw [e i j hj])
  · exact sum2_congr (fun i j _ hj => e i j hj)

/-! ## The arrays `a` and `b` -/

/-- The two integral images of the padded rectangle. -/
structure Holds (t : Stripe) (im : Images) : Prop where
  sum : ∀ i k, i < paddedRows t → k < 4 + t.w + 3 → im.sum (i * stripeStride + k) = rect (padded t) (i + 1) (k + 1) % 2 ^ 32
  sq : ∀ i k, i < paddedRows t → k < 4 + t.w + 3 →
    im.sq (i * stripeStride + k) = rect (fun i j => padded t i j * padded t i j) (i + 1) (k + 1) % 2 ^ 32

theorem setupImages_ok {d : Spec.Dec} {t : Stripe} {M : Nat} (H : Fits d t M) (buf : Images) :
    ∃ im, setupImages t stripeSize stripeStride buf = some im ∧ Holds t im := by
  have hh := H.h64
  have hw := H.w384
  have hr := H.right
  have ht := H.top
  have hrow : paddedRows t * stripeStride ≤ stripeSize := by
    have : paddedRows t ≤ 72 := by unfold paddedRows; omega
    show _ ≤ 392 * 72
    rw [Nat.mul_comm]
    exact Nat.mul_le_mul_left _ this
  have hl : 4 + t.w + 3 ≤ stripeStride := by unfold stripeStride; omega
  have h0 : 0 < paddedRows t := by unfold paddedRows; omega
  obtain ⟨a, ha, ha'⟩ := image_ok (padded t) (paddedRows t) (4 + t.w + 3) stripeSize stripeStride buf.sum h0 hl hrow
  obtain ⟨b, hb, hb'⟩ := image_ok (fun i j => padded t i j * padded t i j) (paddedRows t) (4 + t.w + 3) stripeSize stripeStride
    buf.sq h0 hl hrow
  refine ⟨⟨a, b⟩, ?_, ⟨ha', hb'⟩⟩
  unfold setupImages
  rw [if_neg (by omega), ha, hb]
  rfl

/-- What the strength of a pass must be. -/
def Strength (r s eps : Nat) : Prop :=
  (r = 1 ∧ s ≤ 3236 ∨ r = 2 ∧ s ≤ 140) ∧
    s = (1048576 + (2 * r + 1) * (2 * r + 1) * ((2 * r + 1) * (2 * r + 1)) * eps / 2) /
      ((2 * r + 1) * (2 * r + 1) * ((2 * r + 1) * (2 * r + 1)) * eps)

theorem finish_box {d : Spec.Dec} {t : Stripe} {M : Nat} (H : Fits d t M) (r s eps k x : Nat) (hs : Strength r s eps)
    (hx : x < t.w + 2) :
    sumFinish d.bitDepth
        (sum (2 * r + 1) (fun dy => sum (2 * r + 1) (fun dx =>
          padded t (2 - r + k + 1 + dy) (2 - r + x + 1 + dx) * padded t (2 - r + k + 1 + dy) (2 - r + x + 1 + dx))))
        (sum (2 * r + 1) (fun dy => sum (2 * r + 1) (fun dx => padded t (2 - r + k + 1 + dy) (2 - r + x + 1 + dx))))
        ((2 * r + 1) * (2 * r + 1)) (if r = 1 then 455 else 164) s = some (bx d t r eps k x) ∧
      1 ≤ (bx d t r eps k x).1 ∧ (bx d t r eps k x).1 ≤ 256 ∧ (bx d t r eps k x).2 < 1048576 ∧
      sum (2 * r + 1) (fun dy => sum (2 * r + 1) (fun dx =>
          padded t (2 - r + k + 1 + dy) (2 - r + x + 1 + dx) * padded t (2 - r + k + 1 + dy) (2 - r + x + 1 + dx))) < 2 ^ 32 ∧
      sum (2 * r + 1) (fun dy => sum (2 * r + 1) (fun dx => padded t (2 - r + k + 1 + dy) (2 - r + x + 1 + dx))) < 2 ^ 32 := by
  obtain ⟨hr, hs⟩ := hs
  have hr2 : r ≤ 2 := by omega
  rw [bx_eq H r eps k x hr2 hx]
  have hp : ∀ i j, i < 2 * r + 1 → j < 2 * r + 1 → padded t (2 - r + k + 1 + i) (2 - r + x + 1 + j) ≤ M := by
    intro i j _ hj
    rw [padded_eq H _ _ (by omega)]
    exact sample_le H _ _
  have hM : M ≤ 4095 := by rcases H.depth with h | h | h <;> omega
  have hv := var_le M (2 * r + 1) (by omega) (fun i j => padded t (2 - r + k + 1 + i) (2 - r + x + 1 + j)) hp
  have hS : sum (2 * r + 1) (fun dy => sum (2 * r + 1) (fun dx => padded t (2 - r + k + 1 + dy) (2 - r + x + 1 + dx))) ≤
      (2 * r + 1) * ((2 * r + 1) * M) :=
    sum_le (fun i hi => sum_le (fun j hj => hp i j hi hj))
  have hQ : sum (2 * r + 1) (fun dy => sum (2 * r + 1) (fun dx =>
      padded t (2 - r + k + 1 + dy) (2 - r + x + 1 + dx) * padded t (2 - r + k + 1 + dy) (2 - r + x + 1 + dx))) ≤
      (2 * r + 1) * ((2 * r + 1) * (M * M)) :=
    sum_le (fun i hi => sum_le (fun j hj => Nat.mul_le_mul (hp i j hi hj) (hp i j hi hj)))
  rw [← Nat.mul_assoc] at hS hQ
  have hMM := Nat.mul_le_mul hM hM
  generalize sum (2 * r + 1) (fun dy => sum (2 * r + 1) (fun dx => padded t (2 - r + k + 1 + dy) (2 - r + x + 1 + dx))) = S
    at hv hS ⊢
  generalize sum (2 * r + 1) (fun dy => sum (2 * r + 1) (fun dx =>
      padded t (2 - r + k + 1 + dy) (2 - r + x + 1 + dx) * padded t (2 - r + k + 1 + dy) (2 - r + x + 1 + dx))) = Q
    at hv hQ ⊢
  rcases hr with ⟨rfl, h⟩ | ⟨rfl, h⟩
  · have key := sumFinish_ok d.bitDepth M 9 Q S 455 s eps 20 H.depth (Or.inl ⟨rfl, rfl, rfl, h⟩) hs hS hQ hv
    refine ⟨key.1, key.2.1, key.2.2.1, key.2.2.2, ?_, ?_⟩ <;> omega
  · have key := sumFinish_ok d.bitDepth M 25 Q S 164 s eps 156 H.depth (Or.inr ⟨rfl, rfl, rfl, h⟩) hs hS hQ hv
    refine ⟨key.1, key.2.1, key.2.2.1, key.2.2.2, ?_, ?_⟩ <;> omega

/-- The arrays hold the boxes of a row. -/
def IsRow (d : Spec.Dec) (t : Stripe) (r eps k : Nat) (ab : Row) : Prop := ∀ x, x < t.w + 2 → ab x = bx d t r eps k x

theorem boxAb_ok {d : Spec.Dec} {t : Stripe} {M : Nat} (H : Fits d t M) {im : Images} (hi : Holds t im) (r s eps k : Nat)
    (hs : Strength r s eps) (hk : 2 - r + k + (2 * r + 1) < paddedRows t) (ab : Row) :
    ∃ ab', boxAb d.bitDepth r ab (fun i => im.sum ((2 - r) * stripeStride + (2 - r) + i))
        (fun i => im.sq ((2 - r) * stripeStride + (2 - r) + i)) (stripeSize - ((2 - r) * stripeStride + (2 - r))) stripeStride k
        t.w s = some ab' ∧ IsRow d t r eps k ab' := by
  have hh := H.h64
  have hw := H.w384
  have hr : r = 1 ∨ r = 2 := by rcases hs.1 with h | h <;> omega
  unfold boxAb
  have hk' : k + (2 * r + 1) ≤ 69 + (r - 1) - (2 - r) := by unfold paddedRows at hk; omega
  rw [if_pos (by
    unfold stripeSize stripeStride imageWidthMax
    rcases hr with rfl | rfl <;> omega)]
  have key := foldlM_inv (abStep d.bitDepth r (fun i => im.sum ((2 - r) * stripeStride + (2 - r) + i))
    (fun i => im.sq ((2 - r) * stripeStride + (2 - r) + i)) stripeStride k s)
    (fun n ab' => ∀ x, x < n → x < t.w + 2 → ab' x = bx d t r eps k x) (t.w + 2) ab (fun x hx => absurd hx (Nat.not_lt_zero _))
    (by
      intro x ab1 hx h1
      obtain ⟨f1, -, -, -, f2, f3⟩ := finish_box H r s eps k x hs hx
      refine ⟨setAb ab1 x (bx d t r eps k x), ?_, ?_⟩
      · unfold abStep
        rw [show r * 2 + 1 = 2 * r + 1 by omega]
        simp only []
        rw [integralSquare_eq (padded t) im.sum _ _ stripeStride hi.sum x k (2 * r + 1) (2 - r) (by omega) hk f3,
          integralSquare_eq (fun i j => padded t i j * padded t i j) im.sq _ _ stripeStride hi.sq x k (2 * r + 1) (2 - r)
            (by omega) hk f2, f1]
        rfl
      · intro x' hx' hw'
        unfold setAb
        by_cases e : x' = x
        · rw [if_pos e, e]
        · rw [if_neg e]
          exact h1 x' (by omega) hw')
  obtain ⟨ab', h1, h2⟩ := key
  exact ⟨ab', h1, fun x hx => h2 x hx hx⟩

theorem abR2_ok {d : Spec.Dec} {t : Stripe} {M : Nat} (H : Fits d t M) {im : Images} (hi : Holds t im) (s eps k : Nat)
    (hs : Strength 2 s eps) (hk : k ≤ t.h + t.h % 2) (ab : Row) :
    ∃ ab', abR2 d.bitDepth im stripeSize stripeStride k t.w s ab = some ab' ∧ IsRow d t 2 eps k ab' := by
  obtain ⟨ab', h1, h2⟩ := boxAb_ok H hi 2 s eps k hs (by unfold paddedRows; omega) ab
  refine ⟨ab', ?_, h2⟩
  rw [← h1]
  unfold abR2
  simp only [Nat.sub_self, Nat.zero_mul, Nat.zero_add, Nat.sub_zero]

theorem abR1_ok {d : Spec.Dec} {t : Stripe} {M : Nat} (H : Fits d t M) {im : Images} (hi : Holds t im) (s eps k : Nat)
    (hs : Strength 1 s eps) (hk : k ≤ t.h + 1) (ab : Row) :
    ∃ ab', abR1 d.bitDepth im stripeSize stripeStride k t.w s ab = some ab' ∧ IsRow d t 1 eps k ab' := by
  obtain ⟨ab', h1, h2⟩ := boxAb_ok H hi 1 s eps k hs (by unfold paddedRows; omega) ab
  refine ⟨ab', ?_, h2⟩
  rw [← h1]
  unfold abR1
  simp only [show 2 - 1 = 1 from rfl, Nat.one_mul]

end Rav1e.Lrf
