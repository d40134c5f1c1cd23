import Verif.Intra.Model
import Verif.Intra.Spec

/-!
# The edges are the edges of the specification
-/

namespace Rav1e.Intra

variable {p : Region} {s : Site} {S : Spec.Input}

/-- The plane of the encoder and the frame of a decoder hold the same pixels, and the transform block `s` is the block `S`. -/
structure Agree (p : Region) (s : Site) (S : Spec.Input) : Prop where
  cur : ∀ r c : Nat, S.cur ((p.rectY + r : Nat) : Int) ((p.rectX + c : Nat) : Int) = p.px r c
  range : ∀ r c, p.px r c < 2 ^ S.bitDepth
  x : S.x = ((p.rectX + s.x : Nat) : Int)
  y : S.y = ((p.rectY + s.y : Nat) : Int)
  w : S.w = s.w
  h : S.h = s.h
  maxX : S.maxX = (p.planeW : Int) - 1
  maxY : S.maxY = (p.planeH : Int) - 1
  haveLeft : S.haveLeft = decide (s.x ≠ 0)
  haveAbove : S.haveAbove = decide (s.y ≠ 0)
  bitDepth : S.bitDepth = 8 ∨ S.bitDepth = 10 ∨ S.bitDepth = 12
  sizeW : s.w ∈ [4, 8, 16, 32, 64]
  sizeH : s.h ∈ [4, 8, 16, 32, 64]
  insideX : s.x < p.w
  insideY : s.y < p.h
  alignX : s.w ∣ s.x
  alignY : s.h ∣ s.y
  endX : p.rectX + p.w = p.planeW ∨ s.w ∣ p.w
  endY : p.rectY + p.h = p.planeH ∨ s.h ∣ p.h
  topRight : s.y ≠ 0 → S.x + s.w ≤ S.maxX → s.topRight p = some S.haveAboveRt
  bottomLeft : s.x ≠ 0 → S.y + s.h ≤ S.maxY → s.bottomLeft p = some S.haveBelowLft

/-- A pixel that has been read. -/
def Good (bd : Nat) (v : Option Nat) (z : Int) : Prop := ∃ n, v = some n ∧ (n : Int) = z ∧ n < 2 ^ bd

theorem Good.isSome {bd : Nat} {v : Option Nat} {z : Int} (h : Good bd v z) : v.isSome = true := by
  obtain ⟨n, rfl, _⟩ := h; rfl

theorem Good.getD {bd : Nat} {v : Option Nat} {z : Int} (h : Good bd v z) : ((v.getD 0 : Nat) : Int) = z ∧ v.getD 0 < 2 ^ bd := by
  obtain ⟨n, rfl, a, b⟩ := h; exact ⟨a, b⟩

theorem side_pos {w : Nat} (h : w ∈ [4, 8, 16, 32, 64]) : 4 ≤ w ∧ w ≤ 64 := by
  simp only [List.mem_cons, List.not_mem_nil, or_false] at h; omega

theorem dvd_room {w x n : Nat} (hx : w ∣ x) (hn : w ∣ n) (h : x < n) : x + w ≤ n := by
  obtain ⟨a, rfl⟩ := hx
  obtain ⟨b, rfl⟩ := hn
  have : a < b := Nat.lt_of_mul_lt_mul_left h
  calc w * a + w = w * (a + 1) := by rw [Nat.mul_add, Nat.mul_one]
    _ ≤ w * b := Nat.mul_le_mul_left _ this

theorem Agree.wLe (A : Agree p s S) : p.w ≤ p.rectW ∧ p.rectX + p.w ≤ p.planeW := by
  have h := A.insideX
  unfold Region.w at h ⊢
  omega

theorem Agree.hLe (A : Agree p s S) : p.h ≤ p.rectH ∧ p.rectY + p.h ≤ p.planeH := by
  have h := A.insideY
  unfold Region.h at h ⊢
  omega

theorem Agree.good (A : Agree p s S) {r c : Nat} (hr : r < p.h) (hc : c < p.w) {R C : Int} (eR : R = ((p.rectY + r : Nat) : Int))
    (eC : C = ((p.rectX + c : Nat) : Int)) : Good S.bitDepth (p.get r c) (S.cur R C) := by
  have h1 := A.wLe.1
  have h2 := A.hLe.1
  refine ⟨p.px r c, ?_, ?_, A.range r c⟩
  · unfold Region.get
    rw [if_pos ⟨by omega, by omega⟩]
  · rw [eR, eC, A.cur]

theorem Agree.roomX (A : Agree p s S) : p.rectX + p.w = p.planeW ∨ (s.x + s.w ≤ p.w ∧ (s.x + s.w < p.w → s.x + 2 * s.w ≤ p.w)) := by
  rcases A.endX with h | h
  · exact Or.inl h
  · refine Or.inr ⟨dvd_room A.alignX h A.insideX, fun g => ?_⟩
    have := dvd_room (Nat.dvd_add A.alignX (Nat.dvd_refl _)) h g
    omega

theorem Agree.roomY (A : Agree p s S) : p.rectY + p.h = p.planeH ∨ (s.y + s.h ≤ p.h ∧ (s.y + s.h < p.h → s.y + 2 * s.h ≤ p.h)) := by
  rcases A.endY with h | h
  · exact Or.inl h
  · refine Or.inr ⟨dvd_room A.alignY h A.insideY, fun g => ?_⟩
    have := dvd_room (Nat.dvd_add A.alignY (Nat.dvd_refl _)) h g
    omega

theorem base_eq {bd : Nat} (h : bd = 8 ∨ bd = 10 ∨ bd = 12) :
    base bd = 2 ^ (bd - 1) ∧ base bd + 1 < 2 ^ bd ∧ 1 ≤ base bd ∧ ((base bd : Nat) : Int) = 2 ^ (bd - 1) := by
  rcases h with rfl | rfl | rfl <;> decide

/-! ### Writing and slicing -/

theorem put_some {buf : Buf} {lo hi : Nat} {f : Nat → Option Nat} (h : hi ≤ 128) (hf : ∀ k < hi, lo ≤ k → (f k).isSome = true) :
    put buf lo hi f = some (fun k => if lo ≤ k ∧ k < hi then f k else buf k) := by
  unfold put
  rw [if_pos ⟨h, hf⟩]

theorem slice_some {buf : Buf} {lo hi : Nat} (h : lo ≤ hi) (h' : hi ≤ 128) (hf : ∀ k < hi, lo ≤ k → (buf k).isSome = true) :
    slice buf lo hi = some ⟨hi - lo, fun k => (buf (lo + k)).getD 0⟩ := by
  unfold slice
  rw [if_pos ⟨h, h', hf⟩]

/-- A buffer holds the first `n` pixels of the row above. -/
def IsAbove (S : Spec.Input) (b : Buf) (n : Nat) : Prop := ∀ k < n, Good S.bitDepth (b k) (S.aboveRow k)

/-- A buffer holds, from right to left, the first `n` pixels of the column to the left. -/
def IsLeft (S : Spec.Input) (b : Buf) (n : Nat) : Prop := ∀ k < n, Good S.bitDepth (b (127 - k)) (S.leftCol k)

theorem aboveRow_in (hA : S.haveAbove = true) {k : Int} (h0 : 0 ≤ k) (hk : k < S.w) :
    S.aboveRow k = S.cur (S.y - 1) (min S.maxX (S.x + k)) := by
  unfold Spec.Input.aboveRow
  rw [if_neg (by omega), hA]
  simp only [Bool.not_true, Bool.false_eq_true, if_false]
  rw [if_pos hk]

theorem aboveRow_right (hA : S.haveAbove = true) {k : Int} (h0 : 0 ≤ k) (hk : S.w ≤ k) :
    S.aboveRow k = if S.haveAboveRt then S.cur (S.y - 1) (min S.maxX (S.x + min k (2 * S.w - 1)))
      else S.cur (S.y - 1) (min S.maxX (S.x + S.w - 1)) := by
  unfold Spec.Input.aboveRow
  rw [if_neg (by omega), hA]
  simp only [Bool.not_true, Bool.false_eq_true, if_false]
  rw [if_neg (by omega)]

theorem aboveRow_none (hA : S.haveAbove = false) {k : Int} (h0 : 0 ≤ k) :
    S.aboveRow k = if S.haveLeft then S.cur S.y (S.x - 1) else 2 ^ (S.bitDepth - 1) - 1 := by
  unfold Spec.Input.aboveRow
  rw [if_neg (by omega), hA]
  simp

theorem leftCol_in (hL : S.haveLeft = true) {k : Int} (h0 : 0 ≤ k) (hk : k < S.h) :
    S.leftCol k = S.cur (min S.maxY (S.y + k)) (S.x - 1) := by
  unfold Spec.Input.leftCol
  rw [if_neg (by omega), hL]
  simp only [Bool.not_true, Bool.false_eq_true, if_false]
  rw [if_pos hk]

theorem leftCol_below (hL : S.haveLeft = true) {k : Int} (h0 : 0 ≤ k) (hk : S.h ≤ k) :
    S.leftCol k = if S.haveBelowLft then S.cur (min S.maxY (S.y + min k (2 * S.h - 1))) (S.x - 1)
      else S.cur (min S.maxY (S.y + S.h - 1)) (S.x - 1) := by
  unfold Spec.Input.leftCol
  rw [if_neg (by omega), hL]
  simp only [Bool.not_true, Bool.false_eq_true, if_false]
  rw [if_neg (by omega)]

theorem leftCol_none (hL : S.haveLeft = false) {k : Int} (h0 : 0 ≤ k) :
    S.leftCol k = if S.haveAbove then S.cur (S.y - 1) S.x else 2 ^ (S.bitDepth - 1) + 1 := by
  unfold Spec.Input.leftCol
  rw [if_neg (by omega), hL]
  simp

theorem edgeAbove_ok (A : Agree p s S) : ∃ b, edgeAbove p s S.bitDepth = some b ∧ IsAbove S b s.w := by
  have hw := side_pos A.sizeW
  have hb := base_eq A.bitDepth
  have hx := A.insideX
  have hy := A.insideY
  have ex := A.x
  have ey := A.y
  have eX := A.maxX
  have l1 := A.wLe
  have room := A.roomX
  unfold edgeAbove
  by_cases h0 : s.y = 0
  · rw [if_neg (by omega)]
    have hA : S.haveAbove = false := by rw [A.haveAbove]; simp [h0]
    have key : ∃ v, (if s.x ≠ 0 then p.get 0 (s.x - 1) else some (base S.bitDepth - 1)) = some v ∧
        ∀ k : Nat, (v : Int) = S.aboveRow k ∧ v < 2 ^ S.bitDepth := by
      by_cases h1 : s.x = 0
      · rw [if_neg (by omega)]
        refine ⟨_, rfl, fun k => ⟨?_, by omega⟩⟩
        rw [aboveRow_none hA (by omega), A.haveLeft]
        simp only [h1, ne_eq, not_true_eq_false, decide_false, Bool.false_eq_true, if_false]
        rw [← hb.2.2.2]; omega
      · rw [if_pos h1]
        obtain ⟨n, e, g, hn⟩ := A.good (r := 0) (c := s.x - 1) (by omega) (by omega) (R := S.y) (C := S.x - 1) (by omega) (by omega)
        refine ⟨n, e, fun k => ⟨?_, hn⟩⟩
        rw [aboveRow_none hA (by omega), A.haveLeft, g]
        simp [h1]
    obtain ⟨v, e, hv⟩ := key
    rw [e]
    simp only [Option.bind_some]
    rw [put_some (by omega) (fun _ _ _ => rfl)]
    refine ⟨_, rfl, fun k hk => ⟨v, ?_, (hv k).1, (hv k).2⟩⟩
    rw [if_pos ⟨by omega, hk⟩]
  · rw [if_pos h0]
    have hA : S.haveAbove = true := by rw [A.haveAbove]; simp [h0]
    have ht : ∃ t, (if s.x + s.w > p.w then sub? p.w s.x else some s.w) = some t ∧ t = min s.w (p.w - s.x) := by
      by_cases h1 : s.x + s.w > p.w
      · rw [if_pos h1]
        unfold sub?
        rw [if_pos (by omega)]
        exact ⟨_, rfl, by omega⟩
      · rw [if_neg h1]
        exact ⟨_, rfl, by omega⟩
    obtain ⟨t, e, ht⟩ := ht
    rw [e]
    simp only [Option.bind_some]
    have g1 : ∀ k < t, Good S.bitDepth (p.get (s.y - 1) (s.x + k)) (S.aboveRow k) := by
      intro k hk
      rw [aboveRow_in hA (by omega) (by rw [A.w]; omega)]
      exact A.good (by omega) (by omega) (by omega) (by omega)
    rw [put_some (by omega) (fun k hk _ => (g1 k hk).isSome)]
    simp only [Option.bind_some]
    by_cases h2 : t < s.w
    · rw [if_pos h2]
      have g2 : Good S.bitDepth (p.get (s.y - 1) (s.x + t - 1)) (S.cur (S.y - 1) (min S.maxX (S.x + t))) :=
        A.good (by omega) (by omega) (by omega) (by omega)
      obtain ⟨n, e2, g2, hn⟩ := g2
      rw [e2]
      simp only [Option.bind_some]
      rw [put_some (by omega) (fun _ _ _ => rfl)]
      refine ⟨_, rfl, fun k hk => ?_⟩
      by_cases h3 : k < t
      · rw [if_neg (by omega), if_pos ⟨by omega, h3⟩]
        exact g1 k h3
      · refine ⟨n, by rw [if_pos ⟨by omega, hk⟩], ?_, hn⟩
        rw [g2, aboveRow_in hA (by omega) (by rw [A.w]; omega)]
        congr 1
        omega
    · rw [if_neg h2]
      refine ⟨_, rfl, fun k hk => ?_⟩
      rw [if_pos ⟨by omega, by omega⟩]
      exact g1 k (by omega)

theorem edgeLeft_ok (A : Agree p s S) : ∃ b, edgeLeft p s S.bitDepth = some b ∧ IsLeft S b s.h := by
  have hw := side_pos A.sizeH
  have hb := base_eq A.bitDepth
  have hx := A.insideX
  have hy := A.insideY
  have ex := A.x
  have ey := A.y
  have eY := A.maxY
  have l1 := A.hLe
  have room := A.roomY
  unfold edgeLeft
  by_cases h0 : s.x = 0
  · rw [if_neg (by omega)]
    have hL : S.haveLeft = false := by rw [A.haveLeft]; simp [h0]
    have key : ∃ v, (if s.y ≠ 0 then p.get (s.y - 1) 0 else some (base S.bitDepth + 1)) = some v ∧
        ∀ k : Nat, (v : Int) = S.leftCol k ∧ v < 2 ^ S.bitDepth := by
      by_cases h1 : s.y = 0
      · rw [if_neg (by omega)]
        refine ⟨_, rfl, fun k => ⟨?_, by omega⟩⟩
        rw [leftCol_none hL (by omega), A.haveAbove]
        simp only [h1, ne_eq, not_true_eq_false, decide_false, Bool.false_eq_true, if_false]
        rw [← hb.2.2.2]; omega
      · rw [if_pos h1]
        obtain ⟨n, e, g, hn⟩ := A.good (r := s.y - 1) (c := 0) (by omega) (by omega) (R := S.y - 1) (C := S.x) (by omega) (by omega)
        refine ⟨n, e, fun k => ⟨?_, hn⟩⟩
        rw [leftCol_none hL (by omega), A.haveAbove, g]
        simp [h1]
    obtain ⟨v, e, hv⟩ := key
    rw [e]
    simp only [Option.bind_some]
    rw [put_some (by omega) (fun _ _ _ => rfl)]
    refine ⟨_, rfl, fun k hk => ⟨v, ?_, (hv k).1, (hv k).2⟩⟩
    rw [if_pos ⟨by omega, by omega⟩]
  · rw [if_pos h0]
    have hL : S.haveLeft = true := by rw [A.haveLeft]; simp [h0]
    have ht : ∃ t, (if s.y + s.h > p.h then sub? p.h s.y else some s.h) = some t ∧ t = min s.h (p.h - s.y) := by
      by_cases h1 : s.y + s.h > p.h
      · rw [if_pos h1]
        unfold sub?
        rw [if_pos (by omega)]
        exact ⟨_, rfl, by omega⟩
      · rw [if_neg h1]
        exact ⟨_, rfl, by omega⟩
    obtain ⟨t, e, ht⟩ := ht
    rw [e]
    simp only [Option.bind_some]
    have g1 : ∀ k < t, Good S.bitDepth (p.get (s.y + k) (s.x - 1)) (S.leftCol k) := by
      intro k hk
      rw [leftCol_in hL (by omega) (by rw [A.h]; omega)]
      exact A.good (by omega) (by omega) (by omega) (by omega)
    rw [put_some (by omega) (fun k hk hl => (g1 (127 - k) (by omega)).isSome)]
    simp only [Option.bind_some]
    have sub127 : ∀ k < 128, 127 - (127 - k) = k := by omega
    by_cases h2 : t < s.h
    · rw [if_pos h2]
      have g2 : Good S.bitDepth (p.get (s.y + t - 1) (s.x - 1)) (S.cur (min S.maxY (S.y + t)) (S.x - 1)) :=
        A.good (by omega) (by omega) (by omega) (by omega)
      obtain ⟨n, e2, g2, hn⟩ := g2
      rw [e2]
      simp only [Option.bind_some]
      rw [put_some (by omega) (fun _ _ _ => rfl)]
      refine ⟨_, rfl, fun k hk => ?_⟩
      by_cases h3 : k < t
      · rw [if_neg (by omega), if_pos ⟨by omega, by omega⟩, sub127 k (by omega)]
        exact g1 k h3
      · refine ⟨n, by rw [if_pos ⟨by omega, by omega⟩], ?_, hn⟩
        rw [g2, leftCol_in hL (by omega) (by rw [A.h]; omega)]
        congr 1
        omega
    · rw [if_neg h2]
      refine ⟨_, rfl, fun k hk => ?_⟩
      rw [if_pos ⟨by omega, by omega⟩, sub127 k (by omega)]
      exact g1 k (by omega)

theorem topRight_false (h : ¬ s.x + s.w < p.w) : s.topRight p = some false := by
  unfold Site.topRight hasTopRight
  simp [h]

theorem bottomLeft_false (h : ¬ s.y + s.h < p.h) : s.bottomLeft p = some false := by
  unfold Site.bottomLeft hasBottomLeft
  simp [h]

theorem edgeTopRight_ok (A : Agree p s S) {b : Buf} (hb : IsAbove S b s.w) :
    ∃ b', edgeTopRight p s b = some b' ∧ IsAbove S b' (s.w + s.h) := by
  have hw := side_pos A.sizeW
  have hh := side_pos A.sizeH
  have hx := A.insideX
  have hy := A.insideY
  have ex := A.x
  have ey := A.y
  have eX := A.maxX
  have l1 := A.wLe
  have room := A.roomX
  have eW := A.w
  -- the number of pixels that are read, and the pixels
  have key : ∃ flag num, (if s.y ≠ 0 then s.topRight p else some false) = some flag ∧
      (if flag = true then (sub? p.w (s.x + s.w)).map (min s.w) else some 0) = some num ∧ num ≤ s.w ∧
      (∀ k, s.w ≤ k → k < s.w + num → Good S.bitDepth (p.get (s.y - 1) (s.x + k)) (S.aboveRow k)) ∧
      (num < s.h → ∀ k, s.w + num ≤ k → k < s.w + s.h → S.aboveRow k = S.aboveRow ((s.w + num - 1 : Nat) : Int)) := by
    by_cases h0 : s.y = 0
    · refine ⟨false, 0, by rw [if_neg (by omega)], by simp, by omega, fun k _ _ => by omega, fun _ k hk hk' => ?_⟩
      have hA : S.haveAbove = false := by rw [A.haveAbove]; simp [h0]
      rw [aboveRow_none hA (by omega), aboveRow_none hA (by omega)]
    · have hA : S.haveAbove = true := by rw [A.haveAbove]; simp [h0]
      by_cases h1 : S.x + s.w ≤ S.maxX
      · rw [if_pos h0, A.topRight h0 h1]
        by_cases hf : S.haveAboveRt = true
        · rw [hf]
          have h2 : s.x + s.w < p.w := by
            false_or_by_contra; rename_i h2
            have := topRight_false (p := p) (s := s) h2
            rw [A.topRight h0 h1, hf] at this
            exact absurd this (by decide)
          refine ⟨true, min s.w (p.w - (s.x + s.w)), rfl, ?_, by omega, fun k hk hk' => ?_, fun hn k hk hk' => ?_⟩
          · unfold sub?
            rw [if_pos rfl, if_pos (by omega)]
            rfl
          · rw [aboveRow_right hA (by omega) (by omega), hf, if_pos rfl]
            exact A.good (by omega) (by omega) (by omega) (by omega)
          · by_cases hz : min s.w (p.w - (s.x + s.w)) = 0
            · omega
            · rw [aboveRow_right hA (by omega) (by omega), aboveRow_right hA (by omega) (by omega), hf, if_pos rfl]
              congr 1
              omega
        · have hf : S.haveAboveRt = false := by simpa using hf
          rw [hf]
          refine ⟨false, 0, rfl, by simp, by omega, fun k _ _ => by omega, fun _ k hk hk' => ?_⟩
          rw [aboveRow_right hA (by omega) (by omega), hf, aboveRow_in hA (by omega) (by omega)]
          simp only [Bool.false_eq_true, if_false]
          congr 2
          omega
      · refine ⟨false, 0, ?_, by simp, by omega, fun k _ _ => by omega, fun _ k hk hk' => ?_⟩
        · rw [if_pos h0, topRight_false (by omega)]
        · rw [aboveRow_right hA (by omega) (by omega), aboveRow_in hA (by omega) (by omega)]
          split
          · congr 1; omega
          · congr 1; omega
  obtain ⟨flag, num, e1, e2, hn, hr, hf⟩ := key
  unfold edgeTopRight
  rw [e1]
  simp only [Option.bind_some]
  rw [e2]
  simp only [Option.bind_some]
  rw [put_some (by omega) (fun k hk hl => (hr k hl hk).isSome)]
  simp only [Option.bind_some]
  -- the buffer after the first loop
  have g1 : ∀ k < s.w + num, Good S.bitDepth (if s.w ≤ k ∧ k < s.w + num then p.get (s.y - 1) (s.x + k) else b k) (S.aboveRow k) := by
    intro k hk
    by_cases h1 : s.w ≤ k
    · rw [if_pos ⟨h1, hk⟩]; exact hr k h1 hk
    · rw [if_neg (by omega)]; exact hb k (by omega)
  by_cases h2 : num < s.h
  · rw [if_pos h2]
    have g2 := g1 (s.w + num - 1) (by omega)
    rw [put_some (by omega) (fun _ _ _ => g2.isSome)]
    refine ⟨_, rfl, fun k hk => ?_⟩
    by_cases h3 : k < s.w + num
    · rw [if_neg (by omega)]
      exact g1 k h3
    · rw [if_pos ⟨by omega, hk⟩, hf h2 k (by omega) hk]
      exact g2
  · rw [if_neg h2]
    exact ⟨_, rfl, fun k hk => g1 k (by omega)⟩

theorem edgeBottomLeft_ok (A : Agree p s S) {b : Buf} (hb : IsLeft S b s.h) :
    ∃ b', edgeBottomLeft p s b = some b' ∧ IsLeft S b' (s.h + s.w) := by
  have hw := side_pos A.sizeW
  have hh := side_pos A.sizeH
  have hx := A.insideX
  have hy := A.insideY
  have ex := A.x
  have ey := A.y
  have eY := A.maxY
  have l1 := A.hLe
  have room := A.roomY
  have eH := A.h
  have key : ∃ flag num, (if s.x ≠ 0 then s.bottomLeft p else some false) = some flag ∧
      (if flag = true then (sub? p.h (s.y + s.h)).map (min s.h) else some 0) = some num ∧ num ≤ s.h ∧
      (∀ k, s.h ≤ k → k < s.h + num → Good S.bitDepth (p.get (s.y + k) (s.x - 1)) (S.leftCol k)) ∧
      (num < s.w → ∀ k, s.h + num ≤ k → k < s.h + s.w → S.leftCol k = S.leftCol ((s.h + num - 1 : Nat) : Int)) := by
    by_cases h0 : s.x = 0
    · refine ⟨false, 0, by rw [if_neg (by omega)], by simp, by omega, fun k _ _ => by omega, fun _ k hk hk' => ?_⟩
      have hL : S.haveLeft = false := by rw [A.haveLeft]; simp [h0]
      rw [leftCol_none hL (by omega), leftCol_none hL (by omega)]
    · have hL : S.haveLeft = true := by rw [A.haveLeft]; simp [h0]
      by_cases h1 : S.y + s.h ≤ S.maxY
      · rw [if_pos h0, A.bottomLeft h0 h1]
        by_cases hf : S.haveBelowLft = true
        · rw [hf]
          have h2 : s.y + s.h < p.h := by
            false_or_by_contra; rename_i h2
            have := bottomLeft_false (p := p) (s := s) h2
            rw [A.bottomLeft h0 h1, hf] at this
            exact absurd this (by decide)
          refine ⟨true, min s.h (p.h - (s.y + s.h)), rfl, ?_, by omega, fun k hk hk' => ?_, fun hn k hk hk' => ?_⟩
          · unfold sub?
            rw [if_pos rfl, if_pos (by omega)]
            rfl
          · rw [leftCol_below hL (by omega) (by omega), hf, if_pos rfl]
            exact A.good (by omega) (by omega) (by omega) (by omega)
          · by_cases hz : min s.h (p.h - (s.y + s.h)) = 0
            · omega
            · rw [leftCol_below hL (by omega) (by omega), leftCol_below hL (by omega) (by omega), hf, if_pos rfl]
              congr 1
              omega
        · have hf : S.haveBelowLft = false := by simpa using hf
          rw [hf]
          refine ⟨false, 0, rfl, by simp, by omega, fun k _ _ => by omega, fun _ k hk hk' => ?_⟩
          rw [leftCol_below hL (by omega) (by omega), hf, leftCol_in hL (by omega) (by omega)]
          simp only [Bool.false_eq_true, if_false]
          congr 2
          omega
      · refine ⟨false, 0, ?_, by simp, by omega, fun k _ _ => by omega, fun _ k hk hk' => ?_⟩
        · rw [if_pos h0, bottomLeft_false (by omega)]
        · rw [leftCol_below hL (by omega) (by omega), leftCol_in hL (by omega) (by omega)]
          split
          · congr 1; omega
          · congr 1; omega
  obtain ⟨flag, num, e1, e2, hn, hr, hf⟩ := key
  unfold edgeBottomLeft
  rw [e1]
  simp only [Option.bind_some]
  rw [e2]
  simp only [Option.bind_some]
  rw [put_some (by omega) (fun k hk hl => (hr (127 - k) (by omega) (by omega)).isSome)]
  simp only [Option.bind_some]
  have sub127 : ∀ k < 128, 127 - (127 - k) = k := by omega
  have g1 : ∀ k < s.h + num, Good S.bitDepth
      (if 128 - s.h - num ≤ 127 - k ∧ 127 - k < 128 - s.h then p.get (s.y + (127 - (127 - k))) (s.x - 1) else b (127 - k)) (S.leftCol k) := by
    intro k hk
    by_cases h1 : s.h ≤ k
    · rw [if_pos ⟨by omega, by omega⟩, sub127 k (by omega)]; exact hr k h1 hk
    · rw [if_neg (by omega)]; exact hb k (by omega)
  by_cases h2 : num < s.w
  · rw [if_pos h2]
    have g2 := g1 (s.h + num - 1) (by omega)
    rw [show 127 - (s.h + num - 1) = 128 - s.h - num by omega] at g2
    rw [put_some (by omega) (fun _ _ _ => g2.isSome)]
    refine ⟨_, rfl, fun k hk => ?_⟩
    by_cases h3 : k < s.h + num
    · rw [if_neg (by omega)]
      exact g1 k h3
    · rw [if_pos ⟨by omega, by omega⟩, hf h2 k (by omega) hk]
      exact g2
  · rw [if_neg h2]
    exact ⟨_, rfl, fun k hk => g1 k (by omega)⟩

end Rav1e.Intra
