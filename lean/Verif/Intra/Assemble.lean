import Verif.Intra.Edges

/-!
# `get_intra_edges` as a whole
-/

namespace Rav1e.Intra

variable {p : Region} {s : Site} {S : Spec.Input}

/-- A slice holds the first `n` pixels of the row above. -/
structure IsA (a : Arr) (S : Spec.Input) (n : Nat) : Prop where
  len : a.len = n
  eq : ∀ k < n, (a.at_ k : Int) = S.aboveRow k
  lt : ∀ k < n, a.at_ k < 2 ^ S.bitDepth

/-- A slice holds, from right to left, the first `n` pixels of the column to the left. -/
structure IsL (a : Arr) (S : Spec.Input) (n : Nat) : Prop where
  len : a.len = n
  eq : ∀ k < n, (a.at_ (n - 1 - k) : Int) = S.leftCol k
  lt : ∀ k < n, a.at_ (n - 1 - k) < 2 ^ S.bitDepth

theorem slice_above {b : Buf} {n : Nat} (h : IsAbove S b n) (hn : n ≤ 128) : ∃ a, slice b 0 n = some a ∧ IsA a S n := by
  rw [slice_some (by omega) hn (fun k hk _ => (h k hk).isSome)]
  refine ⟨_, rfl, by simp, fun k hk => ?_, fun k hk => ?_⟩
  · show (((b (0 + k)).getD 0 : Nat) : Int) = _
    rw [Nat.zero_add]; exact (h k hk).getD.1
  · show (b (0 + k)).getD 0 < _
    rw [Nat.zero_add]; exact (h k hk).getD.2

theorem slice_left {b : Buf} {n : Nat} (h : IsLeft S b n) (hn : n ≤ 128) : ∃ a, slice b (128 - n) 128 = some a ∧ IsL a S n := by
  rw [slice_some (by omega) (by omega) (fun k hk hl => by
    have := (h (127 - k) (by omega)).isSome
    rwa [show 127 - (127 - k) = k by omega] at this)]
  refine ⟨_, rfl, by simp only; omega, fun k hk => ?_, fun k hk => ?_⟩
  · show (((b (128 - n + (n - 1 - k))).getD 0 : Nat) : Int) = _
    rw [show 128 - n + (n - 1 - k) = 127 - k by omega]; exact (h k hk).getD.1
  · show (b (128 - n + (n - 1 - k))).getD 0 < _
    rw [show 128 - n + (n - 1 - k) = 127 - k by omega]; exact (h k hk).getD.2

theorem corner_ok (A : Agree p s S) : Good S.bitDepth (corner p s S.bitDepth) (S.aboveRow (-1)) := by
  have hx := A.insideX
  have hy := A.insideY
  have ex := A.x
  have ey := A.y
  have hb := base_eq A.bitDepth
  unfold corner Spec.Input.aboveRow
  rw [if_pos rfl, A.haveAbove, A.haveLeft]
  by_cases h0 : s.x = 0 <;> by_cases h1 : s.y = 0
  · rw [if_pos ⟨h0, h1⟩]
    simp only [h0, h1, ne_eq, not_true_eq_false, decide_false, Bool.and_self, Bool.false_eq_true, if_false]
    exact ⟨_, rfl, hb.2.2.2, by omega⟩
  · rw [if_neg (by omega), if_neg h1, if_pos h0]
    simp only [h0, h1, ne_eq, not_true_eq_false, decide_false, not_false_eq_true, decide_true, Bool.and_false, Bool.false_eq_true,
      if_false, if_true]
    exact A.good (by omega) (by omega) (by omega) (by omega)
  · rw [if_neg (by omega), if_pos h1]
    simp only [h0, h1, ne_eq, not_true_eq_false, decide_false, not_false_eq_true, decide_true, Bool.false_and, Bool.false_eq_true,
      if_false, if_true]
    exact A.good (by omega) (by omega) (by omega) (by omega)
  · rw [if_neg (by omega), if_neg h1, if_neg h0]
    simp only [h0, h1, ne_eq, not_false_eq_true, decide_true, Bool.and_self, if_true]
    exact A.good (by omega) (by omega) (by omega) (by omega)

/-- The corner that the directional prediction uses. -/
def cornerOf (S : Spec.Input) (a : Int) (ef : Bool) : Int :=
  if ef = true ∧ 90 < a ∧ a < 180 ∧ 24 ≤ S.w + S.h then
    Spec.round2 (5 * S.leftCol 0 + 6 * S.aboveRow (-1) + 5 * S.aboveRow 0) 4
  else S.aboveRow (-1)

theorem corner_avg {l t a n : Nat} (h1 : l < n) (h2 : t < n) (h3 : a < n) :
    (((l * 5 + t * 6 + a * 5 + (1 <<< 3)) >>> 4 : Nat) : Int) = Spec.round2 (5 * (l : Int) + 6 * t + 5 * a) 4 ∧
    (l * 5 + t * 6 + a * 5 + (1 <<< 3)) >>> 4 < n := by
  have e : (1 : Nat) <<< 3 = 8 := rfl
  rw [e, Nat.shiftRight_eq_div_pow]
  unfold Spec.round2
  rw [if_neg (by decide), Int.shiftRight_eq_div_pow]
  rw [show ((2 ^ 4 : Nat) : Int) = 16 from rfl, show (2 : Int) ^ (4 - 1) = 8 from rfl, show (2 : Nat) ^ 4 = 16 from rfl]
  omega

/-- How many pixels of the left column are read. -/
def leftLen (s : Site) (m : Mode) (a : Int) : Nat :=
  (if (¬ (m = .dc ∨ m = .cfl) ∨ s.x ≠ 0) ∨ (a > 90 ∧ a ≠ 180) then s.h else 0) + (if m.directional = true ∧ a > 180 then s.w else 0)

theorem intraEdges_ok (A : Agree p s S) (m : Mode) (ef : Bool) (q : Param)
    (hdc : paethMode m s.x s.y = .dc ∨ paethMode m s.x s.y = .cfl → edgeAngle (paethMode m s.x s.y) q = 0) :
    ∃ e, intraEdges p s S.bitDepth m ef q = some e ∧
      IsA e.above S (s.w + if (paethMode m s.x s.y).directional = true ∧ edgeAngle (paethMode m s.x s.y) q < 90 then s.h else 0) ∧
      IsL e.left S (leftLen s (paethMode m s.x s.y) (edgeAngle (paethMode m s.x s.y) q)) ∧
      (paethMode m s.x s.y = .paeth ∨ ((paethMode m s.x s.y).directional = true ∧ edgeAngle (paethMode m s.x s.y) q ≠ 90 ∧
          edgeAngle (paethMode m s.x s.y) q ≠ 180) →
        (e.topLeft : Int) = cornerOf S (edgeAngle (paethMode m s.x s.y) q) ef ∧ e.topLeft < 2 ^ S.bitDepth) := by
  have hw := side_pos A.sizeW
  have hh := side_pos A.sizeH
  unfold intraEdges
  simp only
  generalize paethMode m s.x s.y = m' at hdc ⊢
  generalize edgeAngle m' q = a at hdc ⊢
  have hT : (¬ (m' = .dc ∨ m' = .cfl) ∨ s.y ≠ 0) ∨ (a ≠ 90 ∧ a < 180) := by
    by_cases h : m' = .dc ∨ m' = .cfl
    · have := hdc h; omega
    · exact Or.inl (Or.inl h)
  have hBL : m'.directional = true ∧ a > 180 → (¬ (m' = .dc ∨ m' = .cfl) ∨ s.x ≠ 0) ∨ (a > 90 ∧ a ≠ 180) := fun h => Or.inr (by omega)
  obtain ⟨b1, e1, g1⟩ := edgeAbove_ok A
  -- the left column
  have kL : ∃ b, (if (¬ (m' = .dc ∨ m' = .cfl) ∨ s.x ≠ 0) ∨ (a > 90 ∧ a ≠ 180) then edgeLeft p s S.bitDepth else some (fun _ => none)) = some b ∧
      IsLeft S b (if (¬ (m' = .dc ∨ m' = .cfl) ∨ s.x ≠ 0) ∨ (a > 90 ∧ a ≠ 180) then s.h else 0) := by
    by_cases h : (¬ (m' = .dc ∨ m' = .cfl) ∨ s.x ≠ 0) ∨ (a > 90 ∧ a ≠ 180)
    · rw [if_pos h, if_pos h]; exact edgeLeft_ok A
    · rw [if_neg h, if_neg h]; exact ⟨_, rfl, fun k hk => absurd hk (by omega)⟩
  obtain ⟨b2, e2, g2⟩ := kL
  rw [e2, if_pos hT, e1]
  simp only [Option.bind_some]
  have kT : ∃ b, (if m'.directional = true ∧ a < 90 then edgeTopRight p s b1 else some b1) = some b ∧
      IsAbove S b (s.w + if m'.directional = true ∧ a < 90 then s.h else 0) := by
    by_cases h : m'.directional = true ∧ a < 90
    · rw [if_pos h, if_pos h]; exact edgeTopRight_ok A g1
    · rw [if_neg h, if_neg h]; exact ⟨_, rfl, g1⟩
  obtain ⟨b3, e3, g3⟩ := kT
  rw [e3]
  simp only [Option.bind_some]
  rw [if_pos hT]
  obtain ⟨above, e4, g4⟩ := slice_above g3 (by split <;> omega)
  rw [e4]
  simp only [Option.bind_some]
  have kB : ∃ b, (if m'.directional = true ∧ a > 180 then edgeBottomLeft p s b2 else some b2) = some b ∧ IsLeft S b (leftLen s m' a) := by
    unfold leftLen
    by_cases h : m'.directional = true ∧ a > 180
    · have h' := hBL h
      rw [if_pos h'] at g2
      rw [if_pos h, if_pos h', if_pos h]
      exact edgeBottomLeft_ok A g2
    · rw [if_neg h, if_neg h]; exact ⟨_, rfl, g2⟩
  obtain ⟨b5, e5, g5⟩ := kB
  rw [e5]
  simp only [Option.bind_some]
  have hl : leftLen s m' a ≤ 128 := by unfold leftLen; split <;> split <;> omega
  obtain ⟨left, e6, g6⟩ := slice_left g5 hl
  have e6' := e6
  unfold leftLen at e6'
  rw [e6']
  simp only [Option.bind_some]
  obtain ⟨t, e7, g7, h7⟩ := corner_ok A
  by_cases hn : m' = .paeth ∨ (m'.directional = true ∧ a ≠ 90 ∧ a ≠ 180)
  · rw [if_pos hn, e7]
    simp only [Option.bind_some]
    by_cases hc : (ef = true ∧ a > 90 ∧ a < 180) ∧ 24 ≤ s.w + s.h
    · rw [if_pos hc]
      have hlen : leftLen s m' a = s.h := by
        unfold leftLen
        rw [if_pos (Or.inr (by omega)), if_neg (by omega)]; rfl
      have hl0 : left.len = s.h := by rw [g6.len, hlen]
      unfold sub?
      rw [if_pos (by omega)]
      simp only [Option.bind_some]
      unfold Arr.get
      rw [if_pos (by omega), if_pos (by rw [g4.len]; omega)]
      simp only [Option.bind_some]
      have hL := g6.eq 0 (by omega)
      have hL' := g6.lt 0 (by omega)
      have hA := g4.eq 0 (by omega)
      have hA' := g4.lt 0 (by omega)
      rw [hlen, Nat.sub_zero] at hL hL'
      rw [hl0]
      have key := corner_avg hL' h7 hA'
      refine ⟨_, rfl, g4, g6, fun _ => ⟨?_, key.2⟩⟩
      rw [key.1, hL, hA, g7]
      unfold cornerOf
      rw [if_pos ⟨hc.1.1, by omega, by omega, by rw [A.w, A.h]; exact hc.2⟩]
      rfl
    · rw [if_neg hc]
      refine ⟨_, rfl, g4, g6, fun _ => ⟨?_, h7⟩⟩
      unfold cornerOf
      rw [if_neg (fun h => hc ⟨⟨h.1, h.2.1, h.2.2.1⟩, by have := h.2.2.2; rw [A.w, A.h] at this; exact this⟩), g7]
  · rw [if_neg hn]
    exact ⟨_, rfl, g4, g6, fun h => absurd h hn⟩

end Rav1e.Intra
