import Verif.Intra.EdgeFilter

/-!
# The three zones of the directional prediction
-/

namespace Rav1e.Intra

theorem blend_ok {bd x y sh : Nat} (hx : x < 2 ^ bd) (hy : y < 2 ^ bd) (hs : sh < 32) :
    (blend x y sh bd : Int) = Spec.round2 ((x : Int) * (32 - sh) + y * sh) 5 ∧ blend x y sh bd < 2 ^ bd := by
  unfold blend Spec.round2
  rw [if_neg (by decide), Int.shiftRight_eq_div_pow, Nat.shiftRight_eq_div_pow, Nat.one_shiftLeft, show ((2 ^ 5 : Nat) : Int) = 32 from rfl,
    show (2 : Int) ^ (5 - 1) = 16 from rfl, show (2 : Nat) ^ 5 = 32 from rfl]
  obtain ⟨t, ht⟩ : ∃ t, t + sh = 32 := ⟨32 - sh, by omega⟩
  rw [show 32 - sh = t by omega, show (32 : Int) - sh = t by omega]
  have e1 := Nat.mul_le_mul_right t (Nat.le_sub_one_of_lt hx)
  have e2 := Nat.mul_le_mul_right sh (Nat.le_sub_one_of_lt hy)
  have e3 : (2 ^ bd - 1) * t + (2 ^ bd - 1) * sh = 32 * (2 ^ bd - 1) := by rw [← Nat.mul_add, ht, Nat.mul_comm]
  have e4 : (x : Int) * t + y * sh = ((x * t + y * sh : Nat) : Int) := by push_cast; rfl
  rw [e4]
  omega

theorem interp_ok {bd : Nat} {g : Int → Int} {x y : Option Nat} {b sh : Int} {s : Nat} (hx : Good bd x (g b)) (hy : Good bd y (g (b + 1)))
    (hs : sh = (s : Int)) (h32 : s < 32) : Good bd (x.bind fun x => y.map fun y => blend x y s bd) (Spec.interpolate g b sh) := by
  obtain ⟨x, rfl, ex, lx⟩ := hx
  obtain ⟨y, rfl, ey, ly⟩ := hy
  have := blend_ok lx ly h32
  refine ⟨_, rfl, ?_, this.2⟩
  unfold Spec.interpolate
  rw [← ex, ← ey, hs]
  exact this.1

theorem min_lt {bd c : Nat} {z : Int} {v : Option Nat} (h : Good bd v z) (hc : c = (1 <<< bd) - 1) : Good bd (v.map fun x => min x c) z := by
  obtain ⟨x, rfl, ex, lx⟩ := h
  rw [Nat.one_shiftLeft] at hc
  refine ⟨min x c, rfl, ?_, ?_⟩ <;> omega

theorem z1_ok {above : Arr} {g : Int → Int} {dx w h bd ua off : Nat} (hu : ua = 0 ∨ ua = 1) (hw : 1 ≤ w)
    (H : ∀ b : Nat, b ≤ (w + h - 1) * 2 ^ ua → Good bd (above.get (b + off)) (g b)) (i j : Nat) :
    Good bd (predZ1 above dx w h bd ua off i j)
      (if (((i : Int) + 1) * (dx : Int)) >>> (6 - ua) + (j : Int) * 2 ^ ua < ((w : Int) + h - 1) * 2 ^ ua then
        Spec.interpolate g ((((i : Int) + 1) * (dx : Int)) >>> (6 - ua) + (j : Int) * 2 ^ ua) ((((i : Int) + 1) * (dx : Int) * 2 ^ ua) >>> 1 % 32)
      else g (((w : Int) + h - 1) * 2 ^ ua)) := by
  unfold predZ1
  simp only
  have e1 : (((i + 1) * dx : Nat) : Int) = ((i : Int) + 1) * dx := by push_cast; rfl
  rw [← e1]
  generalize (i + 1) * dx = idx
  have eb : ((idx >>> (6 - ua) + j <<< ua : Nat) : Int) = (idx : Int) >>> (6 - ua) + (j : Int) * 2 ^ ua := by
    rcases hu with rfl | rfl <;> simp [Nat.shiftLeft_eq]
  have em : (((h + w - 1) <<< ua : Nat) : Int) = ((w : Int) + h - 1) * 2 ^ ua := by
    rcases hu with rfl | rfl <;> simp only [Nat.shiftLeft_eq] <;> omega
  have em' : (h + w - 1) <<< ua = (w + h - 1) * 2 ^ ua := by rw [Nat.shiftLeft_eq, Nat.add_comm h w]
  have es : (((idx : Int) * 2 ^ ua) >>> 1 % 32 : Int) = (((idx <<< ua) >>> 1 % 32 : Nat) : Int) := by
    rcases hu with rfl | rfl <;> simp [Nat.shiftLeft_eq, Nat.shiftRight_eq_div_pow, Int.shiftRight_eq_div_pow]
  rw [← eb, ← em, es]
  generalize idx >>> (6 - ua) + j <<< ua = b
  by_cases hb : b < (h + w - 1) <<< ua
  · rw [if_pos hb, if_pos (by omega)]
    refine interp_ok (H b (by omega)) ?_ rfl (by omega)
    have := H (b + 1) (by omega)
    exact this
  · rw [if_neg hb, if_neg (by omega)]
    refine min_lt ?_ rfl
    have := H ((h + w - 1) <<< ua) (by omega)
    exact this

theorem z3_ok {left : Arr} {g : Int → Int} {dy w h bd ul off l : Nat} (hu : ul = 0 ∨ ul = 1) (hl : sub? left.len 1 = some l) (hd : dy ≤ 63)
    (H : ∀ b : Nat, b ≤ (w + h - 1) * 2 ^ ul → Good bd (left.get (l - (b + off))) (g b)) {i j : Nat} (hi : i < h) (hj : j < w) :
    Good bd (predZ3 left dy bd ul off i j)
      (Spec.interpolate g ((((j : Int) + 1) * (dy : Int)) >>> (6 - ul) + (i : Int) * 2 ^ ul) ((((j : Int) + 1) * (dy : Int) * 2 ^ ul) >>> 1 % 32)) := by
  unfold predZ3
  simp only
  rw [hl, Option.bind_some]
  have e1 : (((j + 1) * dy : Nat) : Int) = ((j : Int) + 1) * dy := by push_cast; rfl
  have hm : (j + 1) * dy ≤ 63 * w := by
    rw [Nat.mul_comm]; exact Nat.mul_le_mul hd (by omega)
  rw [← e1]
  generalize (j + 1) * dy = idx at hm ⊢
  have eb : ((idx >>> (6 - ul) + i <<< ul : Nat) : Int) = (idx : Int) >>> (6 - ul) + (i : Int) * 2 ^ ul := by
    rcases hu with rfl | rfl <;> simp [Nat.shiftLeft_eq]
  have es : (((idx : Int) * 2 ^ ul) >>> 1 % 32 : Int) = (((idx <<< ul) >>> 1 % 32 : Nat) : Int) := by
    rcases hu with rfl | rfl <;> simp [Nat.shiftLeft_eq, Nat.shiftRight_eq_div_pow, Int.shiftRight_eq_div_pow]
  have hb : idx >>> (6 - ul) + i <<< ul + 1 ≤ (w + h - 1) * 2 ^ ul := by
    rcases hu with rfl | rfl <;> simp only [Nat.shiftLeft_eq, Nat.shiftRight_eq_div_pow] <;> omega
  rw [← eb, es]
  generalize idx >>> (6 - ul) + i <<< ul = b at hb ⊢
  refine interp_ok (H b (by omega)) ?_ rfl (by omega)
  have := H (b + 1) hb
  rw [show l - (b + off + 1) = l - (b + 1 + off) by omega]
  exact this

/-- What zone 2 reads at index `z` and after index `z` of the left edge. -/
def leftAt (left : Arr) (l topLeft : Nat) (filter : Bool) (offL : Nat) (z : Int) : Option Nat :=
  if !filter && decide (z < 0) then some topLeft
  else if z + offL = -2 then left.get 0
  else if 0 ≤ z + offL then left.getI ((l : Int) - (z + offL)) else none
@[inherit_doc leftAt] def leftNext (left : Arr) (l : Nat) (offL : Nat) (z : Int) : Option Nat :=
  if z + offL = -2 then left.get 1
  else if 0 ≤ z + offL + 1 then left.getI ((l : Int) - (z + offL + 1)) else none

theorem z2_ok {above left : Arr} {ga gl : Int → Int} {topLeft dx dy w h bd ua ul offA offL l : Nat} {filter : Bool}
    (hua : ua = 0 ∨ ua = 1) (hul : ul = 0 ∨ ul = 1) (hl : sub? left.len 1 = some l) (hdx : 0 < dx) (hdy : 0 < dy) (hxy : dx * dy ≤ 4096)
    (HA : ∀ z : Int, -(2 ^ ua) ≤ z → z < ((w : Int) - 1) * 2 ^ ua →
      Good bd (if !filter && decide (z < 0) then some topLeft else above.getI (z + offA)) (ga z) ∧ Good bd (above.getI (z + 1 + offA)) (ga (z + 1)))
    (HL : ∀ z : Int, -(2 ^ ul) ≤ z → z < ((h : Int) - 1) * 2 ^ ul →
      Good bd (leftAt left l topLeft filter offL z) (gl z) ∧ Good bd (leftNext left l offL z) (gl (z + 1)))
    {i j : Nat} (hi : i < h) (hj : j < w) :
    Good bd (predZ2 above left topLeft filter dx dy bd ua ul offA offL i j)
      (if ((j : Int) * 64 - ((i : Int) + 1) * (dx : Int)) >>> (6 - ua) ≥ -(2 ^ ua) then
        Spec.interpolate ga (((j : Int) * 64 - ((i : Int) + 1) * (dx : Int)) >>> (6 - ua))
          ((((j : Int) * 64 - ((i : Int) + 1) * (dx : Int)) * 2 ^ ua) >>> 1 % 32)
      else Spec.interpolate gl (((i : Int) * 64 - ((j : Int) + 1) * (dy : Int)) >>> (6 - ul))
          ((((i : Int) * 64 - ((j : Int) + 1) * (dy : Int)) * 2 ^ ul) >>> 1 % 32)) := by
  unfold predZ2
  simp only
  have e1 : ((j <<< 6 : Nat) : Int) - (((i + 1) * dx : Nat) : Int) = (j : Int) * 64 - ((i : Int) + 1) * dx := by
    rw [Nat.shiftLeft_eq]; push_cast; rfl
  have e2 : ((i <<< 6 : Nat) : Int) - (((j + 1) * dy : Nat) : Int) = (i : Int) * 64 - ((j : Int) + 1) * dy := by
    rw [Nat.shiftLeft_eq]; push_cast; rfl
  rw [e1, e2]
  have p1 : 0 < ((i : Int) + 1) * dx := Int.mul_pos (by omega) (by omega)
  have p2 : 0 < ((j : Int) + 1) * dy := Int.mul_pos (by omega) (by omega)
  have hlow : ((j : Int) + 1) * 64 < ((i : Int) + 1) * dx → ((j : Int) + 1) * dy ≤ ((i : Int) + 1) * 64 := by
    intro hlt
    have hxy' : (dx : Int) * dy ≤ 4096 := by exact_mod_cast hxy
    have a1 : ((j : Int) + 1) * 64 * dy ≤ ((i : Int) + 1) * dx * dy := Int.mul_le_mul_of_nonneg_right (by omega) (by omega)
    have a2 : ((i : Int) + 1) * (dx * dy) ≤ ((i : Int) + 1) * 4096 := Int.mul_le_mul_of_nonneg_left hxy' (by omega)
    have a3 : ((i : Int) + 1) * dx * dy = ((i : Int) + 1) * (dx * dy) := by ring
    have a4 : ((j : Int) + 1) * 64 * dy = 64 * (((j : Int) + 1) * dy) := by ring
    omega
  generalize ((i : Int) + 1) * dx = u at p1 hlow ⊢
  generalize ((j : Int) + 1) * dy = v at p2 hlow ⊢
  have c1 : ((1 <<< ua : Nat) : Int) = 2 ^ ua := by rcases hua with rfl | rfl <;> rfl
  rw [c1]
  have sh : ∀ t : Int, (t % 32) = ((t % 32).toNat : Int) := fun t => by omega
  by_cases hc : -(2 ^ ua) ≤ ((j : Int) * 64 - u) >>> (6 - ua)
  · rw [if_pos hc, if_pos hc]
    have hb : ((j : Int) * 64 - u) >>> (6 - ua) < ((w : Int) - 1) * 2 ^ ua := by
      rcases hua with rfl | rfl <;> simp only [Int.shiftRight_eq_div_pow] <;> norm_num <;> omega
    obtain ⟨g1, g2⟩ := HA _ hc hb
    exact interp_ok g1 g2 (sh _) (by omega)
  · rw [if_neg hc, if_neg hc]
    have hlt : ((j : Int) + 1) * 64 < u := by
      rcases hua with rfl | rfl <;> simp only [Int.shiftRight_eq_div_pow] at hc <;> norm_num at hc <;> omega
    have hv := hlow hlt
    have hlo : -(2 ^ ul) ≤ ((i : Int) * 64 - v) >>> (6 - ul) := by
      rcases hul with rfl | rfl <;> simp only [Int.shiftRight_eq_div_pow] <;> norm_num <;> omega
    have hhi : ((i : Int) * 64 - v) >>> (6 - ul) < ((h : Int) - 1) * 2 ^ ul := by
      rcases hul with rfl | rfl <;> simp only [Int.shiftRight_eq_div_pow] <;> norm_num <;> omega
    obtain ⟨g1, g2⟩ := HL _ hlo hhi
    rw [hl, Option.bind_some]
    exact interp_ok g1 g2 (sh _) (by omega)

end Rav1e.Intra
