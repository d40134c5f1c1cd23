import Verif.Mc.Block

/-! # Prediction from a reference picture -/

namespace Rav1e.Mc

open Spec (round2 clip3)

/-- The plane of a reference in the encoder holds the decoder's picture `R`, extended by its borders, which are wider than
the largest block by 7 pixels. -/
structure Padded (d : Spec.Dec) (R : Spec.RefPic) (p : Plane) : Prop where
  xdec : p.xdec = d.subX
  ydec : p.ydec = d.subY
  px : ∀ x y : Int, -(p.xorigin : Int) ≤ x → x + p.xorigin < p.stride → -(p.yorigin : Int) ≤ y → y + p.yorigin < p.allocHeight →
    (p.data ((y + p.yorigin).toNat * p.stride + (x + p.xorigin).toNat) : Int) = d.refPx R y x
  wide : d.lastX R ≤ p.width
  high : d.lastY R ≤ p.height
  left : 64 / 2 ^ d.subX + 6 ≤ p.xorigin
  right : p.xorigin + p.width + 64 / 2 ^ d.subX + 6 < p.stride
  top : 64 / 2 ^ d.subY + 6 ≤ p.yorigin
  bottom : p.yorigin + p.height + 64 / 2 ^ d.subY + 6 < p.allocHeight

/-- Clipping moves a position into a range by moving it as often as one likes. -/
theorem clip_shift {lo last org x k n : Int} (h0 : 0 ≤ last) (hk : 0 ≤ k) (hkn : k ≤ n) (hl : n ≤ org) (hw : last ≤ lo) :
    clip3 0 last (max (-org) (min x lo) + k) = clip3 0 last (x + k) := by
  unfold clip3
  split_ifs <;> omega

/-- The samples around the block at `(x, y)` that a motion vector points to. -/
def window (d : Spec.Dec) (R : Spec.RefPic) (x y : Nat) (mv : Mv) (i j : Nat) : Int :=
  d.refPx R ((y : Int) + (mv.row >>> (3 + d.subY)) - 3 + i) ((x : Int) + (mv.col >>> (3 + d.subX)) - 3 + j)

theorem gives_window {d : Spec.Dec} {R : Spec.RefPic} {p : Plane} (hp : Padded d R p) (hx0 : 0 ≤ d.lastX R) (hy0 : 0 ≤ d.lastY R)
    (x y : Nat) (mv : Mv) {w h : Nat} (hw : w ≤ 64 / 2 ^ d.subX) (hh : h ≤ 64 / 2 ^ d.subY) :
    Gives (mvParams p (x : Int) (y : Int) mv).2.2 w h (window d R x y mv) := by
  intro dx dy r c hdx hdy hr hc
  have l := hp.left; have t := hp.top; have ri := hp.right; have bo := hp.bottom
  have wi := hp.wide; have hi := hp.high
  unfold mvParams Src.px Plane.get
  simp only [hp.xdec, hp.ydec]
  generalize 64 / 2 ^ d.subX = W at *
  generalize 64 / 2 ^ d.subY = H at *
  generalize hX : (x : Int) + (mv.col >>> (3 + d.subX)) - 3 = X
  generalize hY : (y : Int) + (mv.row >>> (3 + d.subY)) - 3 = Y
  have bx : -(p.xorigin : Int) ≤ p.clampX X ∧ p.clampX X ≤ p.width := by unfold Plane.clampX; omega
  have by_ : -(p.yorigin : Int) ≤ p.clampY Y ∧ p.clampY Y ≤ p.height := by unfold Plane.clampY; omega
  rw [if_pos (by omega), hp.px _ _ (by omega) (by omega) (by omega) (by omega)]
  unfold window
  rw [hX, hY]
  have ex : clip3 0 (d.lastX R) (p.clampX X + 3 - dx + c) = clip3 0 (d.lastX R) (X + ((c + (3 - dx) : Nat) : Int)) := by
    rw [← clip_shift (n := W + 6) (org := p.xorigin) (lo := p.width) (x := X) (k := ((c + (3 - dx) : Nat) : Int)) hx0 (by omega)
      (by omega) (by omega) wi]
    unfold Plane.clampX
    congr 1
    omega
  have ey : clip3 0 (d.lastY R) (p.clampY Y + 3 - dy + r) = clip3 0 (d.lastY R) (Y + ((r + (3 - dy) : Nat) : Int)) := by
    rw [← clip_shift (n := H + 6) (org := p.yorigin) (lo := p.height) (x := Y) (k := ((r + (3 - dy) : Nat) : Int)) hy0 (by omega)
      (by omega) (by omega) hi]
    unfold Plane.clampY
    congr 1
    omega
  unfold Spec.Dec.refPx
  rw [ex, ey]

/-- The prediction from a reference of the size of the frame. -/
theorem onePred_eq {d : Spec.Dec} (hsx : d.subX = 0 ∨ d.subX = 1) (hsy : d.subY = 0 ∨ d.subY = 1) (hfw : 0 < d.frameWidth)
    (hfh : 0 < d.frameHeight) {m : Spec.RefMv} (hw : (d.ref m.refFrame).width = d.frameWidth)
    (hh : (d.ref m.refFrame).height = d.frameHeight) (x y w h : Nat) (isCompound : Bool) (r c : Nat) :
    d.onePred m x y w h isCompound r c =
      ideal (Spec.subpel (Spec.interpFilter d.filter w) ((m.mvCol * 2 ^ (1 - d.subX)) % 16).toNat)
        (Spec.subpel (Spec.interpFilter d.filter h) ((m.mvRow * 2 ^ (1 - d.subY)) % 16).toNat)
        (window d (d.ref m.refFrame) x y ⟨m.mvRow, m.mvCol⟩) d.interRound0 (d.interRound1 isCompound) r c := by
  unfold Spec.Dec.onePred
  simp only [hw, hh, scale_self hfw, scale_self hfh, step_self, startPos_self]
  unfold Spec.Dec.blockPred Spec.Dec.intermediate ideal window
  rw [← (mv_split hsx m.mvCol).1, ← (mv_split hsy m.mvRow).1, ← (mv_split hsx m.mvCol).2, ← (mv_split hsy m.mvRow).2]
  generalize (2 * m.mvCol) / 2 ^ d.subX = a
  generalize (2 * m.mvRow) / 2 ^ d.subY = b
  have e1 : ((64 * ((y : Int) * 16 + b) + 32) % 1024 + 1024 * (r : Int)) / 64 % 16 = b % 16 := by omega
  have e2 : (((64 * ((y : Int) * 16 + b) + 32) % 1024 + 1024 * (r : Int)) / 1024).toNat = r := by omega
  have e3 : (64 * ((x : Int) * 16 + a) + 32 + 1024 * (c : Int)) / 64 % 16 = a % 16 := by omega
  simp only [e1, e2, e3, sum_dot]
  congr 1
  refine dot_congr (fun _ _ => rfl) (fun t _ => ?_)
  congr 1
  refine dot_congr (fun _ _ => rfl) (fun s _ => ?_)
  congr 1 <;> push_cast <;> omega

end Rav1e.Mc
