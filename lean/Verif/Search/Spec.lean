import Verif.Search.Model
import Mathlib.Data.Nat.Size

/-!
# Motion search: what is expected
-/

namespace Rav1e.Search.Spec

/-- A vector that the limits allow. -/
def InRange (l : Lim) (v : MV) : Prop := l.xmin ≤ v.col ∧ v.col ≤ l.xmax ∧ l.ymin ≤ v.row ∧ v.row ≤ l.ymax

/-- Bits of a component: two for each binary digit of the difference in eighths or quarters of a pixel. -/
def bits (hp : Bool) (d : Int) : Nat := 2 * Nat.size (if hp then d else d / 2).natAbs

/-- Bits of a vector, coded as a difference to `p`. -/
def bitsOf (hp : Bool) (v p : MV) : Nat := bits hp (v.row - p.row) + bits hp (v.col - p.col)

/-- The cost of a vector: the difference of the blocks and the bits of the vector for the better of two predictions, of which the
second takes one more bit. -/
def cost (c : Ctx) (diff : MV → Nat) (v : MV) : Nat :=
  256 * diff v + c.lambda * min (bitsOf c.hp v c.pmv0) (bitsOf c.hp v c.pmv1 + 1)

/-- `r` is what was measured at an allowed vector. -/
def Measured (c : Ctx) (diff : MV → Nat) (r : Res) : Prop :=
  InRange c.lim r.mv ∧ r.cost = cost c diff r.mv ∧ r.sad = diff r.mv

/-- No allowed vector that is `d` up, down, left or right of that of `r` costs less. -/
def LocalMin (c : Ctx) (diff : MV → Nat) (d : Int) (r : Res) : Prop :=
  ∀ v : MV, (v = ⟨r.mv.row + d, r.mv.col⟩ ∨ v = ⟨r.mv.row - d, r.mv.col⟩ ∨ v = ⟨r.mv.row, r.mv.col + d⟩ ∨ v = ⟨r.mv.row, r.mv.col - d⟩) →
    InRange c.lim v → r.cost ≤ cost c diff v

/-- Inputs of a search: limits as `get_mv_range` gives them, predicted vectors a stream can have, 32 bits for the multiplier. -/
structure Ok (c : Ctx) : Prop where
  x1 : -16384 ≤ c.lim.xmin
  x2 : c.lim.xmin ≤ -16
  x3 : 16 ≤ c.lim.xmax
  x4 : c.lim.xmax ≤ 16383
  y1 : -16384 ≤ c.lim.ymin
  y2 : c.lim.ymin ≤ -16
  y3 : 16 ≤ c.lim.ymax
  y4 : c.lim.ymax ≤ 16383
  p1 : -16384 < c.pmv0.row ∧ c.pmv0.row < 16384
  p2 : -16384 < c.pmv0.col ∧ c.pmv0.col < 16384
  p3 : -16384 < c.pmv1.row ∧ c.pmv1.row < 16384
  p4 : -16384 < c.pmv1.col ∧ c.pmv1.col < 16384
  lam : c.lambda < 2 ^ 32

/-- Differences of blocks have 32 bits. -/
def Ok32 (diff : MV → Nat) : Prop := ∀ v, diff v < 2 ^ 32

end Rav1e.Search.Spec
