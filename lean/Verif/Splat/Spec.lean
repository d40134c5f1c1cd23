import Mathlib.Data.Rat.Defs
import Mathlib.Algebra.BigOperators.Group.List.Basic

/-! What a block should hand on: each block of the reference frame gets the share of the amount
that its part of the area of the reference block is. -/
namespace Rav1e.Splat.Spec

/-- The length of the part that the intervals of 64 units from `a` and from `b` have in common. -/
def common (a b : Int) : Int := max 0 (min (a + 64) (b + 64) - max a b)

/-- The share of a square of 64 x 64 units at `(rx, ry)` that lies in block `(x, y)`. -/
def share (rx ry : Int) (x y : Nat) : ℚ :=
  ((common rx (64 * x) * common ry (64 * y) : Int) : ℚ) / 4096

/-- What block `(x, y)` receives from all the amounts. -/
def received (es : List (ℚ × Int × Int)) (x y : Nat) : ℚ :=
  (es.map fun e => e.1 * share e.2.1 e.2.2 x y).sum

end Rav1e.Splat.Spec
