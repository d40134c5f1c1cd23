import Mathlib.Data.Rat.Defs
import Mathlib.Algebra.Order.Field.Rat

/-!
How the lookahead hands the importance of a block on to the blocks of the reference frame
that it is predicted from.

Simplification throughout: amounts, which the code keeps in `f32`, are rational numbers.
Positions are in units of motion vectors (an eighth of a pixel), in `i64` in the code.
-/
namespace Rav1e.Splat

/-- `IMP_BLOCK_SIZE_IN_MV_UNITS`, src/api/lookahead.rs:23-25. -/
def size : Int := 64

/-- `IMP_BLOCK_AREA_IN_MV_UNITS`, src/api/lookahead.rs:26-27. -/
def area : Int := 4096

/-- `propagate_fraction` and `propagate_amount`, src/api/internal.rs:976-984. -/
def amount (intraCost interCost : Nat) (future : ℚ) (len : Nat) : ℚ :=
  let fraction : ℚ := if intraCost ≤ interCost then 0 else 1 - (interCost : ℚ) / intraCost
  ((intraCost : ℚ) + future) * fraction / len

/-- The top left corner of the block that meets the reference block from the top left, one
coordinate, src/api/internal.rs:1010-1017. `/` of Rust rounds towards zero. -/
def topLeft (r : Int) : Int :=
  (r - if r < 0 then size - 1 else 0).tdiv size * size

/-- The closure `propagate`, src/api/internal.rs:990-1006. `none` is an index out of bounds. -/
def propagate (w h : Nat) (amt : ℚ) (imp : List ℚ) (bx by_ : Int) (fraction : ℚ) :
    Option (List ℚ) :=
  let x := bx.tdiv size
  let y := by_.tdiv size
  if x ≥ 0 ∧ y ≥ 0 ∧ x.toNat < w ∧ y.toNat < h then
    let i := y.toNat * w + x.toNat
    if i < imp.length then some (imp.set i (imp.getD i 0 + amt * fraction)) else none
  else some imp

/-- The closure of `for_each`, src/api/internal.rs:989-1070: one block, whose reference block
has its top left corner at `(rx, ry)`. -/
def splat (w h : Nat) (imp : List ℚ) (e : ℚ × Int × Int) : Option (List ℚ) :=
  let amt := e.1
  let rx := e.2.1
  let ry := e.2.2
  let left := topLeft rx
  let top := topLeft ry
  let right := left + size
  let bottom := top + size
  (propagate w h amt imp left top
    ((((right - rx) * (bottom - ry) : Int) : ℚ) / (area : ℚ))).bind fun imp =>
  (propagate w h amt imp right top
    ((((rx + size - right) * (bottom - ry) : Int) : ℚ) / (area : ℚ))).bind fun imp =>
  (propagate w h amt imp left bottom
    ((((right - rx) * (ry + size - bottom) : Int) : ℚ) / (area : ℚ))).bind fun imp =>
  propagate w h amt imp right bottom
    ((((rx + size - right) * (ry + size - bottom) : Int) : ℚ) / (area : ℚ))

/-- The loop of `update_block_importances` over all blocks, src/api/internal.rs:926-1070, given
the amount and the reference position of each. -/
def update (w h : Nat) : List ℚ → List (ℚ × Int × Int) → Option (List ℚ)
  | imp, [] => some imp
  | imp, e :: es => (splat w h imp e).bind fun imp => update w h imp es

end Rav1e.Splat
