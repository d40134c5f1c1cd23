import Verif.Block.Model

/-!
# Search of the factors of prediction from luma: the code
-/

namespace Rav1e.CflSearch

open Rav1e.Block (Cfl)

/-- `best` and `count` (src/rdo.rs:1664-1665). -/
structure State where
  cost : Nat
  alpha : Int
  count : Nat
  deriving DecidableEq, Repr

/-- One factor is tried (src/rdo.rs:1668-1671, 1672-1675). -/
def try1 (cost : Int → Nat) (a : Int) (s : State) : State := if cost a < s.cost then ⟨cost a, a, s.count + 2⟩ else s

/-- The loop over `alpha` (src/rdo.rs:1666-1679).  `alpha_cost` is any function. -/
def loop (cost : Int → Nat) : List Nat → State → State
  | [], s => s
  | a :: l, s =>
    let t := try1 cost (-(a : Int)) (try1 cost a s)
    if t.count < a then t else loop cost l t

/-- The factor of one plane (src/rdo.rs:1664-1680). -/
def bestAlpha (cost : Int → Nat) : Int := (loop cost (List.range' 1 16) ⟨cost 0, 0, 2⟩).alpha

/-- `CFLSign::from_alpha` (src/context/partition_unit.rs:68-72). -/
def signOf (a : Int) : Nat := if a < 0 then 1 else if a = 0 then 0 else 2

/-- `CFLParams::from_alpha` (src/context/partition_unit.rs:122-127). -/
def fromAlpha (u v : Int) : Cfl := ⟨signOf u, signOf v, u.natAbs % 256, v.natAbs % 256⟩

/-- `rdo_cfl_alpha` (src/rdo.rs:1593-1689) for a block of which `visible` says whether it has visible chroma. -/
def rdoCflAlpha (visible : Bool) (costU costV : Int → Nat) : Option Cfl :=
  if visible then
    if bestAlpha costU = 0 ∧ bestAlpha costV = 0 then none else some (fromAlpha (bestAlpha costU) (bestAlpha costV))
  else none

end Rav1e.CflSearch
