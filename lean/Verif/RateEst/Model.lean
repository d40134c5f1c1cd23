import Verif.RateEst.Table
import Verif.LogExp.Model

/-!
# Estimated rates: the code
-/

namespace Rav1e.RateEst

open Rav1e.LogExp (i64)

/-- The last lines of `estimate_rate` (src/rdo.rs:138-139).  `as i64` of the distortion is checked, not wrapped. -/
def interp (x0 x1 y0 y1 : Int) (dist : Nat) : Option Nat :=
  (i64 dist).bind fun d => (i64 ((d - x0) * ((y1 - y0) * 2 ^ 8).tdiv (x1 - x0))).bind fun p => some (max (y0 + p / 2 ^ 8) 0).toNat

/-- `bin_idx_down` of `estimate_rate` (src/rdo.rs:130-131). -/
def binDown (dist : Nat) : Nat := min (dist / 2000) (50 - 2)

/-- `bin_idx_up` of `estimate_rate` (src/rdo.rs:132). -/
def binUp (dist : Nat) : Nat := min (binDown dist + 1) (50 - 1)

/-- `estimate_rate` (src/rdo.rs:133-139) on one row of the table. -/
def estimateRow (row : List Nat) (dist : Nat) : Option Nat :=
  row[binDown dist]?.bind fun y0 => row[binUp dist]?.bind fun y1 =>
    interp (binDown dist * 2000 : Nat) (binUp dist * 2000 : Nat) y0 y1 dist

/-- `estimate_rate` (src/rdo.rs:127-140); `ts` is the number of the transform size. -/
def estimateRate (qindex ts dist : Nat) : Option Nat :=
  table[qindex / 32]?.bind fun t => t[ts]?.bind fun row => estimateRow row dist

end Rav1e.RateEst
