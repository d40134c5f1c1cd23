import Verif.RateEst.Table
import Mathlib.Data.Rat.Lemmas

/-!
# Estimated rates: what they should be
-/

namespace Rav1e.RateEst

/-- The value of the table for a quantizer index, a transform size and a bin. -/
def Spec.entry (qindex ts k : Nat) : Nat := ((table.getD (qindex / 32) []).getD ts []).getD k 0

/-- The straight line through the values of bin `k` and the next, at `dist`. -/
def Spec.line (qindex ts k dist : Nat) : ℚ :=
  Spec.entry qindex ts k + ((Spec.entry qindex ts (k + 1) : ℚ) - Spec.entry qindex ts k) * ((dist : ℚ) - 2000 * k) / 2000

end Rav1e.RateEst
