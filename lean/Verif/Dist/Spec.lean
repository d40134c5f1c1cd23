import Mathlib.Analysis.Real.Sqrt

/-!
# The psychovisual distortion, as it is meant

The comments of src/activity.rs and src/dist.rs: squared errors are weighted by a factor that depends on the variances of the two blocks.
-/

namespace Rav1e.Dist.Spec

/-- "`input * C1 / C3 * (svar + dvar + C2) / sqrt(C1^2 + svar * dvar)`", with variances in the range of 8-bit video. -/
noncomputable def boosted (input svar dvar : ℕ) : ℝ := input * (3355 / 12338) * (svar + dvar + 16128) / √(3355 ^ 2 + svar * dvar)

/-- A sum over the pixels of a block of `w` columns and `h` rows. -/
def total (w h : ℕ) (f : ℕ → ℕ → ℕ) : ℕ := ((List.range h).map fun y => ((List.range w).map fun x => f y x).sum).sum

/-- The sum of squared errors of two blocks. -/
def sse (a b : ℕ → ℕ → ℕ) (w h : ℕ) : ℕ := total w h fun y x => ((a y x : ℤ) - b y x).natAbs ^ 2

/-- The variance of the pixels of a block times 64: the sum of the squared distances from the mean in an 8x8 block of the same variance. -/
noncomputable def var64 (a : ℕ → ℕ → ℕ) (w h : ℕ) : ℝ :=
  64 * ((total w h fun y x => a y x ^ 2 : ℕ) / (w * h) - ((total w h a : ℕ) / (w * h)) ^ 2)

end Rav1e.Dist.Spec
