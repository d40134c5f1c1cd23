import Verif.Dist.Spec
import Mathlib.Algebra.BigOperators.Intervals

/-!
# Metrics, as they are meant
-/

namespace Rav1e.Metric.Spec

open Finset

/-- Sum of absolute differences. -/
def sad (a b : ℕ → ℕ → ℕ) (w h : ℕ) : ℕ := ∑ y ∈ range h, ∑ x ∈ range w, ((a y x : ℤ) - b y x).natAbs

/-- The entries of the Hadamard matrix of order 8 (and, in its corner, of order 4): -1 if the indices have an odd number of binary ones in common. -/
def sign (i j : ℕ) : ℤ := if (i % 2 * (j % 2) + i / 2 % 2 * (j / 2 % 2) + i / 4 % 2 * (j / 4 % 2)) % 2 = 1 then -1 else 1

/-- The coefficient `(u, v)` of the two-dimensional Hadamard transform of a square of `n` by `n`. -/
def coeff (n : ℕ) (d : ℕ → ℕ → ℤ) (u v : ℕ) : ℤ := ∑ y ∈ range n, ∑ x ∈ range n, sign u y * sign v x * d y x

/-- The sum of the absolute values of the coefficients. -/
def transformed (n : ℕ) (d : ℕ → ℕ → ℤ) : ℕ := ∑ u ∈ range n, ∑ v ∈ range n, (coeff n d u v).natAbs

/-- The sum of squares of differences. -/
def sse (a b : ℕ → ℕ → ℕ) (w h : ℕ) : ℕ := ∑ y ∈ range h, ∑ x ∈ range w, ((a y x : ℤ) - b y x).natAbs ^ 2

/-- The block of a plane that starts in row `y` and column `x`. -/
def shift (a : ℕ → ℕ → ℕ) (y x : ℕ) : ℕ → ℕ → ℕ := fun i j => a (y + i) (x + j)

/-- Sum of absolute transformed differences, before it is normalised: squares of `n` by `n` from the upper left corner on, those that do not fit without transform. -/
def satd (a b : ℕ → ℕ → ℕ) (w h n : ℕ) : ℕ :=
  ∑ i ∈ range ((h + n - 1) / n), ∑ j ∈ range ((w + n - 1) / n),
    if (i + 1) * n ≤ h ∧ (j + 1) * n ≤ w then transformed n fun y x => (shift a (i * n) (j * n) y x : ℤ) - shift b (i * n) (j * n) y x
    else sad (shift a (i * n) (j * n)) (shift b (i * n) (j * n)) (min n (w - j * n)) (min n (h - i * n))

/-- The sum of squares of differences, where each 4x4 block has a weight. -/
def weighted (a b scale : ℕ → ℕ → ℕ) (w h : ℕ) : ℕ :=
  ∑ i ∈ range (h / 4), ∑ j ∈ range (w / 4), scale i j * sse (shift a (4 * i) (4 * j)) (shift b (4 * i) (4 * j)) 4 4

end Rav1e.Metric.Spec
