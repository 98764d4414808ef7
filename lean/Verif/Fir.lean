import Verif.Laplace
/-!
# Specification: zero-phase filters

Vocabulary of C95: signals continued over all integers as a transform continues them, and symmetric FIR filters of such signals.
-/

namespace RustDct
open Finset Real

/-- Twice the distance from the last sample to the axis of the mirror. -/
def Side.axis : Side → ℤ
  | .evenPoint => 0 | .evenHalf => 1 | .oddPoint => 2 | .oddHalf => 1

/-- Whether the mirror changes the sign. -/
def Side.sign : Side → ℝ
  | .evenPoint | .evenHalf => 1
  | .oddPoint | .oddHalf => -1

/-- `X` has the mirrors of kind `k` at the two ends of the samples `0, …, n - 1`. -/
structure Kind.Continues (k : Kind) (n : ℕ) (X : ℤ → ℝ) : Prop where
  left : ∀ m, X (-k.left.axis - m) = k.left.sign * X m
  right : ∀ m, X (2 * (n - 1) + k.right.axis - m) = k.right.sign * X m

/-- The samples `0, …, n - 1`. -/
def samples (n : ℕ) (X : ℤ → ℝ) : List ℝ := (List.range n).map fun i : ℕ => X i

/-- The symmetric filter with coefficient `g 0` in the middle and `g d` at distance `d ≤ r`. -/
noncomputable def fir (r : ℕ) (g : ℕ → ℝ) (X : ℤ → ℝ) (i : ℤ) : ℝ := g 0 * X i + ∑ d ∈ range r, g (d + 1) * (X (i - (d + 1 : ℕ)) + X (i + (d + 1 : ℕ)))

/-- Its frequency response at the frequency `θ`. -/
noncomputable def firResponse (r : ℕ) (g : ℕ → ℝ) (θ : ℝ) : ℝ := g 0 + ∑ d ∈ range r, g (d + 1) * (2 * cos ((d + 1 : ℕ) * θ))

end RustDct
