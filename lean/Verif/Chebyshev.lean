import Mathlib.Analysis.SpecialFunctions.Trigonometric.Chebyshev.Basic
import Verif.Spec
/-!
# Specification: Chebyshev series

Vocabulary of C97: the points and the series of the two usual Chebyshev methods.
-/

namespace RustDct
open Finset Real Polynomial

/-- Chebyshev points of the first kind (Gauss): the zeros of `T n`. -/
noncomputable def gaussPoint (n j : ℕ) : ℝ := cos ((j + 1 / 2) * π / n)

/-- Chebyshev points of the second kind (Lobatto): both ends of the interval included. -/
noncomputable def lobattoPoint (n j : ℕ) : ℝ := cos (j * π / (n - 1))

/-- The polynomial `c₀ T₀ + … + cₙ₋₁ Tₙ₋₁`. -/
noncomputable def chebSeries (c : List ℝ) : ℝ[X] := ∑ k ∈ range c.length, C (c.getD k 0) * Chebyshev.T ℝ k

/-- What a client makes of the outputs of a DCT2 of samples at the Gauss points: `2/n` times each, the first one halved. -/
noncomputable def gaussCoeffs (y : List ℝ) : List ℝ := y.mapIdx fun k v => 2 / y.length * Spec.halfAt 0 k * v

/-- The same for a DCT1 of samples at the Lobatto points: `2/(n-1)` times each, the first and the last one halved. -/
noncomputable def lobattoCoeffs (y : List ℝ) : List ℝ := y.mapIdx fun k v => 2 / (y.length - 1) * Spec.halfAt 0 k * Spec.halfAt (y.length - 1) k * v

/-- What a client makes of coefficients before a DCT3: the first one doubled. -/
noncomputable def gaussInput (c : List ℝ) : List ℝ := c.mapIdx fun k v => if k = 0 then 2 * v else v

/-- The same before a DCT1: the first and the last one doubled. -/
noncomputable def lobattoInput (c : List ℝ) : List ℝ := c.mapIdx fun k v => if k = 0 ∨ k = c.length - 1 then 2 * v else v

/-- `f` is the only polynomial of degree below `n` with the values `x` at the points `t`. -/
def Interpolates (n : ℕ) (t : ℕ → ℝ) (x : List ℝ) (f : ℝ[X]) : Prop :=
  f.degree < n ∧ (∀ j, j < n → f.eval (t j) = x.getD j 0) ∧ ∀ g : ℝ[X], g.degree < n → (∀ j, j < n → g.eval (t j) = x.getD j 0) → g = f

end RustDct
