import Verif.Model.Reference
import Verif.Rounding
/-!
# Specification: how accurate the project's reference implementations are

`Kind.reference` puts the reference implementations side by side; `Rounding.refErr` is the bound of C90.
-/

namespace RustDct
open Real Finset

/-- The reference implementation of each transform. -/
def Kind.reference {F : Type} [F64 F] : Kind → List F → List F
  | .dct1 => Reference.dct1 | .dct2 => Reference.dct2 | .dct3 => Reference.dct3 | .dct4 => Reference.dct4
  | .dct5 => Reference.dct5 | .dct6 => Reference.dct6 | .dct7 => Reference.dct7 | .dct8 => Reference.dct8
  | .dst1 => Reference.dst1 | .dst2 => Reference.dst2 | .dst3 => Reference.dst3 | .dst4 => Reference.dst4
  | .dst5 => Reference.dst5 | .dst6 => Reference.dst6 | .dst7 => Reference.dst7 | .dst8 => Reference.dst8

variable {T F : Type} [F64 F] [DctNum T F]

/-- The error of a sum of `m` products with a sine or cosine of an angle of at most `c π`. The reference implementations do not reduce the angle, so that `c` is about
the length of the transform. -/
noncomputable def Rounding.refErr (R : Rounding T F) (m : ℕ) (c : ℝ) : ℝ :=
  (1 + R.v) ^ (m + 3) * (1 + (R.t + c * π * ((1 + R.v) ^ 11 / (1 - R.v) - 1))) - 1

/-- `y` differs from `z` in every entry by at most `c`. -/
def Spec.EntryNear (c : ℝ) (y z : List ℝ) : Prop := y.length = z.length ∧ ∀ p ∈ List.zip y z, |p.1 - p.2| ≤ c

/-- Run on `x`, the method returns something that differs from `y` by at most `c` in the Euclidean norm. -/
def NearList (R : Rounding T F) (p : Proc T) (s : ℕ) (x : List T) (y : List ℝ) (c : ℝ) : Prop :=
  ∃ out, processDefault s p x = .ok out ∧ out.length = x.length ∧ y.length = x.length ∧ Spec.norm2 (List.zipWith (· - ·) (out.map R.val) y) ≤ c

end RustDct
