import Verif.Methods
import Verif.Spec
/-!
# Specification: the sixteen transforms side by side

What the textbook transform of each kind is, which transform undoes it, by what factor, and with what weight it takes its input.
-/

namespace RustDct
open Real Finset

/-- The textbook formula of each transform (`Verif/Spec.lean`). -/
noncomputable def Kind.specAt : Kind → ℕ → (ℕ → ℝ) → ℕ → ℝ
  | .dct1 => Spec.dct1At | .dct2 => Spec.dct2At | .dct3 => Spec.dct3At | .dct4 => Spec.dct4At
  | .dct5 => Spec.dct5At | .dct6 => Spec.dct6At | .dct7 => Spec.dct7At | .dct8 => Spec.dct8At
  | .dst1 => Spec.dst1At | .dst2 => Spec.dst2At | .dst3 => Spec.dst3At | .dst4 => Spec.dst4At
  | .dst5 => Spec.dst5At | .dst6 => Spec.dst6At | .dst7 => Spec.dst7At | .dst8 => Spec.dst8At

/-- The textbook transform of each kind. -/
noncomputable def Kind.spec : Kind → List ℝ → List ℝ
  | .dct1 => Spec.dct1 | .dct2 => Spec.dct2 | .dct3 => Spec.dct3 | .dct4 => Spec.dct4
  | .dct5 => Spec.dct5 | .dct6 => Spec.dct6 | .dct7 => Spec.dct7 | .dct8 => Spec.dct8
  | .dst1 => Spec.dst1 | .dst2 => Spec.dst2 | .dst3 => Spec.dst3 | .dst4 => Spec.dst4
  | .dst5 => Spec.dst5 | .dst6 => Spec.dst6 | .dst7 => Spec.dst7 | .dst8 => Spec.dst8

/-- The transform that undoes a transform, up to `Kind.scale`. -/
def Kind.inv : Kind → Kind
  | .dct2 => .dct3 | .dct3 => .dct2 | .dst2 => .dst3 | .dst3 => .dst2
  | .dct6 => .dct7 | .dct7 => .dct6 | .dst6 => .dst7 | .dst7 => .dst6
  | t => t

/-- A transform followed by its inverse multiplies by this factor. -/
noncomputable def Kind.scale : Kind → ℕ → ℝ
  | .dct1, n => (n - 1) / 2
  | .dst1, n => (n + 1) / 2
  | .dct5, n | .dct6, n | .dct7, n | .dst8, n => (n - 1 / 2) / 2
  | .dst5, n | .dst6, n | .dst7, n | .dct8, n => (n + 1 / 2) / 2
  | _, n => n / 2

/-- The weight with which a transform takes its input `i`: one half at the boundary samples of its type. -/
noncomputable def Kind.weight : Kind → ℕ → ℕ → ℝ
  | .dct1, n, i => Spec.halfAt 0 i * Spec.halfAt (n - 1) i
  | .dct3, _, i | .dct5, _, i | .dct7, _, i => Spec.halfAt 0 i
  | .dct6, n, i | .dst3, n, i | .dst8, n, i => Spec.halfAt (n - 1) i
  | _, _, _ => 1

end RustDct
