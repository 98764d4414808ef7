import Verif.Rounding
import Verif.Instances
/-!
# Accuracy of instances built with the public constructors, and of instances composed by the user

`AccurateAs` is the contract on a method of any implementation of the crate's traits (the user's own ones included); the error is
measured in the norm in which the transform is a multiple of an isometry, so that contracts compose without loss.
-/

namespace RustDct
open Real Finset

variable {T F : Type} [F64 F] [DctNum T F]

/-- Called with a buffer of length `n` and at least `s` scratch elements the method returns, the result depends on the buffer only, and
approximates the transform `k` with relative error `ε`, the boundary samples of the output counting one half in the norm. -/
def AccurateAs (R : Rounding T F) (k : Kind) (p : Proc T) (n s : ℕ) (ε : ℝ) : Prop :=
  ∃ G : List T → List T, Honours p n s G ∧ ∀ l, l.length = n → Spec.Close (k.inv.weight n) ε ((G l).map R.val) (k.spec (l.map R.val))

/-- The error of a type 2 or 3 instance: the worst error of a leaf, and one split radix step for each doubling of the length. -/
noncomputable def Rounding.made23 (R : Rounding T F) (φ : ℝ) (n : ℕ) : ℝ :=
  (1 + max (R.naive n) (max (R.fft2 φ) (R.fft3 φ))) * R.step ^ Nat.log 2 n - 1

/-- The error of an instance built with the public constructors, however they are nested, from FFTs with relative error `φ`. -/
noncomputable def Rounding.made (R : Rounding T F) (φ : ℝ) : Kind → ℕ → ℝ
  | .dct1, n | .dst1, n | .dst7, n => max (R.naive n) (R.fft1 φ)
  | .dct2, n | .dct3, n | .dst2, n | .dst3, n => R.made23 φ n
  | .dct4, n | .dst4, n => max (R.naive n) (max (R.fft4 φ) (R.even4 (R.made23 φ (n / 2))))
  | .dst6, n => max (R.naive n) (2 * φ)
  | .dct5, n | .dct6, n | .dct7, n | .dct8, n | .dst5, n | .dst8, n => R.naive n

/-- The error of `MdctNaive`, relative to `√n` times the size of the window: `2 n` products of three factors, added one after the other. -/
noncomputable def Rounding.lapNaive (R : Rounding T F) (n : ℕ) (γ : ℝ) : ℝ := gainErr n ((1 + R.u) ^ (2 * n) * R.term * (1 + γ))

/-- The error of an MDCT instance built with the public constructors. -/
noncomputable def Rounding.madeLap (R : Rounding T F) (φ γ : ℝ) (n : ℕ) : ℝ := max (R.lapNaive n γ) (R.lap γ (R.made φ .dct4 n))

end RustDct
