import Verif.Formula
import Verif.Kinds
import Verif.FftSpec
/-!
# Specification: numbers that operations cannot get rid of

In IEEE arithmetic a sum, difference, product or negation with an operand that is infinite or NaN is infinite or NaN (`∞ · 0` and `∞ - ∞` are NaN).
-/

namespace RustDct

/-- A set of numbers that additions, subtractions, negations and multiplications cannot leave. -/
structure Absorbing {T F : Type} [F64 F] [DctNum T F] (bad : T → Prop) : Prop where
  add (a b : T) (h : bad a ∨ bad b) : bad (a + b)
  sub (a b : T) (h : bad a ∨ bad b) : bad (a - b)
  mul (a b : T) (h : bad a ∨ bad b) : bad (a * b)
  neg (a : T) (h : bad a) : bad (-a)

/-- The FFT evaluates formulas that are the DFT in exact arithmetic. -/
def FftFormulas {T F : Type} [F64 F] [DctNum T F] (fft : Fft T) : Prop :=
  ∃ (f₀ : Fft Formula) (g : Fft ℝ), FftSane f₀ ∧ FftEvaluates f₀ fft ∧ FftEvaluates f₀ g ∧ FftContract g

/-- The coefficient with which the textbook transform of length `n` takes sample `i` into output `j`. -/
noncomputable def Kind.coefficient (k : Kind) (n j i : ℕ) : ℝ := k.specAt n (fun l => if l = i then 1 else 0) j

end RustDct
