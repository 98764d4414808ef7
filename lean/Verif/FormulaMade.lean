import Verif.NonFinite
import Verif.Overflow
import Verif.RangeMade
/-!
# Specification: what is assumed of the FFTs inside instances built by hand (C74)
-/

namespace RustDct

/-- An FFT that evaluates fixed formulas which combine data by additions, subtractions, negations and multiplications with constants only. -/
def FftLinearFormulas {T F : Type} [F64 F] [DctNum T F] (fft : Fft T) : Prop := ∃ f₀ : Fft Formula, FftSane f₀ ∧ FftLinear f₀ ∧ FftEvaluates f₀ fft

/-- An FFT that evaluates formulas which, evaluated in formats with more exponents, meet the contract of `Verif/RangeMade.lean`. -/
def FftOfGainInEveryRange {f : Format} (c : ℕ) (μ : ℕ → ℕ) (fft : Fft (Fp f)) : Prop :=
  ∃ f₀ : Fft Formula, FftEvaluates f₀ fft ∧ ∀ j, ∃ fft' : Fft (Fp (f.widen j)), FftEvaluates f₀ fft' ∧ FftOfGain (Fp.ieee (f.widen j)) c μ fft'

end RustDct
