import Verif.Model.Num
/-!
# A concrete FFT provider: the defining sum

Not part of the repository: rustfft is external code.  This provider shows that the contract we assume of
rustfft can be met, and it is used to run the model on examples.
-/

namespace RustDct

variable {T : Type} {F : Type} [F64 F] [DctNum T F]

/-- Complex addition of num_complex. -/
def Cx.add (a b : Cx T) : Cx T := ⟨a.re + b.re, a.im + b.im⟩

/-- Forward DFT of a list by its defining sum, `X[k] = Σ_j x[j]·e^{-2πi jk/n}`. -/
def dftList (x : List (Cx T)) : List (Cx T) :=
  (List.range x.length).map fun k =>
    ((List.range x.length).zip x).foldl
      (fun acc p => Cx.add acc (Cx.mul p.2 (singleTwiddle (p.1 * k) x.length))) ⟨0, 0⟩

/-- An `Fft` of length `n` computing the defining sum; rejects wrong sizes as rustfft does, needs `s` complex
scratch elements and leaves them alone. -/
def dftFft (n : Nat) (s : Nat := 0) : Fft T where
  len := n
  direction := .forward
  inplaceScratchLen := s
  process := fun buf scr =>
    if buf.length = n ∧ s ≤ scr.length then .ok (dftList buf, scr) else .error (.bufferLen n buf.length)

end RustDct
