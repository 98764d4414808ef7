import Verif.SignOfZero
import Verif.Range
/-!
# Specification: silence

`Silent l`: all entries are zero, of either sign.  A transform keeps silence if it returns zeros, not tiny numbers, infinities or NaN, for
zeros; an IMDCT keeps silence if zero coefficients leave the two output buffers as they are, bit for bit except for signs of zeros,
whatever they contain.
-/

namespace RustDct
variable {f : Format}

/-- All entries are `+0` or `-0`. -/
def Silent (l : List (Fp f)) : Prop := ∀ x ∈ l, ∃ s, x = .zero s

/-- Zeros give zeros, with scratch supplied by the caller, whatever it contains, and with scratch allocated by the default method. -/
def KeepsSilence (p : Proc (Fp f)) (n s : ℕ) : Prop :=
  (∀ m, ValidCall n s m → Silent m.buf → ∃ m', p m = .ok m' ∧ m'.buf.length = n ∧ Silent m'.buf) ∧
  ∀ buf, buf.length = n → Silent buf → ∃ out, processDefault s p buf = .ok out ∧ out.length = n ∧ Silent out

/-- As `KeepsSilence`, but scratch supplied by the caller must be zeroed. -/
def KeepsSilenceZeroed (p : Proc (Fp f)) (n s : ℕ) : Prop :=
  (∀ buf, buf.length = n → Silent buf → ∃ m', p ⟨buf, List.replicate s 0⟩ = .ok m' ∧ m'.buf.length = n ∧ Silent m'.buf) ∧
  ∀ buf, buf.length = n → Silent buf → ∃ out, processDefault s p buf = .ok out ∧ out.length = n ∧ Silent out

/-- Zero samples give zero coefficients, whatever output buffer and scratch contain. -/
def KeepsSilenceMdct (p : List (Fp f) → List (Fp f) → Mem (Fp f) → Outcome (Mem (Fp f))) (n s : ℕ) : Prop :=
  ∀ a b m, ValidMdct n s a b m → Silent a → Silent b → ∃ m', p a b m = .ok m' ∧ m'.buf.length = n ∧ Silent m'.buf

/-- Zero coefficients leave the output buffers as they are, up to signs of zeros, whatever they and scratch contain: infinities and NaN
among them. -/
def KeepsSilenceImdct (p : List (Fp f) → IMem (Fp f) → Outcome (IMem (Fp f))) (n s : ℕ) : Prop :=
  ∀ x m, ValidImdct n s x m → Silent x → ∃ m', p x m = .ok m' ∧ List.Forall₂ Fp.Same m.outA m'.outA ∧ List.Forall₂ Fp.Same m.outB m'.outB

/-- The smallest normal number, multiplied by the gain of a transform (C60, C73), leaves room for `units` roundings below the largest
number: for `f32` and `f64` that is so for all but astronomical gains. -/
def Format.Room (f : Format) (gain units : ℕ) : Prop := gain * f.min * (1 + (1 / 2) ^ f.p) ^ units ≤ f.max

end RustDct
