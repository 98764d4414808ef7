import Mathlib.Data.Nat.Log
import Verif.Methods
/-!
# How much scratch space an instance asks for: the specification

`σ m` stands for `get_inplace_scratch_len()` of the FFT instance of length `m`.
-/

namespace RustDct

/-- The lengths for which types 2 and 3 are straight-line code. -/
def straightLine (n : Nat) : Prop := n = 2 ∨ n = 3 ∨ n = 4 ∨ n = 8 ∨ n = 16

instance (n : Nat) : Decidable (straightLine n) := by unfold straightLine; infer_instance

/-- Types 2 and 3: nothing for straight-line code, `n` for the other powers of two, room for `n` complex numbers and the FFT's own
scratch space otherwise. -/
def scratch23 (σ : Nat → Nat) (n : Nat) : Nat :=
  if straightLine n then 0 else if 2 < n ∧ n = 2 ^ Nat.log 2 n then n else 2 * (n + σ n)

/-- Type 4. -/
def scratch4 (σ : Nat → Nat) (n : Nat) : Nat :=
  if n % 2 = 0 then if n < 6 then n else if scratch23 σ (n / 2) ≤ n then n else n + scratch23 σ (n / 2)
  else if n < 7 then n else 2 * (n + σ n)

/-- The number of elements of scratch space a planned instance of length `n` asks for. -/
def Kind.scratch (σ : Nat → Nat) : Kind → Nat → Nat
  | .dct1, n => if n < 10 then n else 2 * (2 * (n - 1) + σ (2 * (n - 1)))
  | .dst1, n => if n < 25 then n else 2 * (2 * (n + 1) + σ (2 * (n + 1)))
  | .dct2, n | .dct3, n | .dst2, n | .dst3, n => scratch23 σ n
  | .dct4, n | .dst4, n => scratch4 σ n
  | .dst6, n | .dst7, n => if n < 45 then n else 2 * (2 * n + 1 + σ (2 * n + 1))
  | .dct5, n | .dct6, n | .dct7, n | .dct8, n | .dst5, n | .dst8, n => n

end RustDct
