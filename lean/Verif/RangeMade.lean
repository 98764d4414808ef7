import Verif.Range
import Verif.Instances
/-!
# The range of instances built with the public constructors, and of instances composed by the user

`Verif/Range.lean` has the gains and roundings of what the planner returns.  Here the constructors may be nested in any way they accept.
-/

namespace RustDct
open Real

variable {T F : Type} [F64 F] [DctNum T F]

/-- The contract of an FFT passed to a constructor: of `n` points, it has the gain `c n`, `c` at least 2, and the accuracy `μ n`. -/
def FftOfGain (R : Ieee T F) (c : ℕ) (μ : ℕ → ℕ) (fft : Fft T) : Prop := fft.len ≤ 2 ^ 62 → FftRange R fft (c * fft.len) (μ fft.len)

/-- The gain of an instance built with the public constructors, however they are nested, from FFTs of gain `c n`: about `2 c n √n` for
types 2 and 3, where split radix instances can be nested `log₂ n / 2` deep along the quarter-size ones. -/
def Kind.gainMade (c : ℕ) : Kind → ℕ → ℕ
  | .dct2, n | .dct3, n | .dst2, n | .dst3, n => 2 * c * n * 2 ^ (Nat.log 2 n / 2)
  | .dct4, n | .dst4, n => 4 * c * n * 2 ^ (Nat.log 2 n / 2)
  | .dct1, n | .dst1, n | .dst6, n | .dst7, n => 2 * c * (n + 1)
  | .dct5, n | .dct6, n | .dct7, n | .dct8, n | .dst5, n | .dst8, n => n + 1

/-- The number of roundings: those of a naive instance or of an FFT, and at most `r + 4` for every level of nesting; `r` is the
accuracy of the twiddle tables. -/
def Kind.unitsMade (r : ℕ) (μ : ℕ → ℕ) : Kind → ℕ → ℕ
  | .dct2, n | .dct3, n | .dst2, n | .dst3, n => max n (μ n) + (r + 4) * (Nat.log 2 n + 1)
  | .dct4, n | .dst4, n => max n (μ n) + (r + 4) * (Nat.log 2 n + 2)
  | .dct1, n | .dst1, n | .dst6, n | .dst7, n => max n (μ (2 * n + 2)) + r + 3
  | .dct5, n | .dct6, n | .dct7, n | .dct8, n | .dst5, n | .dst8, n => n + r + 3

/-- The number of roundings of an MDCT instance: `2 n` additions in `MdctNaive`. -/
def unitsMadeMdct (r : ℕ) (μ : ℕ → ℕ) (n : ℕ) : ℕ := max (2 * n) (μ n) + (r + 4) * (Nat.log 2 n + 2)

/-- The contract on a method of any implementation of the crate's traits (the user's own ones included): called with a buffer of length
`n` and at least `s` scratch elements it returns, the result depends on the buffer only; for inputs of at most `B`, where `gain * B`
leaves room for `units` roundings, the outputs are finite, with an error of at most that of `units` roundings of `gain * B`. -/
def FiniteAs (R : Ieee T F) (k : Kind) (p : Proc T) (n s gain units : ℕ) : Prop :=
  ∃ G : List T → List T, Honours p n s G ∧ (∀ l, l.length = n → (G l).length = n) ∧
    ∀ B, R.L ≤ B → gain * B * (1 + R.u) ^ units ≤ R.M → ∀ l, l.length = n → R.Bounded B l →
      R.Near (((1 + R.u) ^ units - 1) * (gain * B)) (G l) (k.spec (l.map R.val))

end RustDct
