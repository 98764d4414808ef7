import Verif.Kinds
import Verif.FftSpec
import Verif.Statements
import Verif.Client
/-!
# Floating-point arithmetic, and what it means for a computed transform to be accurate

`Rounding T F` is the standard model of floating-point error analysis: every operation of the element type `T` and of `f64` returns
the exact result up to a relative error (an absolute one for sine and cosine).  It holds of IEEE arithmetic as long as no operation
overflows or underflows.  `Verif/Float/Flx.lean` exhibits number formats with a `p`-bit significand that satisfy it.
-/

namespace RustDct
open Real Finset

/-- The standard model of floating-point arithmetic for the element type `T` and the type `F` of `f64`. -/
structure Rounding (T F : Type) [F64 F] [DctNum T F] where
  /-- the real number a value of the element type stands for -/
  val : T → ℝ
  /-- unit roundoff of the element type -/
  u : ℝ
  u_nonneg : 0 ≤ u
  zero : val 0 = 0
  one : val 1 = 1
  neg : ∀ a, val (-a) = -val a
  add : ∀ a b, |val (a + b) - (val a + val b)| ≤ u * |val a + val b|
  sub : ∀ a b, |val (a - b) - (val a - val b)| ≤ u * |val a - val b|
  mul : ∀ a b, |val (a * b) - val a * val b| ≤ u * |val a * val b|
  two : val (ttwo T) = 2
  half : val (thalf T) = 1 / 2
  sqrt2 : |val DctNum.sqrt2 - √2| ≤ u * √2
  fracSqrt2 : |val DctNum.fracSqrt2 - 1 / √2| ≤ u * (1 / √2)
  /-- the real number an `f64` stands for -/
  valF : F → ℝ
  /-- unit roundoff of `f64` -/
  v : ℝ
  v_nonneg : 0 ≤ v
  v_le : v ≤ 1 / 16
  /-- absolute error of `f64::sin` and `f64::cos` -/
  t : ℝ
  t_nonneg : 0 ≤ t
  f_nat : ∀ n : ℕ, |valF (F64.nat n) - n| ≤ v * n
  f_half : valF F64.half = 1 / 2
  f_pi : |valF F64.pi - π| ≤ v * π
  f_neg : ∀ a, valF (-a) = -valF a
  f_add : ∀ a b, |valF (a + b) - (valF a + valF b)| ≤ v * |valF a + valF b|
  f_sub : ∀ a b, |valF (a - b) - (valF a - valF b)| ≤ v * |valF a - valF b|
  f_mul : ∀ a b, |valF (a * b) - valF a * valF b| ≤ v * |valF a * valF b|
  f_div : ∀ a b, valF b ≠ 0 → |valF (a / b) - valF a / valF b| ≤ v * |valF a / valF b|
  f_sqrt : ∀ a, 0 ≤ valF a → |valF (F64.sqrt a) - √(valF a)| ≤ v * √(valF a)
  f_sin : ∀ a, |valF (F64.sin a) - sin (valF a)| ≤ t
  f_cos : ∀ a, |valF (F64.cos a) - cos (valF a)| ≤ t
  from_f64 : ∀ a, |val (fromF64 a) - valF a| ≤ u * |valF a|

variable {T F : Type} [F64 F] [DctNum T F]

theorem Rounding.v_lt (R : Rounding T F) : R.v < 1 := by linarith [R.v_le]

/-- A bound for the error of the entries of the twiddle tables: the angle is computed with at most seven roundings and one division,
sine and cosine of it with absolute error `t`, and the result is converted to the element type. -/
noncomputable def Rounding.tau (R : Rounding T F) : ℝ :=
  (1 + R.u) * ((1 + R.v) ^ 2 * (1 + (R.t + 2 * π * ((1 + R.v) ^ 7 / (1 - R.v) - 1)))) - 1

end RustDct

namespace Spec
open Real Finset

/-- The Euclidean norm of a list, entry `i` taken with weight `w i`. -/
noncomputable def wnorm (w : ℕ → ℝ) (l : List ℝ) : ℝ := √(∑ i ∈ range l.length, w i * l.getD i 0 ^ 2)

/-- The ordinary Euclidean norm of a list. -/
noncomputable def norm2 (l : List ℝ) : ℝ := √(l.map fun x => x ^ 2).sum

/-- `y` approximates `z` with relative error `ε` in the norm with weights `w`. -/
def Close (w : ℕ → ℝ) (ε : ℝ) (y z : List ℝ) : Prop :=
  y.length = z.length ∧ wnorm w (List.zipWith (· - ·) y z) ≤ ε * wnorm w z

/-- The Euclidean norm of a list of complex numbers. -/
noncomputable def cnorm (l : List ℂ) : ℝ := √(l.map fun z => ‖z‖ ^ 2).sum

/-- `y` approximates `z` with relative error `ε` in the Euclidean norm. -/
def RelErr (ε : ℝ) (y z : List ℝ) : Prop := y.length = z.length ∧ norm2 (List.zipWith (· - ·) y z) ≤ ε * norm2 z

end Spec

namespace RustDct
open Real Finset

variable {T F : Type} [F64 F] [DctNum T F]

/-! ## Accurate FFTs and accurate transforms -/

/-- The complex number a pair of values of the element type stands for. -/
def Rounding.toC (R : Rounding T F) (c : Cx T) : ℂ := ⟨R.val c.re, R.val c.im⟩

/-- The contract of an FFT instance (rustfft is external code) in floating-point arithmetic: called with a buffer of its length and
enough scratch it returns, the result depends on the buffer only, and its relative error in the Euclidean norm is at most `φ`. -/
def FftAccurate (R : Rounding T F) (fft : Fft T) (φ : ℝ) : Prop :=
  fft.direction = .forward ∧ ∃ G : List (Cx T) → List (Cx T), ∀ buf, buf.length = fft.len →
    (∀ scr, fft.inplaceScratchLen ≤ scr.length → ∃ scr', fft.process buf scr = .ok (G buf, scr') ∧ scr'.length = scr.length) ∧
    (G buf).length = fft.len ∧
    Spec.cnorm (List.zipWith (· - ·) ((G buf).map R.toC) (Spec.dft (buf.map R.toC))) ≤ φ * Spec.cnorm (Spec.dft (buf.map R.toC))

/-- The contract of `rustfft::FftPlanner::plan_fft_forward`: an instance of the requested size whose relative error is at most
`φ` of that size. -/
def PlanFftAccurate (R : Rounding T F) (planFft : ℕ → Fft T) (φ : ℕ → ℝ) : Prop :=
  ∀ n, (planFft n).len = n ∧ 0 ≤ φ n ∧ FftAccurate R (planFft n) (φ n)

/-- Both ways of running a transform, with scratch supplied by the caller (whatever it contains) and with scratch allocated by the
default method, return with a buffer that approximates `F` of what was in it with relative error `ε`. -/
def Approximates (R : Rounding T F) (p : Proc T) (n s : ℕ) (F : List ℝ → List ℝ) (ε : ℝ) : Prop :=
  (∀ m, ValidCall n s m → ∃ m', p m = .ok m' ∧ Spec.RelErr ε (m'.buf.map R.val) (F (m.buf.map R.val))) ∧
  ∀ buf, buf.length = n → ∃ out, processDefault s p buf = .ok out ∧ Spec.RelErr ε (out.map R.val) (F (buf.map R.val))

/-- As `Approximates`, but scratch supplied by the caller must be zeroed. -/
def ApproximatesZeroed (R : Rounding T F) (p : Proc T) (n s : ℕ) (F : List ℝ → List ℝ) (ε : ℝ) : Prop :=
  (∀ buf, buf.length = n → ∃ m', p ⟨buf, List.replicate s 0⟩ = .ok m' ∧ Spec.RelErr ε (m'.buf.map R.val) (F (buf.map R.val))) ∧
  ∀ buf, buf.length = n → ∃ out, processDefault s p buf = .ok out ∧ Spec.RelErr ε (out.map R.val) (F (buf.map R.val))

/-- A call of `process_mdct_with_scratch` returns with an output buffer that differs from `F` of the two inputs, in the Euclidean norm,
by at most `c` times the norm of the inputs. -/
def ApproximatesMdct (R : Rounding T F) (p : List T → List T → Mem T → Outcome (Mem T)) (n s : ℕ) (F : List ℝ → List ℝ → List ℝ) (c : ℝ) : Prop :=
  ∀ a b m, ValidMdct n s a b m → ∃ m', p a b m = .ok m' ∧ m'.buf.length = n ∧
    Spec.norm2 (List.zipWith (· - ·) (m'.buf.map R.val) (F (a.map R.val) (b.map R.val))) ≤ c * Spec.norm2 ((a ++ b).map R.val)

/-- A call of `process_imdct_with_scratch` returns with the values `Y` of the input added to the two output buffers, up to one rounding
of what the buffers contained and `c` times the norm of the input. -/
def ApproximatesImdct (R : Rounding T F) (p : List T → IMem T → Outcome (IMem T)) (n s : ℕ) (Y : List ℝ → List ℝ) (c : ℝ) : Prop :=
  ∀ x m, ValidImdct n s x m → ∃ m', p x m = .ok m' ∧ m'.outA.length = n ∧ m'.outB.length = n ∧
    Spec.norm2 (List.zipWith (· - ·) ((m'.outA ++ m'.outB).map R.val) (List.zipWith (· + ·) ((m.outA ++ m.outB).map R.val) (Y (x.map R.val)))) ≤
      R.u * Spec.norm2 ((m.outA ++ m.outB).map R.val) + c * Spec.norm2 (x.map R.val)

/-- The entries of `v` are at most `M`, and those of `win` differ from them by at most `γ M`. -/
def WindowNear (R : Rounding T F) (win : List T) (v : List ℝ) (M γ : ℝ) : Prop :=
  win.length = v.length ∧ 0 ≤ γ ∧ 0 ≤ M ∧ ∀ p ∈ List.zip win v, |p.2| ≤ M ∧ |R.val p.1 - p.2| ≤ γ * M

/-- `lapped` (`Verif/Client.lean`) returns, and every interior block of the signal comes out multiplied by `g`, up to an error of `c` times
the sizes of the two pairs of blocks that overlap in it: for every number of blocks, whatever the reused buffers contain. -/
def ReconstructsNearly (R : Rounding T F) (o : MdctObj T) (n : ℕ) (g c : ℝ) : Prop :=
  ∀ (a : List T) (rest : List (List T)) (acc : List T) (m : Mem T), (∀ b ∈ a :: rest, b.length = n) → acc.length = n →
    m.buf.length = n → o.scratchLen ≤ m.scr.length →
    ∃ outs, lapped o a rest acc m = .ok outs ∧ outs.length = (a :: rest).length ∧
      ∀ t x y z out, (a :: rest)[t]? = some x → (a :: rest)[t + 1]? = some y → (a :: rest)[t + 2]? = some z → outs[t + 1]? = some out →
        out.length = n ∧ Spec.norm2 (List.zipWith (· - ·) (out.map R.val) (y.map fun b => g * R.val b)) ≤
          c * (Spec.norm2 ((x ++ y).map R.val) + Spec.norm2 ((y ++ z).map R.val))

/-! ## The error bounds

In each of them every factor `1 + …` is one rounding; they are all `O(u + τ + φ)`, and except for the naive algorithms the
constant does not depend on the length, but for powers of two on its logarithm. -/

/-- The error factor of a rotation by a twiddle factor. -/
noncomputable def Rounding.rot (R : Rounding T F) : ℝ := (1 + R.u) ^ 2 * (1 + R.tau)

/-- The error factor of one split radix step. -/
noncomputable def Rounding.step (R : Rounding T F) : ℝ := (1 + R.u) * (R.rot * (1 + R.u)) ^ 2

/-- The error factor of one term of the inner loop of a naive algorithm. -/
noncomputable def Rounding.term (R : Rounding T F) : ℝ := (1 + R.u) ^ 3 * (1 + R.tau)

/-- The error of a transform each of whose outputs is a sum of all inputs, where each term has the error factor `g`. -/
noncomputable def gainErr (n : ℕ) (g : ℝ) : ℝ := √(2 * n) * (g - 1)

/-- The error of the naive algorithms: `n` products, added one after the other. -/
noncomputable def Rounding.naive (R : Rounding T F) (n : ℕ) : ℝ := gainErr n ((1 + R.u) ^ n * R.term)

/-- The error of an FFT-based DCT1, DST1 or DST7, the FFT having relative error `φ`. -/
noncomputable def Rounding.fft1 (R : Rounding T F) (φ : ℝ) : ℝ := √2 * ((1 + φ) * (1 + R.u) - 1)

/-- The error of an FFT-based type 2 transform. -/
noncomputable def Rounding.fft2 (R : Rounding T F) (φ : ℝ) : ℝ := √2 * ((1 + φ) * R.rot ^ 2 - 1)

/-- The error of an FFT-based type 3 transform. -/
noncomputable def Rounding.fft3 (R : Rounding T F) (φ : ℝ) : ℝ := (R.rot * (1 + R.u)) ^ 2 * (1 + φ) - 1

/-- The error of an FFT-based type 4 transform of odd length. -/
noncomputable def Rounding.fft4 (R : Rounding T F) (φ : ℝ) : ℝ := √2 * ((1 + φ) * (1 + R.u) ^ 12 - 1)

/-- The error of an even-length type 4 transform, the inner type 3 transforms having error `ε`. -/
noncomputable def Rounding.even4 (R : Rounding T F) (ε : ℝ) : ℝ := (1 + R.u) * (1 + ε) * R.rot ^ 2 - 1

/-- The error of an MDCT or IMDCT, relative to `√n` times the size of the window: the inner DCT4 has error `ε`, the window `γ`. -/
noncomputable def Rounding.lap (R : Rounding T F) (γ ε : ℝ) : ℝ := (1 + R.u) ^ 2 * (1 + γ) * (1 + ε) - 1

/-- The error of overlapping: MDCT and IMDCT, each with error `η`, and the addition to what the output contains. -/
noncomputable def Rounding.overlap (R : Rounding T F) (η : ℝ) : ℝ := (1 + R.u) * (1 + η) ^ 2 - 1

/-! The built-in windows. -/

/-- The error factor of the square root of a quotient of integers. -/
noncomputable def Rounding.root (R : Rounding T F) : ℝ := (1 + R.v) ^ 3 / (1 - R.v)

/-- The error factor of the Vorbis window before it is converted to the element type: two nested sines. -/
noncomputable def Rounding.vorb (R : Rounding T F) : ℝ :=
  1 + (R.t + π / 2 * ((1 + R.v) ^ 5 * (1 + (R.t + 2 * π * ((1 + R.v) ^ 7 / (1 - R.v) - 1))) ^ 2 - 1))

/-! What the planner returns, in the order of src/plan.rs; `φ m` is the error of the FFT of length `m`. -/

/-- The error of a planned type 2 transform; `c` is the error of one based on an FFT. -/
noncomputable def Rounding.type23 (R : Rounding T F) (n : ℕ) (c : ℝ) : ℝ :=
  if n = 3 then gainErr 3 R.term else if 2 ≤ n ∧ n = 2 ^ Nat.log 2 n then R.step ^ Nat.log 2 n - 1 else c

noncomputable def Rounding.type4 (R : Rounding T F) (φ : ℕ → ℝ) (n : ℕ) : ℝ :=
  if n % 2 = 0 then if n < 6 then R.naive n else R.even4 (R.type23 (n / 2) (R.fft3 (φ (n / 2))))
  else if n < 7 then R.naive n else R.fft4 (φ n)

/-- The error of the planned transform of each kind, in the norm in which the transform is a multiple of an isometry (the boundary
samples of its inverse count one half). -/
noncomputable def Rounding.err (R : Rounding T F) (φ : ℕ → ℝ) : Kind → ℕ → ℝ
  | .dct1, n => if n < 10 then R.naive n else R.fft1 (φ ((n - 1) * 2))
  | .dct2, n | .dst2, n => R.type23 n (R.fft2 (φ n))
  | .dct3, n | .dst3, n => R.type23 n (R.fft3 (φ n))
  | .dct4, n | .dst4, n => R.type4 φ n
  | .dst1, n => if n < 25 then R.naive n else R.fft1 (φ ((n + 1) * 2))
  | .dst6, n => if n < 45 then R.naive n else 2 * φ (n * 2 + 1)
  | .dst7, n => if n < 45 then R.naive n else R.fft1 (φ (n * 2 + 1))
  | .dct5, n | .dct6, n | .dct7, n | .dct8, n | .dst5, n | .dst8, n => R.naive n

/-- The price of measuring in the ordinary Euclidean norm: `√2` for the transforms whose inverse has a boundary sample. -/
noncomputable def Kind.boundary : Kind → ℝ
  | .dct1 | .dct2 | .dct5 | .dct6 | .dct7 | .dst2 | .dst8 => √2
  | _ => 1

end RustDct
