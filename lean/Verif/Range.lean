import Verif.Kinds
import Verif.FftSpec
import Verif.Statements
import Verif.Client
/-!
# Floating-point arithmetic of bounded range

`Ieee T F` is the model of IEEE arithmetic with overflow, gradual underflow, infinities and NaN: an operation on finite numbers returns a
finite number close to the exact result, provided the exact result does not exceed the largest finite number.  Nothing is assumed
about what an operation returns that overflows, or whose operands are not finite.  `Verif/Range/Format.lean` exhibits such number formats.

`Verif/Rounding.lean` is the simpler model without a range.
-/

namespace RustDct
open Real

/-- `y` is a correct result for `x`, if `x` is in range: a finite number, the error at most `u` times `x`, or `u` times the least normal
number `L` if `x` is below that. -/
def RoundsTo {α : Type} (fin : α → Prop) (val : α → ℝ) (u L M : ℝ) (y : α) (x : ℝ) : Prop :=
  |x| ≤ M → fin y ∧ |val y - x| ≤ u * max |x| L

/-- Floating-point arithmetic with a bounded range, for the element type `T` and the type `F` of `f64`. -/
structure Ieee (T F : Type) [F64 F] [DctNum T F] where
  /-- neither infinite nor NaN -/
  fin : T → Prop
  /-- the real number a finite value of the element type stands for -/
  val : T → ℝ
  /-- unit roundoff of the element type -/
  u : ℝ
  /-- least positive normal number of the element type -/
  L : ℝ
  /-- largest finite number of the element type -/
  M : ℝ
  u_nonneg : 0 ≤ u
  u_le : u ≤ 1 / 16
  L_pos : 0 < L
  L_le : L ≤ 1
  M_ge : 16 ≤ M
  zero : fin 0 ∧ val 0 = 0
  one : fin 1 ∧ val 1 = 1
  neg : ∀ a, fin a → fin (-a) ∧ val (-a) = -val a
  add : ∀ a b, fin a → fin b → RoundsTo fin val u L M (a + b) (val a + val b)
  sub : ∀ a b, fin a → fin b → RoundsTo fin val u L M (a - b) (val a - val b)
  mul : ∀ a b, fin a → fin b → RoundsTo fin val u L M (a * b) (val a * val b)
  two : fin (ttwo T) ∧ val (ttwo T) = 2
  half : fin (thalf T) ∧ val (thalf T) = 1 / 2
  sqrt2 : fin DctNum.sqrt2 ∧ |val DctNum.sqrt2 - √2| ≤ u * √2
  fracSqrt2 : fin DctNum.fracSqrt2 ∧ |val DctNum.fracSqrt2 - 1 / √2| ≤ u * (1 / √2)
  /-- an `f64` that is neither infinite nor NaN -/
  finF : F → Prop
  /-- the real number a finite `f64` stands for -/
  valF : F → ℝ
  /-- unit roundoff of `f64` -/
  v : ℝ
  /-- least positive normal `f64` -/
  LF : ℝ
  /-- largest finite `f64` -/
  MF : ℝ
  /-- absolute error of `f64::sin` and `f64::cos` -/
  t : ℝ
  v_nonneg : 0 ≤ v
  v_le : v ≤ 1 / 16
  LF_le : LF ≤ (1 / 2) ^ 100
  MF_ge : 2 ^ 100 ≤ MF
  t_nonneg : 0 ≤ t
  t_le : t ≤ 1 / 16
  /-- conversion of a `usize` -/
  f_nat : ∀ n : ℕ, n < 2 ^ 64 → finF (F64.nat n) ∧ |valF (F64.nat n) - n| ≤ v * n
  f_half : finF F64.half ∧ valF F64.half = 1 / 2
  f_pi : finF F64.pi ∧ |valF F64.pi - π| ≤ v * π
  f_neg : ∀ a, finF a → finF (-a) ∧ valF (-a) = -valF a
  f_add : ∀ a b, finF a → finF b → RoundsTo finF valF v LF MF (a + b) (valF a + valF b)
  f_sub : ∀ a b, finF a → finF b → RoundsTo finF valF v LF MF (a - b) (valF a - valF b)
  f_mul : ∀ a b, finF a → finF b → RoundsTo finF valF v LF MF (a * b) (valF a * valF b)
  f_div : ∀ a b, finF a → finF b → valF b ≠ 0 → RoundsTo finF valF v LF MF (a / b) (valF a / valF b)
  f_sqrt : ∀ a, finF a → 0 ≤ valF a → RoundsTo finF valF v LF MF (F64.sqrt a) √(valF a)
  f_sin : ∀ a, finF a → finF (F64.sin a) ∧ |valF (F64.sin a) - sin (valF a)| ≤ t
  f_cos : ∀ a, finF a → finF (F64.cos a) ∧ |valF (F64.cos a) - cos (valF a)| ≤ t
  from_f64 : ∀ a, finF a → RoundsTo fin val u L M (fromF64 a) (valF a)

variable {T F : Type} [F64 F] [DctNum T F]

/-- A bound for the error of the entries of the twiddle tables: the angle is computed with at most seven roundings and one division,
sine and cosine of it with absolute error `t`, and the result is converted to the element type. -/
noncomputable def Ieee.tau (R : Ieee T F) : ℝ :=
  (1 + R.u) * ((1 + R.v) ^ 2 * (1 + (R.t + 2 * π * ((1 + R.v) ^ 7 / (1 - R.v) - 1)))) - 1

/-- The entries of the twiddle tables are as accurate as the result of `r` operations of the element type. -/
def Ieee.Twiddles (R : Ieee T F) (r : ℕ) : Prop := 1 + R.tau ≤ (1 + R.u) ^ r

/-- Every entry of `y` is finite and differs from that of `z` by at most `δ`. -/
def Ieee.Near (R : Ieee T F) (δ : ℝ) (y : List T) (z : List ℝ) : Prop :=
  y.length = z.length ∧ ∀ p ∈ List.zip y z, R.fin p.1 ∧ |R.val p.1 - p.2| ≤ δ

/-- Every entry is finite and at most `B`. -/
def Ieee.Bounded (R : Ieee T F) (B : ℝ) (l : List T) : Prop := ∀ x ∈ l, R.fin x ∧ |R.val x| ≤ B

/-- With inputs of at most `B`, where `B` is such that `gain * B` leaves room for `units` roundings, both ways of running a transform
(with scratch supplied by the caller, whatever it contains, NaN included, and with scratch allocated by the default method) return finite
values, and the error of each of them is at most that of `units` roundings of `gain * B`. -/
def StaysFinite (R : Ieee T F) (p : Proc T) (n s : ℕ) (F : List ℝ → List ℝ) (gain units : ℕ) : Prop :=
  ∀ B, R.L ≤ B → gain * B * (1 + R.u) ^ units ≤ R.M →
    (∀ m, ValidCall n s m → R.Bounded B m.buf → ∃ m', p m = .ok m' ∧ R.Near (((1 + R.u) ^ units - 1) * (gain * B)) m'.buf (F (m.buf.map R.val))) ∧
    ∀ buf, buf.length = n → R.Bounded B buf → ∃ out, processDefault s p buf = .ok out ∧
      R.Near (((1 + R.u) ^ units - 1) * (gain * B)) out (F (buf.map R.val))

/-- As `StaysFinite`, but scratch supplied by the caller must be zeroed. -/
def StaysFiniteZeroed (R : Ieee T F) (p : Proc T) (n s : ℕ) (F : List ℝ → List ℝ) (gain units : ℕ) : Prop :=
  ∀ B, R.L ≤ B → gain * B * (1 + R.u) ^ units ≤ R.M →
    (∀ buf, buf.length = n → R.Bounded B buf → ∃ m', p ⟨buf, List.replicate s 0⟩ = .ok m' ∧
      R.Near (((1 + R.u) ^ units - 1) * (gain * B)) m'.buf (F (buf.map R.val))) ∧
    ∀ buf, buf.length = n → R.Bounded B buf → ∃ out, processDefault s p buf = .ok out ∧
      R.Near (((1 + R.u) ^ units - 1) * (gain * B)) out (F (buf.map R.val))

/-! ## The FFT -/

/-- The complex number a pair of values of the element type stands for. -/
def Ieee.toC (R : Ieee T F) (c : Cx T) : ℂ := ⟨R.val c.re, R.val c.im⟩

/-- The contract of an FFT instance (rustfft is external code) in arithmetic of bounded range: called with a buffer of its length and
enough scratch it returns, and the result depends on the buffer only; if real and imaginary parts of the input are at most `B`, where
`γ B` leaves room for `μ` roundings, those of the output are finite, with an error of at most that of `μ` roundings of `γ B`. -/
def FftRange (R : Ieee T F) (fft : Fft T) (γ μ : ℕ) : Prop :=
  fft.direction = .forward ∧ ∃ G : List (Cx T) → List (Cx T), ∀ buf, buf.length = fft.len →
    (∀ scr, fft.inplaceScratchLen ≤ scr.length → ∃ scr', fft.process buf scr = .ok (G buf, scr') ∧ scr'.length = scr.length) ∧
    (G buf).length = fft.len ∧
    ∀ B, R.L ≤ B → γ * B * (1 + R.u) ^ μ ≤ R.M → (∀ c ∈ buf, R.fin c.re ∧ R.fin c.im ∧ |R.val c.re| ≤ B ∧ |R.val c.im| ≤ B) →
      ∀ p ∈ List.zip (G buf) (Spec.dft (buf.map R.toC)), R.fin p.1.re ∧ R.fin p.1.im ∧
        |R.val p.1.re - p.2.re| ≤ ((1 + R.u) ^ μ - 1) * (γ * B) ∧ |R.val p.1.im - p.2.im| ≤ ((1 + R.u) ^ μ - 1) * (γ * B)

/-- The contract of `rustfft::FftPlanner::plan_fft_forward`: an instance of the requested size, a forward one, with the gain `γ` and the
accuracy `μ` of that size for all sizes that fit into memory.  (A part of an output of the DFT can be as large as `√2 n B`, so that `γ n`
is at least that.) -/
def PlanFftRange (R : Ieee T F) (planFft : ℕ → Fft T) (γ μ : ℕ → ℕ) : Prop :=
  ∀ n, (planFft n).len = n ∧ (planFft n).direction = .forward ∧ 1 ≤ γ n ∧ 2 * n ≤ γ n ∧ (n ≤ 2 ^ 62 → FftRange R (planFft n) (γ n) (μ n))

/-! ## Gains and roundings of what the planner returns, in the order of src/plan.rs

`γ m` and `μ m` are those of the FFT of length `m`, `r` is the accuracy of the twiddle tables.  The gain is the largest magnitude that
can occur anywhere in the computation, for inputs of magnitude 1, as the sizes of the intermediate results are estimated here. -/

/-- Planned type 2 and 3 transforms: a fixed-size kernel for length 3; split radix for powers of two, whose gain is at most `n √n`;
otherwise an FFT of the same length. -/
def gain23 (γ : ℕ → ℕ) (n : ℕ) : ℕ :=
  if n = 3 then 3 else if 2 ≤ n ∧ n = 2 ^ Nat.log 2 n then n * 2 ^ ((Nat.log 2 n - 1) / 2) else 2 * γ n
def units23 (r : ℕ) (μ : ℕ → ℕ) (n : ℕ) : ℕ :=
  if n = 3 then r + 3 else if 2 ≤ n ∧ n = 2 ^ Nat.log 2 n then (r + 4) * ((Nat.log 2 n + 1) / 2) + (Nat.log 2 n + 1) % 2 else μ n + r + 3

/-- Planned type 4 transforms: two type 3 transforms of half the length for even lengths, an FFT of the same length for odd ones. -/
def gain4 (γ : ℕ → ℕ) (n : ℕ) : ℕ :=
  if n % 2 = 0 then if n < 6 then n + 1 else 4 * gain23 γ (n / 2) else if n < 7 then n + 1 else 2 * γ n
def units4 (r : ℕ) (μ : ℕ → ℕ) (n : ℕ) : ℕ :=
  if n % 2 = 0 then if n < 6 then n + r + 3 else units23 r μ (n / 2) + r + 3 else if n < 7 then n + r + 3 else μ n + 6

/-- The gain of the planned transform of each kind. -/
def Kind.gain (γ : ℕ → ℕ) : Kind → ℕ → ℕ
  | .dct1, n => if n < 10 then n + 1 else γ ((n - 1) * 2)
  | .dct2, n | .dct3, n | .dst2, n | .dst3, n => gain23 γ n
  | .dct4, n | .dst4, n => gain4 γ n
  | .dst1, n => if n < 25 then n + 1 else γ ((n + 1) * 2)
  | .dst6, n | .dst7, n => if n < 45 then n + 1 else γ (n * 2 + 1)
  | .dct5, n | .dct6, n | .dct7, n | .dct8, n | .dst5, n | .dst8, n => n + 1

/-- The number of roundings of the planned transform of each kind. -/
def Kind.units (r : ℕ) (μ : ℕ → ℕ) : Kind → ℕ → ℕ
  | .dct1, n => if n < 10 then n + r + 3 else μ ((n - 1) * 2) + 1
  | .dct2, n | .dct3, n | .dst2, n | .dst3, n => units23 r μ n
  | .dct4, n | .dst4, n => units4 r μ n
  | .dst1, n => if n < 25 then n + r + 3 else μ ((n + 1) * 2) + 1
  | .dst6, n => if n < 45 then n + r + 3 else μ (n * 2 + 1)
  | .dst7, n => if n < 45 then n + r + 3 else μ (n * 2 + 1) + 1
  | .dct5, n | .dct6, n | .dct7, n | .dct8, n | .dst5, n | .dst8, n => n + r + 3

/-! ## MDCT -/

/-- A bound for the error of the entries of the built-in windows: those of `vorbis` are sines of products of two sines, those of the
`invertible` ones are scaled by a square root. -/
noncomputable def Ieee.omega (R : Ieee T F) : ℝ :=
  (1 + R.u) * ((1 + R.v) * ((1 + (R.t + π / 2 * ((1 + R.v) ^ 5 * (1 + (R.t + 2 * π * ((1 + R.v) ^ 7 / (1 - R.v) - 1))) ^ 2 - 1))) *
    ((1 + R.v) ^ 3 / (1 - R.v)))) - 1

/-- The entries of the built-in windows are as accurate as the result of `k` operations of the element type. -/
def Ieee.Windows (R : Ieee T F) (k : ℕ) : Prop := 1 + R.omega ≤ (1 + R.u) ^ k

/-- The entries of the window meant, `v`, are at most 1, and those of `win` are finite and as accurate as the result of `k` operations. -/
def Ieee.WindowNear (R : Ieee T F) (win : List T) (v : List ℝ) (k : ℕ) : Prop :=
  win.length = v.length ∧ ∀ p ∈ List.zip win v, R.fin p.1 ∧ |p.2| ≤ 1 ∧ |R.val p.1 - p.2| ≤ (1 + R.u) ^ k - 1

/-- As `StaysFinite`, for a call of `process_mdct_with_scratch`, whatever the output buffer and scratch contain. -/
def StaysFiniteMdct (R : Ieee T F) (p : List T → List T → Mem T → Outcome (Mem T)) (n s : ℕ) (F : List ℝ → List ℝ → List ℝ) (gain units : ℕ) : Prop :=
  ∀ B, R.L ≤ B → gain * B * (1 + R.u) ^ units ≤ R.M → ∀ a b m, ValidMdct n s a b m → R.Bounded B a → R.Bounded B b →
    ∃ m', p a b m = .ok m' ∧ R.Near (((1 + R.u) ^ units - 1) * (gain * B)) m'.buf (F (a.map R.val) (b.map R.val))

/-- As `StaysFinite`, for a call of `process_imdct_with_scratch`, which adds to what the two output buffers contain. -/
def StaysFiniteImdct (R : Ieee T F) (p : List T → IMem T → Outcome (IMem T)) (n s : ℕ) (Y : List ℝ → List ℝ) (gain units : ℕ) : Prop :=
  ∀ B, R.L ≤ B → gain * B * (1 + R.u) ^ units ≤ R.M → ∀ x m, ValidImdct n s x m → R.Bounded B x → R.Bounded B m.outA → R.Bounded B m.outB →
    ∃ m', p x m = .ok m' ∧ m'.outA.length = n ∧ m'.outB.length = n ∧
      R.Near (((1 + R.u) ^ units - 1) * (gain * B)) (m'.outA ++ m'.outB) (List.zipWith (· + ·) ((m.outA ++ m.outB).map R.val) (Y (x.map R.val)))

/-- `lapped` (`Verif/Client.lean`) of blocks of inputs of at most `B` returns, and every entry of every interior block comes out finite and
multiplied by `g`, up to `units` roundings of `gain * B`: for every number of blocks, whatever the reused buffers contain. -/
def ReconstructsFinite (R : Ieee T F) (o : MdctObj T) (n : ℕ) (g : ℝ) (gain units : ℕ) : Prop :=
  ∀ B, R.L ≤ B → gain * B * (1 + R.u) ^ units ≤ R.M → ∀ (a : List T) (rest : List (List T)) (acc : List T) (m : Mem T),
    (∀ b ∈ a :: rest, b.length = n ∧ R.Bounded B b) → acc.length = n → m.buf.length = n → o.scratchLen ≤ m.scr.length →
    ∃ outs, lapped o a rest acc m = .ok outs ∧ outs.length = (a :: rest).length ∧
      ∀ t y out, t + 2 < (a :: rest).length → (a :: rest)[t + 1]? = some y → outs[t + 1]? = some out →
        R.Near (((1 + R.u) ^ units - 1) * (gain * B)) out (y.map fun b => g * R.val b)

end RustDct
