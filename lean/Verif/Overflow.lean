import Verif.Range.Format
import Verif.Formula
/-!
# Specification: outputs that are finite, for inputs of any size

`Verif/Range.lean` says how large inputs may be for all outputs to be finite.  The statements here are about inputs of any size: some outputs
may overflow, but those that are finite are accurate.
-/

namespace RustDct
open Real

/-- The format with `j` more exponents at the upper end, and the same precision and subnormal numbers. -/
def Format.widen (f : Format) (j : ℕ) : Format := ⟨f.p, f.q, f.E + j, f.hp, f.hq, by have := f.hE; omega⟩

/-- An FFT that evaluates formulas which, evaluated in formats with more exponents, meet the contract of `Verif/Range.lean`: if nothing
overflows, the accuracy is that of `μ` roundings of `γ` times the largest input. -/
def FftInEveryRange {f : Format} (fft : Fft (Fp f)) (γ μ : ℕ) : Prop :=
  ∃ f₀ : Fft Formula, FftEvaluates f₀ fft ∧ ∀ j, ∃ fft' : Fft (Fp (f.widen j)), FftEvaluates f₀ fft' ∧ FftRange (Fp.ieee (f.widen j)) fft' γ μ

/-- The contract of `rustfft::FftPlanner::plan_fft_forward`. -/
def PlanFftInEveryRange {f : Format} (planFft : ℕ → Fft (Fp f)) (γ μ : ℕ → ℕ) : Prop :=
  ∀ n, (planFft n).len = n ∧ (planFft n).direction = .forward ∧ 1 ≤ γ n ∧ 2 * n ≤ γ n ∧ (n ≤ 2 ^ 62 → FftInEveryRange (planFft n) (γ n) (μ n))

variable {T F : Type} [F64 F] [DctNum T F]

/-- Every entry of `y` that is finite differs from that of `z` by at most `δ`. -/
def Ieee.NearIfFinite (R : Ieee T F) (δ : ℝ) (y : List T) (z : List ℝ) : Prop :=
  y.length = z.length ∧ ∀ p ∈ List.zip y z, R.fin p.1 → |R.val p.1 - p.2| ≤ δ

/-- With finite inputs of at most `B`, however large, both ways of running a transform (with scratch supplied by the caller, whatever it
contains, NaN included, and with scratch allocated by the default method) return, and the error of every output that is finite is at most
that of `units` roundings of `gain * B`. -/
def AccurateIfFinite (R : Ieee T F) (p : Proc T) (n s : ℕ) (F : List ℝ → List ℝ) (gain units : ℕ) : Prop :=
  ∀ B, R.L ≤ B →
    (∀ m, ValidCall n s m → R.Bounded B m.buf → ∃ m', p m = .ok m' ∧ R.NearIfFinite (((1 + R.u) ^ units - 1) * (gain * B)) m'.buf (F (m.buf.map R.val))) ∧
    ∀ buf, buf.length = n → R.Bounded B buf → ∃ out, processDefault s p buf = .ok out ∧
      R.NearIfFinite (((1 + R.u) ^ units - 1) * (gain * B)) out (F (buf.map R.val))

/-- As `AccurateIfFinite`, but scratch supplied by the caller must be zeroed. -/
def AccurateIfFiniteZeroed (R : Ieee T F) (p : Proc T) (n s : ℕ) (F : List ℝ → List ℝ) (gain units : ℕ) : Prop :=
  ∀ B, R.L ≤ B →
    (∀ buf, buf.length = n → R.Bounded B buf → ∃ m', p ⟨buf, List.replicate s 0⟩ = .ok m' ∧
      R.NearIfFinite (((1 + R.u) ^ units - 1) * (gain * B)) m'.buf (F (buf.map R.val))) ∧
    ∀ buf, buf.length = n → R.Bounded B buf → ∃ out, processDefault s p buf = .ok out ∧
      R.NearIfFinite (((1 + R.u) ^ units - 1) * (gain * B)) out (F (buf.map R.val))

/-- The same for a call of `process_mdct_with_scratch`, whatever the output buffer and scratch contain. -/
def AccurateIfFiniteMdct (R : Ieee T F) (p : List T → List T → Mem T → Outcome (Mem T)) (n s : ℕ) (F : List ℝ → List ℝ → List ℝ) (gain units : ℕ) : Prop :=
  ∀ B, R.L ≤ B → ∀ a b m, ValidMdct n s a b m → R.Bounded B a → R.Bounded B b →
    ∃ m', p a b m = .ok m' ∧ R.NearIfFinite (((1 + R.u) ^ units - 1) * (gain * B)) m'.buf (F (a.map R.val) (b.map R.val))

/-- The same for a call of `process_imdct_with_scratch`, which adds to what the two output buffers contain. -/
def AccurateIfFiniteImdct (R : Ieee T F) (p : List T → IMem T → Outcome (IMem T)) (n s : ℕ) (Y : List ℝ → List ℝ) (gain units : ℕ) : Prop :=
  ∀ B, R.L ≤ B → ∀ x m, ValidImdct n s x m → R.Bounded B x → R.Bounded B m.outA → R.Bounded B m.outB →
    ∃ m', p x m = .ok m' ∧ m'.outA.length = n ∧ m'.outB.length = n ∧
      R.NearIfFinite (((1 + R.u) ^ units - 1) * (gain * B)) (m'.outA ++ m'.outB) (List.zipWith (· + ·) ((m.outA ++ m.outB).map R.val) (Y (x.map R.val)))

/-- `lapped` (`Verif/Client.lean`) of blocks of inputs of at most `B`, however large, returns, and every entry of every interior block that is
finite comes out multiplied by `g`, up to `units` roundings of `gain * B`. -/
def ReconstructsIfFinite (R : Ieee T F) (o : MdctObj T) (n : ℕ) (g : ℝ) (gain units : ℕ) : Prop :=
  ∀ B, R.L ≤ B → ∀ (a : List T) (rest : List (List T)) (acc : List T) (m : Mem T),
    (∀ b ∈ a :: rest, b.length = n ∧ R.Bounded B b) → acc.length = n → m.buf.length = n → o.scratchLen ≤ m.scr.length →
    ∃ outs, lapped o a rest acc m = .ok outs ∧ outs.length = (a :: rest).length ∧
      ∀ t y out, t + 2 < (a :: rest).length → (a :: rest)[t + 1]? = some y → outs[t + 1]? = some out →
        R.NearIfFinite (((1 + R.u) ^ units - 1) * (gain * B)) out (y.map fun b => g * R.val b)

end RustDct
