import Mathlib.Analysis.SpecialFunctions.Complex.Circle
import Verif.RealInst
import Verif.Lib.FftLib
import Verif.Model.DftFft
/-!
# What we assume of rustfft: the textbook DFT, over ℂ
-/

set_option linter.all false

namespace Spec
open Finset

/-- The forward DFT, `X k = Σ_j x j · e^{-2πi·jk/n}`. -/
noncomputable def dftAt (n : ℕ) (x : ℕ → ℂ) (k : ℕ) : ℂ :=
  ∑ j ∈ range n, x j * Complex.exp (-(2 * Real.pi * Complex.I * (j * k) / n))

/-- The forward DFT of a list. -/
noncomputable def dft (x : List ℂ) : List ℂ :=
  (List.range x.length).map fun k => dftAt x.length (fun j => x.getD j 0) k

end Spec

namespace RustDct
open Real Finset

/-- A model complex number over ℝ as a Mathlib complex number. -/
def Cx.toC (c : Cx ℝ) : ℂ := ⟨c.re, c.im⟩

/-- The contract of an FFT instance (rustfft is external code): called with a buffer of its length and enough
scratch, it returns, replaces the buffer by its forward DFT whatever scratch contained, and keeps the lengths. -/
def FftContract (fft : Fft ℝ) : Prop :=
  fft.direction = .forward ∧
  ∀ buf scr : List (Cx ℝ), buf.length = fft.len → fft.inplaceScratchLen ≤ scr.length →
    ∃ buf' scr', fft.process buf scr = .ok (buf', scr') ∧
      buf'.map Cx.toC = Spec.dft (buf.map Cx.toC) ∧ scr'.length = scr.length

/-- The contract of `rustfft::FftPlanner::plan_fft_forward`: an instance of the requested size that satisfies
`FftContract`. -/
def PlanFftContract (planFft : ℕ → Fft ℝ) : Prop :=
  ∀ n, (planFft n).len = n ∧ FftContract (planFft n)

/-- The DFT in real arithmetic. -/
noncomputable def dftRI (n : ℕ) (c : ℕ → Cx ℝ) (k : ℕ) : Cx ℝ :=
  ⟨∑ j ∈ range n, ((c j).re * cos (2 * π * (j * k) / n) + (c j).im * sin (2 * π * (j * k) / n)),
   ∑ j ∈ range n, ((c j).im * cos (2 * π * (j * k) / n) - (c j).re * sin (2 * π * (j * k) / n))⟩

theorem exp_neg_I (θ : ℝ) : Complex.exp (-(θ * Complex.I)) = ⟨cos θ, -sin θ⟩ := by
  rw [← neg_mul, ← Complex.ofReal_neg, Complex.exp_mul_I]
  apply Complex.ext
  · simp [Complex.cos_ofReal_re]
  · simp [Complex.sin_ofReal_re]

theorem dftRI_toC (n : ℕ) (c : ℕ → Cx ℝ) (k : ℕ) : (dftRI n c k).toC = Spec.dftAt n (fun j => (c j).toC) k := by
  unfold Spec.dftAt
  have : ∀ j : ℕ, (c j).toC * Complex.exp (-(2 * Real.pi * Complex.I * (j * k) / n)) =
      ⟨(c j).re * cos (2 * π * (j * k) / n) + (c j).im * sin (2 * π * (j * k) / n),
       (c j).im * cos (2 * π * (j * k) / n) - (c j).re * sin (2 * π * (j * k) / n)⟩ := by
    intro j
    have e : (2 * Real.pi * Complex.I * (j * k) / n : ℂ) = ((2 * π * (j * k) / n : ℝ) : ℂ) * Complex.I := by
      push_cast; ring
    rw [e, exp_neg_I]
    apply Complex.ext <;> simp [Cx.toC] <;> ring
  simp only [this]
  apply Complex.ext
  · simp [Cx.toC, dftRI]
  · simp [Cx.toC, dftRI]

theorem Cx.toC_inj {a b : Cx ℝ} (h : a.toC = b.toC) : a = b := by
  cases a; cases b
  simp only [Cx.toC, Complex.mk.injEq] at h
  simp [h]

theorem dft_vec (n : ℕ) (c : ℕ → Cx ℝ) : Spec.dft ((vec n c).map Cx.toC) = (vec n (dftRI n c)).map Cx.toC := by
  rw [map_vec, map_vec]
  unfold Spec.dft
  rw [length_vec, map_range_eq_vec]
  apply vec_congr
  intro k hk
  rw [dftRI_toC]
  unfold Spec.dftAt
  refine Finset.sum_congr rfl fun j hj => ?_
  rw [mem_range] at hj
  simp [List.getD, hj]

theorem FftContract.runs {fft : Fft ℝ} (h : FftContract fft) : FftRuns fft (dftRI fft.len) := by
  intro c scr hs
  obtain ⟨buf', scr', h1, h2, h3⟩ := h.2 (vec fft.len c) scr (by simp) hs
  refine ⟨scr', ?_, h3⟩
  rw [h1, dft_vec] at *
  congr 2
  exact List.map_injective_iff.mpr (fun a b => Cx.toC_inj) h2

theorem PlanFftContract.len {planFft : ℕ → Fft ℝ} (h : PlanFftContract planFft) (n : ℕ) : (planFft n).len = n := (h n).1
theorem PlanFftContract.dir {planFft : ℕ → Fft ℝ} (h : PlanFftContract planFft) (n : ℕ) :
    (planFft n).direction = .forward := (h n).2.1
theorem PlanFftContract.runs {planFft : ℕ → Fft ℝ} (h : PlanFftContract planFft) (n : ℕ) :
    FftRuns (planFft n) (dftRI n) := by
  have := (h n).2.runs
  rwa [(h n).1] at this

/-! The contract can be met: the defining sum does. -/

theorem foldl_zip_range (n : ℕ) (c : ℕ → Cx ℝ) (t : ℕ → Cx ℝ) :
    ((List.range n).zip (vec n c)).foldl (fun acc p => Cx.add acc (Cx.mul p.2 (t p.1))) ⟨0, 0⟩ =
      ⟨∑ j ∈ range n, (Cx.mul (c j) (t j)).re, ∑ j ∈ range n, (Cx.mul (c j) (t j)).im⟩ := by
  have e : (List.range n).zip (vec n c) = (List.range n).map (fun j => (j, c j)) := by
    have h1 : List.range n = vec n (fun i => i) := by simp [vec]
    conv_lhs => rw [h1]
    rw [zip_vec, Nat.min_self]
    rfl
  rw [e]
  clear e
  induction n with
  | zero => simp
  | succ n ih =>
    rw [List.range_succ, List.map_append, List.foldl_append, ih, Finset.sum_range_succ, Finset.sum_range_succ]
    simp [Cx.add]

theorem dftFft_contract (n s : ℕ) : FftContract (dftFft n s : Fft ℝ) := by
  refine ⟨rfl, fun buf scr hb hs => ?_⟩
  change buf.length = n at hb
  change s ≤ scr.length at hs
  obtain ⟨c, rfl⟩ := exists_vec hb
  refine ⟨dftList (vec n c), scr, by simp [dftFft, hs], ?_, rfl⟩
  rw [dft_vec]
  congr 1
  unfold dftList
  rw [length_vec, map_range_eq_vec]
  apply vec_congr
  intro k hk
  rw [foldl_zip_range n c (fun j => singleTwiddle (j * k) n)]
  unfold dftRI
  congr 1 <;> refine Finset.sum_congr rfl fun j hj => ?_ <;>
    simp only [Cx.mul, singleTwiddle_re, singleTwiddle_im] <;>
    rw [show 2 * π / (n : ℝ) * ((j * k : ℕ) : ℝ) = 2 * π * (j * k) / n by push_cast; ring] <;> ring

theorem dftFft_plan : PlanFftContract (fun n => (dftFft n : Fft ℝ)) := fun n => ⟨rfl, dftFft_contract n 0⟩

end RustDct
