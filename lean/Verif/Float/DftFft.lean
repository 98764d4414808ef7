import Verif.Float.Planned
import Verif.Float.Flx
/-!
# The accuracy contract of the FFT can be met: the defining sum in floating-point arithmetic

Not part of the repository (rustfft is external code); used in the examples beside the theorems about accuracy.
-/

set_option linter.all false

namespace RustDct
open Finset Real

variable {T F : Type} [F64 F] [DctNum T F]

/-- The defining sum, the terms added one after the other. -/
def dftSeq (n : ℕ) (c : ℕ → Cx T) (k : ℕ) : ℕ → Cx T
  | 0 => ⟨0, 0⟩
  | j + 1 => Cx.add (dftSeq n c k j) (Cx.mul (c j) (singleTwiddle (j * k % n) n))

/-- An FFT of length `n` computing the defining sum. -/
def sumFft (n : ℕ) : Fft T where
  len := n
  direction := .forward
  inplaceScratchLen := 0
  process := fun buf scr =>
    if buf.length = n then .ok ((List.range n).map fun k => dftSeq n (fun j => buf.getD j ⟨0, 0⟩) k n, scr) else .error (.bufferLen n buf.length)

theorem dftSeq_real {n : ℕ} (hn : 1 ≤ n) (c : ℕ → Cx ℝ) (k m : ℕ) :
    dftSeq n c k m = ⟨∑ j ∈ range m, ((c j).re * cos (2 * π * (j * k) / n) + (c j).im * sin (2 * π * (j * k) / n)),
      ∑ j ∈ range m, ((c j).im * cos (2 * π * (j * k) / n) - (c j).re * sin (2 * π * (j * k) / n))⟩ := by
  have hn0 : (n : ℝ) ≠ 0 := by exact_mod_cast (show n ≠ 0 by omega)
  induction m with
  | zero => simp [dftSeq]
  | succ m ih =>
    have hang : ∃ q : ℕ, 2 * π * ((m : ℝ) * k) / n = 2 * π / n * ((m * k % n : ℕ) : ℝ) + (q : ℝ) * (2 * π) := by
      refine ⟨m * k / n, ?_⟩
      have h : (m : ℝ) * k = n * ((m * k / n : ℕ) : ℝ) + ((m * k % n : ℕ) : ℝ) := by exact_mod_cast (Nat.div_add_mod (m * k) n).symm
      rw [h]
      field_simp
      ring
    obtain ⟨q, hq⟩ := hang
    have hc : cos (2 * π * ((m : ℝ) * k) / n) = (singleTwiddle (m * k % n) n : Cx ℝ).re := by
      rw [hq, cos_add_nat_mul_two_pi, singleTwiddle_re]
    have hs : sin (2 * π * ((m : ℝ) * k) / n) = -(singleTwiddle (m * k % n) n : Cx ℝ).im := by
      rw [hq, sin_add_nat_mul_two_pi, singleTwiddle_im, neg_neg]
    rw [dftSeq, ih, sum_range_succ, sum_range_succ, hc, hs]
    simp only [Cx.add, Cx.mul, Cx.mk.injEq]
    constructor <;> ring

/-- The error factor of one term and the additions. -/
noncomputable def Rounding.sumGain (R : Rounding T F) (n : ℕ) : ℝ := (1 + R.u) ^ n * R.rot

theorem Rounding.ap_dftSeq (R : Rounding T F) {n : ℕ} (hn : 1 ≤ n) (c : ℕ → Cx T) (k m : ℕ) :
    Ap (R.val (dftSeq n c k m).re) (dftSeq n (R.cseq c) k m).re (∑ j ∈ range m, (|R.val (c j).re| + |R.val (c j).im|)) (R.sumGain m) ∧
    Ap (R.val (dftSeq n c k m).im) (dftSeq n (R.cseq c) k m).im (∑ j ∈ range m, (|R.val (c j).re| + |R.val (c j).im|)) (R.sumGain m) := by
  induction m with
  | zero =>
    have h0 : Ap (R.val (0 : T)) 0 0 (R.sumGain 0) := by
      rw [R.zero]
      exact (Ap.exact' (by simp)).mono (by unfold Rounding.sumGain; rw [pow_zero, one_mul]; exact R.one_le_rot)
    simpa [dftSeq] using h0
  | succ m ih =>
    have hi : m * k % n ≤ n := (Nat.mod_lt _ (by omega)).le
    have hre := R.ap_tw_re (T := T) hn hi
    have him := R.ap_tw_im (T := T) hn hi
    have h1 := one_le_pow₀ (n := m) R.one_le_u
    have hr := R.one_le_rot
    have hg : (1 + R.u) * ((1 + R.u) * (1 * (1 + R.tau))) ≤ R.sumGain m := by
      unfold Rounding.sumGain
      refine le_trans (le_of_eq ?_) (le_mul_of_one_le_left (by linarith) h1)
      unfold Rounding.rot; ring
    have a := R.ap_id0 (c m).re
    have b := R.ap_id0 (c m).im
    have t1 := (R.ap_sub (R.ap_mul a hre) (R.ap_mul b him)).mono hg
    have t2 := (R.ap_add (R.ap_mul a him) (R.ap_mul b hre)).mono hg
    rw [mul_one, mul_one] at t1 t2
    have e : (1 + R.u) * R.sumGain m = R.sumGain (m + 1) := by unfold Rounding.sumGain; ring
    have r1 := R.ap_add ih.1 t1
    have r2 := R.ap_add ih.2 t2
    rw [e] at r1 r2
    rw [sum_range_succ]
    exact ⟨r1, r2⟩

theorem dftSeq_congr {n : ℕ} {c c' : ℕ → Cx T} {k m : ℕ} (h : ∀ j < m, c j = c' j) : dftSeq n c k m = dftSeq n c' k m := by
  induction m with
  | zero => rfl
  | succ m ih => rw [dftSeq, dftSeq, ih fun j hj => h j (by omega), h m (by omega)]

/-- Its relative error. -/
noncomputable def Rounding.sumErr (R : Rounding T F) (n : ℕ) : ℝ := 2 * √n * (R.sumGain n - 1)

theorem Rounding.one_le_sumGain (R : Rounding T F) (n : ℕ) : 1 ≤ R.sumGain n :=
  one_le_mul_of_one_le_of_one_le (one_le_pow₀ R.one_le_u) R.one_le_rot

theorem Rounding.sumErr_nonneg (R : Rounding T F) (n : ℕ) : 0 ≤ R.sumErr n :=
  mul_nonneg (by positivity) (by linarith [R.one_le_sumGain n])

theorem dftSeq_acc (R : Rounding T F) {n : ℕ} (hn : 1 ≤ n) (c : ℕ → Cx T) :
    (nmC n).of (R.cseq (fun k => dftSeq n c k n) - dftRI n (R.cseq c)) ≤ R.sumErr n * (nmC n).of (dftRI n (R.cseq c)) := by
  have hE : (nmC n).of (dftRI n (R.cseq c)) = √n * (nmC n).of (R.cseq c) := by
    simp only [nmC, Nm.w, wn, one_mul, Cx.norm_toC]
    rw [← sqrt_mul (Nat.cast_nonneg n), ← dft_energy n fun j => (R.cseq c j).toC]
    congr 1
    exact sum_congr rfl fun k _ => by rw [dftRI_toC]
  set S := ∑ j ∈ range n, (|R.val (c j).re| + |R.val (c j).im|) with hS
  set g := R.sumGain n with hg
  have hg1 := R.one_le_sumGain n
  have hS0 : 0 ≤ S := sum_nonneg fun j _ => add_nonneg (abs_nonneg _) (abs_nonneg _)
  have hSq : S ^ 2 ≤ 2 * n * ∑ j ∈ range n, ((R.val (c j).re) ^ 2 + (R.val (c j).im) ^ 2) := by
    have h1 := sq_sum_le_card_mul_sum_sq (s := range n) (f := fun j => |R.val (c j).re| + |R.val (c j).im|)
    rw [card_range] at h1
    refine h1.trans ?_
    rw [mul_comm (2 : ℝ), mul_assoc, mul_sum (a := (2 : ℝ)) ]
    refine mul_le_mul_of_nonneg_left (sum_le_sum fun j _ => ?_) (Nat.cast_nonneg n)
    have ha := sq_abs (R.val (c j).re)
    have hb := sq_abs (R.val (c j).im)
    nlinarith [sq_nonneg (|R.val (c j).re| - |R.val (c j).im|)]
  rw [hE, nmC_of, nmC_of]
  have key : ∑ i ∈ range n, (((R.cseq (fun k => dftSeq n c k n) - dftRI n (R.cseq c)) i).re ^ 2 + ((R.cseq (fun k => dftSeq n c k n) - dftRI n (R.cseq c)) i).im ^ 2)
      ≤ n * (2 * ((g - 1) * S) ^ 2) := by
    have : ∀ i ∈ range n, (((R.cseq (fun k => dftSeq n c k n) - dftRI n (R.cseq c)) i).re ^ 2 + ((R.cseq (fun k => dftSeq n c k n) - dftRI n (R.cseq c)) i).im ^ 2) ≤ 2 * ((g - 1) * S) ^ 2 := by
      intro i _
      obtain ⟨h1, h2⟩ := R.ap_dftSeq hn c i n
      have e : dftSeq n (R.cseq c) i n = dftRI n (R.cseq c) i := dftSeq_real hn _ _ _
      rw [e] at h1 h2
      rw [Pi.sub_apply, Cx.sub_re, Cx.sub_im]
      have a1 := sq_le_sq' (abs_le.1 h1.err).1 (abs_le.1 h1.err).2
      have a2 := sq_le_sq' (abs_le.1 h2.err).1 (abs_le.1 h2.err).2
      change (R.val (dftSeq n c i n).re - _) ^ 2 + (R.val (dftSeq n c i n).im - _) ^ 2 ≤ _
      linarith
    calc _ ≤ ∑ i ∈ range n, 2 * ((g - 1) * S) ^ 2 := sum_le_sum this
      _ = _ := by simp
  have hn0 : (0 : ℝ) ≤ n := Nat.cast_nonneg n
  have hsum : 0 ≤ ∑ j ∈ range n, ((R.val (c j).re) ^ 2 + (R.val (c j).im) ^ 2) := sum_nonneg fun j _ => by positivity
  refine (sqrt_le_sqrt key).trans ?_
  have e2 : R.sumErr n * (√n * √(∑ i ∈ range n, ((R.cseq c i).re ^ 2 + (R.cseq c i).im ^ 2))) = √((2 * n * (g - 1)) ^ 2 * ∑ i ∈ range n, ((R.cseq c i).re ^ 2 + (R.cseq c i).im ^ 2)) := by
    rw [sqrt_mul (sq_nonneg _), sqrt_sq (mul_nonneg (by positivity) (by linarith))]
    unfold Rounding.sumErr
    rw [← mul_assoc]
    congr 1
    have := Real.mul_self_sqrt hn0
    linear_combination 2 * (R.sumGain n - 1) * this
  rw [e2]
  apply sqrt_le_sqrt
  change _ ≤ (2 * n * (g - 1)) ^ 2 * ∑ i ∈ range n, ((R.val (c i).re) ^ 2 + (R.val (c i).im) ^ 2)
  calc (n : ℝ) * (2 * ((g - 1) * S) ^ 2) = 2 * n * (g - 1) ^ 2 * S ^ 2 := by ring
    _ ≤ 2 * n * (g - 1) ^ 2 * (2 * n * ∑ j ∈ range n, ((R.val (c j).re) ^ 2 + (R.val (c j).im) ^ 2)) := mul_le_mul_of_nonneg_left hSq (by positivity)
    _ = _ := by ring

/-- The defining sum meets the contract. -/
theorem sumFft_accurate (R : Rounding T F) (n : ℕ) : FftAccurate R (sumFft n : Fft T) (R.sumErr n) := by
  refine ⟨rfl, fun buf => (List.range n).map fun k => dftSeq n (fun j => buf.getD j ⟨0, 0⟩) k n, fun buf hb => ?_⟩
  change buf.length = n at hb
  refine ⟨fun scr hs => ⟨scr, by simp [sumFft, hb], rfl⟩, by simp [sumFft], ?_⟩
  rcases Nat.eq_zero_or_pos n with rfl | hn
  · have : buf = [] := List.length_eq_zero_iff.1 hb
    subst this
    simp [Spec.dft, Spec.cnorm]
  · obtain ⟨c, rfl⟩ := exists_vec hb
    have e0 : ((List.range n).map fun k => dftSeq n (fun j => (vec n c).getD j ⟨0, 0⟩) k n) = vec n fun k => dftSeq n c k n := by
      rw [map_range_eq_vec]
      exact vec_congr fun k _ => dftSeq_congr fun j hj => by simp [List.getD, hj]
    beta_reduce
    rw [e0]
    have e : ∀ d : ℕ → Cx T, (vec n d).map R.toC = (vec n (R.cseq d)).map Cx.toC := fun d => by
      rw [map_vec, map_vec]; rfl
    rw [e, e, dft_vec, map_vec, map_vec, zipWith_vec_same]
    have e2 : (vec n fun i => (R.cseq (fun k => dftSeq n c k n) i).toC - (dftRI n (R.cseq c) i).toC) =
        (vec n (R.cseq (fun k => dftSeq n c k n) - dftRI n (R.cseq c))).map Cx.toC := by
      rw [map_vec]; rfl
    rw [e2, cnorm_vec, ← map_vec, cnorm_vec]
    exact dftSeq_acc R hn c

theorem sumFft_plan (R : Rounding T F) : PlanFftAccurate R (fun n => (sumFft n : Fft T)) R.sumErr :=
  fun n => ⟨rfl, R.sumErr_nonneg n, sumFft_accurate R n⟩

end RustDct
