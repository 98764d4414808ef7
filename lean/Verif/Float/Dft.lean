import Mathlib.Algebra.Order.Field.GeomSum
import Verif.Float.Trans
import Verif.FftSpec
/-!
# Norms of complex sequences; the DFT multiplies them by `√n`
-/

set_option linter.all false

namespace RustDct
open Finset Real

/-! ### The DFT is a multiple of an isometry -/

theorem dft_root_sum {n : ℕ} (j l : ℕ) (hj : j < n) (hl : l < n) :
    ∑ k ∈ range n, Complex.exp (-(2 * π * Complex.I * (j * k) / n)) * (starRingEnd ℂ) (Complex.exp (-(2 * π * Complex.I * (l * k) / n))) =
      if j = l then (n : ℂ) else 0 := by
  have hn : (n : ℂ) ≠ 0 := by exact_mod_cast (show n ≠ 0 by omega)
  set w : ℂ := Complex.exp (-(2 * π * Complex.I * ((j : ℂ) - l) / n)) with hw
  have h : ∀ k ∈ range n, Complex.exp (-(2 * π * Complex.I * (j * k) / n)) * (starRingEnd ℂ) (Complex.exp (-(2 * π * Complex.I * (l * k) / n))) = w ^ k := by
    intro k _
    rw [← Complex.exp_conj, ← Complex.exp_add, hw, ← Complex.exp_nat_mul]
    congr 1
    have h2 : (starRingEnd ℂ) 2 = 2 := Complex.conj_ofReal 2
    simp [Complex.conj_ofReal, h2]
    ring
  rw [sum_congr rfl h]
  by_cases e : j = l
  · subst e
    rw [if_pos rfl]
    have : w = 1 := by rw [hw]; simp
    rw [this]; simp
  · rw [if_neg e]
    have h1 : w ≠ 1 := by
      intro h1
      rw [hw, Complex.exp_eq_one_iff] at h1
      obtain ⟨m, hm⟩ := h1
      have h2 : (j : ℂ) - l = -(m * n) := by
        have h0 : (2 * π * Complex.I : ℂ) ≠ 0 := Complex.two_pi_I_ne_zero
        have h3 : -(2 * π * Complex.I * ((j : ℂ) - l)) = m * (2 * π * Complex.I) * n := by
          rw [← hm]; field_simp
        have h4 : (2 * π * Complex.I) * ((j : ℂ) - l) = (2 * π * Complex.I) * (-(m * n)) := by linear_combination -h3
        exact mul_left_cancel₀ h0 h4
      have h5 : (j : ℤ) - l = -(m * n) := by exact_mod_cast h2
      have h6 : (n : ℤ) ∣ (j : ℤ) - l := ⟨-m, by rw [h5]; ring⟩
      have h7 := Int.eq_zero_of_abs_lt_dvd h6 (by rw [abs_lt]; omega)
      omega
    have h2 : w ^ n = 1 := by
      rw [hw, ← Complex.exp_nat_mul, Complex.exp_eq_one_iff]
      refine ⟨l - j, ?_⟩
      push_cast
      field_simp
      ring
    rw [geom_sum_eq h1, h2]
    simp

theorem dft_energy (n : ℕ) (x : ℕ → ℂ) : ∑ k ∈ range n, ‖Spec.dftAt n x k‖ ^ 2 = n * ∑ j ∈ range n, ‖x j‖ ^ 2 := by
  have key : ∑ k ∈ range n, Spec.dftAt n x k * (starRingEnd ℂ) (Spec.dftAt n x k) = n * ∑ j ∈ range n, x j * (starRingEnd ℂ) (x j) := by
    unfold Spec.dftAt
    have h1 : ∀ k ∈ range n, (∑ j ∈ range n, x j * Complex.exp (-(2 * π * Complex.I * (j * k) / n))) *
        (starRingEnd ℂ) (∑ j ∈ range n, x j * Complex.exp (-(2 * π * Complex.I * (j * k) / n))) =
        ∑ j ∈ range n, ∑ l ∈ range n, (x j * (starRingEnd ℂ) (x l)) *
          (Complex.exp (-(2 * π * Complex.I * (j * k) / n)) * (starRingEnd ℂ) (Complex.exp (-(2 * π * Complex.I * (l * k) / n)))) := by
      intro k _
      rw [map_sum, sum_mul_sum]
      refine sum_congr rfl fun j _ => sum_congr rfl fun l _ => ?_
      rw [map_mul]; ring
    rw [sum_congr rfl h1, sum_comm]
    rw [mul_sum]
    refine sum_congr rfl fun j hj => ?_
    rw [sum_comm]
    rw [mem_range] at hj
    have h2 : ∀ l ∈ range n, ∑ k ∈ range n, (x j * (starRingEnd ℂ) (x l)) *
          (Complex.exp (-(2 * π * Complex.I * (j * k) / n)) * (starRingEnd ℂ) (Complex.exp (-(2 * π * Complex.I * (l * k) / n)))) =
        if j = l then (n : ℂ) * (x j * (starRingEnd ℂ) (x l)) else 0 := by
      intro l hl
      rw [← mul_sum, dft_root_sum j l hj (mem_range.1 hl)]
      split_ifs <;> ring
    rw [sum_congr rfl h2]
    simp [hj]
  have e : ∀ z : ℂ, z * (starRingEnd ℂ) z = ((‖z‖ ^ 2 : ℝ) : ℂ) := fun z => by
    rw [Complex.mul_conj, Complex.normSq_eq_norm_sq]
  simp only [e] at key
  exact_mod_cast key

/-! ### Complex numbers of the model as a normed group -/

/-- `Cx ℝ` and `ℂ` are the same. -/
def cxEquiv : Cx ℝ ≃ ℂ := ⟨Cx.toC, fun z => ⟨z.re, z.im⟩, fun _ => rfl, fun _ => rfl⟩

noncomputable instance : AddCommGroup (Cx ℝ) := cxEquiv.addCommGroup
noncomputable instance : NormedAddCommGroup (Cx ℝ) :=
  NormedAddCommGroup.induced (Cx ℝ) ℂ (AddEquiv.toAddMonoidHom (cxEquiv.addEquiv)) cxEquiv.injective

theorem Cx.toC_add (a b : Cx ℝ) : (a + b).toC = a.toC + b.toC := rfl
theorem Cx.toC_sub (a b : Cx ℝ) : (a - b).toC = a.toC - b.toC := rfl
theorem Cx.sub_re (a b : Cx ℝ) : (a - b).re = a.re - b.re := rfl
theorem Cx.sub_im (a b : Cx ℝ) : (a - b).im = a.im - b.im := rfl
theorem Cx.norm_toC (a : Cx ℝ) : ‖a‖ = ‖a.toC‖ := rfl
theorem Cx.norm_sq (a : Cx ℝ) : ‖a‖ ^ 2 = a.re ^ 2 + a.im ^ 2 := by
  rw [Cx.norm_toC, ← Complex.normSq_eq_norm_sq, Complex.normSq_apply]
  simp [Cx.toC]; ring

/-- The norm of complex sequences. -/
noncomputable def nmC (n : ℕ) : Nm (ℕ → Cx ℝ) := Nm.w (Cx ℝ) (fun _ => 1) n (fun _ => zero_le_one)

theorem nmC_of {n : ℕ} (c : ℕ → Cx ℝ) : (nmC n).of c = √(∑ i ∈ range n, ((c i).re ^ 2 + (c i).im ^ 2)) := by
  simp only [nmC, Nm.w, wn, one_mul, Cx.norm_sq]

theorem dftRI_bounded (n : ℕ) : Bounded (nmC n) (nmC n) (dftRI n) √n where
  nn := sqrt_nonneg _
  sub := fun x y => by
    funext k
    apply Cx.toC_inj
    rw [dftRI_toC, Pi.sub_apply, Cx.toC_sub, dftRI_toC, dftRI_toC]
    unfold Spec.dftAt
    rw [← sum_sub_distrib]
    refine sum_congr rfl fun j _ => ?_
    show (x j - y j).toC * _ = _
    rw [Cx.toC_sub]; ring
  le := fun x => by
    apply le_of_eq
    simp only [nmC, Nm.w, wn, one_mul, Cx.norm_toC]
    rw [← sqrt_mul (Nat.cast_nonneg n), ← dft_energy n fun j => (x j).toC]
    congr 1
    exact sum_congr rfl fun k _ => by rw [dftRI_toC]

variable {T F : Type} [F64 F] [DctNum T F]

/-- The complex sequence a computed one stands for. -/
def Rounding.cx (R : Rounding T F) (c : Cx T) : Cx ℝ := ⟨R.val c.re, R.val c.im⟩
def Rounding.cseq (R : Rounding T F) (c : ℕ → Cx T) : ℕ → Cx ℝ := fun i => R.cx (c i)

/-- The computed DFT `D` of length `N` has relative error at most `φ`. -/
def DftAcc (R : Rounding T F) (N : ℕ) (D : (ℕ → Cx T) → ℕ → Cx T) (φ : ℝ) : Prop :=
  Acc R.cseq R.cseq (nmC N) (nmC N) (dftRI N) D √N φ

/-- An operation carried out without rounding. -/
theorem Acc.exact {V V' A B : Type} [AddCommGroup V] [AddCommGroup V'] {v : A → V} {v' : B → V'} {N : Nm V} {N' : Nm V'} {S : V → V'} {P : A → B} {L : ℝ}
    (h0 : N'.of 0 = 0) (h : ∀ a, v' (P a) = S (v a)) : Acc v v' N N' S P L 0 := fun a => by
  rw [h, sub_self, h0, zero_mul]

theorem wn_zero {E : Type} [NormedAddCommGroup E] {w : ℕ → ℝ} {n : ℕ} : wn w n (0 : ℕ → E) = 0 := by simp [wn]

/-- From a rearrangement, a DFT and a recombination. -/
theorem TransAcc.of_fft {R : Rounding T F} {k : Kind} {n N : ℕ} {P : (ℕ → T) → ℕ → Cx T} {Pr : (ℕ → ℝ) → ℕ → Cx ℝ} {Q : (ℕ → Cx T) → ℕ → T}
    {Qr : (ℕ → Cx ℝ) → ℕ → ℝ} {D : (ℕ → Cx T) → ℕ → Cx T} {α β φ Lp Lq c : ℝ} (hφ : 0 ≤ φ) (hβ : 0 ≤ β) (hc : 0 ≤ c) (hα : 0 ≤ α) (hD : DftAcc R N D φ)
    (bP : Bounded (k.nm n) (nmC N) Pr Lp) (aP : Acc R.seq R.cseq (k.nm n) (nmC N) Pr P Lp α)
    (bQ : Bounded (nmC N) (k.inv.nm n) Qr Lq) (aQ : Acc R.cseq R.seq (nmC N) (k.inv.nm n) Qr Q Lq β)
    (hS : ∀ x i, i < n → Qr (dftRI N (Pr x)) i = k.specAt n x i) (hL : Lq * (√N * Lp) ≤ c * √(k.scale n)) :
    TransAcc R k n (fun f => Q (D (P f))) (c * ((1 + α) * (1 + φ) * (1 + β) - 1)) := fun f => by
  have a1 := Acc.comp hφ bP (dftRI_bounded N) aP hD
  have a2 := Acc.comp hβ (bP.comp (dftRI_bounded N)) bQ a1 aQ
  have h := a2 f
  have e : (k.inv.nm n).of (R.seq (Q (D (P f))) - k.specAt n (R.seq f)) = (k.inv.nm n).of (R.seq (Q (D (P f))) - Qr (dftRI N (Pr (R.seq f)))) :=
    wn_congr fun i hi => by simp [hS _ i hi]
  rw [e]
  refine h.trans ?_
  have h1 : 0 ≤ (1 + α) * (1 + φ) * (1 + β) - 1 := by
    have : 1 ≤ (1 + α) * (1 + φ) * (1 + β) := one_le_mul_of_one_le_of_one_le (one_le_mul_of_one_le_of_one_le (by linarith) (by linarith)) (by linarith)
    linarith
  rw [show (1 + ((1 + α) * (1 + φ) - 1)) * (1 + β) - 1 = (1 + α) * (1 + φ) * (1 + β) - 1 by ring]
  rw [mul_assoc c, mul_left_comm c, ← mul_assoc c]
  exact mul_le_mul_of_nonneg_left (mul_le_mul_of_nonneg_right hL ((k.nm n).nn _)) h1

/-- Two closed forms of the same program agree. -/
theorem RunsV.unique {T : Type} [Zero T] {p : Proc T} {n s : ℕ} {C C' : (ℕ → T) → ℕ → T} (h : RunsV p n s C) (h' : RunsV p n s C') (f : ℕ → T) {k : ℕ}
    (hk : k < n) : C f k = C' f k := by
  obtain ⟨s1, h1, -⟩ := h f (List.replicate s 0) (by simp)
  obtain ⟨s2, h2, -⟩ := h' f (List.replicate s 0) (by simp)
  rw [h1] at h2
  injection h2 with h2
  injection h2 with h2 _
  exact vec_inj h2 k hk

end RustDct
