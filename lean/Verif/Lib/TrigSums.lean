import Mathlib.Analysis.SpecialFunctions.Trigonometric.Basic
import Verif.Spec
/-!
# Sums of cosines
-/

set_option linter.all false

namespace RustDct
open Real Finset

/-- `2 sin α Σ_{i<n} cos((2i+1)α) = sin(2nα)`. -/
theorem sum_cos_odd (n : ℕ) (α : ℝ) : 2 * sin α * ∑ i ∈ range n, cos ((2 * i + 1) * α) = sin (2 * n * α) := by
  induction n with
  | zero => simp
  | succ n ih =>
    rw [sum_range_succ, mul_add, ih]
    rw [show 2 * ((n + 1 : ℕ) : ℝ) * α = (2 * n + 1) * α + α by push_cast; ring,
      show 2 * (n : ℝ) * α = (2 * n + 1) * α - α by ring, sin_add, sin_sub]
    ring

/-- `2 sin α (½ + Σ_{0<i<n} cos(2iα)) = sin((2n-1)α)` for `n ≥ 1`. -/
theorem sum_cos_even {n : ℕ} (hn : 1 ≤ n) (α : ℝ) :
    2 * sin α * ∑ i ∈ range n, Spec.halfAt 0 i * cos (2 * i * α) = sin ((2 * n - 1) * α) := by
  induction n, hn using Nat.le_induction with
  | base => simp [Spec.halfAt]; ring_nf
  | succ n hn ih =>
    rw [sum_range_succ, mul_add, ih]
    rw [show (2 * ((n + 1 : ℕ) : ℝ) - 1) * α = 2 * n * α + α by push_cast; ring,
      show (2 * (n : ℝ) - 1) * α = 2 * n * α - α by ring, sin_add, sin_sub, Spec.halfAt, if_neg (by omega)]
    ring

theorem sin_pi_div_ne {m : ℤ} {N : ℕ} (hN : 0 < N) (h : ¬ (N : ℤ) ∣ m) : sin (m * π / N) ≠ 0 := by
  intro h0
  rw [sin_eq_zero_iff] at h0
  obtain ⟨k, hk⟩ := h0
  have hN' : (N : ℝ) ≠ 0 := by positivity
  apply h
  refine ⟨k, ?_⟩
  have : (m : ℝ) = N * k := by
    field_simp at hk
    nlinarith [pi_pos, hk]
  exact_mod_cast this

theorem sin_int_pi_sub (m : ℤ) (x : ℝ) : sin (m * π - x) = -((-1) ^ m * sin x) := sin_int_mul_pi_sub x m

/-- `S(m) = Σ_{i<n} cos((2i+1)mπ/2n)` vanishes unless `2n ∣ m`. -/
theorem sumS_zero {n : ℕ} (hn : 0 < n) {m : ℤ} (h : ¬ (2 * n : ℤ) ∣ m) : ∑ i ∈ range n, cos ((2 * i + 1) * (m * π / (2 * n))) = 0 := by
  have h1 := sum_cos_odd n (m * π / (2 * n))
  have h2 : sin (m * π / (2 * n)) ≠ 0 := by
    have := sin_pi_div_ne (N := 2 * n) (by omega) (m := m) (by exact_mod_cast h)
    push_cast at this
    exact this
  rw [show 2 * (n : ℝ) * (m * π / (2 * n)) = m * π by field_simp, sin_int_mul_pi] at h1
  have : 2 * sin (m * π / (2 * n)) ≠ 0 := by positivity
  exact (mul_eq_zero.1 h1).resolve_left this

/-- `D(m) = Σ_{i<n} ½[i=0] cos(imπ/n) = -(-1)^m/2` unless `2n ∣ m`. -/
theorem sumD {n : ℕ} (hn : 0 < n) {m : ℤ} (h : ¬ (2 * n : ℤ) ∣ m) :
    ∑ i ∈ range n, Spec.halfAt 0 i * cos (2 * i * (m * π / (2 * n))) = -((-1) ^ m / 2) := by
  have h1 := sum_cos_even hn (m * π / (2 * n))
  have h2 : sin (m * π / (2 * n)) ≠ 0 := by
    have := sin_pi_div_ne (N := 2 * n) (by omega) (m := m) (by exact_mod_cast h)
    push_cast at this
    exact this
  rw [show (2 * (n : ℝ) - 1) * (m * π / (2 * n)) = m * π - m * π / (2 * n) by field_simp, sin_int_pi_sub] at h1
  have : 2 * sin (m * π / (2 * n)) ≠ 0 := by positivity
  apply mul_left_cancel₀ this
  rw [h1]; ring

/-- `G(m) = Σ_{i<n} ½[i=0] cos(2imπ/(2n-1))` vanishes unless `2n-1 ∣ m`. -/
theorem sumG_zero {n : ℕ} (hn : 0 < n) {m : ℤ} (h : ¬ (2 * n - 1 : ℤ) ∣ m) :
    ∑ i ∈ range n, Spec.halfAt 0 i * cos (2 * i * (m * π / (2 * n - 1))) = 0 := by
  have h1 := sum_cos_even hn (m * π / (2 * n - 1))
  have hz : (2 * (n : ℝ) - 1) ≠ 0 := by
    have : (1 : ℝ) ≤ n := by exact_mod_cast hn
    intro h; linarith
  have e : ((2 * n - 1 : ℕ) : ℝ) = 2 * n - 1 := by rw [Nat.cast_sub (by omega)]; push_cast; ring
  have h2 : sin (m * π / (2 * n - 1)) ≠ 0 := by
    have := sin_pi_div_ne (N := 2 * n - 1) (by omega) (m := m) (by rw [Nat.cast_sub (by omega)]; push_cast; exact h)
    rwa [e] at this
  rw [show (2 * (n : ℝ) - 1) * (m * π / (2 * n - 1)) = m * π by field_simp, sin_int_mul_pi] at h1
  have : 2 * sin (m * π / (2 * n - 1)) ≠ 0 := by positivity
  exact (mul_eq_zero.1 h1).resolve_left this

/-- `H(m) = Σ_{i<n} cos((2i+1)mπ/(2n+1)) = -(-1)^m/2` unless `2n+1 ∣ m`. -/
theorem sumH {n : ℕ} {m : ℤ} (h : ¬ (2 * n + 1 : ℤ) ∣ m) :
    ∑ i ∈ range n, cos ((2 * i + 1) * (m * π / (2 * n + 1))) = -((-1) ^ m / 2) := by
  have h1 := sum_cos_odd n (m * π / (2 * n + 1))
  have h2 : sin (m * π / (2 * n + 1)) ≠ 0 := by
    have := sin_pi_div_ne (N := 2 * n + 1) (by omega) (m := m) (by push_cast; exact h)
    push_cast at this
    exact this
  have hz : (2 * (n : ℝ) + 1) ≠ 0 := by positivity
  rw [show 2 * (n : ℝ) * (m * π / (2 * n + 1)) = m * π - m * π / (2 * n + 1) by field_simp; ring, sin_int_pi_sub] at h1
  have : 2 * sin (m * π / (2 * n + 1)) ≠ 0 := by positivity
  apply mul_left_cancel₀ this
  rw [h1]; ring

end RustDct
