import Mathlib.Algebra.BigOperators.Field
import Mathlib.LinearAlgebra.Matrix.NonsingularInverse
import Verif.Lib.TrigSums
import Verif.Kinds
import Verif.Proofs.MadeReal
/-!
# The transforms as matrices, and their inverses
-/

set_option linter.all false

namespace RustDct
open Real Finset

/-- Entry in row `k`, column `i` of the matrix of a transform. -/
noncomputable def Kind.kernel : Kind → ℕ → ℕ → ℕ → ℝ
  | .dct1, n, k, i => Spec.halfAt 0 i * Spec.halfAt (n - 1) i * cos (k * i * π / (n - 1))
  | .dct2, n, k, i => cos (k * (i + 1 / 2) * π / n)
  | .dct3, n, k, i => Spec.halfAt 0 i * cos ((k + 1 / 2) * i * π / n)
  | .dct4, n, k, i => cos ((k + 1 / 2) * (i + 1 / 2) * π / n)
  | .dct5, n, k, i => Spec.halfAt 0 i * cos (k * i * π / (n - 1 / 2))
  | .dct6, n, k, i => Spec.halfAt (n - 1) i * cos (k * (i + 1 / 2) * π / (n - 1 / 2))
  | .dct7, n, k, i => Spec.halfAt 0 i * cos ((k + 1 / 2) * i * π / (n - 1 / 2))
  | .dct8, n, k, i => cos ((k + 1 / 2) * (i + 1 / 2) * π / (n + 1 / 2))
  | .dst1, n, k, i => sin ((k + 1) * (i + 1) * π / (n + 1))
  | .dst2, n, k, i => sin ((k + 1) * (i + 1 / 2) * π / n)
  | .dst3, n, k, i => Spec.halfAt (n - 1) i * sin ((k + 1 / 2) * (i + 1) * π / n)
  | .dst4, n, k, i => sin ((k + 1 / 2) * (i + 1 / 2) * π / n)
  | .dst5, n, k, i => sin ((k + 1) * (i + 1) * π / (n + 1 / 2))
  | .dst6, n, k, i => sin ((k + 1) * (i + 1 / 2) * π / (n + 1 / 2))
  | .dst7, n, k, i => sin ((k + 1 / 2) * (i + 1) * π / (n + 1 / 2))
  | .dst8, n, k, i => Spec.halfAt (n - 1) i * sin ((k + 1 / 2) * (i + 1 / 2) * π / (n - 1 / 2))

theorem Kind.specAt_eq (t : Kind) (n : ℕ) (x : ℕ → ℝ) (k : ℕ) : t.specAt n x k = ∑ i ∈ range n, t.kernel n k i * x i := by
  cases t <;> simp only [Kind.specAt, Kind.kernel, Spec.dct1At, Spec.dct2At, Spec.dct3At, Spec.dct4At, Spec.dct5At, Spec.dct6At, Spec.dct7At,
    Spec.dct8At, Spec.dst1At, Spec.dst2At, Spec.dst3At, Spec.dst4At, Spec.dst5At, Spec.dst6At, Spec.dst7At, Spec.dst8At] <;>
    exact sum_congr rfl fun i _ => by ring

theorem Kind.local (t : Kind) : Local t.specAt := fun n x y k h => by
  rw [t.specAt_eq, t.specAt_eq]
  exact sum_congr rfl fun i hi => by rw [h i (mem_range.1 hi)]

theorem cos_mul_cos' {a b u v : ℝ} (h1 : u = a - b) (h2 : v = a + b) : cos a * cos b = (cos u + cos v) / 2 := by
  rw [h1, h2, cos_sub, cos_add]; ring
theorem sin_mul_sin' {a b u v : ℝ} (h1 : u = a - b) (h2 : v = a + b) : sin a * sin b = (cos u - cos v) / 2 := by
  rw [h1, h2, cos_sub, cos_add]; ring

theorem not_dvd_of {N m : ℤ} (h0 : m ≠ 0) (h1 : -N < m) (h2 : m < N) : ¬ N ∣ m := fun h =>
  h0 (Int.eq_zero_of_abs_lt_dvd h (abs_lt.2 ⟨h1, h2⟩))

theorem sum_halfAt {n : ℕ} (hn : 1 ≤ n) : ∑ i ∈ range n, Spec.halfAt 0 i = (n : ℝ) - 1 / 2 := by
  obtain ⟨m, rfl⟩ : ∃ m, n = m + 1 := ⟨n - 1, by omega⟩
  rw [sum_range_succ']
  simp [Spec.halfAt]
  ring

theorem neg_one_zpow_mul_self (m : ℤ) : ((-1 : ℝ) ^ m) * (-1) ^ m = 1 := by
  rw [← mul_zpow]; simp

/-! Values of the sums at the multiples of the period that occur. -/

theorem sumS_self (n : ℕ) : ∑ i ∈ range n, cos ((2 * i + 1) * (((0 : ℤ) : ℝ) * π / (2 * n))) = n := by simp
theorem sumS_period {n : ℕ} (hn : 0 < n) : ∑ i ∈ range n, cos ((2 * i + 1) * (((2 * n : ℤ) : ℝ) * π / (2 * n))) = -n := by
  have : ∀ i ∈ range n, cos ((2 * i + 1) * (((2 * n : ℤ) : ℝ) * π / (2 * n))) = -1 := by
    intro i _
    push_cast
    rw [show (2 * (i : ℝ) + 1) * (2 * n * π / (2 * n)) = π + i * (2 * π) by field_simp; ring, cos_add_nat_mul_two_pi, cos_pi]
  rw [sum_congr rfl this]; simp
theorem sumD_self {n : ℕ} (hn : 1 ≤ n) : ∑ i ∈ range n, Spec.halfAt 0 i * cos (2 * i * (((0 : ℤ) : ℝ) * π / (2 * n))) = n - 1 / 2 := by
  simp [sum_halfAt hn]
theorem sumG_self {n : ℕ} (hn : 1 ≤ n) : ∑ i ∈ range n, Spec.halfAt 0 i * cos (2 * i * (((0 : ℤ) : ℝ) * π / (2 * n - 1))) = n - 1 / 2 := by
  simp [sum_halfAt hn]
theorem sumG_period {n : ℕ} (hn : 1 ≤ n) : ∑ i ∈ range n, Spec.halfAt 0 i * cos (2 * i * (((2 * n - 1 : ℤ) : ℝ) * π / (2 * n - 1))) = n - 1 / 2 := by
  have hz : (2 * (n : ℝ) - 1) ≠ 0 := by
    have : (1 : ℝ) ≤ n := by exact_mod_cast hn
    intro h; linarith
  rw [← sum_halfAt hn]
  refine sum_congr rfl fun i _ => ?_
  push_cast
  rw [show 2 * (i : ℝ) * ((2 * n - 1) * π / (2 * n - 1)) = 0 + i * (2 * π) by field_simp; ring, cos_add_nat_mul_two_pi, cos_zero, mul_one]
theorem sumH_self (n : ℕ) : ∑ i ∈ range n, cos ((2 * i + 1) * (((0 : ℤ) : ℝ) * π / (2 * n + 1))) = n := by simp

section
variable {n r c : ℕ}

theorem orth_of_sums {A B : ℕ → ℝ} {u v : ℕ → ℝ} {U V w : ℝ} (h : ∀ i ∈ range n, A i * B i = w * ((u i + v i) / 2))
    (hu : ∑ i ∈ range n, u i = U) (hv : ∑ i ∈ range n, v i = V) : ∑ i ∈ range n, A i * B i = w * ((U + V) / 2) := by
  rw [sum_congr rfl h, ← hu, ← hv, ← mul_sum, ← sum_add_distrib, Finset.sum_div]

theorem orth_dct4 (hr : r < n) (hc : c < n) : ∑ i ∈ range n, Kind.dct4.kernel n r i * Kind.dct4.kernel n i c = if r = c then (n : ℝ) / 2 else 0 := by
  have hn : (n : ℝ) ≠ 0 := Nat.cast_ne_zero.2 (by omega)
  rw [orth_of_sums (w := 1) (u := fun i => cos ((2 * i + 1) * (((r - c : ℤ) : ℝ) * π / (2 * n)))) (v := fun i => cos ((2 * i + 1) * (((r + c + 1 : ℤ) : ℝ) * π / (2 * n))))
    (fun i _ => by
      rw [one_mul]
      apply cos_mul_cos'
      · push_cast; field_simp; ring
      · push_cast; field_simp; ring) rfl rfl]
  rw [sumS_zero (by omega) (m := r + c + 1) (not_dvd_of (by omega) (by omega) (by omega))]
  by_cases h : r = c
  · subst h; rw [if_pos rfl, show (r : ℤ) - r = 0 by ring, sumS_self]; ring
  · rw [if_neg h, sumS_zero (by omega) (not_dvd_of (by omega) (by omega) (by omega))]; ring

theorem orth_dst4 (hr : r < n) (hc : c < n) : ∑ i ∈ range n, Kind.dst4.kernel n r i * Kind.dst4.kernel n i c = if r = c then (n : ℝ) / 2 else 0 := by
  have hn : (n : ℝ) ≠ 0 := Nat.cast_ne_zero.2 (by omega)
  rw [orth_of_sums (w := 1) (u := fun i => cos ((2 * i + 1) * (((r - c : ℤ) : ℝ) * π / (2 * n)))) (v := fun i => -cos ((2 * i + 1) * (((r + c + 1 : ℤ) : ℝ) * π / (2 * n))))
    (fun i _ => by
      rw [one_mul, ← sub_eq_add_neg]
      apply sin_mul_sin'
      · push_cast; field_simp; ring
      · push_cast; field_simp; ring) rfl rfl, sum_neg_distrib]
  rw [sumS_zero (by omega) (m := r + c + 1) (not_dvd_of (by omega) (by omega) (by omega))]
  by_cases h : r = c
  · subst h; rw [if_pos rfl, show (r : ℤ) - r = 0 by ring, sumS_self]; ring
  · rw [if_neg h, sumS_zero (by omega) (not_dvd_of (by omega) (by omega) (by omega))]; ring

/-- DCT3 after DCT2. -/
theorem orth_dct32 (hr : r < n) (hc : c < n) : ∑ i ∈ range n, Kind.dct3.kernel n r i * Kind.dct2.kernel n i c = if r = c then (n : ℝ) / 2 else 0 := by
  have hn : (n : ℝ) ≠ 0 := Nat.cast_ne_zero.2 (by omega)
  rw [orth_of_sums (w := 1) (u := fun i => Spec.halfAt 0 i * cos (2 * i * (((r - c : ℤ) : ℝ) * π / (2 * n)))) (v := fun i => Spec.halfAt 0 i * cos (2 * i * (((r + c + 1 : ℤ) : ℝ) * π / (2 * n))))
    (fun i _ => by
      rw [one_mul, ← mul_add, mul_div_assoc, ← cos_mul_cos' (a := (r + 1 / 2) * i * π / n) (b := i * (c + 1 / 2) * π / n)]
      · simp only [Kind.kernel]; ring
      · push_cast; field_simp; ring
      · push_cast; field_simp; ring) rfl rfl]
  rw [sumD (by omega) (m := r + c + 1) (not_dvd_of (by omega) (by omega) (by omega))]
  by_cases h : r = c
  · subst h
    rw [if_pos rfl, show (r : ℤ) - r = 0 by ring, sumD_self (by omega), show ((r : ℤ) + r + 1) = 2 * r + 1 by ring, zpow_add₀ (by norm_num), zpow_mul]
    norm_num
  · rw [if_neg h, sumD (by omega) (not_dvd_of (by omega) (by omega) (by omega)), show (r : ℤ) + c + 1 = (r - c) + (2 * c + 1) by ring,
      zpow_add₀ (by norm_num) (r - c : ℤ), zpow_add₀ (by norm_num) (2 * c : ℤ), zpow_mul]
    norm_num
    ring

/-- DCT2 after DCT3. -/
theorem orth_dct23 (hr : r < n) (hc : c < n) : ∑ i ∈ range n, Kind.dct2.kernel n r i * Kind.dct3.kernel n i c = if r = c then (n : ℝ) / 2 else 0 := by
  have hn : (n : ℝ) ≠ 0 := Nat.cast_ne_zero.2 (by omega)
  rw [orth_of_sums (w := Spec.halfAt 0 c) (u := fun i => cos ((2 * i + 1) * (((r - c : ℤ) : ℝ) * π / (2 * n)))) (v := fun i => cos ((2 * i + 1) * (((r + c : ℤ) : ℝ) * π / (2 * n))))
    (fun i _ => by
      rw [← cos_mul_cos' (a := r * (i + 1 / 2) * π / n) (b := (i + 1 / 2) * c * π / n)]
      · simp only [Kind.kernel]; ring
      · push_cast; field_simp
      · push_cast; field_simp) rfl rfl]
  by_cases h : r = c
  · subst h
    rw [if_pos rfl, show (r : ℤ) - r = 0 by ring, sumS_self]
    by_cases h0 : r = 0
    · subst h0
      rw [show ((0 : ℕ) : ℤ) + ((0 : ℕ) : ℤ) = 0 by simp, sumS_self]
      simp [Spec.halfAt]; ring
    · rw [sumS_zero (by omega) (not_dvd_of (by omega) (by omega) (by omega)), Spec.halfAt, if_neg h0]; ring
  · rw [if_neg h, sumS_zero (by omega) (not_dvd_of (by omega) (by omega) (by omega)), sumS_zero (by omega) (not_dvd_of (by omega) (by omega) (by omega))]; ring

/-- DST2 after DST3. -/
theorem orth_dst23 (hr : r < n) (hc : c < n) : ∑ i ∈ range n, Kind.dst2.kernel n r i * Kind.dst3.kernel n i c = if r = c then (n : ℝ) / 2 else 0 := by
  have hn : (n : ℝ) ≠ 0 := Nat.cast_ne_zero.2 (by omega)
  rw [orth_of_sums (w := Spec.halfAt (n - 1) c) (u := fun i => cos ((2 * i + 1) * (((r - c : ℤ) : ℝ) * π / (2 * n)))) (v := fun i => -cos ((2 * i + 1) * (((r + c + 2 : ℤ) : ℝ) * π / (2 * n))))
    (fun i _ => by
      rw [← sub_eq_add_neg, ← sin_mul_sin' (a := (r + 1) * (i + 1 / 2) * π / n) (b := (i + 1 / 2) * (c + 1) * π / n)]
      · simp only [Kind.kernel]; ring
      · push_cast; field_simp; ring
      · push_cast; field_simp; ring) rfl rfl, sum_neg_distrib]
  by_cases h : r = c
  · subst h
    rw [if_pos rfl, show (r : ℤ) - r = 0 by ring, sumS_self]
    by_cases h0 : r = n - 1
    · rw [show ((r : ℤ) + r + 2) = 2 * n by omega, sumS_period (by omega), Spec.halfAt, if_pos h0]; ring
    · rw [sumS_zero (by omega) (not_dvd_of (by omega) (by omega) (by omega)), Spec.halfAt, if_neg h0]; ring
  · rw [if_neg h, sumS_zero (by omega) (not_dvd_of (by omega) (by omega) (by omega)), sumS_zero (by omega) (not_dvd_of (by omega) (by omega) (by omega))]; ring

/-- Two square matrices that multiply to a nonzero multiple of the identity commute. -/
theorem orth_comm {A B : ℕ → ℕ → ℝ} {σ : ℝ} (hσ : σ ≠ 0)
    (h : ∀ r < n, ∀ c < n, ∑ i ∈ range n, A r i * B i c = if r = c then σ else 0) (hr : r < n) (hc : c < n) :
    ∑ i ∈ range n, B r i * A i c = if r = c then σ else 0 := by
  let MA : Matrix (Fin n) (Fin n) ℝ := fun r c => σ⁻¹ * A r c
  let MB : Matrix (Fin n) (Fin n) ℝ := fun r c => B r c
  have h1 : MA * MB = 1 := by
    ext r c
    rw [Matrix.mul_apply, Matrix.one_apply]
    have := h r r.2 c c.2
    rw [← Fin.sum_univ_eq_sum_range (fun i => A r i * B i c)] at this
    simp only [MA, MB, mul_assoc]
    rw [← mul_sum, this]
    by_cases hrc : r = c
    · subst hrc; simp [hσ]
    · rw [if_neg (fun hh => hrc (Fin.ext hh)), if_neg hrc, mul_zero]
  have h2 := congrFun (congrFun (show MB * MA = 1 from mul_eq_one_comm.1 h1) ⟨r, hr⟩) ⟨c, hc⟩
  rw [Matrix.mul_apply, Matrix.one_apply] at h2
  rw [← Fin.sum_univ_eq_sum_range (fun i => B r i * A i c)]
  have h3 : ∑ i : Fin n, B r i * A i c = σ * ∑ i : Fin n, MB ⟨r, hr⟩ i * MA i ⟨c, hc⟩ := by
    rw [mul_sum]
    exact sum_congr rfl fun i _ => by simp only [MA, MB]; field_simp
  rw [h3, h2]
  by_cases hrc : r = c
  · subst hrc; simp
  · rw [if_neg hrc, if_neg (fun hh => hrc (Fin.mk.inj hh)), mul_zero]

/-- DST3 after DST2. -/
theorem orth_dst32 (hr : r < n) (hc : c < n) : ∑ i ∈ range n, Kind.dst3.kernel n r i * Kind.dst2.kernel n i c = if r = c then (n : ℝ) / 2 else 0 := by
  have hn : (n : ℝ) ≠ 0 := Nat.cast_ne_zero.2 (by omega)
  exact orth_comm (by simpa using hn) (fun r hr c hc => orth_dst23 hr hc) hr hc

theorem orth_dct5 (hr : r < n) (hc : c < n) : ∑ i ∈ range n, Kind.dct5.kernel n r i * Kind.dct5.kernel n i c = if r = c then ((n : ℝ) - 1 / 2) / 2 else 0 := by
  have hn : (1 : ℝ) ≤ n := by exact_mod_cast (by omega : 1 ≤ n)
  have hz : (2 * (n : ℝ) - 1) ≠ 0 := by intro h; linarith
  have hz' : ((n : ℝ) - 1 / 2) ≠ 0 := by intro h; linarith
  have e : ∀ x : ℝ, x / ((n : ℝ) - 1 / 2) = 2 * x / (2 * n - 1) := fun x => by
    rw [div_eq_div_iff hz' hz]; ring
  rw [orth_of_sums (w := Spec.halfAt 0 c) (u := fun i => Spec.halfAt 0 i * cos (2 * i * (((r - c : ℤ) : ℝ) * π / (2 * n - 1)))) (v := fun i => Spec.halfAt 0 i * cos (2 * i * (((r + c : ℤ) : ℝ) * π / (2 * n - 1))))
    (fun i _ => by
      rw [← mul_add, mul_div_assoc, ← cos_mul_cos' (a := r * i * π / (n - 1 / 2)) (b := i * c * π / (n - 1 / 2))]
      · simp only [Kind.kernel]; ring
      · push_cast; rw [e, e]; ring
      · push_cast; rw [e, e]; ring) rfl rfl]
  by_cases h : r = c
  · subst h
    rw [if_pos rfl, show (r : ℤ) - r = 0 by ring, sumG_self (by omega)]
    by_cases h0 : r = 0
    · subst h0
      rw [show ((0 : ℕ) : ℤ) + ((0 : ℕ) : ℤ) = 0 by simp, sumG_self (by omega)]
      simp [Spec.halfAt]; ring
    · rw [sumG_zero (by omega) (m := r + r), Spec.halfAt, if_neg h0]
      · ring
      · intro hd
        have hd' : (2 * n - 1 : ℤ) ∣ (r + r) - (2 * n - 1) := dvd_sub_self_right.2 hd
        exact not_dvd_of (by omega) (by omega) (by omega) hd'
  · rw [if_neg h, sumG_zero (by omega) (not_dvd_of (by omega) (by omega) (by omega)), sumG_zero (by omega) (not_dvd_of (by omega) (by omega) (by omega))]; ring

/-- DCT7 after DCT6. -/
theorem orth_dct76 (hr : r < n) (hc : c < n) : ∑ i ∈ range n, Kind.dct7.kernel n r i * Kind.dct6.kernel n i c = if r = c then ((n : ℝ) - 1 / 2) / 2 else 0 := by
  have hn : (1 : ℝ) ≤ n := by exact_mod_cast (by omega : 1 ≤ n)
  have hz : (2 * (n : ℝ) - 1) ≠ 0 := by intro h; linarith
  have hz' : ((n : ℝ) - 1 / 2) ≠ 0 := by intro h; linarith
  have e : ∀ x : ℝ, x / ((n : ℝ) - 1 / 2) = 2 * x / (2 * n - 1) := fun x => by
    rw [div_eq_div_iff hz' hz]; ring
  rw [orth_of_sums (w := Spec.halfAt (n - 1) c) (u := fun i => Spec.halfAt 0 i * cos (2 * i * (((r - c : ℤ) : ℝ) * π / (2 * n - 1)))) (v := fun i => Spec.halfAt 0 i * cos (2 * i * (((r + c + 1 : ℤ) : ℝ) * π / (2 * n - 1))))
    (fun i _ => by
      rw [← mul_add, mul_div_assoc, ← cos_mul_cos' (a := (r + 1 / 2) * i * π / (n - 1 / 2)) (b := i * (c + 1 / 2) * π / (n - 1 / 2))]
      · simp only [Kind.kernel]; ring
      · push_cast; rw [e, e]; ring
      · push_cast; rw [e, e]; ring) rfl rfl]
  by_cases h : r = c
  · subst h
    rw [if_pos rfl, show (r : ℤ) - r = 0 by ring, sumG_self (by omega)]
    by_cases h0 : r = n - 1
    · rw [show (r : ℤ) + r + 1 = 2 * n - 1 by omega, sumG_period (by omega), Spec.halfAt, if_pos h0]; ring
    · rw [sumG_zero (by omega) (not_dvd_of (by omega) (by omega) (by omega)), Spec.halfAt, if_neg h0]; ring
  · rw [if_neg h, sumG_zero (by omega) (not_dvd_of (by omega) (by omega) (by omega)), sumG_zero (by omega) (not_dvd_of (by omega) (by omega) (by omega))]; ring

/-- DCT6 after DCT7. -/
theorem orth_dct67 (hr : r < n) (hc : c < n) : ∑ i ∈ range n, Kind.dct6.kernel n r i * Kind.dct7.kernel n i c = if r = c then ((n : ℝ) - 1 / 2) / 2 else 0 := by
  have hn : (1 : ℝ) ≤ n := by exact_mod_cast (by omega : 1 ≤ n)
  exact orth_comm (by intro h; linarith) (fun r hr c hc => orth_dct76 hr hc) hr hc

/-- Shifting the summation index by one when the term at zero vanishes. -/
theorem sum_shift {f : ℕ → ℝ} (h : f 0 = 0) : ∑ i ∈ range n, f (i + 1) = ∑ j ∈ range (n + 1), Spec.halfAt 0 j * f j := by
  rw [sum_range_succ']
  simp [Spec.halfAt, h]

theorem orth_dst1 (hr : r < n) (hc : c < n) : ∑ i ∈ range n, Kind.dst1.kernel n r i * Kind.dst1.kernel n i c = if r = c then ((n : ℝ) + 1) / 2 else 0 := by
  have hn : ((n : ℝ) + 1) ≠ 0 := by positivity
  have h0 := sum_shift (n := n) (f := fun j => sin ((r + 1) * j * π / (n + 1)) * sin (j * (c + 1) * π / (n + 1))) (by simp)
  rw [show ∑ i ∈ range n, Kind.dst1.kernel n r i * Kind.dst1.kernel n i c = _ from
    (sum_congr rfl fun i _ => by simp only [Kind.kernel]; push_cast; rfl).trans h0]
  rw [orth_of_sums (n := n + 1) (w := 1) (u := fun i => Spec.halfAt 0 i * cos (2 * i * (((r - c : ℤ) : ℝ) * π / (2 * (n + 1 : ℕ))))) (v := fun i => -(Spec.halfAt 0 i * cos (2 * i * (((r + c + 2 : ℤ) : ℝ) * π / (2 * (n + 1 : ℕ))))))
    (fun i _ => by
      rw [one_mul, ← sub_eq_add_neg, ← mul_sub, mul_div_assoc (Spec.halfAt 0 i), ← sin_mul_sin' (a := (r + 1) * i * π / (n + 1)) (b := i * (c + 1) * π / (n + 1))]
      · push_cast; field_simp; ring
      · push_cast; field_simp; ring) rfl rfl, sum_neg_distrib]
  rw [sumD (by omega) (m := r + c + 2) (not_dvd_of (by omega) (by push_cast; omega) (by push_cast; omega))]
  by_cases h : r = c
  · subst h
    rw [if_pos rfl, show (r : ℤ) - r = 0 by ring, sumD_self (by omega), show ((r : ℤ) + r + 2) = 2 * (r + 1) by ring, zpow_mul]
    push_cast
    norm_num
  · rw [if_neg h, sumD (by omega) (not_dvd_of (by omega) (by push_cast; omega) (by push_cast; omega)), show (r : ℤ) + c + 2 = (r - c) + 2 * (c + 1) by ring,
      zpow_add₀ (by norm_num) (r - c : ℤ), zpow_mul]
    norm_num

theorem orth_dst5 (hr : r < n) (hc : c < n) : ∑ i ∈ range n, Kind.dst5.kernel n r i * Kind.dst5.kernel n i c = if r = c then ((n : ℝ) + 1 / 2) / 2 else 0 := by
  have hn : ((n : ℝ) + 1 / 2) ≠ 0 := by positivity
  have h0 := sum_shift (n := n) (f := fun j => sin ((r + 1) * j * π / (n + 1 / 2)) * sin (j * (c + 1) * π / (n + 1 / 2))) (by simp)
  rw [show ∑ i ∈ range n, Kind.dst5.kernel n r i * Kind.dst5.kernel n i c = _ from
    (sum_congr rfl fun i _ => by simp only [Kind.kernel]; push_cast; rfl).trans h0]
  have hz : (2 * ((n + 1 : ℕ) : ℝ) - 1) ≠ 0 := by push_cast; intro h; apply hn; linarith
  have e : ∀ x : ℝ, x / ((n : ℝ) + 1 / 2) = 2 * x / (2 * (n + 1 : ℕ) - 1) := fun x => by
    rw [div_eq_div_iff hn hz]; push_cast; ring
  rw [orth_of_sums (n := n + 1) (w := 1) (u := fun i => Spec.halfAt 0 i * cos (2 * i * (((r - c : ℤ) : ℝ) * π / (2 * (n + 1 : ℕ) - 1)))) (v := fun i => -(Spec.halfAt 0 i * cos (2 * i * (((r + c + 2 : ℤ) : ℝ) * π / (2 * (n + 1 : ℕ) - 1)))))
    (fun i _ => by
      rw [one_mul, ← sub_eq_add_neg, ← mul_sub, mul_div_assoc (Spec.halfAt 0 i), ← sin_mul_sin' (a := (r + 1) * i * π / (n + 1 / 2)) (b := i * (c + 1) * π / (n + 1 / 2))]
      · rw [e, e]; push_cast; ring
      · rw [e, e]; push_cast; ring) rfl rfl, sum_neg_distrib]
  rw [sumG_zero (by omega) (m := r + c + 2)]
  · by_cases h : r = c
    · subst h
      rw [if_pos rfl, show (r : ℤ) - r = 0 by ring, sumG_self (by omega)]; push_cast; ring
    · rw [if_neg h, sumG_zero (by omega) (not_dvd_of (by omega) (by push_cast; omega) (by push_cast; omega))]; ring
  · exact not_dvd_of (by omega) (by push_cast; omega) (by push_cast; omega)

/-- DST7 after DST6. -/
theorem orth_dst76 (hr : r < n) (hc : c < n) : ∑ i ∈ range n, Kind.dst7.kernel n r i * Kind.dst6.kernel n i c = if r = c then ((n : ℝ) + 1 / 2) / 2 else 0 := by
  have hn : ((n : ℝ) + 1 / 2) ≠ 0 := by positivity
  have h0 := sum_shift (n := n) (f := fun j => sin ((r + 1 / 2) * j * π / (n + 1 / 2)) * sin (j * (c + 1 / 2) * π / (n + 1 / 2))) (by simp)
  rw [show ∑ i ∈ range n, Kind.dst7.kernel n r i * Kind.dst6.kernel n i c = _ from
    (sum_congr rfl fun i _ => by simp only [Kind.kernel]; push_cast; rfl).trans h0]
  have hz : (2 * ((n + 1 : ℕ) : ℝ) - 1) ≠ 0 := by push_cast; intro h; apply hn; linarith
  have e : ∀ x : ℝ, x / ((n : ℝ) + 1 / 2) = 2 * x / (2 * (n + 1 : ℕ) - 1) := fun x => by
    rw [div_eq_div_iff hn hz]; push_cast; ring
  rw [orth_of_sums (n := n + 1) (w := 1) (u := fun i => Spec.halfAt 0 i * cos (2 * i * (((r - c : ℤ) : ℝ) * π / (2 * (n + 1 : ℕ) - 1)))) (v := fun i => -(Spec.halfAt 0 i * cos (2 * i * (((r + c + 1 : ℤ) : ℝ) * π / (2 * (n + 1 : ℕ) - 1)))))
    (fun i _ => by
      rw [one_mul, ← sub_eq_add_neg, ← mul_sub, mul_div_assoc (Spec.halfAt 0 i), ← sin_mul_sin' (a := (r + 1 / 2) * i * π / (n + 1 / 2)) (b := i * (c + 1 / 2) * π / (n + 1 / 2))]
      · rw [e, e]; push_cast; ring
      · rw [e, e]; push_cast; ring) rfl rfl, sum_neg_distrib]
  rw [sumG_zero (by omega) (m := r + c + 1)]
  · by_cases h : r = c
    · subst h
      rw [if_pos rfl, show (r : ℤ) - r = 0 by ring, sumG_self (by omega)]; push_cast; ring
    · rw [if_neg h, sumG_zero (by omega) (not_dvd_of (by omega) (by push_cast; omega) (by push_cast; omega))]; ring
  · exact not_dvd_of (by omega) (by push_cast; omega) (by push_cast; omega)

/-- DST6 after DST7. -/
theorem orth_dst67 (hr : r < n) (hc : c < n) : ∑ i ∈ range n, Kind.dst6.kernel n r i * Kind.dst7.kernel n i c = if r = c then ((n : ℝ) + 1 / 2) / 2 else 0 :=
  orth_comm (by positivity) (fun r hr c hc => orth_dst76 hr hc) hr hc

theorem orth_dct8 (hr : r < n) (hc : c < n) : ∑ i ∈ range n, Kind.dct8.kernel n r i * Kind.dct8.kernel n i c = if r = c then ((n : ℝ) + 1 / 2) / 2 else 0 := by
  have hn : ((n : ℝ) + 1 / 2) ≠ 0 := by positivity
  have hz : (2 * (n : ℝ) + 1) ≠ 0 := by positivity
  have e : ∀ x : ℝ, x / ((n : ℝ) + 1 / 2) = 2 * x / (2 * n + 1) := fun x => by
    rw [div_eq_div_iff hn hz]; ring
  rw [orth_of_sums (w := 1) (u := fun i => cos ((2 * i + 1) * (((r - c : ℤ) : ℝ) * π / (2 * n + 1)))) (v := fun i => cos ((2 * i + 1) * (((r + c + 1 : ℤ) : ℝ) * π / (2 * n + 1))))
    (fun i _ => by
      rw [one_mul, ← cos_mul_cos' (a := (r + 1 / 2) * (i + 1 / 2) * π / (n + 1 / 2)) (b := (i + 1 / 2) * (c + 1 / 2) * π / (n + 1 / 2))]
      · simp only [Kind.kernel]
      · push_cast; rw [e, e]; ring
      · push_cast; rw [e, e]; ring) rfl rfl]
  rw [sumH (m := r + c + 1) (not_dvd_of (by omega) (by omega) (by omega))]
  by_cases h : r = c
  · subst h
    rw [if_pos rfl, show (r : ℤ) - r = 0 by ring, sumH_self, show ((r : ℤ) + r + 1) = 2 * r + 1 by ring, zpow_add₀ (by norm_num), zpow_mul]
    norm_num
  · rw [if_neg h, sumH (not_dvd_of (by omega) (by omega) (by omega)), show (r : ℤ) + c + 1 = (r - c) + (2 * c + 1) by ring,
      zpow_add₀ (by norm_num) (r - c : ℤ), zpow_add₀ (by norm_num) (2 * c : ℤ), zpow_mul]
    norm_num
    ring

theorem sumJ_succ (m : ℤ) : ∑ i ∈ range (n + 1), Spec.halfAt n i * cos ((2 * i + 1) * (m * π / (2 * n + 1))) =
    ∑ i ∈ range n, cos ((2 * i + 1) * (m * π / (2 * n + 1))) + (-1) ^ m / 2 := by
  rw [sum_range_succ]
  congr 1
  · exact sum_congr rfl fun i hi => by rw [Spec.halfAt, if_neg (by have := mem_range.1 hi; omega), one_mul]
  · have hz : (2 * (n : ℝ) + 1) ≠ 0 := by positivity
    rw [Spec.halfAt, if_pos rfl, show (2 * (n : ℝ) + 1) * (m * π / (2 * n + 1)) = m * π by field_simp, cos_int_mul_pi]; ring

theorem orth_dst8 (hr : r < n) (hc : c < n) : ∑ i ∈ range n, Kind.dst8.kernel n r i * Kind.dst8.kernel n i c = if r = c then ((n : ℝ) - 1 / 2) / 2 else 0 := by
  obtain ⟨n, rfl⟩ : ∃ m, n = m + 1 := ⟨n - 1, by omega⟩
  have hn : (((n + 1 : ℕ) : ℝ) - 1 / 2) ≠ 0 := by push_cast; have : (0 : ℝ) ≤ n := by positivity
                                                  intro h; linarith
  have hz : (2 * (n : ℝ) + 1) ≠ 0 := by positivity
  have e : ∀ x : ℝ, x / (((n + 1 : ℕ) : ℝ) - 1 / 2) = 2 * x / (2 * n + 1) := fun x => by
    rw [div_eq_div_iff hn hz]; push_cast; ring
  rw [orth_of_sums (w := Spec.halfAt n c) (u := fun i => Spec.halfAt n i * cos ((2 * i + 1) * (((r - c : ℤ) : ℝ) * π / (2 * n + 1)))) (v := fun i => -(Spec.halfAt n i * cos ((2 * i + 1) * (((r + c + 1 : ℤ) : ℝ) * π / (2 * n + 1)))))
    (fun i _ => by
      rw [← sub_eq_add_neg, ← mul_sub, mul_div_assoc, ← sin_mul_sin' (a := (r + 1 / 2) * (i + 1 / 2) * π / ((n + 1 : ℕ) - 1 / 2)) (b := (i + 1 / 2) * (c + 1 / 2) * π / ((n + 1 : ℕ) - 1 / 2))]
      · simp only [Kind.kernel, Nat.add_sub_cancel]; ring
      · rw [e, e]; push_cast; ring
      · rw [e, e]; push_cast; ring) rfl rfl, sum_neg_distrib, sumJ_succ, sumJ_succ]
  by_cases h : r = c
  · subst h
    rw [if_pos rfl, show (r : ℤ) - r = 0 by ring, sumH_self]
    by_cases h0 : r = n
    · subst h0
      have : ∑ i ∈ range r, cos ((2 * i + 1) * (((r + r + 1 : ℤ) : ℝ) * π / (2 * r + 1))) = -r := by
        have : ∀ i ∈ range r, cos ((2 * i + 1) * (((r + r + 1 : ℤ) : ℝ) * π / (2 * r + 1))) = -1 := by
          intro i _
          rw [show (2 * (i : ℝ) + 1) * (((r + r + 1 : ℤ) : ℝ) * π / (2 * r + 1)) = π + i * (2 * π) by push_cast; field_simp; ring, cos_add_nat_mul_two_pi, cos_pi]
        rw [sum_congr rfl this]; simp
      rw [this, show ((r : ℤ) + r + 1) = 2 * r + 1 by ring, zpow_add₀ (by norm_num), zpow_mul, Spec.halfAt, if_pos rfl]
      push_cast
      norm_num; ring
    · rw [sumH (not_dvd_of (by omega) (by omega) (by omega)), Spec.halfAt, if_neg h0]
      push_cast
      norm_num; ring
  · rw [if_neg h, sumH (not_dvd_of (by omega) (by omega) (by omega)), sumH (not_dvd_of (by omega) (by omega) (by omega))]; ring

theorem sumE_succ (hn : 1 ≤ n) (m : ℤ) : ∑ i ∈ range (n + 1), Spec.halfAt 0 i * Spec.halfAt n i * cos (2 * i * (m * π / (2 * n))) =
    ∑ i ∈ range n, Spec.halfAt 0 i * cos (2 * i * (m * π / (2 * n))) + (-1) ^ m / 2 := by
  rw [sum_range_succ]
  congr 1
  · exact sum_congr rfl fun i hi => by rw [Spec.halfAt, Spec.halfAt, if_neg (show ¬ i = n by have := mem_range.1 hi; omega), mul_one]
  · have hz : (n : ℝ) ≠ 0 := Nat.cast_ne_zero.2 (by omega)
    rw [Spec.halfAt, Spec.halfAt, if_pos rfl, if_neg (by omega), show 2 * (n : ℝ) * (m * π / (2 * n)) = m * π by field_simp, cos_int_mul_pi]; ring

theorem orth_dct1 (hn2 : 2 ≤ n) (hr : r < n) (hc : c < n) : ∑ i ∈ range n, Kind.dct1.kernel n r i * Kind.dct1.kernel n i c = if r = c then ((n : ℝ) - 1) / 2 else 0 := by
  obtain ⟨n, rfl⟩ : ∃ m, n = m + 1 := ⟨n - 1, by omega⟩
  have hn : 1 ≤ n := by omega
  have hz : (n : ℝ) ≠ 0 := Nat.cast_ne_zero.2 (by omega)
  rw [orth_of_sums (w := Spec.halfAt 0 c * Spec.halfAt n c) (u := fun i => Spec.halfAt 0 i * Spec.halfAt n i * cos (2 * i * (((r - c : ℤ) : ℝ) * π / (2 * n)))) (v := fun i => Spec.halfAt 0 i * Spec.halfAt n i * cos (2 * i * (((r + c : ℤ) : ℝ) * π / (2 * n))))
    (fun i _ => by
      rw [← mul_add, mul_div_assoc, ← cos_mul_cos' (a := r * i * π / n) (b := i * c * π / n)]
      · simp only [Kind.kernel, Nat.add_sub_cancel]; push_cast; rw [add_sub_cancel_right]; ring
      · push_cast; field_simp
      · push_cast; field_simp) rfl rfl, sumE_succ hn, sumE_succ hn]
  by_cases h : r = c
  · subst h
    rw [if_pos rfl, show (r : ℤ) - r = 0 by ring, sumD_self (by omega)]
    by_cases h0 : r = 0
    · subst h0
      rw [show ((0 : ℕ) : ℤ) + ((0 : ℕ) : ℤ) = 0 by simp, sumD_self (by omega)]
      simp [Spec.halfAt, show ¬ 0 = n by omega]; ring
    · by_cases h1 : r = n
      · subst h1
        have : ∑ i ∈ range r, Spec.halfAt 0 i * cos (2 * i * (((r + r : ℤ) : ℝ) * π / (2 * r))) = r - 1 / 2 := by
          rw [← sum_halfAt hn]
          refine sum_congr rfl fun i _ => ?_
          rw [show (2 * (i : ℝ)) * (((r + r : ℤ) : ℝ) * π / (2 * r)) = 0 + i * (2 * π) by push_cast; field_simp; ring, cos_add_nat_mul_two_pi, cos_zero, mul_one]
        rw [this, show ((r : ℤ) + r) = 2 * r by ring, zpow_mul]
        simp [Spec.halfAt, h0]; ring
      · rw [sumD (by omega) (not_dvd_of (by omega) (by omega) (by omega)), Spec.halfAt, Spec.halfAt, if_neg h0, if_neg h1]
        push_cast
        norm_num
  · rw [if_neg h, sumD (by omega) (not_dvd_of (by omega) (by omega) (by omega)), sumD (by omega) (not_dvd_of (by omega) (by omega) (by omega))]; ring

/-- The matrices of a transform and of its inverse multiply to a multiple of the identity. -/
theorem Kind.orth (k : Kind) (h1 : k = .dct1 → 2 ≤ n) (hr : r < n) (hc : c < n) :
    ∑ i ∈ range n, k.inv.kernel n r i * k.kernel n i c = if r = c then k.scale n else 0 := by
  cases k with
  | dct1 => exact orth_dct1 (h1 rfl) hr hc
  | dct2 => exact orth_dct32 hr hc
  | dct3 => exact orth_dct23 hr hc
  | dct4 => exact orth_dct4 hr hc
  | dct5 => exact orth_dct5 hr hc
  | dct6 => exact orth_dct76 hr hc
  | dct7 => exact orth_dct67 hr hc
  | dct8 => exact orth_dct8 hr hc
  | dst1 => exact orth_dst1 hr hc
  | dst2 => exact orth_dst32 hr hc
  | dst3 => exact orth_dst23 hr hc
  | dst4 => exact orth_dst4 hr hc
  | dst5 => exact orth_dst5 hr hc
  | dst6 => exact orth_dst76 hr hc
  | dst7 => exact orth_dst67 hr hc
  | dst8 => exact orth_dst8 hr hc

theorem Kind.inv_spec (k : Kind) (h1 : k = .dct1 → 2 ≤ n) (f : ℕ → ℝ) (hr : r < n) :
    k.inv.specAt n (k.specAt n f) r = k.scale n * f r := by
  rw [k.inv.specAt_eq]
  calc ∑ i ∈ range n, k.inv.kernel n r i * k.specAt n f i
      = ∑ i ∈ range n, ∑ c ∈ range n, k.inv.kernel n r i * k.kernel n i c * f c :=
        sum_congr rfl fun i _ => by rw [k.specAt_eq, mul_sum]; exact sum_congr rfl fun c _ => by ring
    _ = ∑ c ∈ range n, (∑ i ∈ range n, k.inv.kernel n r i * k.kernel n i c) * f c := by
        rw [sum_comm]; exact sum_congr rfl fun c _ => by rw [sum_mul]
    _ = ∑ c ∈ range n, if r = c then k.scale n * f c else 0 := sum_congr rfl fun c hc => by
        rw [k.orth h1 hr (mem_range.1 hc)]; split <;> simp
    _ = k.scale n * f r := by rw [sum_ite_eq, if_pos (mem_range.2 hr)]

theorem Kind.kernel_swap (k : Kind) (n r c : ℕ) : k.inv.weight n r * k.kernel n r c = k.inv.kernel n c r * k.weight n c := by
  cases k <;> simp only [Kind.inv, Kind.weight, Kind.kernel, one_mul, mul_one] <;> ring_nf

/-- Parseval's identity. -/
theorem Kind.parseval (k : Kind) (h1 : k = .dct1 → 2 ≤ n) (f : ℕ → ℝ) :
    ∑ r ∈ range n, k.inv.weight n r * (k.specAt n f r * k.specAt n f r) = k.scale n * ∑ c ∈ range n, k.weight n c * (f c * f c) := by
  calc ∑ r ∈ range n, k.inv.weight n r * (k.specAt n f r * k.specAt n f r)
      = ∑ r ∈ range n, ∑ c ∈ range n, k.weight n c * f c * (k.inv.kernel n c r * k.specAt n f r) := by
        refine sum_congr rfl fun r _ => ?_
        rw [← mul_assoc]
        nth_rewrite 1 [k.specAt_eq]
        rw [mul_sum, sum_mul]
        refine sum_congr rfl fun c _ => ?_
        rw [← mul_assoc, k.kernel_swap]; ring
    _ = ∑ c ∈ range n, k.weight n c * f c * k.inv.specAt n (k.specAt n f) c := by
        rw [sum_comm]; exact sum_congr rfl fun c _ => by rw [k.inv.specAt_eq, mul_sum]
    _ = _ := by
        rw [mul_sum]
        exact sum_congr rfl fun c hc => by rw [k.inv_spec h1 f (mem_range.1 hc)]; ring

theorem Kind.linear (k : Kind) (a b : ℝ) (f g : ℕ → ℝ) (r : ℕ) :
    k.specAt n (fun i => a * f i + b * g i) r = a * k.specAt n f r + b * k.specAt n g r := by
  rw [k.specAt_eq, k.specAt_eq, k.specAt_eq, mul_sum, mul_sum, ← sum_add_distrib]
  exact sum_congr rfl fun i _ => by ring

end
end RustDct
