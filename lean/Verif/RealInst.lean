import Verif.Spec
import Verif.Lib.Vec
/-!
# The exact-arithmetic instance: `f64` and `T` are both ℝ
-/

namespace RustDct
open Real

/-- `f64` operations as exact real operations. -/
noncomputable instance : F64 ℝ where
  nat n := (n : ℝ)
  half := 1 / 2
  pi := π
  sin := Real.sin
  cos := Real.cos
  sqrt := Real.sqrt

/-- The element type as exact reals. -/
noncomputable instance : DctNum ℝ ℝ where
  fromF64 x := x
  sqrt2 := √2
  fracSqrt2 := 1 / √2

@[simp] theorem f64_nat (n : ℕ) : (F64.nat n : ℝ) = (n : ℝ) := rfl
@[simp] theorem f64_half : (F64.half : ℝ) = 1 / 2 := rfl
@[simp] theorem f64_pi : (F64.pi : ℝ) = π := rfl
@[simp] theorem f64_sin (x : ℝ) : (F64.sin x : ℝ) = Real.sin x := rfl
@[simp] theorem f64_cos (x : ℝ) : (F64.cos x : ℝ) = Real.cos x := rfl
@[simp] theorem f64_sqrt (x : ℝ) : (F64.sqrt x : ℝ) = Real.sqrt x := rfl
@[simp] theorem fromF64_real (x : ℝ) : (fromF64 x : ℝ) = x := rfl
@[simp] theorem thalf_real : thalf ℝ = 1 / 2 := rfl
@[simp] theorem ttwo_real : ttwo ℝ = 2 := by simp [ttwo]
@[simp] theorem sqrt2_real : (DctNum.sqrt2 : ℝ) = √2 := rfl
@[simp] theorem fracSqrt2_real : (DctNum.fracSqrt2 : ℝ) = 1 / √2 := rfl

theorem singleTwiddle_re (i n : ℕ) : (singleTwiddle i n : Cx ℝ).re = cos (2 * π / n * i) := by
  simp only [singleTwiddle, angleConstant, fromF64_real, f64_nat, f64_pi, f64_cos, Nat.cast_one, one_mul]
  rw [← cos_neg]; congr 1; push_cast; ring
theorem singleTwiddle_im (i n : ℕ) : (singleTwiddle i n : Cx ℝ).im = -sin (2 * π / n * i) := by
  simp only [singleTwiddle, angleConstant, fromF64_real, f64_nat, f64_pi, f64_sin, Nat.cast_one, one_mul]
  rw [← sin_neg]; congr 1; push_cast; ring
theorem singleTwiddleRe_eq (i n : ℕ) : (singleTwiddleRe i n : ℝ) = cos (2 * π / n * i) := by
  simp only [singleTwiddleRe, angleConstant, fromF64_real, f64_nat, f64_pi, f64_cos]
  rw [← cos_neg]; congr 1; push_cast; ring
theorem singleTwiddleHalfoffset_re (i n : ℕ) :
    (singleTwiddleHalfoffset i n : Cx ℝ).re = cos (2 * π / n * (i + 1 / 2)) := by
  simp only [singleTwiddleHalfoffset, angleConstant, fromF64_real, f64_nat, f64_pi, f64_cos, f64_half, Nat.cast_one, one_mul]
  rw [← cos_neg]; congr 1; push_cast; ring
theorem singleTwiddleHalfoffset_im (i n : ℕ) :
    (singleTwiddleHalfoffset i n : Cx ℝ).im = -sin (2 * π / n * (i + 1 / 2)) := by
  simp only [singleTwiddleHalfoffset, angleConstant, fromF64_real, f64_nat, f64_pi, f64_sin, f64_half, Nat.cast_one, one_mul]
  rw [← sin_neg]; congr 1; push_cast; ring

theorem onList_vec {F : ℕ → (ℕ → ℝ) → ℕ → ℝ} {n : ℕ} {f : ℕ → ℝ}
    (hF : ∀ g k, (∀ i, i < n → g i = f i) → F n g k = F n f k) :
    Spec.onList F (vec n f) = vec n (F n f) := by
  unfold Spec.onList
  rw [length_vec, map_range_eq_vec]
  apply vec_congr
  intro k hk
  apply hF
  intro i hi
  simp [List.getD, hi]

theorem cos_mod {c : ℝ} {L : ℕ} (hc : c * L = 2 * π) (h : ℝ) (m : ℕ) :
    cos (c * (((m % L : ℕ) : ℝ) + h)) = cos (c * ((m : ℝ) + h)) := by
  have e : (m : ℝ) = ((m % L : ℕ) : ℝ) + L * ((m / L : ℕ) : ℝ) := by
    exact_mod_cast (Nat.mod_add_div m L).symm
  conv_rhs => rw [e, show c * ((((m % L : ℕ) : ℝ) + L * ((m / L : ℕ) : ℝ)) + h) =
    c * (((m % L : ℕ) : ℝ) + h) + ((m / L : ℕ) : ℝ) * (c * L) by ring, hc, cos_add_nat_mul_two_pi]
theorem sin_mod {c : ℝ} {L : ℕ} (hc : c * L = 2 * π) (h : ℝ) (m : ℕ) :
    sin (c * (((m % L : ℕ) : ℝ) + h)) = sin (c * ((m : ℝ) + h)) := by
  have e : (m : ℝ) = ((m % L : ℕ) : ℝ) + L * ((m / L : ℕ) : ℝ) := by
    exact_mod_cast (Nat.mod_add_div m L).symm
  conv_rhs => rw [e, show c * ((((m % L : ℕ) : ℝ) + L * ((m / L : ℕ) : ℝ)) + h) =
    c * (((m % L : ℕ) : ℝ) + h) + ((m / L : ℕ) : ℝ) * (c * L) by ring, hc, sin_add_nat_mul_two_pi]
theorem cos_mod0 {c : ℝ} {L : ℕ} (hc : c * L = 2 * π) (m : ℕ) :
    cos (c * ((m % L : ℕ) : ℝ)) = cos (c * (m : ℝ)) := by simpa using cos_mod hc 0 m
theorem sin_mod0 {c : ℝ} {L : ℕ} (hc : c * L = 2 * π) (m : ℕ) :
    sin (c * ((m % L : ℕ) : ℝ)) = sin (c * (m : ℝ)) := by simpa using sin_mod hc 0 m

end RustDct
