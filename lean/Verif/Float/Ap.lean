import Mathlib.Analysis.SpecialFunctions.Trigonometric.Bounds
import Verif.Rounding
/-!
# A calculus of computed scalars

`Ap r x X g`: the computed value `r` approximates `x`, a quantity of size at most `X`, with error at most `(g - 1) * X`.
-/

set_option linter.all false

namespace RustDct
open Real

structure Ap (r x X g : ℝ) : Prop where
  one_le : 1 ≤ g
  mag : |x| ≤ X
  err : |r - x| ≤ (g - 1) * X

section
variable {r s x y X Y g g' h u : ℝ}

theorem Ap.X_nonneg (h : Ap r x X g) : 0 ≤ X := le_trans (abs_nonneg _) h.mag
theorem Ap.exact (r : ℝ) : Ap r r |r| 1 := ⟨le_refl _, le_refl _, by simp⟩
theorem Ap.exact' {r X : ℝ} (h : |r| ≤ X) : Ap r r X 1 := ⟨le_refl _, h, by simp⟩
theorem Ap.of_rel (hu : 0 ≤ u) (h : |r - x| ≤ u * |x|) : Ap r x |x| (1 + u) := ⟨by linarith, le_refl _, by simpa using h⟩

theorem Ap.mono (h : Ap r x X g) (hg : g ≤ g') : Ap r x X g' :=
  ⟨h.one_le.trans hg, h.mag, h.err.trans (mul_le_mul_of_nonneg_right (by linarith) h.X_nonneg)⟩
theorem Ap.monoX (h : Ap r x X g) (hX : X ≤ Y) : Ap r x Y g :=
  ⟨h.one_le, h.mag.trans hX, h.err.trans (mul_le_mul_of_nonneg_left hX (by linarith [h.one_le]))⟩

theorem Ap.size (h : Ap r x X g) : |r| ≤ g * X := by
  have := abs_add_le (r - x) x
  rw [sub_add_cancel] at this
  linarith [h.err, h.mag]

theorem Ap.neg (h : Ap r x X g) : Ap (-r) (-x) X g :=
  ⟨h.one_le, by rw [abs_neg]; exact h.mag, by rw [← abs_neg]; convert h.err using 2; ring⟩

/-- Rounding an approximation once more. -/
theorem Ap.round (hu : 0 ≤ u) (h : Ap r x X g) (hr : |s - r| ≤ u * |r|) : Ap s x X ((1 + u) * g) := by
  have h1 := h.size
  have h0 := h.one_le
  refine ⟨by nlinarith, h.mag, ?_⟩
  have := abs_add_le (s - r) (r - x)
  rw [sub_add_sub_cancel] at this
  have h2 : u * |r| ≤ u * (g * X) := mul_le_mul_of_nonneg_left h1 hu
  nlinarith [h.err]

theorem Ap.add0 (h : Ap r x X g) (h' : Ap s y Y g) : Ap (r + s) (x + y) (X + Y) g := by
  refine ⟨h.one_le, (abs_add_le _ _).trans (add_le_add h.mag h'.mag), ?_⟩
  have := abs_add_le (r - x) (s - y)
  rw [show r + s - (x + y) = r - x + (s - y) by ring]
  nlinarith [h.err, h'.err]
theorem Ap.sub0 (h : Ap r x X g) (h' : Ap s y Y g) : Ap (r - s) (x - y) (X + Y) g := by
  have := h.add0 h'.neg
  simpa [sub_eq_add_neg] using this
theorem Ap.mul0 (h : Ap r x X g) (h' : Ap s y Y g') : Ap (r * s) (x * y) (X * Y) (g * g') := by
  have hX := h.X_nonneg
  have hY := h'.X_nonneg
  refine ⟨by nlinarith [h.one_le, h'.one_le], by rw [abs_mul]; exact mul_le_mul h.mag h'.mag (abs_nonneg _) hX, ?_⟩
  have h1 : |r * s - x * y| ≤ |r - x| * |s| + |x| * |s - y| := by
    rw [← abs_mul, ← abs_mul, show r * s - x * y = (r - x) * s + x * (s - y) by ring]
    exact abs_add_le _ _
  have h2 : |r - x| * |s| ≤ ((g - 1) * X) * (g' * Y) := mul_le_mul h.err h'.size (abs_nonneg _) (le_trans (abs_nonneg _) h.err)
  have h3 : |x| * |s - y| ≤ X * ((g' - 1) * Y) := mul_le_mul h.mag h'.err (abs_nonneg _) hX
  calc _ ≤ _ := h1
    _ ≤ ((g - 1) * X) * (g' * Y) + X * ((g' - 1) * Y) := add_le_add h2 h3
    _ = _ := by ring

/-- Division by a quantity known up to the relative error `v < 1`. -/
theorem Ap.div0 {v : ℝ} (hv : 0 ≤ v) (hv1 : v < 1) (hy : 0 < y) (h : Ap r x X g) (h' : |s - y| ≤ v * y) :
    s ≠ 0 ∧ Ap (r / s) (x / y) (X / y) (g / (1 - v)) := by
  have hs : (1 - v) * y ≤ s := by have := (abs_le.1 h').1; linarith
  have hs2 : s ≤ (1 + v) * y := by have := (abs_le.1 h').2; linarith
  have hp : 0 < (1 - v) * y := mul_pos (by linarith) hy
  have hs0 : 0 < s := lt_of_lt_of_le hp hs
  have hX := h.X_nonneg
  refine ⟨hs0.ne', ?_, ?_, ?_⟩
  · rw [le_div_iff₀ (by linarith)]; linarith [h.one_le]
  · rw [abs_div, abs_of_pos hy]; exact div_le_div_of_nonneg_right h.mag hy.le
  · have e : r / s - x / y = ((r - x) * y - x * (s - y)) / (s * y) := by field_simp; ring
    rw [e, abs_div, abs_of_pos (mul_pos hs0 hy), div_le_iff₀ (mul_pos hs0 hy)]
    have h1 : |(r - x) * y - x * (s - y)| ≤ |r - x| * y + |x| * |s - y| := by
      have := abs_add_le ((r - x) * y) (-(x * (s - y)))
      rw [abs_neg, abs_mul, abs_mul, abs_of_pos hy] at this
      rwa [sub_eq_add_neg]
    have h2 : |r - x| * y ≤ (g - 1) * X * y := mul_le_mul_of_nonneg_right h.err hy.le
    have h3 : |x| * |s - y| ≤ X * (v * y) := mul_le_mul h.mag h' (abs_nonneg _) hX
    calc _ ≤ (g - 1) * X * y + X * (v * y) := by linarith
      _ = (g - 1 + v) * (X * y) := by ring
      _ = (g / (1 - v) - 1) * (X / y) * (((1 - v) * y) * y) := by
        have : (1 - v) ≠ 0 := by linarith
        field_simp
        ring
      _ ≤ (g / (1 - v) - 1) * (X / y) * (s * y) := by
        apply mul_le_mul_of_nonneg_left (mul_le_mul_of_nonneg_right hs hy.le)
        apply mul_nonneg _ (div_nonneg hX hy.le)
        rw [sub_nonneg, le_div_iff₀ (by linarith)]; linarith [h.one_le]

end

section
variable {T F : Type} [F64 F] [DctNum T F] (R : Rounding T F) {a b : T} {x y X Y g g' h : ℝ}

theorem Rounding.one_le_u : 1 ≤ 1 + R.u := by linarith [R.u_nonneg]
theorem Rounding.one_le_v : 1 ≤ 1 + R.v := by linarith [R.v_nonneg]

theorem Rounding.ap_add (ha : Ap (R.val a) x X g) (hb : Ap (R.val b) y Y g) : Ap (R.val (a + b)) (x + y) (X + Y) ((1 + R.u) * g) :=
  (ha.add0 hb).round R.u_nonneg (R.add a b)
theorem Rounding.ap_sub (ha : Ap (R.val a) x X g) (hb : Ap (R.val b) y Y g) : Ap (R.val (a - b)) (x - y) (X + Y) ((1 + R.u) * g) :=
  (ha.sub0 hb).round R.u_nonneg (R.sub a b)
theorem Rounding.ap_mul (ha : Ap (R.val a) x X g) (hb : Ap (R.val b) y Y g') : Ap (R.val (a * b)) (x * y) (X * Y) ((1 + R.u) * (g * g')) :=
  (ha.mul0 hb).round R.u_nonneg (R.mul a b)
theorem Rounding.ap_neg (ha : Ap (R.val a) x X g) : Ap (R.val (-a)) (-x) X g := by
  rw [R.neg]; exact ha.neg

/-! ### Twiddle factors -/

theorem Rounding.ap_nat (n : ℕ) : Ap (R.valF (F64.nat n)) n n (1 + R.v) :=
  ⟨R.one_le_v, by simp, by simpa using R.f_nat n⟩

theorem Rounding.ap_angle {n : ℕ} (hn : 1 ≤ n) :
    Ap (R.valF (angleConstant n)) (angleConstant n : ℝ) (2 * π / n) ((1 + R.v) ^ 4 / (1 - R.v)) := by
  have hn0 : (0 : ℝ) < n := by exact_mod_cast hn
  have h1 : Ap (R.valF F64.pi) π π (1 + R.v) := ⟨R.one_le_v, by rw [abs_of_pos pi_pos], by simpa using R.f_pi⟩
  have h2 : Ap (R.valF (-(F64.nat 2))) (-(2 : ℕ)) (2 : ℕ) (1 + R.v) := by rw [R.f_neg]; exact (R.ap_nat 2).neg
  have h3 := (h1.mul0 h2).round R.v_nonneg (R.f_mul _ _)
  obtain ⟨hs, h4⟩ := h3.div0 R.v_nonneg R.v_lt hn0 (R.f_nat n)
  have h5 := h4.round R.v_nonneg (R.f_div _ _ hs)
  convert h5 using 1
  · simp only [angleConstant]
  · simp only [angleConstant, f64_pi, f64_nat]
  · push_cast; ring
  · ring

theorem Rounding.one_le_ang (k : ℕ) : 1 ≤ (1 + R.v) ^ k / (1 - R.v) := by
  rw [le_div_iff₀ (by linarith [R.v_lt])]
  have := one_le_pow₀ (n := k) R.one_le_v
  linarith [R.v_nonneg]

/-- Cosine and sine of a computed angle. -/
theorem Rounding.cos_close {θ : F} {x : ℝ} (h : Ap (R.valF θ) x (2 * π) ((1 + R.v) ^ 7 / (1 - R.v))) :
    Ap (R.valF (F64.cos θ)) (cos x) 1 (1 + (R.t + 2 * π * ((1 + R.v) ^ 7 / (1 - R.v) - 1))) := by
  have h0 := R.one_le_ang 7
  have hp := pi_pos
  refine ⟨by have := mul_nonneg (show 0 ≤ 2 * π by linarith) (show 0 ≤ (1 + R.v) ^ 7 / (1 - R.v) - 1 by linarith); linarith [R.t_nonneg], abs_cos_le_one x, ?_⟩
  have h1 := R.f_cos θ
  have h2 : |cos (R.valF θ) - cos x| ≤ |R.valF θ - x| := Real.abs_cos_sub_cos_le _ _
  have h3 := abs_sub_le (R.valF (F64.cos θ)) (cos (R.valF θ)) (cos x)
  linarith [h.err]
theorem Rounding.sin_close {θ : F} {x : ℝ} (h : Ap (R.valF θ) x (2 * π) ((1 + R.v) ^ 7 / (1 - R.v))) :
    Ap (R.valF (F64.sin θ)) (sin x) 1 (1 + (R.t + 2 * π * ((1 + R.v) ^ 7 / (1 - R.v) - 1))) := by
  have h0 := R.one_le_ang 7
  have hp := pi_pos
  refine ⟨by have := mul_nonneg (show 0 ≤ 2 * π by linarith) (show 0 ≤ (1 + R.v) ^ 7 / (1 - R.v) - 1 by linarith); linarith [R.t_nonneg], abs_sin_le_one x, ?_⟩
  have h1 := R.f_sin θ
  have h2 : |sin (R.valF θ) - sin x| ≤ |R.valF θ - x| := Real.abs_sin_sub_sin_le _ _
  have h3 := abs_sub_le (R.valF (F64.sin θ)) (sin (R.valF θ)) (sin x)
  linarith [h.err]

theorem Rounding.ap_mulf {a b : F} (ha : Ap (R.valF a) x X g) (hb : Ap (R.valF b) y Y g') : Ap (R.valF (a * b)) (x * y) (X * Y) ((1 + R.v) * (g * g')) :=
  (ha.mul0 hb).round R.v_nonneg (R.f_mul a b)

theorem Rounding.ap_theta {i n : ℕ} (hn : 1 ≤ n) (hi : i ≤ n) :
    Ap (R.valF (angleConstant n * F64.nat i)) (angleConstant n * F64.nat i : ℝ) (2 * π) ((1 + R.v) ^ 7 / (1 - R.v)) := by
  have hn0 : (0 : ℝ) < n := by exact_mod_cast hn
  have hv := R.one_le_v
  have hd : 0 < 1 - R.v := by linarith [R.v_lt]
  have h1 := R.ap_mulf (R.ap_angle hn) (R.ap_nat i)
  refine (h1.mono ?_).monoX ?_
  · rw [show (1 + R.v) * ((1 + R.v) ^ 4 / (1 - R.v) * (1 + R.v)) = (1 + R.v) ^ 6 / (1 - R.v) by ring]
    exact div_le_div_of_nonneg_right (pow_le_pow_right₀ hv (by norm_num)) hd.le
  · rw [div_mul_eq_mul_div, div_le_iff₀ hn0]
    exact mul_le_mul_of_nonneg_left (by exact_mod_cast hi) (by positivity)

theorem Rounding.ap_theta_half {i n : ℕ} (hi : i < n) :
    Ap (R.valF (angleConstant n * (F64.nat i + F64.half))) (angleConstant n * (F64.nat i + F64.half) : ℝ) (2 * π) ((1 + R.v) ^ 7 / (1 - R.v)) := by
  have hn0 : (0 : ℝ) < n := by exact_mod_cast (show 0 < n by omega)
  have h0 : Ap (R.valF F64.half) (1 / 2) (1 / 2) (1 + R.v) :=
    (show Ap (R.valF F64.half) (1 / 2) (1 / 2) 1 from by rw [R.f_half]; exact Ap.exact' (by norm_num)).mono R.one_le_v
  have h1 := ((R.ap_nat i).add0 h0).round R.v_nonneg (R.f_add _ _)
  have h2 := R.ap_mulf (R.ap_angle (show 1 ≤ n by omega)) h1
  refine (h2.mono ?_).monoX ?_
  · rw [show (1 + R.v) * ((1 + R.v) ^ 4 / (1 - R.v) * ((1 + R.v) * (1 + R.v))) = (1 + R.v) ^ 7 / (1 - R.v) by ring]
  · rw [div_mul_eq_mul_div, div_le_iff₀ hn0]
    apply mul_le_mul_of_nonneg_left _ (by positivity)
    have : (i : ℝ) + 1 ≤ n := by exact_mod_cast hi
    linarith

theorem Rounding.ap_polar {c : F} {x d : ℝ} (h : Ap (R.valF c) x 1 (1 + (R.t + 2 * π * ((1 + R.v) ^ 7 / (1 - R.v) - 1)))) :
    Ap (R.val (fromF64 (F64.nat 1 * c))) (fromF64 (F64.nat 1 * x)) 1 (1 + R.tau) := by
  have h1 := (R.ap_mulf (R.ap_nat 1) h).round R.u_nonneg (R.from_f64 _)
  convert h1 using 1
  · simp
  · simp
  · unfold Rounding.tau; ring

theorem Rounding.tau_nonneg : 0 ≤ R.tau := by
  have h := R.ap_polar (d := 0) (R.cos_close (R.ap_theta (i := 0) (n := 1) (le_refl _) (by norm_num)))
  linarith [h.one_le]

theorem Rounding.ap_tw_re {i n : ℕ} (hn : 1 ≤ n) (hi : i ≤ n) : Ap (R.val (singleTwiddle i n : Cx T).re) (singleTwiddle i n : Cx ℝ).re 1 (1 + R.tau) :=
  R.ap_polar (d := 0) (R.cos_close (R.ap_theta hn hi))
theorem Rounding.ap_tw_im {i n : ℕ} (hn : 1 ≤ n) (hi : i ≤ n) : Ap (R.val (singleTwiddle i n : Cx T).im) (singleTwiddle i n : Cx ℝ).im 1 (1 + R.tau) :=
  R.ap_polar (d := 0) (R.sin_close (R.ap_theta hn hi))
theorem Rounding.ap_twh_re {i n : ℕ} (hi : i < n) : Ap (R.val (singleTwiddleHalfoffset i n : Cx T).re) (singleTwiddleHalfoffset i n : Cx ℝ).re 1 (1 + R.tau) :=
  R.ap_polar (d := 0) (R.cos_close (R.ap_theta_half hi))
theorem Rounding.ap_twh_im {i n : ℕ} (hi : i < n) : Ap (R.val (singleTwiddleHalfoffset i n : Cx T).im) (singleTwiddleHalfoffset i n : Cx ℝ).im 1 (1 + R.tau) :=
  R.ap_polar (d := 0) (R.sin_close (R.ap_theta_half hi))
theorem Rounding.ap_twre {i n : ℕ} (hn : 1 ≤ n) (hi : i ≤ n) : Ap (R.val (singleTwiddleRe i n : T)) (singleTwiddleRe i n : ℝ) 1 (1 + R.tau) := by
  have h1 := (R.cos_close (R.ap_theta (T := T) hn hi)).round R.u_nonneg (R.from_f64 _)
  refine h1.mono ?_
  have h2 := h1.one_le
  have hv := one_le_pow₀ (n := 2) R.one_le_v
  have h3 := (R.cos_close (R.ap_theta (T := T) hn hi)).one_le
  unfold Rounding.tau
  rw [show 1 + ((1 + R.u) * ((1 + R.v) ^ 2 * (1 + (R.t + 2 * π * ((1 + R.v) ^ 7 / (1 - R.v) - 1)))) - 1) =
    (1 + R.u) * ((1 + R.v) ^ 2 * (1 + (R.t + 2 * π * ((1 + R.v) ^ 7 / (1 - R.v) - 1)))) by ring]
  apply mul_le_mul_of_nonneg_left _ (by linarith [R.u_nonneg])
  nlinarith

end
end RustDct
