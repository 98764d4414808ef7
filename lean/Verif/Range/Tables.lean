import Mathlib.Analysis.Real.Pi.Bounds
import Verif.Range.Calc
import Verif.Float.Naive
/-!
# The twiddle tables in arithmetic of bounded range
-/

set_option linter.all false

namespace RustDct
open Real

variable {T F : Type} [F64 F] [DctNum T F]

/-- A finite `f64` that approximates `x`. -/
def ApF (R : Ieee T F) (a : F) (x X g : ℝ) : Prop := R.finF a ∧ Ap (R.valF a) x X g

section
variable {R : Ieee T F} {a b : F} {x y X Y g g' h : ℝ}

theorem ApF.mono (h : ApF R a x X g) (hg : g ≤ g') : ApF R a x X g' := ⟨h.1, h.2.mono hg⟩
theorem ApF.monoX (h : ApF R a x X g) (hX : X ≤ Y) : ApF R a x Y g := ⟨h.1, h.2.monoX hX⟩

/-- One rounding of a quantity that is in range. -/
theorem ApF.round {r : ℝ} (h : Ap r x X g) (h1 : (1 / 2) ^ 100 ≤ X) (h2 : X ≤ 2 ^ 80) (h3 : g ≤ 64) (hr : RoundsTo R.finF R.valF R.v R.LF R.MF a r) :
    ApF R a x X ((1 + R.v) * g) := by
  have h0 : 0 ≤ X := h.X_nonneg
  have hs := h.size
  have hM : |r| ≤ R.MF := by
    have : g * X ≤ 64 * 2 ^ 80 := mul_le_mul h3 h2 h0 (by norm_num)
    have := R.MF_ge
    norm_num at *
    linarith
  obtain ⟨ha, he⟩ := hr hM
  refine ⟨ha, ?_⟩
  have hg := h.one_le
  have hL : max |r| R.LF ≤ g * X := max_le hs (R.LF_le.trans (h1.trans (by nlinarith)))
  have h5 := mul_le_mul_of_nonneg_left hL R.v_nonneg
  refine ⟨by nlinarith [R.v_nonneg], h.mag, ?_⟩
  have := abs_sub_le (R.valF a) r x
  have := h.err
  nlinarith

theorem Ieee.one_le_v (R : Ieee T F) : 1 ≤ 1 + R.v := by linarith [R.v_nonneg]
theorem Ieee.v_lt (R : Ieee T F) : R.v < 1 := by linarith [R.v_le]

theorem ApF.nat (R : Ieee T F) {n : ℕ} (hn : n < 2 ^ 64) : ApF R (F64.nat n) n n (1 + R.v) :=
  ⟨(R.f_nat n hn).1, R.one_le_v, by simp, by simpa using (R.f_nat n hn).2⟩
theorem ApF.pi (R : Ieee T F) : ApF R F64.pi π π (1 + R.v) := ⟨R.f_pi.1, R.one_le_v, by rw [abs_of_pos pi_pos], by simpa using R.f_pi.2⟩
theorem ApF.half (R : Ieee T F) : ApF R F64.half (1 / 2) (1 / 2) (1 + R.v) :=
  ⟨R.f_half.1, (show Ap (R.valF F64.half) (1 / 2) (1 / 2) 1 from by rw [R.f_half.2]; exact Ap.exact' (by norm_num)).mono R.one_le_v⟩

/-! The error factors are moderate. -/

theorem Ieee.pow_v_le (R : Ieee T F) {k : ℕ} (hk : k ≤ 7) : (1 + R.v) ^ k ≤ 17 / 11 := by
  calc (1 + R.v) ^ k ≤ (1 + R.v) ^ 7 := pow_le_pow_right₀ R.one_le_v hk
    _ ≤ (1 + 1 / 16) ^ 7 := pow_le_pow_left₀ (by linarith [R.v_nonneg]) (by linarith [R.v_le]) 7
    _ ≤ _ := by norm_num
theorem Ieee.ang_le (R : Ieee T F) {k : ℕ} (hk : k ≤ 7) : (1 + R.v) ^ k / (1 - R.v) ≤ 5 / 3 := by
  rw [div_le_iff₀ (by linarith [R.v_le])]
  linarith [R.pow_v_le hk, R.v_le]
theorem Ieee.one_le_ang (R : Ieee T F) (k : ℕ) : 1 ≤ (1 + R.v) ^ k / (1 - R.v) := by
  rw [le_div_iff₀ (by linarith [R.v_lt])]
  have := one_le_pow₀ (n := k) R.one_le_v
  linarith [R.v_nonneg]
theorem Ieee.ang_mono (R : Ieee T F) {a b : ℕ} (h : a ≤ b) : (1 + R.v) ^ a / (1 - R.v) ≤ (1 + R.v) ^ b / (1 - R.v) :=
  div_le_div_of_nonneg_right (pow_le_pow_right₀ R.one_le_v h) (by linarith [R.v_lt])

/-- The error factor of a cosine. -/
noncomputable def Ieee.cosErr (R : Ieee T F) : ℝ := 1 + (R.t + 2 * π * ((1 + R.v) ^ 7 / (1 - R.v) - 1))
theorem Ieee.one_le_cosErr (R : Ieee T F) : 1 ≤ R.cosErr := by
  have h0 := R.one_le_ang 7
  have := mul_nonneg (show 0 ≤ 2 * π by linarith [pi_pos]) (show 0 ≤ (1 + R.v) ^ 7 / (1 - R.v) - 1 by linarith)
  unfold Ieee.cosErr
  linarith [R.t_nonneg]
theorem Ieee.cosErr_le (R : Ieee T F) : R.cosErr ≤ 6 := by
  have h0 := R.one_le_ang 7
  have h1 := R.ang_le (le_refl 7)
  have h2 := pi_lt_d2
  unfold Ieee.cosErr
  have : 2 * π * ((1 + R.v) ^ 7 / (1 - R.v) - 1) ≤ 2 * 3.15 * (5 / 3 - 1) := mul_le_mul (by linarith) (by linarith) (by linarith) (by norm_num)
  norm_num at this
  linarith [R.t_le]

theorem ApF.cos {θ : F} (h : ApF R θ x (2 * π) ((1 + R.v) ^ 7 / (1 - R.v))) : ApF R (F64.cos θ) (Real.cos x) 1 R.cosErr := by
  obtain ⟨h0, h1⟩ := R.f_cos θ h.1
  refine ⟨h0, R.one_le_cosErr, abs_cos_le_one x, ?_⟩
  have h2 : |Real.cos (R.valF θ) - Real.cos x| ≤ |R.valF θ - x| := Real.abs_cos_sub_cos_le _ _
  have h3 := abs_sub_le (R.valF (F64.cos θ)) (Real.cos (R.valF θ)) (Real.cos x)
  unfold Ieee.cosErr
  linarith [h.2.err]
theorem ApF.sin {θ : F} (h : ApF R θ x (2 * π) ((1 + R.v) ^ 7 / (1 - R.v))) : ApF R (F64.sin θ) (Real.sin x) 1 R.cosErr := by
  obtain ⟨h0, h1⟩ := R.f_sin θ h.1
  refine ⟨h0, R.one_le_cosErr, abs_sin_le_one x, ?_⟩
  have h2 : |Real.sin (R.valF θ) - Real.sin x| ≤ |R.valF θ - x| := Real.abs_sin_sub_sin_le _ _
  have h3 := abs_sub_le (R.valF (F64.sin θ)) (Real.sin (R.valF θ)) (Real.sin x)
  unfold Ieee.cosErr
  linarith [h.2.err]

/-- Conversion of a cosine to the element type. -/
theorem ApF.conv {r : ℕ} (hr : R.Twiddles r) (h : ApF R a x 1 ((1 + R.v) ^ 2 * R.cosErr)) : Tw R 1 r (fromF64 a) x := by
  have hg : (1 + R.v) ^ 2 * R.cosErr ≤ 16 := by
    have := mul_le_mul (R.pow_v_le (show 2 ≤ 7 by norm_num)) R.cosErr_le (by linarith [R.one_le_cosErr]) (by norm_num)
    norm_num at this
    linarith
  have hs := h.2.size
  rw [mul_one] at hs
  obtain ⟨h1, h2⟩ := R.from_f64 a h.1 (hs.trans (hg.trans R.M_ge))
  have h3 : max |R.valF a| R.L ≤ (1 + R.v) ^ 2 * R.cosErr := max_le hs (R.L_le.trans h.2.one_le)
  have h4 := mul_le_mul_of_nonneg_left h3 R.u_nonneg
  have h5 := abs_sub_le (R.val (fromF64 a)) (R.valF a) x
  have h6 := h.2.err
  have h7 : 1 + R.tau = (1 + R.u) * ((1 + R.v) ^ 2 * R.cosErr) := by unfold Ieee.tau Ieee.cosErr; ring
  refine ⟨le_refl _, h1, by simpa using h.2.mag, ?_⟩
  unfold Ieee.Twiddles at hr
  rw [h7] at hr
  simp only [Nat.cast_one, mul_one] at h6 ⊢
  nlinarith

theorem ApF.conv' {r : ℕ} (hr : R.Twiddles r) (h : ApF R a x 1 R.cosErr) : Tw R 1 r (fromF64 a) x :=
  ApF.conv hr (h.mono (le_mul_of_one_le_left (by linarith [R.one_le_cosErr]) (one_le_pow₀ R.one_le_v)))

theorem ApF.polar {r : ℕ} (hr : R.Twiddles r) (h : ApF R a x 1 R.cosErr) : Tw R 1 r (fromF64 (F64.nat 1 * a)) (fromF64 (F64.nat 1 * x)) := by
  have h1 := ApF.nat R (n := 1) (by norm_num)
  have h2 := h1.2.mul0 h.2
  rw [Nat.cast_one, mul_one, one_mul] at h2
  have h3 := ApF.round h2 (by norm_num) (by norm_num) (by
    have := mul_le_mul (show 1 + R.v ≤ 17 / 16 by linarith [R.v_le]) R.cosErr_le (by linarith [R.one_le_cosErr]) (by norm_num)
    norm_num at this
    linarith) (R.f_mul _ _ h1.1 h.1)
  have := ApF.conv hr (h3.mono (le_of_eq (by ring)))
  convert this using 1
  simp

/-! ### Angles -/

theorem pi_range : (3 : ℝ) < π ∧ π < 4 := ⟨pi_gt_three, pi_lt_four⟩

theorem ApF.angle (R : Ieee T F) {n : ℕ} (hn : 1 ≤ n) (hn' : n < 2 ^ 64) :
    ApF R (angleConstant n) (angleConstant n : ℝ) (2 * π / n) ((1 + R.v) ^ 4 / (1 - R.v)) := by
  have hn0 : (0 : ℝ) < n := by exact_mod_cast hn
  have hn1 : (1 : ℝ) ≤ n := by exact_mod_cast hn
  have hn2 : (n : ℝ) ≤ 2 ^ 64 := by exact_mod_cast hn'.le
  obtain ⟨p1, p2⟩ := pi_range
  have h1 := ApF.pi R
  have h20 := ApF.nat R (n := 2) (by norm_num)
  have h2 : ApF R (-(F64.nat 2)) (-(2 : ℕ)) (2 : ℕ) (1 + R.v) := by
    refine ⟨(R.f_neg _ h20.1).1, ?_⟩
    rw [(R.f_neg _ h20.1).2]; exact h20.2.neg
  have h3 := ApF.round (h1.2.mul0 h2.2) (by norm_num; linarith) (by norm_num; linarith) (by nlinarith [R.v_le, R.v_nonneg]) (R.f_mul _ _ h1.1 h2.1)
  obtain ⟨hs, h4⟩ := h3.2.div0 R.v_nonneg R.v_lt hn0 (R.f_nat n hn').2
  have h5 := ApF.round h4 (by
      rw [le_div_iff₀ hn0]
      have := mul_le_mul_of_nonneg_left hn2 (show (0 : ℝ) ≤ (1 / 2) ^ 100 by positivity)
      norm_num at this ⊢
      linarith) (by
      rw [div_le_iff₀ hn0]
      norm_num
      linarith) (by
      have := R.ang_le (show 3 ≤ 7 by norm_num)
      rw [show (1 + R.v) * ((1 + R.v) * (1 + R.v)) = (1 + R.v) ^ 3 by ring]
      linarith) (R.f_div _ _ h3.1 (R.f_nat n hn').1 hs)
  convert h5 using 1
  · simp only [angleConstant]
  · simp only [angleConstant, f64_pi, f64_nat]
  · push_cast; ring
  · ring

theorem ApF.theta (R : Ieee T F) {i n : ℕ} (hn : 1 ≤ n) (hn' : n < 2 ^ 64) (hi : i ≤ n) :
    ApF R (angleConstant n * F64.nat i) (angleConstant n * F64.nat i : ℝ) (2 * π) ((1 + R.v) ^ 7 / (1 - R.v)) := by
  have hn0 : (0 : ℝ) < n := by exact_mod_cast hn
  obtain ⟨p1, p2⟩ := pi_range
  have ha := ApF.angle R hn hn'
  have hb := ApF.nat R (n := i) (by omega)
  have h1 : Ap (R.valF (angleConstant n) * R.valF (F64.nat i)) (angleConstant n * (i : ℝ)) (2 * π) ((1 + R.v) ^ 5 / (1 - R.v)) := by
    refine ((ha.2.mul0 hb.2).mono (le_of_eq (by ring))).monoX ?_
    rw [div_mul_eq_mul_div, div_le_iff₀ hn0]
    exact mul_le_mul_of_nonneg_left (by exact_mod_cast hi) (by positivity)
  have h2 := ApF.round h1 (by norm_num; linarith) (by norm_num; linarith) (by linarith [R.ang_le (show 5 ≤ 7 by norm_num)]) (R.f_mul _ _ ha.1 hb.1)
  rw [← mul_div_assoc, ← pow_succ'] at h2
  exact h2.mono (R.ang_mono (by norm_num))

theorem ApF.theta_half (R : Ieee T F) {i n : ℕ} (hn' : n < 2 ^ 64) (hi : i < n) :
    ApF R (angleConstant n * (F64.nat i + F64.half)) (angleConstant n * (F64.nat i + F64.half) : ℝ) (2 * π) ((1 + R.v) ^ 7 / (1 - R.v)) := by
  have hn0 : (0 : ℝ) < n := by exact_mod_cast (show 0 < n by omega)
  have hi2 : (i : ℝ) ≤ 2 ^ 64 := by exact_mod_cast (show i ≤ 2 ^ 64 by omega)
  have hi0 : (0 : ℝ) ≤ i := Nat.cast_nonneg i
  obtain ⟨p1, p2⟩ := pi_range
  have ha := ApF.angle R (n := n) (by omega) hn'
  have hb := ApF.nat R (n := i) (by omega)
  have hh := ApF.half R
  have h0 := ApF.round (hb.2.add0 hh.2) (by norm_num; linarith) (by linarith) (by linarith [R.v_le]) (R.f_add _ _ hb.1 hh.1)
  have h1 : Ap (R.valF (angleConstant n) * R.valF (F64.nat i + F64.half)) (angleConstant n * ((i : ℝ) + 1 / 2)) (2 * π) ((1 + R.v) ^ 6 / (1 - R.v)) := by
    refine ((ha.2.mul0 h0.2).mono (le_of_eq (by ring))).monoX ?_
    rw [div_mul_eq_mul_div, div_le_iff₀ hn0]
    apply mul_le_mul_of_nonneg_left _ (by positivity)
    have : (i : ℝ) + 1 ≤ n := by exact_mod_cast hi
    linarith
  have h2 := ApF.round h1 (by norm_num; linarith) (by norm_num; linarith) (by linarith [R.ang_le (show 6 ≤ 7 by norm_num)]) (R.f_mul _ _ ha.1 h0.1)
  rw [← mul_div_assoc, ← pow_succ'] at h2
  convert h2 using 1
  simp

variable {r : ℕ}

theorem Ieee.tw_re (hr : R.Twiddles r) {i n : ℕ} (hn : 1 ≤ n) (hn' : n < 2 ^ 64) (hi : i ≤ n) : Tw R 1 r (singleTwiddle i n : Cx T).re (singleTwiddle i n : Cx ℝ).re :=
  ApF.polar hr (ApF.cos (ApF.theta R hn hn' hi))
theorem Ieee.tw_im (hr : R.Twiddles r) {i n : ℕ} (hn : 1 ≤ n) (hn' : n < 2 ^ 64) (hi : i ≤ n) : Tw R 1 r (singleTwiddle i n : Cx T).im (singleTwiddle i n : Cx ℝ).im :=
  ApF.polar hr (ApF.sin (ApF.theta R hn hn' hi))
theorem Ieee.twh_re (hr : R.Twiddles r) {i n : ℕ} (hn' : n < 2 ^ 64) (hi : i < n) : Tw R 1 r (singleTwiddleHalfoffset i n : Cx T).re (singleTwiddleHalfoffset i n : Cx ℝ).re :=
  ApF.polar hr (ApF.cos (ApF.theta_half R hn' hi))
theorem Ieee.twh_im (hr : R.Twiddles r) {i n : ℕ} (hn' : n < 2 ^ 64) (hi : i < n) : Tw R 1 r (singleTwiddleHalfoffset i n : Cx T).im (singleTwiddleHalfoffset i n : Cx ℝ).im :=
  ApF.polar hr (ApF.sin (ApF.theta_half R hn' hi))
theorem Ieee.twre (hr : R.Twiddles r) {i n : ℕ} (hn : 1 ≤ n) (hn' : n < 2 ^ 64) (hi : i ≤ n) : Tw R 1 r (singleTwiddleRe i n : T) (singleTwiddleRe i n : ℝ) :=
  ApF.conv' hr (ApF.cos (ApF.theta R hn hn' hi))

/-- `π / y`, `y` known up to a relative error of `w`. -/
theorem ApF.pidiv (R : Ieee T F) {d : F} {y w : ℝ} (hy : 1 / 2 ≤ y) (hy' : y ≤ 2 ^ 64) (hw : 0 ≤ w) (hw' : w ≤ 1 / 2) (hd : R.finF d ∧ |R.valF d - y| ≤ w * y) :
    ApF R (F64.pi / d) (π / y) (π / y) ((1 + R.v) ^ 2 / (1 - w)) := by
  have hy0 : 0 < y := by linarith
  obtain ⟨p1, p2⟩ := pi_range
  have h1 := ApF.pi R
  obtain ⟨hs, h4⟩ := h1.2.div0 hw (by linarith) hy0 hd.2
  have h5 := ApF.round h4 (by
      rw [le_div_iff₀ hy0]
      have := mul_le_mul_of_nonneg_left hy' (show (0 : ℝ) ≤ (1 / 2) ^ 100 by positivity)
      norm_num at this ⊢
      linarith) (by
      rw [div_le_iff₀ hy0]
      norm_num
      linarith) (by
      rw [div_le_iff₀ (by linarith)]
      linarith [R.v_le]) (R.f_div _ _ h1.1 hd.1 hs)
  exact h5.mono (le_of_eq (by ring))

theorem ApF.pidiv_nat (R : Ieee T F) {n : ℕ} (hn : 1 ≤ n) (hn' : n < 2 ^ 64) : ApF R (F64.pi / F64.nat n) (π / n) (π / n) ((1 + R.v) ^ 2 / (1 - R.v)) :=
  ApF.pidiv R (by have : (1 : ℝ) ≤ n := by exact_mod_cast hn
                  linarith) (by exact_mod_cast hn'.le) R.v_nonneg (by linarith [R.v_le]) (R.f_nat n hn')

theorem ApF.pidiv' (R : Ieee T F) {d : F} {y : ℝ} (hy : 1 / 2 ≤ y) (hy' : y ≤ 2 ^ 64) (hd : R.finF d ∧ |R.valF d - y| ≤ (3 * R.v + 2 * R.v ^ 2) * y) :
    ApF R (F64.pi / d) (π / y) (π / y) ((1 + R.v) ^ 5 / (1 - R.v)) := by
  have h0 := R.v_nonneg
  have h1 := R.v_le
  have hlt : 3 * R.v + 2 * R.v ^ 2 ≤ 1 / 2 := by nlinarith
  refine (ApF.pidiv R hy hy' (by positivity) hlt hd).mono ?_
  rw [div_le_div_iff₀ (by linarith) (by linarith)]
  have h2 : 0 ≤ (1 + R.v) ^ 2 := sq_nonneg _
  have h3 : 1 - R.v ≤ (1 + R.v) ^ 3 * (1 - (3 * R.v + 2 * R.v ^ 2)) := by
    have : (1 + R.v) ^ 3 * (1 - (3 * R.v + 2 * R.v ^ 2)) - (1 - R.v) = R.v * (1 - 8 * R.v - 14 * R.v ^ 2 - 9 * R.v ^ 3 - 2 * R.v ^ 4) := by ring
    have h6 : R.v ^ 2 ≤ (1 / 16) ^ 2 := pow_le_pow_left₀ h0 h1 2
    have h7 : R.v ^ 3 ≤ (1 / 16) ^ 3 := pow_le_pow_left₀ h0 h1 3
    have h8 : R.v ^ 4 ≤ (1 / 16) ^ 4 := pow_le_pow_left₀ h0 h1 4
    have : 0 ≤ R.v * (1 - 8 * R.v - 14 * R.v ^ 2 - 9 * R.v ^ 3 - 2 * R.v ^ 4) := mul_nonneg h0 (by norm_num at h6 h7 h8; linarith)
    linarith
  calc (1 + R.v) ^ 2 * (1 - R.v) ≤ (1 + R.v) ^ 2 * ((1 + R.v) ^ 3 * (1 - (3 * R.v + 2 * R.v ^ 2))) := mul_le_mul_of_nonneg_left h3 h2
    _ = _ := by ring

/-- The angle `π / y * i`. -/
theorem ApF.ang {c : F} {y : ℝ} (hy : 0 < y) (h : ApF R c (π / y) (π / y) ((1 + R.v) ^ 5 / (1 - R.v))) {i : ℕ} (hi' : i < 2 ^ 64) (hi : (i : ℝ) ≤ 2 * y) :
    ApF R (c * F64.nat i) (π / y * i) (2 * π) ((1 + R.v) ^ 7 / (1 - R.v)) := by
  obtain ⟨p1, p2⟩ := pi_range
  have hb := ApF.nat R hi'
  have h1 : Ap (R.valF c * R.valF (F64.nat i)) (π / y * i) (2 * π) ((1 + R.v) ^ 6 / (1 - R.v)) := by
    refine ((h.2.mul0 hb.2).mono (le_of_eq (by ring))).monoX ?_
    rw [div_mul_eq_mul_div, div_le_iff₀ hy]
    have := mul_le_mul_of_nonneg_left hi pi_pos.le
    linarith
  have h2 := ApF.round h1 (by norm_num; linarith) (by norm_num; linarith) (by linarith [R.ang_le (show 6 ≤ 7 by norm_num)]) (R.f_mul _ _ h.1 hb.1)
  rw [← mul_div_assoc, ← pow_succ'] at h2
  exact h2

/-- The angle `π / y * (i + 1/2)`. -/
theorem ApF.angh {c : F} {y : ℝ} (hy : 0 < y) (h : ApF R c (π / y) (π / y) ((1 + R.v) ^ 2 / (1 - R.v))) {i : ℕ} (hi' : i < 2 ^ 64) (hi : (i : ℝ) + 1 / 2 ≤ 2 * y) :
    ApF R (c * (F64.nat i + F64.half)) (π / y * (i + 1 / 2)) (2 * π) ((1 + R.v) ^ 7 / (1 - R.v)) := by
  obtain ⟨p1, p2⟩ := pi_range
  have hi2 : (i : ℝ) ≤ 2 ^ 64 := by exact_mod_cast hi'.le
  have hi0 : (0 : ℝ) ≤ i := Nat.cast_nonneg i
  have hb := ApF.nat R hi'
  have hh := ApF.half R
  have h0 := ApF.round (hb.2.add0 hh.2) (by norm_num; linarith) (by linarith) (by linarith [R.v_le]) (R.f_add _ _ hb.1 hh.1)
  have h1 : Ap (R.valF c * R.valF (F64.nat i + F64.half)) (π / y * (i + 1 / 2)) (2 * π) ((1 + R.v) ^ 4 / (1 - R.v)) := by
    refine ((h.2.mul0 h0.2).mono (le_of_eq (by ring))).monoX ?_
    rw [div_mul_eq_mul_div, div_le_iff₀ hy]
    have := mul_le_mul_of_nonneg_left hi pi_pos.le
    linarith
  have h2 := ApF.round h1 (by norm_num; linarith) (by norm_num; linarith) (by linarith [R.ang_le (show 4 ≤ 7 by norm_num)]) (R.f_mul _ _ h.1 h0.1)
  rw [← mul_div_assoc, ← pow_succ'] at h2
  exact h2.mono (R.ang_mono (by norm_num))

theorem Ieee.nat_sub_half (R : Ieee T F) {n : ℕ} (hn : 1 ≤ n) (hn' : n < 2 ^ 64) :
    R.finF (F64.nat n - F64.half) ∧ |R.valF (F64.nat n - F64.half) - ((n : ℝ) - 1 / 2)| ≤ (3 * R.v + 2 * R.v ^ 2) * ((n : ℝ) - 1 / 2) := by
  have h1 : (1 : ℝ) ≤ n := by exact_mod_cast hn
  have h2 : (n : ℝ) ≤ 2 ^ 64 := by exact_mod_cast hn'.le
  have hv := R.v_nonneg
  obtain ⟨a0, a⟩ := R.f_nat n hn'
  have c : Ap (R.valF (F64.nat n) - R.valF F64.half) ((n : ℝ) - 1 / 2) ((n : ℝ) - 1 / 2) (1 + 2 * R.v) := by
    refine ⟨by linarith, by rw [abs_of_pos (by linarith)], ?_⟩
    rw [R.f_half.2, show R.valF (F64.nat n) - 1 / 2 - ((n : ℝ) - 1 / 2) = R.valF (F64.nat n) - n by ring]
    refine a.trans ?_
    nlinarith
  have := ApF.round c (by norm_num; linarith) (by linarith) (by linarith [R.v_le]) (R.f_sub _ _ a0 R.f_half.1)
  refine ⟨this.1, this.2.err.trans (mul_le_mul_of_nonneg_right (by nlinarith) (by linarith))⟩

theorem Ieee.nat_add_half (R : Ieee T F) {n : ℕ} (hn' : n < 2 ^ 64) :
    R.finF (F64.nat n + F64.half) ∧ |R.valF (F64.nat n + F64.half) - ((n : ℝ) + 1 / 2)| ≤ (3 * R.v + 2 * R.v ^ 2) * ((n : ℝ) + 1 / 2) := by
  have h1 : (0 : ℝ) ≤ n := Nat.cast_nonneg n
  have h2 : (n : ℝ) ≤ 2 ^ 64 := by exact_mod_cast hn'.le
  have hv := R.v_nonneg
  have hb := ApF.nat R hn'
  have hh := ApF.half R
  have h := ApF.round (hb.2.add0 hh.2) (by norm_num; linarith) (by linarith) (by linarith [R.v_le]) (R.f_add _ _ hb.1 hh.1)
  refine ⟨h.1, h.2.err.trans (mul_le_mul_of_nonneg_right ?_ (by linarith))⟩
  nlinarith

theorem Tw.cos (hr : R.Twiddles r) {θ : F} (h : ApF R θ x (2 * π) ((1 + R.v) ^ 7 / (1 - R.v))) : Tw R 1 r (fromF64 (F64.cos θ)) (Real.cos x) := ApF.conv' hr (ApF.cos h)
theorem Tw.sin (hr : R.Twiddles r) {θ : F} (h : ApF R θ x (2 * π) ((1 + R.v) ^ 7 / (1 - R.v))) : Tw R 1 r (fromF64 (F64.sin θ)) (Real.sin x) := ApF.conv' hr (ApF.sin h)

/-! ### The tables of the naive algorithms -/

theorem Dct1Naive.tw_tab (hr : R.Twiddles r) {n : ℕ} (hn : 2 ≤ n) (hn' : n ≤ 2 ^ 60) : ∀ j < (n - 1) * 2, Tw R 1 r (Dct1Naive.tab n j : T) (Dct1Naive.tab n j : ℝ) := by
  intro j hj
  have hy : (0 : ℝ) < (n - 1 : ℕ) := by exact_mod_cast (by omega : 0 < n - 1)
  exact Tw.cos hr (ApF.ang hy ((ApF.pidiv_nat R (by omega) (by omega)).mono (R.ang_mono (by norm_num))) (by omega) (by exact_mod_cast (by omega : j ≤ 2 * (n - 1))))
theorem Dst1Naive.tw_tab (hr : R.Twiddles r) {n : ℕ} (hn' : n ≤ 2 ^ 60) : ∀ j < (n + 1) * 2, Tw R 1 r (Dst1Naive.tab n j : T) (Dst1Naive.tab n j : ℝ) := by
  intro j hj
  have hy : (0 : ℝ) < (n + 1 : ℕ) := by exact_mod_cast (by omega : 0 < n + 1)
  exact Tw.sin hr (ApF.ang hy ((ApF.pidiv_nat R (by omega) (by omega)).mono (R.ang_mono (by norm_num))) (by omega) (by exact_mod_cast (by omega : j ≤ 2 * (n + 1))))
theorem Type4Naive.tw_tab (hr : R.Twiddles r) {n : ℕ} (hn' : n ≤ 2 ^ 60) : ∀ j < n * 4, Tw R 1 r (Type4Naive.tab n j : Cx T).re (Type4Naive.tab n j : Cx ℝ).re ∧ Tw R 1 r (Type4Naive.tab n j : Cx T).im (Type4Naive.tab n j : Cx ℝ).im := by
  intro j hj
  exact ⟨Ieee.twh_re hr (by omega) (by omega), Ieee.twh_im hr (by omega) (by omega)⟩
theorem Type2And3Naive.tw_tab (hr : R.Twiddles r) {n : ℕ} (hn' : n ≤ 2 ^ 60) : ∀ j < n * 4, Tw R 1 r (Type2And3Naive.tab n j : Cx T).re (Type2And3Naive.tab n j : Cx ℝ).re ∧ Tw R 1 r (Type2And3Naive.tab n j : Cx T).im (Type2And3Naive.tab n j : Cx ℝ).im := by
  intro j hj
  exact ⟨Ieee.tw_re hr (by omega) (by omega) (by omega), Ieee.tw_im hr (by omega) (by omega) (by omega)⟩
theorem Dct5Naive.tw_tab (hr : R.Twiddles r) {n : ℕ} (hn : 1 ≤ n) (hn' : n ≤ 2 ^ 60) : ∀ j < n * 2 - 1, Tw R 1 r (Dct5Naive.tab n j : T) (Dct5Naive.tab n j : ℝ) := by
  intro j hj
  have h1 : (1 : ℝ) ≤ n := by exact_mod_cast hn
  have h2 : (n : ℝ) ≤ 2 ^ 60 := by exact_mod_cast hn'
  have hy : (0 : ℝ) < n - 1 / 2 := by linarith
  have hj' : (j : ℝ) + 2 ≤ n * 2 := by exact_mod_cast (by omega : j + 2 ≤ n * 2)
  exact Tw.cos hr (ApF.ang hy (ApF.pidiv' R (by linarith) (by linarith) (R.nat_sub_half hn (by omega))) (by omega) (by linarith))
theorem Dst5Naive.tw_tab (hr : R.Twiddles r) {n : ℕ} (hn' : n ≤ 2 ^ 60) : ∀ j < n * 2 + 1, Tw R 1 r (Dst5Naive.tab n j : T) (Dst5Naive.tab n j : ℝ) := by
  intro j hj
  have h1 : (0 : ℝ) ≤ n := Nat.cast_nonneg n
  have h2 : (n : ℝ) ≤ 2 ^ 60 := by exact_mod_cast hn'
  have hy : (0 : ℝ) < n + 1 / 2 := by linarith
  have hj' : (j : ℝ) ≤ n * 2 := by exact_mod_cast (by omega : j ≤ n * 2)
  exact Tw.sin hr (ApF.ang hy (ApF.pidiv' R (by linarith) (by linarith) (R.nat_add_half (by omega))) (by omega) (by linarith))
theorem Dct6And7Naive.tw_tab (hr : R.Twiddles r) {n : ℕ} (hn : 1 ≤ n) (hn' : n ≤ 2 ^ 60) : ∀ j < n * 4 - 2, Tw R 1 r (Dct6And7Naive.tab n j : T) (Dct6And7Naive.tab n j : ℝ) := by
  intro j hj
  have hy : (0 : ℝ) < (n * 2 - 1 : ℕ) := by exact_mod_cast (by omega : 0 < n * 2 - 1)
  exact Tw.cos hr (ApF.ang hy ((ApF.pidiv_nat R (by omega) (by omega)).mono (R.ang_mono (by norm_num))) (by omega) (by have := (by exact_mod_cast (by omega : j + 1 ≤ 2 * (n * 2 - 1)) : (j : ℝ) + 1 ≤ 2 * (n * 2 - 1 : ℕ)); linarith))
theorem Dst6And7Naive.tw_tab (hr : R.Twiddles r) {n : ℕ} (hn' : n ≤ 2 ^ 60) : ∀ j < n * 4 + 2, Tw R 1 r (Dst6And7Naive.tab n j : T) (Dst6And7Naive.tab n j : ℝ) := by
  intro j hj
  have hy : (0 : ℝ) < (n * 2 + 1 : ℕ) := by exact_mod_cast (by omega : 0 < n * 2 + 1)
  exact Tw.sin hr (ApF.ang hy ((ApF.pidiv_nat R (by omega) (by omega)).mono (R.ang_mono (by norm_num))) (by omega) (by have := (by exact_mod_cast (by omega : j + 1 ≤ 2 * (n * 2 + 1)) : (j : ℝ) + 1 ≤ 2 * (n * 2 + 1 : ℕ)); linarith))
theorem Dct8Naive.tw_tab (hr : R.Twiddles r) {n : ℕ} (hn' : n ≤ 2 ^ 60) : ∀ j < n * 4 + 2, Tw R 1 r (Dct8Naive.tab n j : T) (Dct8Naive.tab n j : ℝ) := by
  intro j hj
  have hy : (0 : ℝ) < (n * 2 + 1 : ℕ) := by exact_mod_cast (by omega : 0 < n * 2 + 1)
  exact Tw.cos hr (ApF.angh hy (ApF.pidiv_nat R (by omega) (by omega)) (by omega) (by have := (by exact_mod_cast (by omega : j + 1 ≤ 2 * (n * 2 + 1)) : (j : ℝ) + 1 ≤ 2 * (n * 2 + 1 : ℕ)); linarith))
theorem Dst8Naive.tw_tab (hr : R.Twiddles r) {n : ℕ} (hn : 1 ≤ n) (hn' : n ≤ 2 ^ 60) : ∀ j < n * 4 - 2, Tw R 1 r (Dst8Naive.tab n j : T) (Dst8Naive.tab n j : ℝ) := by
  intro j hj
  have hy : (0 : ℝ) < (n * 2 - 1 : ℕ) := by exact_mod_cast (by omega : 0 < n * 2 - 1)
  exact Tw.sin hr (ApF.angh hy (ApF.pidiv_nat R (by omega) (by omega)) (by omega) (by have := (by exact_mod_cast (by omega : j + 1 ≤ 2 * (n * 2 - 1)) : (j : ℝ) + 1 ≤ 2 * (n * 2 - 1 : ℕ)); linarith))

end
end RustDct
