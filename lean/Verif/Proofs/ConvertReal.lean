import Verif.FftSpec
import Verif.Proofs.ConvertFft
import Verif.Proofs.NaiveReal
/-!
# Over ℝ, with an FFT that computes the DFT, the FFT-based algorithms compute the textbook transforms (types 1-3)
-/

set_option linter.all false

namespace RustDct
open Real Finset

/-! ### rearranging sums -/

theorem sum_even_odd (n : ℕ) (g : ℕ → ℝ) :
    ∑ i ∈ range n, g i = ∑ j ∈ range ((n + 1) / 2), g (2 * j) + ∑ j ∈ range (n / 2), g (2 * j + 1) := by
  induction n with
  | zero => simp
  | succ n ih =>
    rw [sum_range_succ, ih]
    rcases Nat.even_or_odd' n with ⟨m, rfl | rfl⟩
    · rw [show (2 * m + 1) / 2 = m by omega, show 2 * m / 2 = m by omega, show (2 * m + 1 + 1) / 2 = m + 1 by omega,
        sum_range_succ]
      ring
    · rw [show (2 * m + 1 + 1) / 2 = m + 1 by omega, show (2 * m + 1) / 2 = m by omega,
        show (2 * m + 1 + 1 + 1) / 2 = m + 1 by omega]
      rw [sum_range_succ (fun j => g (2 * j + 1))]
      ring

theorem sum_half_reflect (n : ℕ) (h : ℕ → ℝ) :
    ∑ j ∈ range n, h j = ∑ j ∈ range ((n + 1) / 2), h j + ∑ j ∈ range (n / 2), h (n - 1 - j) := by
  rw [← Finset.sum_range_add_sum_Ico h (show (n + 1) / 2 ≤ n by omega)]
  congr 1
  rw [Finset.range_eq_Ico]
  have := Finset.sum_Ico_reflect h 0 (m := n / 2) (n := n - 1) (by omega)
  rw [this]
  congr 1
  rcases Nat.eq_zero_or_pos n with h0 | h0
  · subst h0; simp
  · congr 1 <;> omega

theorem sum_gather (n : ℕ) (g : ℕ → ℝ) :
    ∑ j ∈ range n, (if j < (n + 1) / 2 then g (j * 2) else g (2 * (n - 1 - j) + 1)) = ∑ i ∈ range n, g i := by
  rw [sum_half_reflect, sum_even_odd n g]
  congr 1
  · refine sum_congr rfl fun j hj => ?_
    rw [mem_range] at hj
    rw [if_pos hj, mul_comm]
  · refine sum_congr rfl fun j hj => ?_
    rw [mem_range] at hj
    rw [if_neg (by omega)]
    congr 2; omega

/-! ### Trigonometry at multiples of π -/

theorem cos_nat_two_pi_sub (m : ℕ) (x : ℝ) : cos (2 * π * m - x) = cos x := by
  rw [show 2 * π * m - x = m * (2 * π) - x by ring, Real.cos_nat_mul_two_pi_sub]
theorem sin_nat_two_pi_sub (m : ℕ) (x : ℝ) : sin (2 * π * m - x) = -sin x := by
  rw [show 2 * π * m - x = m * (2 * π) - x by ring, Real.sin_nat_mul_two_pi_sub]
theorem cos_nat_two_pi_add (m : ℕ) (x : ℝ) : cos (2 * π * m + x) = cos x := by
  rw [show 2 * π * m + x = x + m * (2 * π) by ring, Real.cos_add_nat_mul_two_pi]
theorem sin_nat_two_pi_add (m : ℕ) (x : ℝ) : sin (2 * π * m + x) = sin x := by
  rw [show 2 * π * m + x = x + m * (2 * π) by ring, Real.sin_add_nat_mul_two_pi]

/-! ### Relations used by several algorithms -/

theorem neg_one_pow_cos (i : ℕ) : sin (π * i + π / 2) = (-1) ^ i := by
  rw [show π * i + π / 2 = π / 2 + i * π by ring, Real.sin_add_nat_mul_pi, Real.sin_pi_div_two, mul_one]
theorem cos_half_odd (i : ℕ) : cos (π * i + π / 2) = 0 := by
  rw [show π * i + π / 2 = π / 2 + i * π by ring, Real.cos_add_nat_mul_pi, Real.cos_pi_div_two, mul_zero]

/-- The DST2 is the DCT2 of the input with alternating signs, read backwards. -/
theorem dst2At_eq {n : ℕ} (f : ℕ → ℝ) {k : ℕ} (hk : k < n) :
    Spec.dst2At n f (n - 1 - k) = Spec.dct2At n (fun i => (-1) ^ i * f i) k := by
  have hn : (n : ℝ) ≠ 0 := by exact_mod_cast (by omega : n ≠ 0)
  unfold Spec.dst2At Spec.dct2At
  refine sum_congr rfl fun i hi => ?_
  have e : ((n - 1 - k : ℕ) : ℝ) + 1 = n - k := by
    rw [show n - 1 - k = n - (k + 1) by omega, Nat.cast_sub (by omega)]; push_cast; ring
  rw [e, show ((n : ℝ) - k) * (i + 1 / 2) * π / n = (π * i + π / 2) - k * (i + 1 / 2) * π / n by field_simp,
    sin_sub, neg_one_pow_cos, cos_half_odd]
  ring

/-- The DST3 is the DCT3 of the reversed input, with alternating signs. -/
theorem dst3At_eq {n : ℕ} (f : ℕ → ℝ) {k : ℕ} (hk : k < n) :
    Spec.dst3At n f k = (-1) ^ k * Spec.dct3At n (fun i => f (n - 1 - i)) k := by
  have hn : (n : ℝ) ≠ 0 := by exact_mod_cast (by omega : n ≠ 0)
  unfold Spec.dst3At Spec.dct3At
  rw [mul_sum, ← Finset.sum_range_reflect]
  refine sum_congr rfl fun i hi => ?_
  rw [mem_range] at hi
  have e : ((n - 1 - i : ℕ) : ℝ) + 1 = n - i := by
    rw [show n - 1 - i = n - (i + 1) by omega, Nat.cast_sub (by omega)]; push_cast; ring
  have eh : Spec.halfAt (n - 1) (n - 1 - i) = Spec.halfAt 0 i := by
    unfold Spec.halfAt
    by_cases h : i = 0
    · simp [h]
    · rw [if_neg h, if_neg (by omega)]
  rw [e, eh, show ((k : ℝ) + 1 / 2) * (n - i) * π / n = (π * k + π / 2) - (k + 1 / 2) * i * π / n by field_simp,
    sin_sub, neg_one_pow_cos, cos_half_odd]
  ring

/-- The DST4 is the DCT4 of the reversed input, with alternating signs. -/
theorem dst4At_eq {n : ℕ} (f : ℕ → ℝ) {k : ℕ} (hk : k < n) :
    Spec.dst4At n f k = (-1) ^ k * Spec.dct4At n (fun i => f (n - 1 - i)) k := by
  have hn : (n : ℝ) ≠ 0 := by exact_mod_cast (by omega : n ≠ 0)
  unfold Spec.dst4At Spec.dct4At
  rw [mul_sum, ← Finset.sum_range_reflect]
  refine sum_congr rfl fun i hi => ?_
  rw [mem_range] at hi
  have e : ((n - 1 - i : ℕ) : ℝ) = n - (i + 1) := by
    rw [show n - 1 - i = n - (i + 1) by omega, Nat.cast_sub (by omega)]; push_cast; ring
  rw [e, show ((k : ℝ) + 1 / 2) * (n - (i + 1) + 1 / 2) * π / n = (π * k + π / 2) - (k + 1 / 2) * (i + 1 / 2) * π / n by
    field_simp; ring, sin_sub, neg_one_pow_cos, cos_half_odd]
  ring

/-! ### Type 1 -/

theorem Dct1ConvertToFft.correct {fft : Fft ℝ} (h : FftContract fft) {n : ℕ} (hn : 2 ≤ n) (hL : fft.len = (n - 1) * 2) :
    RunsV (Dct1ConvertToFft.inst fft).dct1 n (Dct1ConvertToFft.inst fft).scratchLen (Spec.dct1At n) := by
  refine (Dct1ConvertToFft.runs h.runs hn hL).congr ?_
  intro f k hk
  have e1 : ((n - 1 : ℕ) : ℝ) = n - 1 := by rw [Nat.cast_sub (by omega)]; simp
  have z1 : ((n : ℝ) - 1) ≠ 0 := by rw [← e1]; exact_mod_cast (by omega : n - 1 ≠ 0)
  rw [hL]
  simp only [dftRI, Cx.ofRe, zero_mul, add_zero, thalf_real, Spec.dct1At]
  have ea : ∀ j : ℕ, 2 * π * ((j : ℝ) * k) / (((n - 1) * 2 : ℕ) : ℝ) = k * j * π / (n - 1) := by
    intro j; push_cast [e1]; field_simp
  simp only [ea]
  -- both sides split at 0, 1..n-1, n-1
  have hr : range ((n - 1) * 2) = range (1 + (n - 2) + 1 + (n - 2)) := by congr 1; omega
  have hq : range n = range (1 + (n - 2) + 1) := by congr 1; omega
  have split : ∑ j ∈ range ((n - 1) * 2), (if j < n then f j else f ((n - 1) * 2 - j)) * cos (k * j * π / (n - 1)) =
      ∑ j ∈ range n, f j * cos (k * j * π / (n - 1)) + ∑ j ∈ Ico 1 (n - 1), f j * cos (k * j * π / (n - 1)) := by
    rw [← Finset.sum_range_add_sum_Ico _ (show n ≤ (n - 1) * 2 by omega)]
    congr 1
    · refine sum_congr rfl fun j hj => ?_
      rw [mem_range] at hj
      rw [if_pos hj]
    · have := Finset.sum_Ico_reflect (fun j : ℕ => f j * cos (k * j * π / (n - 1))) n (m := (n - 1) * 2)
        (n := (n - 1) * 2) (by omega)
      rw [show (n - 1) * 2 + 1 - (n - 1) * 2 = 1 by omega, show (n - 1) * 2 + 1 - n = n - 1 by omega] at this
      rw [← this]
      refine sum_congr rfl fun j hj => ?_
      rw [mem_Ico] at hj
      rw [if_neg (by omega)]
      congr 1
      rw [Nat.cast_sub (by omega)]
      push_cast [e1]
      rw [show (k : ℝ) * (((n : ℝ) - 1) * 2 - j) * π / (n - 1) = 2 * π * k - k * j * π / (n - 1) by field_simp,
        cos_nat_two_pi_sub]
  rw [split]
  have hsp : ∀ g : ℕ → ℝ, ∑ j ∈ range n, g j = g 0 + ∑ j ∈ Ico 1 (n - 1), g j + g (n - 1) := by
    intro g
    rw [sum_range_split (by omega), ← Finset.sum_Ico_consecutive g (show 1 ≤ n - 1 by omega) (show n - 1 ≤ n by omega)]
    rw [show Ico (n - 1) n = {n - 1} by
      ext x; simp only [mem_Ico, mem_singleton]; omega, sum_singleton]
    ring
  rw [hsp, hsp]
  have : ∑ j ∈ Ico 1 (n - 1), Spec.halfAt 0 j * Spec.halfAt (n - 1) j * f j * cos (k * j * π / (n - 1)) =
      ∑ j ∈ Ico 1 (n - 1), f j * cos (k * j * π / (n - 1)) := by
    refine sum_congr rfl fun j hj => ?_
    rw [mem_Ico] at hj
    unfold Spec.halfAt
    rw [if_neg (by omega), if_neg (by omega)]; ring
  rw [this]
  have h0 : Spec.halfAt 0 0 * Spec.halfAt (n - 1) 0 = 1 / 2 := by
    unfold Spec.halfAt; rw [if_pos rfl, if_neg (by omega)]; ring
  have h1 : Spec.halfAt 0 (n - 1) * Spec.halfAt (n - 1) (n - 1) = 1 / 2 := by
    unfold Spec.halfAt; rw [if_neg (by omega), if_pos rfl]; ring
  rw [h0, h1]
  ring

/-- What the scratch contents add to output `k` of the DST1 conversion. -/
noncomputable def dst1Pollution (n : ℕ) (g : ℕ → ℝ) (k : ℕ) : ℝ :=
  (g 1 - (-1) ^ k * g (2 * (n + 1) + 1)) / 2

theorem Dst1ConvertToFft.correct {fft : Fft ℝ} (h : FftContract fft) {n : ℕ} (hL : fft.len = (n + 1) * 2) :
    RunsG (Dst1ConvertToFft.inst fft).dst1 n (Dst1ConvertToFft.inst fft).scratchLen (fun g f k =>
      Spec.dst1At n f k + dst1Pollution n g k) := by
  refine (Dst1ConvertToFft.runs h.runs hL).congr ?_
  intro g f k hk
  have z1 : ((n : ℝ) + 1) ≠ 0 := by positivity
  rw [hL]
  simp only [dftRI, thalf_real, Spec.dst1At, dst1Pollution]
  have e1 : (((n + 1) * 2 - 1 - k : ℕ) : ℝ) = (n + 1) * 2 - (k + 1) := by
    rw [show (n + 1) * 2 - 1 - k = (n + 1) * 2 - (k + 1) by omega, Nat.cast_sub (by omega)]; push_cast; ring
  have es : ∀ j : ℕ, sin (2 * π * ((j : ℝ) * (((n + 1) * 2 - 1 - k : ℕ) : ℝ)) / (((n + 1) * 2 : ℕ) : ℝ)) =
      -sin ((k + 1) * j * π / (n + 1)) := by
    intro j
    rw [e1, show 2 * π * ((j : ℝ) * ((n + 1) * 2 - (k + 1))) / (((n + 1) * 2 : ℕ) : ℝ) =
      2 * π * j - (k + 1) * j * π / (n + 1) by push_cast; field_simp, sin_nat_two_pi_sub]
  have ec : ∀ j : ℕ, cos (2 * π * ((j : ℝ) * (((n + 1) * 2 - 1 - k : ℕ) : ℝ)) / (((n + 1) * 2 : ℕ) : ℝ)) =
      cos ((k + 1) * j * π / (n + 1)) := by
    intro j
    rw [e1, show 2 * π * ((j : ℝ) * ((n + 1) * 2 - (k + 1))) / (((n + 1) * 2 : ℕ) : ℝ) =
      2 * π * j - (k + 1) * j * π / (n + 1) by push_cast; field_simp, cos_nat_two_pi_sub]
  simp only [es, ec]
  rw [show (n + 1) * 2 = 1 + n + 1 + n by omega, sum_range_add, sum_range_succ, sum_range_add, sum_range_one]
  have a0 : dst1FftInput n g f 0 = ⟨g 0, g 1⟩ := by simp [dst1FftInput]
  have a1 : ∀ i, i < n → dst1FftInput n g f (1 + i) = ⟨f i, 0⟩ := by
    intro i hi
    simp only [dst1FftInput, Cx.ofRe]
    rw [if_neg (by omega), if_pos (by omega)]
    congr 2; omega
  have a2 : dst1FftInput n g f (1 + n) = ⟨g (2 * (n + 1)), g (2 * (n + 1) + 1)⟩ := by
    simp [dst1FftInput, add_comm]
  have a3 : ∀ i, i < n → dst1FftInput n g f (1 + n + 1 + i) = ⟨-(f (n - 1 - i)), 0⟩ := by
    intro i hi
    simp only [dst1FftInput, Cx.ofRe]
    rw [if_neg (by omega), if_neg (by omega)]
    congr 3; omega
  rw [a0, a2]
  have s1 : ∑ i ∈ range n, ((dst1FftInput n g f (1 + i)).im * cos ((k + 1) * ((1 + i : ℕ) : ℝ) * π / (n + 1)) -
      (dst1FftInput n g f (1 + i)).re * -sin ((k + 1) * ((1 + i : ℕ) : ℝ) * π / (n + 1))) =
      ∑ i ∈ range n, f i * sin ((k + 1) * (i + 1) * π / (n + 1)) := by
    refine sum_congr rfl fun i hi => ?_
    rw [mem_range] at hi
    rw [a1 i hi]
    push_cast
    rw [show (1 : ℝ) + i = i + 1 by ring]
    ring
  have s3 : ∑ i ∈ range n, ((dst1FftInput n g f (1 + n + 1 + i)).im *
      cos ((k + 1) * ((1 + n + 1 + i : ℕ) : ℝ) * π / (n + 1)) -
      (dst1FftInput n g f (1 + n + 1 + i)).re * -sin ((k + 1) * ((1 + n + 1 + i : ℕ) : ℝ) * π / (n + 1))) =
      ∑ i ∈ range n, f i * sin ((k + 1) * (i + 1) * π / (n + 1)) := by
    rw [← Finset.sum_range_reflect (fun i : ℕ => f i * sin ((k + 1) * (i + 1) * π / (n + 1)))]
    refine sum_congr rfl fun i hi => ?_
    rw [mem_range] at hi
    rw [a3 i hi]
    have e : ((n - 1 - i : ℕ) : ℝ) = n - (i + 1) := by
      rw [show n - 1 - i = n - (i + 1) by omega, Nat.cast_sub (by omega)]; push_cast; ring
    rw [e]
    have : sin (((k : ℝ) + 1) * ((1 + n + 1 + i : ℕ) : ℝ) * π / (n + 1)) = -sin (((k : ℝ) + 1) * (n - (i + 1) + 1) * π / (n + 1)) := by
      rw [show ((k : ℝ) + 1) * ((1 + n + 1 + i : ℕ) : ℝ) * π / (n + 1) =
        2 * π * ((k + 1 : ℕ) : ℝ) - ((k : ℝ) + 1) * (n - (i + 1) + 1) * π / (n + 1) by push_cast; field_simp; ring,
        sin_nat_two_pi_sub]
    rw [this]
    ring
  rw [s1, s3]
  have c0 : cos (((k : ℝ) + 1) * ((0 : ℕ) : ℝ) * π / (n + 1)) = 1 := by simp
  have c1 : cos (((k : ℝ) + 1) * ((1 + n : ℕ) : ℝ) * π / (n + 1)) = -(-1) ^ k := by
    rw [show ((k : ℝ) + 1) * ((1 + n : ℕ) : ℝ) * π / (n + 1) = ((k + 1 : ℕ) : ℝ) * π by push_cast; field_simp; ring,
      Real.cos_nat_mul_pi, pow_succ]; ring
  have d0 : sin (((k : ℝ) + 1) * ((0 : ℕ) : ℝ) * π / (n + 1)) = 0 := by simp
  have d1 : sin (((k : ℝ) + 1) * ((1 + n : ℕ) : ℝ) * π / (n + 1)) = 0 := by
    rw [show ((k : ℝ) + 1) * ((1 + n : ℕ) : ℝ) * π / (n + 1) = ((k + 1 : ℕ) : ℝ) * π by push_cast; field_simp; ring,
      Real.sin_nat_mul_pi]
  rw [c0, c1, d0, d1]
  ring

/-! ### Types 2 and 3 -/

theorem mul_dft_re {n : ℕ} (y : ℕ → ℝ) (k : ℕ) (a : ℝ) :
    (dftRI n (fun j => Cx.ofRe (y j)) k).re * cos a - (dftRI n (fun j => Cx.ofRe (y j)) k).im * -sin a =
      ∑ j ∈ range n, y j * cos (2 * π * (j * k) / n + a) := by
  simp only [dftRI, Cx.ofRe, zero_mul, add_zero, zero_sub]
  rw [sum_mul, sum_mul, ← sum_sub_distrib]
  refine sum_congr rfl fun j hj => ?_
  rw [cos_add]; ring

theorem dct2_core {n : ℕ} (f : ℕ → ℝ) {k : ℕ} (hn : n ≠ 0) :
    (Cx.mul (dftRI n (fun j => if j < (n + 1) / 2 then Cx.ofRe (f (j * 2)) else Cx.ofRe (f (2 * (n - 1 - j) + 1))) k)
        (singleTwiddle k (n * 4))).re = Spec.dct2At n f k := by
  have z : (n : ℝ) ≠ 0 := by exact_mod_cast hn
  simp only [← apply_ite (Cx.ofRe : ℝ → Cx ℝ)]
  simp only [Cx.mul, singleTwiddle_re, singleTwiddle_im]
  rw [mul_dft_re]
  unfold Spec.dct2At
  rw [← sum_gather n (fun i => f i * cos (k * (i + 1 / 2) * π / n))]
  refine sum_congr rfl fun j hj => ?_
  rw [mem_range] at hj
  by_cases h : j < (n + 1) / 2
  · rw [if_pos h, if_pos h]
    congr 2
    push_cast; field_simp; ring
  · rw [if_neg h, if_neg h]
    congr 1
    have e : ((n - 1 - j : ℕ) : ℝ) = n - (j + 1) := by
      rw [show n - 1 - j = n - (j + 1) by omega, Nat.cast_sub (by omega)]; push_cast; ring
    rw [show 2 * π * ((j : ℝ) * k) / n + 2 * π / ((n * 4 : ℕ) : ℝ) * k =
      2 * π * k - k * (((2 * (n - 1 - j) + 1 : ℕ) : ℝ) + 1 / 2) * π / n by push_cast [e]; field_simp; ring,
      cos_nat_two_pi_sub]

theorem Type2And3ConvertToFft.correct_dct2 {fft : Fft ℝ} (h : FftContract fft) {n : ℕ} (hL : fft.len = n) :
    RunsV (Type2And3ConvertToFft.inst fft).dct2 n (Type2And3ConvertToFft.inst fft).scratchLen (Spec.dct2At n) := by
  refine (Type2And3ConvertToFft.runs_dct2 h.runs hL).congr ?_
  intro f k hk
  subst hL
  exact dct2_core f (by omega)

theorem Type2And3ConvertToFft.correct_dst2 {fft : Fft ℝ} (h : FftContract fft) {n : ℕ} (hL : fft.len = n) :
    RunsV (Type2And3ConvertToFft.inst fft).dst2 n (Type2And3ConvertToFft.inst fft).scratchLen (Spec.dst2At n) := by
  refine (Type2And3ConvertToFft.runs_dst2 h.runs hL).congr ?_
  intro f k hk
  subst hL
  have := dct2_core (n := fft.len) (fun i => (-1) ^ i * f i) (k := fft.len - 1 - k) (by omega)
  rw [← dst2At_eq f (by omega), show fft.len - 1 - (fft.len - 1 - k) = k by omega] at this
  rw [← this]
  simp only [pow_add, pow_mul, mul_comm _ 2, pow_one, even_two, Even.neg_pow, one_pow, one_mul, neg_mul]

theorem dct3_core {n : ℕ} (f : ℕ → ℝ) {m : ℕ} (hn : 1 ≤ n) :
    (dftRI n (fun j => if j = 0 then Cx.ofRe (f 0 * (1 / 2)) else
        Cx.scale (Cx.mul ⟨f j, f (n - j)⟩ (singleTwiddle j (n * 4))) (1 / 2)) m).re =
      ∑ i ∈ range n, Spec.halfAt 0 i * f i * cos (i * (4 * m + 1) * π / (2 * n)) := by
  have z : (n : ℝ) ≠ 0 := by exact_mod_cast (by omega : n ≠ 0)
  simp only [dftRI]
  rw [sum_range_split hn, sum_range_split hn]
  congr 1
  · simp [Cx.ofRe, Spec.halfAt]; ring
  · have e1 : ∀ j ∈ Ico 1 n, ((if j = 0 then Cx.ofRe (f 0 * (1 / 2)) else
        Cx.scale (Cx.mul ⟨f j, f (n - j)⟩ (singleTwiddle j (n * 4))) (1 / 2)).re * cos (2 * π * (j * m) / n) +
        (if j = 0 then Cx.ofRe (f 0 * (1 / 2)) else
        Cx.scale (Cx.mul ⟨f j, f (n - j)⟩ (singleTwiddle j (n * 4))) (1 / 2)).im * sin (2 * π * (j * m) / n) : ℝ) =
        1 / 2 * (f j * cos (j * (4 * m + 1) * π / (2 * n))) + 1 / 2 * (f (n - j) * sin (j * (4 * m + 1) * π / (2 * n))) := by
      intro j hj
      rw [mem_Ico] at hj
      rw [if_neg (by omega)]
      simp only [Cx.scale, Cx.mul, singleTwiddle_re, singleTwiddle_im]
      rw [show (j : ℝ) * (4 * m + 1) * π / (2 * n) = 2 * π * (j * m) / n + 2 * π / ((n * 4 : ℕ) : ℝ) * j by
        push_cast; field_simp; ring, cos_add, sin_add]
      ring
    rw [sum_congr rfl e1, sum_add_distrib]
    have e2 : ∑ j ∈ Ico 1 n, 1 / 2 * (f (n - j) * sin (j * (4 * m + 1) * π / (2 * n))) =
        ∑ j ∈ Ico 1 n, 1 / 2 * (f j * cos (j * (4 * m + 1) * π / (2 * n))) := by
      have := Finset.sum_Ico_reflect (fun j : ℕ => 1 / 2 * (f j * cos (j * (4 * m + 1) * π / (2 * n)))) 1 (m := n)
        (n := n) (by omega)
      rw [show n + 1 - n = 1 by omega, show n + 1 - 1 = n by omega] at this
      rw [← this]
      refine sum_congr rfl fun j hj => ?_
      rw [mem_Ico] at hj
      congr 2
      rw [Nat.cast_sub (by omega), show ((n : ℝ) - j) * (4 * m + 1) * π / (2 * n) =
        2 * π * m + (π / 2 - j * (4 * m + 1) * π / (2 * n)) by field_simp; ring, cos_nat_two_pi_add, cos_pi_div_two_sub]
    rw [e2, ← sum_add_distrib]
    refine sum_congr rfl fun j hj => ?_
    rw [mem_Ico] at hj
    unfold Spec.halfAt
    rw [if_neg (by omega)]
    ring

theorem dct3_scatter {n : ℕ} (f : ℕ → ℝ) {k : ℕ} (hk : k < n) :
    ∑ i ∈ range n, Spec.halfAt 0 i * f i *
      cos (i * (4 * ((if k % 2 = 0 then k / 2 else n - 1 - k / 2 : ℕ) : ℝ) + 1) * π / (2 * n)) = Spec.dct3At n f k := by
  have z : (n : ℝ) ≠ 0 := by exact_mod_cast (by omega : n ≠ 0)
  unfold Spec.dct3At
  refine sum_congr rfl fun i hi => ?_
  congr 1
  by_cases h : k % 2 = 0
  · rw [if_pos h]
    have e : (k : ℝ) = 2 * ((k / 2 : ℕ) : ℝ) := by exact_mod_cast (by omega : k = 2 * (k / 2))
    congr 1
    rw [e, show 2 * ((k / 2 : ℕ) : ℝ) = (2 * (k / 2) : ℕ) by push_cast; ring]
    push_cast
    field_simp
    ring
  · rw [if_neg h]
    have e : (k : ℝ) = 2 * ((k / 2 : ℕ) : ℝ) + 1 := by exact_mod_cast (by omega : k = 2 * (k / 2) + 1)
    have e2 : ((n - 1 - k / 2 : ℕ) : ℝ) = n - ((k / 2 : ℕ) + 1) := by
      rw [show n - 1 - k / 2 = n - (k / 2 + 1) by omega, Nat.cast_sub (by omega)]; push_cast; ring
    rw [e2, e]
    rw [show (i : ℝ) * (4 * (n - (((k / 2 : ℕ) : ℝ) + 1)) + 1) * π / (2 * n) =
      2 * π * i - (2 * ((k / 2 : ℕ) : ℝ) + 1 + 1 / 2) * i * π / n by field_simp; ring, cos_nat_two_pi_sub]

theorem Type2And3ConvertToFft.correct_dct3 {fft : Fft ℝ} (h : FftContract fft) {n : ℕ} (hn : 1 ≤ n) (hL : fft.len = n) :
    RunsV (Type2And3ConvertToFft.inst fft).dct3 n (Type2And3ConvertToFft.inst fft).scratchLen (Spec.dct3At n) := by
  refine (Type2And3ConvertToFft.runs_dct3 h.runs hn hL).congr ?_
  intro f k hk
  subst hL
  simp only [thalf_real]
  rw [dct3_core f hn, dct3_core f hn, ← dct3_scatter f hk]
  by_cases h : k % 2 = 0 <;> simp [h]

theorem Type2And3ConvertToFft.correct_dst3 {fft : Fft ℝ} (h : FftContract fft) {n : ℕ} (hn : 1 ≤ n) (hL : fft.len = n) :
    RunsV (Type2And3ConvertToFft.inst fft).dst3 n (Type2And3ConvertToFft.inst fft).scratchLen (Spec.dst3At n) := by
  refine (Type2And3ConvertToFft.runs_dst3 h.runs hn hL).congr ?_
  intro f k hk
  subst hL
  simp only [thalf_real]
  rw [dst3At_eq f hk, ← dct3_scatter _ hk]
  have key : ∀ m, (dftRI fft.len (fun j => if j = 0 then Cx.ofRe (f (fft.len - 1) * (1 / 2)) else
        Cx.scale (Cx.mul ⟨f (fft.len - j - 1), f (j - 1)⟩ (singleTwiddle j (fft.len * 4))) (1 / 2)) m).re =
      ∑ i ∈ range fft.len, Spec.halfAt 0 i * f (fft.len - 1 - i) * cos (i * (4 * m + 1) * π / (2 * fft.len)) := by
    intro m
    rw [← dct3_core (fun i => f (fft.len - 1 - i)) hn]
    have : ∀ c c' : ℕ → Cx ℝ, (∀ j, j < fft.len → c j = c' j) → dftRI fft.len c m = dftRI fft.len c' m := by
      intro c c' hc
      unfold dftRI
      congr 1 <;> refine sum_congr rfl fun j hj => ?_ <;> rw [hc j (mem_range.mp hj)]
    congr 1
    apply this
    intro j hj
    by_cases h0 : j = 0
    · simp [h0]
    · rw [if_neg h0, if_neg h0]
      have i1 : fft.len - j - 1 = fft.len - 1 - j := by omega
      have i2 : fft.len - 1 - (fft.len - j) = j - 1 := by omega
      simp only [i1, i2]
  rw [key, key]
  by_cases h : k % 2 = 0
  · have : Even k := Nat.even_iff.mpr h
    simp [h, this.neg_one_pow]
  · have : Odd k := Nat.odd_iff.mpr (by omega)
    simp [h, this.neg_one_pow]

end RustDct
