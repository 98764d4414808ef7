import Verif.Proofs.ConvertReal
import Verif.Proofs.ConvertFft4
/-!
# Over ℝ, with an FFT that computes the DFT, `Type4ConvertToFftOdd` computes DCT4 and DST4
-/

set_option linter.all false

namespace RustDct
open Real Finset

theorem fold4_lt {n j : ℕ} (hn : n % 2 = 1) (hj : j < n) : fold4 n (n / 2 + 4 * j) < n := by
  unfold fold4; split_ifs <;> omega

theorem fold4_inj {n i j : ℕ} (hn : n % 2 = 1) (hi : i < n) (hj : j < n)
    (h : fold4 n (n / 2 + 4 * i) = fold4 n (n / 2 + 4 * j)) : i = j := by
  unfold fold4 at h; split_ifs at h <;> omega

theorem sum_fold4 {n : ℕ} (hn : n % 2 = 1) (g : ℕ → ℝ) :
    ∑ j ∈ range n, g (fold4 n (n / 2 + 4 * j)) = ∑ i ∈ range n, g i := by
  have hinj : Set.InjOn (fun j => fold4 n (n / 2 + 4 * j)) (range n : Finset ℕ) := by
    intro i hi j hj h
    simp only [coe_range, Set.mem_Iio] at hi hj
    exact fold4_inj hn hi hj h
  have him : (range n).image (fun j => fold4 n (n / 2 + 4 * j)) = range n := by
    apply Finset.eq_of_subset_of_card_le
    · intro x hx
      rw [mem_image] at hx
      obtain ⟨j, hj, rfl⟩ := hx
      rw [mem_range] at hj ⊢
      exact fold4_lt hn hj
    · rw [Finset.card_image_of_injOn hinj]
  conv_rhs => rw [← him]
  rw [Finset.sum_image hinj]

/-- The samples handed to the FFT. -/
noncomputable def in4 (n : ℕ) (f : ℕ → ℝ) (j : ℕ) : ℝ :=
  if n ≤ n / 2 + 4 * j ∧ n / 2 + 4 * j < 3 * n then -(f (fold4 n (n / 2 + 4 * j))) else f (fold4 n (n / 2 + 4 * j))

theorem type4FftInput_eq (n : ℕ) (f : ℕ → ℝ) : type4FftInput n f = fun j => Cx.ofRe (in4 n f j) := rfl

theorem dct4_core {n : ℕ} (hn : n % 2 = 1) (f : ℕ → ℝ) (k : ℕ) :
    Spec.dct4At n f k = ∑ j ∈ range n, in4 n f j * cos ((2 * k + 1) * π / 4 + 2 * π * (j * (2 * k + 1)) / n) := by
  have z : (n : ℝ) ≠ 0 := by exact_mod_cast (by omega : n ≠ 0)
  unfold Spec.dct4At
  rw [← sum_fold4 hn]
  refine sum_congr rfl fun j hj => ?_
  rw [mem_range] at hj
  have eh : ((n / 2 : ℕ) : ℝ) = (n - 1) / 2 := by
    have : (n : ℝ) = 2 * ((n / 2 : ℕ) : ℝ) + 1 := by exact_mod_cast (by omega : n = 2 * (n / 2) + 1)
    linarith
  have ev : ((n / 2 + 4 * j : ℕ) : ℝ) = (n - 1) / 2 + 4 * j := by push_cast [eh]; ring
  generalize hv : n / 2 + 4 * j = v at ev ⊢
  have ha : (2 * (k : ℝ) + 1) * π / 4 + 2 * π * (j * (2 * k + 1)) / n = (k + 1 / 2) * (v + 1 / 2) * π / n := by
    rw [ev]; field_simp; ring
  rw [ha]
  unfold in4
  rw [hv]
  have hv5 : v < 5 * n := by omega
  unfold fold4
  split_ifs with h1 h2 h3 h4 h5 <;> try omega
  · rfl
  · have e : ((2 * n - 1 - v : ℕ) : ℝ) = 2 * n - (v + 1) := by
      rw [show 2 * n - 1 - v = 2 * n - (v + 1) by omega, Nat.cast_sub (by omega)]; push_cast; ring
    rw [e, show ((k : ℝ) + 1 / 2) * (2 * n - (v + 1) + 1 / 2) * π / n =
      2 * π * k + (π - (k + 1 / 2) * (v + 1 / 2) * π / n) by field_simp; ring, cos_nat_two_pi_add, cos_pi_sub]
    ring
  · have e : ((v - 2 * n : ℕ) : ℝ) = v - 2 * n := by
      rw [Nat.cast_sub (by omega)]; push_cast; ring
    have : cos ((k + 1 / 2) * (v + 1 / 2) * π / n) = -cos ((k + 1 / 2) * (v - 2 * n + 1 / 2) * π / n) := by
      rw [show ((k : ℝ) + 1 / 2) * (v + 1 / 2) * π / n =
        2 * π * k + ((k + 1 / 2) * (v - 2 * n + 1 / 2) * π / n + π) by field_simp; ring, cos_nat_two_pi_add, cos_add_pi]
    rw [e, this]
    ring
  · have e : ((4 * n - 1 - v : ℕ) : ℝ) = 4 * n - (v + 1) := by
      rw [show 4 * n - 1 - v = 4 * n - (v + 1) by omega, Nat.cast_sub (by omega)]; push_cast; ring
    rw [e, show ((k : ℝ) + 1 / 2) * (4 * n - (v + 1) + 1 / 2) * π / n =
      2 * π * (2 * k + 1 : ℕ) - (k + 1 / 2) * (v + 1 / 2) * π / n by push_cast; field_simp; ring, cos_nat_two_pi_sub]
  · have e : ((v - 4 * n : ℕ) : ℝ) = v - 4 * n := by
      rw [Nat.cast_sub (by omega)]; push_cast; ring
    rw [e]
    have : cos ((k + 1 / 2) * (v + 1 / 2) * π / n) = cos ((k + 1 / 2) * (v - 4 * n + 1 / 2) * π / n) := by
      rw [show ((k : ℝ) + 1 / 2) * (v + 1 / 2) * π / n =
        2 * π * (2 * k + 1 : ℕ) + ((k + 1 / 2) * (v - 4 * n + 1 / 2) * π / n) by push_cast; field_simp; ring,
        cos_nat_two_pi_add]
    rw [this]

theorem dct4_low {n : ℕ} (hn : n % 2 = 1) (f : ℕ → ℝ) (k : ℕ) :
    Spec.dct4At n f k = cos ((2 * k + 1) * π / 4) * (dftRI n (type4FftInput n f) (2 * k + 1)).re +
      sin ((2 * k + 1) * π / 4) * (dftRI n (type4FftInput n f) (2 * k + 1)).im := by
  rw [dct4_core hn, type4FftInput_eq]
  simp only [dftRI, Cx.ofRe, zero_mul, add_zero, zero_sub]
  rw [mul_sum, mul_sum, ← sum_add_distrib]
  refine sum_congr rfl fun j hj => ?_
  rw [cos_add]; push_cast; ring

theorem dct4_high {n : ℕ} (hn : n % 2 = 1) (f : ℕ → ℝ) {m : ℕ} (hm : m < n) :
    Spec.dct4At n f (n - 1 - m) = sin (n * π / 2) *
      (sin ((2 * m + 1) * π / 4) * (dftRI n (type4FftInput n f) (2 * m + 1)).re -
      cos ((2 * m + 1) * π / 4) * (dftRI n (type4FftInput n f) (2 * m + 1)).im) := by
  have z : (n : ℝ) ≠ 0 := by exact_mod_cast (by omega : n ≠ 0)
  rw [dct4_core hn, type4FftInput_eq]
  simp only [dftRI, Cx.ofRe, zero_mul, add_zero, zero_sub]
  rw [mul_sum, mul_sum, ← sum_sub_distrib, mul_sum]
  refine sum_congr rfl fun j hj => ?_
  have e : ((n - 1 - m : ℕ) : ℝ) = n - (m + 1) := by
    rw [show n - 1 - m = n - (m + 1) by omega, Nat.cast_sub (by omega)]; push_cast; ring
  have hc : cos (n * π / 2) = 0 := by
    obtain ⟨q, hq⟩ : ∃ q, n = 2 * q + 1 := ⟨n / 2, by omega⟩
    rw [hq]; push_cast
    rw [show (2 * (q : ℝ) + 1) * π / 2 = π * q + π / 2 by ring, cos_half_odd]
  rw [e]
  rw [show (2 * ((n : ℝ) - (m + 1)) + 1) * π / 4 + 2 * π * (j * (2 * (n - (m + 1)) + 1)) / n =
    2 * π * (2 * j : ℕ) + (n * π / 2 - ((2 * m + 1) * π / 4 + 2 * π * (j * (2 * m + 1)) / n)) by
      push_cast; field_simp; ring, cos_nat_two_pi_add, cos_sub, hc, sin_add]
  push_cast
  ring

theorem dct4_mid {n : ℕ} (hn : n % 2 = 1) (f : ℕ → ℝ) :
    Spec.dct4At n f (n / 2) = cos (n * π / 4) * (dftRI n (type4FftInput n f) 0).re := by
  have z : (n : ℝ) ≠ 0 := by exact_mod_cast (by omega : n ≠ 0)
  rw [dct4_core hn, type4FftInput_eq]
  simp only [dftRI, Cx.ofRe, zero_mul, add_zero, zero_sub]
  rw [mul_sum]
  refine sum_congr rfl fun j hj => ?_
  have eh : 2 * ((n / 2 : ℕ) : ℝ) + 1 = n := by exact_mod_cast (by omega : 2 * (n / 2) + 1 = n)
  rw [eh, show (n : ℝ) * π / 4 + 2 * π * (j * n) / n = 2 * π * j + n * π / 4 by field_simp; ring, cos_nat_two_pi_add]
  simp
  ring

theorem altSign_real (m : ℕ) : (altSign m : ℝ) = (-1) ^ m := by
  induction m with
  | zero => rfl
  | succ m ih => rw [altSign, ih, pow_succ]; ring

theorem sin_quarter_even (q : ℕ) : sin ((2 * ((2 * q : ℕ) : ℝ) + 1) * π / 4) = (-1) ^ q * (√2 / 2) := by
  rw [show (2 * ((2 * q : ℕ) : ℝ) + 1) * π / 4 = π / 4 + q * π by push_cast; ring, sin_add_nat_mul_pi, sin_pi_div_four]
theorem cos_quarter_even (q : ℕ) : cos ((2 * ((2 * q : ℕ) : ℝ) + 1) * π / 4) = (-1) ^ q * (√2 / 2) := by
  rw [show (2 * ((2 * q : ℕ) : ℝ) + 1) * π / 4 = π / 4 + q * π by push_cast; ring, cos_add_nat_mul_pi, cos_pi_div_four]
theorem sin_quarter_odd (q : ℕ) : sin ((2 * ((2 * q + 1 : ℕ) : ℝ) + 1) * π / 4) = (-1) ^ q * (√2 / 2) := by
  rw [show (2 * ((2 * q + 1 : ℕ) : ℝ) + 1) * π / 4 = (π - π / 4) + q * π by push_cast; ring, sin_add_nat_mul_pi,
    sin_pi_sub, sin_pi_div_four]
theorem cos_quarter_odd (q : ℕ) : cos ((2 * ((2 * q + 1 : ℕ) : ℝ) + 1) * π / 4) = -((-1) ^ q * (√2 / 2)) := by
  rw [show (2 * ((2 * q + 1 : ℕ) : ℝ) + 1) * π / 4 = (π - π / 4) + q * π by push_cast; ring, cos_add_nat_mul_pi,
    cos_pi_sub, cos_pi_div_four]
  ring

theorem sgn4_real {n : ℕ} (hn : n % 2 = 1) : sin (n * π / 2) = (sgn4 n : ℝ) := by
  unfold sgn4
  by_cases h : n % 4 = 1
  · rw [if_pos h]
    obtain ⟨q, hq⟩ : ∃ q, n = 4 * q + 1 := ⟨n / 4, by omega⟩
    rw [hq, show ((4 * q + 1 : ℕ) : ℝ) * π / 2 = 2 * π * q + π / 2 by push_cast; ring, sin_nat_two_pi_add, sin_pi_div_two]
  · rw [if_neg h]
    obtain ⟨q, hq⟩ : ∃ q, n = 4 * q + 3 := ⟨n / 4, by omega⟩
    rw [hq, show ((4 * q + 3 : ℕ) : ℝ) * π / 2 = 2 * π * q + (π / 2 + π) by push_cast; ring, sin_nat_two_pi_add,
      sin_add_pi, sin_pi_div_two]

theorem out4_dct4 {n : ℕ} (hn : n % 2 = 1) (f : ℕ → ℝ) {k : ℕ} (hk : k < n) :
    out4 n (dftRI n (type4FftInput n f)) (fun r => r.re + r.im) (fun r => -r.re + r.im) (fun r => (r.re + r.im) * sgn4 n)
        (fun r => (r.re - r.im) * sgn4 n) (mid4 n (dftRI n (type4FftInput n f)) (fun x => -x)) k = Spec.dct4At n f k := by
  unfold out4
  simp only [Cx.scale, altSign_real, sqrt2_real, thalf_real]
  by_cases h1 : k < 2 * (n / 4)
  · rw [if_pos h1, dct4_low hn]
    rcases Nat.even_or_odd' k with ⟨q, rfl | rfl⟩
    · rw [if_pos (by omega), cos_quarter_even, sin_quarter_even, show 2 * q / 2 = q by omega]
      ring
    · rw [if_neg (by omega), cos_quarter_odd, sin_quarter_odd, show (2 * q + 1) / 2 = q by omega]
      ring
  · rw [if_neg h1]
    by_cases h2 : n - 2 * (n / 4) ≤ k
    · rw [if_pos h2]
      obtain ⟨m, hm, rfl⟩ : ∃ m, m < n ∧ k = n - 1 - m := ⟨n - 1 - k, by omega, by omega⟩
      rw [dct4_high hn f hm, sgn4_real hn, show n - 1 - (n - 1 - m) = m by omega]
      rcases Nat.even_or_odd' m with ⟨q, rfl | rfl⟩
      · rw [if_pos (by omega), cos_quarter_even, sin_quarter_even, show 2 * q / 2 = q by omega]
        ring
      · rw [if_neg (by omega), cos_quarter_odd, sin_quarter_odd, show (2 * q + 1) / 2 = q by omega]
        ring
    · rw [if_neg h2]
      unfold mid4
      simp only [Cx.scale, altSign_real, sqrt2_real, thalf_real]
      by_cases h4 : n % 4 = 1
      · rw [if_pos h4]
        obtain ⟨q, hq⟩ : ∃ q, n = 4 * q + 1 := ⟨n / 4, by omega⟩
        obtain rfl : k = n / 2 := by omega
        rw [dct4_mid hn]
        have : cos (n * π / 4) = (-1) ^ (n / 4) * (√2 / 2) := by
          rw [show n / 4 = q by omega, ← cos_quarter_even, hq]; congr 1; push_cast; ring
        rw [this]; ring
      · rw [if_neg h4]
        obtain ⟨q, hq⟩ : ∃ q, n = 4 * q + 3 := ⟨n / 4, by omega⟩
        have hq4 : n / 4 = q := by omega
        rw [hq4]
        by_cases h5 : k = n / 2
        · rw [if_pos h5, h5, dct4_mid hn]
          have : cos (n * π / 4) = -((-1) ^ q * (√2 / 2)) := by
            rw [← cos_quarter_odd, hq]; congr 1; push_cast; ring
          rw [this]; ring
        · rw [if_neg h5]
          by_cases h6 : k = n / 2 + 1
          · rw [if_pos h6]
            have : k = n - 1 - 2 * q := by omega
            rw [this, dct4_high hn f (by omega), sgn4_real hn, cos_quarter_even, sin_quarter_even]
            unfold sgn4
            rw [if_neg h4, show 2 * (2 * q) + 1 = n - 2 by omega]
            ring
          · rw [if_neg h6]
            obtain rfl : k = 2 * q := by omega
            rw [dct4_low hn, cos_quarter_even, sin_quarter_even, show 2 * (2 * q) + 1 = n - 2 by omega]
            ring

theorem Type4ConvertToFftOdd.correct_dct4 {fft : Fft ℝ} (h : FftContract fft) {n : ℕ} (hn : n % 2 = 1) (hL : fft.len = n) :
    RunsV (Type4ConvertToFftOdd.inst fft).dct4 n (Type4ConvertToFftOdd.inst fft).scratchLen (Spec.dct4At n) := by
  refine (Type4ConvertToFftOdd.runs_dct4 h.runs hn hL).congr ?_
  intro f k hk
  subst hL
  exact out4_dct4 hn f hk

theorem Type4ConvertToFftOdd.correct_dst4 {fft : Fft ℝ} (h : FftContract fft) {n : ℕ} (hn : n % 2 = 1) (hL : fft.len = n) :
    RunsV (Type4ConvertToFftOdd.inst fft).dst4 n (Type4ConvertToFftOdd.inst fft).scratchLen (Spec.dst4At n) := by
  refine (Type4ConvertToFftOdd.runs_dst4 h.runs hn hL).congr ?_
  intro f k hk
  subst hL
  rw [dst4At_eq f hk, ← out4_dct4 hn _ hk]
  generalize dftRI fft.len (type4FftInput fft.len fun i => f (fft.len - 1 - i)) = V
  have sgnk : ((-1 : ℝ)) ^ k = if k % 2 = 0 then 1 else -1 := by
    by_cases hk2 : k % 2 = 0
    · rw [if_pos hk2, (Nat.even_iff.mpr hk2).neg_one_pow]
    · rw [if_neg hk2, (Nat.odd_iff.mpr (by omega)).neg_one_pow]
  rw [sgnk]
  unfold out4
  by_cases h1 : k < 2 * (fft.len / 4)
  · simp only [if_pos h1]
    by_cases h2 : k % 2 = 0
    · simp only [if_pos h2, one_mul]
    · simp only [if_neg h2]; ring
  · simp only [if_neg h1]
    by_cases h2 : fft.len - 2 * (fft.len / 4) ≤ k
    · simp only [if_pos h2]
      by_cases h3 : k % 2 = 0
      · simp only [if_pos h3, if_pos (show (fft.len - 1 - k) % 2 = 0 by omega), one_mul]
      · simp only [if_neg h3, if_neg (show ¬ (fft.len - 1 - k) % 2 = 0 by omega)]; ring
    · simp only [if_neg h2]
      unfold mid4
      by_cases h4 : fft.len % 4 = 1
      · simp only [if_pos h4, if_pos (show k % 2 = 0 by omega), one_mul]
      · simp only [if_neg h4]
        by_cases h5 : k = fft.len / 2
        · simp only [if_pos h5, if_neg (show ¬ k % 2 = 0 by omega)]; ring
        · simp only [if_neg h5, if_pos (show k % 2 = 0 by omega), one_mul]

end RustDct
