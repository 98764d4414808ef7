import Verif.Proofs.ConvertReal
import Verif.Proofs.ConvertFft67
/-!
# Over ℝ, with an FFT that computes the DFT: what `Dst6And7ConvertToFft` computes, including what scratch adds
-/

set_option linter.all false

namespace RustDct
open Real Finset

/-- What the scratch contents add to output `k` of the DST6 conversion. -/
noncomputable def dst6Pollution (n : ℕ) (g : ℕ → ℝ) (k : ℕ) : ℝ :=
  ∑ j ∈ range (2 * n + 1), (g (2 * j) * cos (2 * π * (j * ((if k % 2 = 1 then (k + 1) / 2 else n - k / 2 : ℕ) : ℝ)) / (2 * n + 1)) +
    (if j % 2 = 1 then 0 else g (2 * j + 1)) * sin (2 * π * (j * ((if k % 2 = 1 then (k + 1) / 2 else n - k / 2 : ℕ) : ℝ)) / (2 * n + 1)))

/-- What the scratch contents add to output `k` of the DST7 conversion. -/
noncomputable def dst7Pollution (g : ℕ → ℝ) (k : ℕ) : ℝ := g 1 / 2

theorem dst6_core {n : ℕ} (g f : ℕ → ℝ) (m : ℕ) :
    (dftRI (n * 2 + 1) (dst6FftInput g f) m).re =
      ∑ i ∈ range n, f i * sin (2 * π * ((2 * i + 1) * m) / (2 * n + 1)) +
      ∑ j ∈ range (2 * n + 1), (g (2 * j) * cos (2 * π * (j * m) / (2 * n + 1)) +
        (if j % 2 = 1 then 0 else g (2 * j + 1)) * sin (2 * π * (j * m) / (2 * n + 1))) := by
  simp only [dftRI]
  have e1 : ∀ j ∈ range (n * 2 + 1), ((dst6FftInput g f j).re * cos (2 * π * (j * m) / ((n * 2 + 1 : ℕ) : ℝ)) +
      (dst6FftInput g f j).im * sin (2 * π * (j * m) / ((n * 2 + 1 : ℕ) : ℝ)) : ℝ) =
      (if j % 2 = 1 then f (j / 2) * sin (2 * π * (j * m) / (2 * n + 1)) else 0) +
      (g (2 * j) * cos (2 * π * (j * m) / (2 * n + 1)) +
        (if j % 2 = 1 then 0 else g (2 * j + 1)) * sin (2 * π * (j * m) / (2 * n + 1))) := by
    intro j hj
    unfold dst6FftInput
    have : ((n * 2 + 1 : ℕ) : ℝ) = 2 * n + 1 := by push_cast; ring
    rw [this]
    by_cases h : j % 2 = 1
    · simp only [if_pos h]; ring
    · simp only [if_neg h]; ring
  rw [sum_congr rfl e1, sum_add_distrib, show n * 2 + 1 = 2 * n + 1 by ring]
  congr 1
  rw [sum_even_odd, show (2 * n + 1) / 2 = n by omega]
  have z : ∑ j ∈ range ((2 * n + 1 + 1) / 2), (if (2 * j) % 2 = 1 then f (2 * j / 2) *
      sin (2 * π * (((2 * j : ℕ) : ℝ) * m) / (2 * n + 1)) else 0) = 0 := by
    apply sum_eq_zero
    intro j hj
    rw [if_neg (by omega)]
  rw [z, zero_add]
  refine sum_congr rfl fun j hj => ?_
  rw [if_pos (by omega), show (2 * j + 1) / 2 = j by omega]
  push_cast
  rfl

theorem Dst6And7ConvertToFft.correct_dst6 {fft : Fft ℝ} (h : FftContract fft) {n : ℕ} (hL : fft.len = n * 2 + 1) :
    RunsG (Dst6And7ConvertToFft.inst fft).dst6 n (Dst6And7ConvertToFft.inst fft).scratchLen (fun g f k =>
      Spec.dst6At n f k + dst6Pollution n g k) := by
  refine (Dst6And7ConvertToFft.runs_dst6 h.runs hL).congr ?_
  intro g f k hk
  rw [hL]
  have : (if k % 2 = 1 then (dftRI (n * 2 + 1) (dst6FftInput g f) ((k + 1) / 2)).re else
      (dftRI (n * 2 + 1) (dst6FftInput g f) (n - k / 2)).re) =
      (dftRI (n * 2 + 1) (dst6FftInput g f) (if k % 2 = 1 then (k + 1) / 2 else n - k / 2)).re := by
    split_ifs <;> rfl
  rw [this, dst6_core]
  unfold dst6Pollution
  congr 1
  unfold Spec.dst6At
  have z : (n : ℝ) + 1 / 2 ≠ 0 := by positivity
  have z' : 2 * (n : ℝ) + 1 ≠ 0 := by positivity
  refine sum_congr rfl fun i hi => ?_
  congr 1
  by_cases h2 : k % 2 = 1
  · rw [if_pos h2]
    have e : (((k + 1) / 2 : ℕ) : ℝ) = (k + 1) / 2 := by
      have : (k : ℝ) + 1 = 2 * (((k + 1) / 2 : ℕ) : ℝ) := by exact_mod_cast (by omega : k + 1 = 2 * ((k + 1) / 2))
      rw [this]; ring
    rw [e]
    congr 1
    field_simp
  · rw [if_neg h2]
    have e : ((n - k / 2 : ℕ) : ℝ) = n - k / 2 := by
      have : (k : ℝ) = 2 * ((k / 2 : ℕ) : ℝ) := by exact_mod_cast (by omega : k = 2 * (k / 2))
      rw [Nat.cast_sub (by omega)]
      linarith
    rw [e]
    have : 2 * π * ((2 * i + 1) * ((n : ℝ) - k / 2)) / (2 * n + 1) = 2 * π * i + (π - (k + 1) * (i + 1 / 2) * π / (n + 1 / 2)) := by
      field_simp; ring
    rw [this, sin_nat_two_pi_add, sin_pi_sub]

theorem Dst6And7ConvertToFft.correct_dst7 {fft : Fft ℝ} (h : FftContract fft) {n : ℕ} (hL : fft.len = n * 2 + 1) :
    RunsG (Dst6And7ConvertToFft.inst fft).dst7 n (Dst6And7ConvertToFft.inst fft).scratchLen (fun g f k =>
      Spec.dst7At n f k + dst7Pollution g k) := by
  refine (Dst6And7ConvertToFft.runs_dst7 h.runs hL).congr ?_
  intro g f k hk
  rw [hL]
  have z : (n : ℝ) + 1 / 2 ≠ 0 := by positivity
  have z' : 2 * (n : ℝ) + 1 ≠ 0 := by positivity
  simp only [dftRI, thalf_real]
  rw [show n * 2 + 1 = 1 + n + n by ring, sum_range_add, sum_range_add, sum_range_one]
  have el : ((1 + n + n : ℕ) : ℝ) = 2 * n + 1 := by push_cast; ring
  have ek : ((k * 2 + 1 : ℕ) : ℝ) = 2 * k + 1 := by push_cast; ring
  rw [el, ek]
  have a0 : dst7FftInput n g f 0 = ⟨g 0, g 1⟩ := by simp [dst7FftInput]
  have a2 : ∀ m, m < n → dst7FftInput n g f (1 + n + m) = ⟨f (dst7Index n m), 0⟩ := by
    intro m hm
    simp only [dst7FftInput, Cx.ofRe]
    rw [if_neg (by omega), if_neg (by omega)]
    congr 3; omega
  have a1 : ∀ m, m < n → dst7FftInput n g f (1 + (n - 1 - m)) = ⟨-f (dst7Index n m), 0⟩ := by
    intro m hm
    simp only [dst7FftInput, Cx.neg, Cx.ofRe, neg_zero]
    rw [if_neg (by omega), if_pos (by omega)]
    congr 4; omega
  -- the common value of a mirrored pair
  have key : ∀ m, m < n → -sin (2 * π * (((1 + n + m : ℕ) : ℝ) * (2 * k + 1)) / (2 * n + 1)) =
      sin ((k + 1 / 2) * ((dst7Index n m : ℕ) + 1) * π / (n + 1 / 2)) := by
    intro m hm
    unfold dst7Index
    by_cases h1 : m < (n + 1) / 2
    · rw [if_pos h1]
      push_cast
      rw [show 2 * π * ((1 + (n : ℝ) + m) * (2 * k + 1)) / (2 * n + 1) =
        2 * π * k + ((k + 1 / 2) * ((m : ℝ) * 2 + 1) * π / (n + 1 / 2) + π) by field_simp; ring, sin_nat_two_pi_add, sin_add_pi]
      ring
    · rw [if_neg h1]
      have e : ((2 * (n - (n + 1) / 2 - (m - (n + 1) / 2)) - 1 : ℕ) : ℝ) + 1 = 2 * n - 2 * m := by
        have h3 : 2 * (n - (n + 1) / 2 - (m - (n + 1) / 2)) - 1 + 1 = 2 * n - 2 * m := by omega
        have h4 : ((2 * (n - (n + 1) / 2 - (m - (n + 1) / 2)) - 1 + 1 : ℕ) : ℝ) = ((2 * n - 2 * m : ℕ) : ℝ) := by rw [h3]
        rw [Nat.cast_sub (by omega)] at h4
        push_cast at h4
        push_cast
        linarith
      rw [e]
      push_cast
      rw [show 2 * π * ((1 + (n : ℝ) + m) * (2 * k + 1)) / (2 * n + 1) =
        2 * π * (2 * k + 1 : ℕ) - ((k + 1 / 2) * (2 * (n : ℝ) - 2 * m) * π / (n + 1 / 2)) by push_cast; field_simp; ring,
        sin_nat_two_pi_sub]
      ring
  have key2 : ∀ m, m < n → sin (2 * π * (((1 + (n - 1 - m) : ℕ) : ℝ) * (2 * k + 1)) / (2 * n + 1)) =
      -sin (2 * π * (((1 + n + m : ℕ) : ℝ) * (2 * k + 1)) / (2 * n + 1)) := by
    intro m hm
    have e : ((1 + (n - 1 - m) : ℕ) : ℝ) = n - m := by
      rw [show 1 + (n - 1 - m) = n - m by omega, Nat.cast_sub (by omega)]
    rw [e]
    push_cast
    rw [show 2 * π * (((n : ℝ) - m) * (2 * k + 1)) / (2 * n + 1) =
      2 * π * (2 * k + 1 : ℕ) - 2 * π * ((1 + (n : ℝ) + m) * (2 * k + 1)) / (2 * n + 1) by push_cast; field_simp; ring,
      sin_nat_two_pi_sub]
  have s2 : ∑ m ∈ range n, ((dst7FftInput n g f (1 + n + m)).im * cos (2 * π * (((1 + n + m : ℕ) : ℝ) * (2 * k + 1)) / (2 * n + 1)) -
      (dst7FftInput n g f (1 + n + m)).re * sin (2 * π * (((1 + n + m : ℕ) : ℝ) * (2 * k + 1)) / (2 * n + 1))) =
      ∑ m ∈ range n, f (dst7Index n m) * sin ((k + 1 / 2) * ((dst7Index n m : ℕ) + 1) * π / (n + 1 / 2)) := by
    refine sum_congr rfl fun m hm => ?_
    rw [mem_range] at hm
    rw [a2 m hm, ← key m hm]
    ring
  have s1 : ∑ m ∈ range n, ((dst7FftInput n g f (1 + m)).im * cos (2 * π * (((1 + m : ℕ) : ℝ) * (2 * k + 1)) / (2 * n + 1)) -
      (dst7FftInput n g f (1 + m)).re * sin (2 * π * (((1 + m : ℕ) : ℝ) * (2 * k + 1)) / (2 * n + 1))) =
      ∑ m ∈ range n, f (dst7Index n m) * sin ((k + 1 / 2) * ((dst7Index n m : ℕ) + 1) * π / (n + 1 / 2)) := by
    rw [← Finset.sum_range_reflect]
    refine sum_congr rfl fun m hm => ?_
    rw [mem_range] at hm
    rw [a1 m hm, ← key m hm, key2 m hm]
    ring
  have s3 : ∑ m ∈ range n, f (dst7Index n m) * sin ((k + 1 / 2) * ((dst7Index n m : ℕ) + 1) * π / (n + 1 / 2)) =
      Spec.dst7At n f k := by
    unfold Spec.dst7At
    rw [← sum_gather n (fun i => f i * sin ((k + 1 / 2) * (i + 1) * π / (n + 1 / 2)))]
    refine sum_congr rfl fun m hm => ?_
    rw [mem_range] at hm
    unfold dst7Index
    by_cases h1 : m < (n + 1) / 2
    · rw [if_pos h1, if_pos h1]
    · rw [if_neg h1, if_neg h1]
      have : 2 * (n - (n + 1) / 2 - (m - (n + 1) / 2)) - 1 = 2 * (n - 1 - m) + 1 := by omega
      rw [this]
  rw [s1, s2, s3, a0]
  simp only [dst7Pollution, Nat.cast_zero, zero_mul, mul_zero, zero_div, cos_zero, sin_zero]
  ring

end RustDct
