import Mathlib.Data.Int.Log
import Mathlib.Algebra.Order.Archimedean.Real.Basic
import Mathlib.Tactic.Positivity
import Mathlib.Algebra.Order.Field.Power
import Mathlib.Algebra.Ring.Int.Parity
import Mathlib.Algebra.Order.Round
import Mathlib.Tactic.Linarith
import Mathlib.Tactic.FieldSimp
import Mathlib.Tactic.Ring
/-!
# Rounding to nearest, ties to even
-/

set_option linter.all false

namespace RustDct

/-- `n` is the integer nearest to `x`; of two equally near ones, the even one. -/
def IsRne (x : ℝ) (n : ℤ) : Prop := |x - n| ≤ 1 / 2 ∧ (|x - n| = 1 / 2 → Even n)

open Classical in
/-- Round to the nearest integer, ties to even. -/
noncomputable def rne (x : ℝ) : ℤ := if |x - round x| = 1 / 2 ∧ ¬ Even (round x) then round x - 1 else round x

theorem rne_is (x : ℝ) : IsRne x (rne x) := by
  unfold rne
  by_cases h : |x - round x| = 1 / 2 ∧ ¬ Even (round x)
  · rw [if_pos h]
    obtain ⟨h1, h2⟩ := h
    have h3 : x - round x = -(1 / 2) := by
      have h4 : (round x : ℝ) ≤ x + 1 / 2 := by rw [round_eq]; exact Int.floor_le _
      have h5 : x + 1 / 2 < round x + 1 := by rw [round_eq]; exact Int.lt_floor_add_one _
      rcases abs_cases (x - round x) with ⟨h6, _⟩ | ⟨h6, _⟩ <;> linarith
    constructor
    · push_cast
      rw [show x - ((round x : ℝ) - 1) = 1 / 2 by linarith]
      norm_num
    · intro _
      exact (Int.not_even_iff_odd.1 h2).sub_odd odd_one
  · rw [if_neg h]
    refine ⟨abs_sub_round x, fun h1 => ?_⟩
    by_contra h2
    exact h ⟨h1, h2⟩

theorem IsRne.unique {x : ℝ} {m n : ℤ} (hm : IsRne x m) (hn : IsRne x n) : m = n := by
  by_contra hne
  have h1 := abs_le.1 hm.1
  have h2 := abs_le.1 hn.1
  rcases lt_or_gt_of_ne hne with h | h
  · have h3 : (m : ℝ) + 1 ≤ n := by exact_mod_cast h
    have h4 : x - m = 1 / 2 := by linarith [h1.2, h2.1]
    have h5 : x - n = -(1 / 2) := by linarith [h1.2, h2.1]
    have e1 := hm.2 (by rw [h4]; norm_num)
    have e2 := hn.2 (by rw [h5]; norm_num)
    have h6 : n = m + 1 := by
      have : (n : ℝ) = ((m + 1 : ℤ) : ℝ) := by push_cast; linarith
      exact_mod_cast this
    subst h6
    exact (Int.not_even_iff_odd.2 e1.add_one) e2
  · have h3 : (n : ℝ) + 1 ≤ m := by exact_mod_cast h
    have h4 : x - n = 1 / 2 := by linarith [h1.1, h2.2]
    have h5 : x - m = -(1 / 2) := by linarith [h1.1, h2.2]
    have e1 := hm.2 (by rw [h5]; norm_num)
    have e2 := hn.2 (by rw [h4]; norm_num)
    have h6 : m = n + 1 := by
      have : (m : ℝ) = ((n + 1 : ℤ) : ℝ) := by push_cast; linarith
      exact_mod_cast this
    subst h6
    exact (Int.not_even_iff_odd.2 e2.add_one) e1

theorem abs_sub_rne (x : ℝ) : |x - rne x| ≤ 1 / 2 := (rne_is x).1

theorem rne_neg (x : ℝ) : rne (-x) = -rne x := by
  refine (rne_is (-x)).unique ?_
  have h := rne_is x
  have e : -x - ((-rne x : ℤ) : ℝ) = -(x - rne x) := by push_cast; ring
  unfold IsRne
  rw [e, abs_neg]
  exact ⟨h.1, fun h' => (h.2 h').neg⟩

theorem rne_int (n : ℤ) : rne n = n := by
  refine (rne_is n).unique ⟨by simp, fun h => ?_⟩
  rw [sub_self, abs_zero] at h
  norm_num at h

theorem rne_abs_le {x : ℝ} {N : ℤ} (h : |x| ≤ N) : |rne x| ≤ N := by
  have h1 := abs_le.1 h
  have h2 := rne_is x
  have h3 := abs_le.1 h2.1
  rw [abs_le]
  constructor
  · by_contra hc
    have hc : (rne x : ℝ) + 1 ≤ -N := by exact_mod_cast not_le.1 hc
    linarith [h3.2]
  · by_contra hc
    have hc : (N : ℝ) + 1 ≤ rne x := by exact_mod_cast not_le.1 hc
    linarith [h3.1]

/-- Round to a multiple of `2 ^ e`, ties to the even multiple. -/
noncomputable def roundTo (e : ℤ) (x : ℝ) : ℝ := rne (x / 2 ^ e) * 2 ^ e

theorem roundTo_err (e : ℤ) (x : ℝ) : |roundTo e x - x| ≤ 2 ^ e / 2 := by
  have hE : (0 : ℝ) < 2 ^ e := by positivity
  unfold roundTo
  have e1 : (rne (x / (2 : ℝ) ^ e)) * 2 ^ e - x = -((x / 2 ^ e - rne (x / (2 : ℝ) ^ e)) * 2 ^ e) := by field_simp; ring
  rw [e1, abs_neg, abs_mul, abs_of_pos hE]
  have := mul_le_mul_of_nonneg_right (abs_sub_rne (x / (2 : ℝ) ^ e)) hE.le
  linarith

theorem roundTo_neg (e : ℤ) (x : ℝ) : roundTo e (-x) = -roundTo e x := by
  unfold roundTo
  rw [neg_div, rne_neg]
  push_cast
  ring

theorem roundTo_exact {e : ℤ} {x : ℝ} (n : ℤ) (h : x = n * 2 ^ e) : roundTo e x = x := by
  have hE : (2 : ℝ) ^ e ≠ 0 := by positivity
  unfold roundTo
  rw [h, mul_div_cancel_right₀ _ hE, rne_int]

theorem roundTo_scale (e j : ℤ) (x : ℝ) : roundTo (e + j) (x * 2 ^ j) = roundTo e x * 2 ^ j := by
  have hJ : (2 : ℝ) ^ j ≠ 0 := by positivity
  unfold roundTo
  rw [zpow_add₀ (by norm_num), mul_div_mul_right _ _ hJ]
  ring

theorem log_scale (j : ℤ) {x : ℝ} (hx : x ≠ 0) : Int.log 2 |x * 2 ^ j| = Int.log 2 |x| + j := by
  have h0 : 0 < |x| := abs_pos.2 hx
  have hJ : (0 : ℝ) < 2 ^ j := by positivity
  have h1 : (2 : ℝ) ^ Int.log 2 |x| ≤ |x| := by exact_mod_cast Int.zpow_log_le_self (b := 2) (by norm_num) h0
  have h2 : |x| < (2 : ℝ) ^ (Int.log 2 |x| + 1) := by exact_mod_cast Int.lt_zpow_succ_log_self (b := 2) (by norm_num) |x|
  have e : |x * 2 ^ j| = |x| * 2 ^ j := by rw [abs_mul, abs_of_pos hJ]
  have h3 : 0 < |x * 2 ^ j| := by rw [e]; positivity
  have a1 : Int.log 2 |x| + j ≤ Int.log 2 |x * 2 ^ j| := by
    rw [← Int.zpow_le_iff_le_log (by norm_num) h3, e]
    push_cast
    rw [zpow_add₀ (by norm_num)]
    exact mul_le_mul_of_nonneg_right h1 hJ.le
  have a2 : Int.log 2 |x * 2 ^ j| < Int.log 2 |x| + j + 1 := by
    rw [← Int.lt_zpow_iff_log_lt (by norm_num) h3, e]
    push_cast
    rw [show Int.log 2 |x| + j + 1 = (Int.log 2 |x| + 1) + j by ring, zpow_add₀ (by norm_num)]
    exact mul_lt_mul_of_pos_right h2 hJ
  omega

end RustDct
