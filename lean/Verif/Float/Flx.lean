import Mathlib.Data.Int.Log
import Verif.Float.Rne
import Verif.Rounding
/-!
# Number formats that satisfy the rounding model

`Flx p`: the real numbers with a significand of `p` bits, the exponent unbounded, every operation rounded to nearest, ties to even.  `Flx 24` is `f32`
and `Flx 53` is `f64` without overflow, underflow, infinities and NaN.
-/

set_option linter.all false

namespace RustDct
open Real

/-- Representable with `p` bits. -/
def Bits (p : ℕ) (x : ℝ) : Prop := ∃ m e : ℤ, |m| ≤ 2 ^ p ∧ x = m * 2 ^ e

/-- The numbers with a `p`-bit significand. -/
structure Flx (p : ℕ) where
  val : ℝ
  bits : Bits p val

theorem Bits.neg {p : ℕ} {x : ℝ} (h : Bits p x) : Bits p (-x) := by
  obtain ⟨m, e, h1, rfl⟩ := h
  exact ⟨-m, e, by rwa [abs_neg], by push_cast; ring⟩

theorem Bits.zero (p : ℕ) : Bits p 0 := ⟨0, 0, by simp, by simp⟩
theorem Bits.one (p : ℕ) : Bits p 1 := ⟨1, 0, by simpa using one_le_pow₀ (n := p) (show (1 : ℤ) ≤ 2 by norm_num), by simp⟩
theorem Bits.two (p : ℕ) : Bits p 2 := ⟨1, 1, by simpa using one_le_pow₀ (n := p) (show (1 : ℤ) ≤ 2 by norm_num), by simp⟩
theorem Bits.half (p : ℕ) : Bits p (1 / 2) := ⟨1, -1, by simpa using one_le_pow₀ (n := p) (show (1 : ℤ) ≤ 2 by norm_num), by simp⟩

/-- The exponent of the last of `p` bits of `x`. -/
noncomputable def lastBit (p : ℕ) (x : ℝ) : ℤ := Int.log 2 |x| + 1 - p

/-- Rounding the significand to `p` bits gives a `p`-bit number with a small relative error. -/
theorem roundTo_lastBit (p : ℕ) (x : ℝ) (hx : x ≠ 0) : Bits p (roundTo (lastBit p x) x) ∧ |roundTo (lastBit p x) x - x| ≤ (1 / 2) ^ p * |x| := by
  have hx' : 0 < |x| := abs_pos.2 hx
  set e := lastBit p x with he
  set k := Int.log 2 |x| with hk
  have he : e = k + 1 - p := he
  have h1 : (2 : ℝ) ^ k ≤ |x| := by exact_mod_cast Int.zpow_log_le_self (b := 2) (by norm_num) hx'
  have h2 : |x| < (2 : ℝ) ^ (k + 1) := by exact_mod_cast Int.lt_zpow_succ_log_self (b := 2) (by norm_num) |x|
  have hE : (0 : ℝ) < 2 ^ e := by positivity
  have hpe : (2 : ℝ) ^ (k + 1) = 2 ^ p * 2 ^ e := by
    rw [← zpow_natCast, ← zpow_add₀ (by norm_num)]; congr 1; omega
  have hpk : (2 : ℝ) ^ e / 2 = (1 / 2) ^ p * 2 ^ k := by
    have : (2 : ℝ) ^ k * 2 = 2 ^ p * 2 ^ e := by rw [← hpe, zpow_add_one₀ (by norm_num)]
    rw [one_div, inv_pow]
    field_simp
    linarith
  refine ⟨⟨rne (x / 2 ^ e), e, rne_abs_le ?_, rfl⟩, ?_⟩
  · rw [abs_div, abs_of_pos hE, div_le_iff₀ hE]
    push_cast
    rw [← hpe]
    exact h2.le
  · calc |roundTo e x - x| ≤ 2 ^ e / 2 := roundTo_err e x
      _ = (1 / 2) ^ p * 2 ^ k := hpk
      _ ≤ (1 / 2) ^ p * |x| := mul_le_mul_of_nonneg_left h1 (by positivity)

namespace Flx
variable {p : ℕ}

theorem ne_zero_of {x : ℝ} (h : ¬ Bits p x) : x ≠ 0 := fun h0 => h (h0 ▸ Bits.zero p)

open Classical in
/-- Round to nearest, ties to even; representable numbers stay what they are. -/
noncomputable def rnd (p : ℕ) (x : ℝ) : Flx p :=
  if h : Bits p x then ⟨x, h⟩ else ⟨roundTo (lastBit p x) x, (roundTo_lastBit p x (ne_zero_of h)).1⟩

theorem rnd_err (p : ℕ) (x : ℝ) : |(rnd p x).val - x| ≤ (1 / 2) ^ p * |x| := by
  unfold rnd
  by_cases h : Bits p x
  · rw [dif_pos h]
    simp only [sub_self, abs_zero]
    positivity
  · rw [dif_neg h]
    exact (roundTo_lastBit p x (ne_zero_of h)).2

theorem rnd_exact {x : ℝ} (h : Bits p x) : (rnd p x).val = x := by
  unfold rnd
  rw [dif_pos h]

/-- `f64` arithmetic: every operation correctly rounded. -/
noncomputable instance : F64 (Flx 53) where
  add a b := rnd 53 (a.val + b.val)
  sub a b := rnd 53 (a.val - b.val)
  mul a b := rnd 53 (a.val * b.val)
  div a b := rnd 53 (a.val / b.val)
  neg a := ⟨-a.val, a.bits.neg⟩
  nat n := rnd 53 n
  half := ⟨1 / 2, Bits.half 53⟩
  pi := rnd 53 π
  sin a := rnd 53 (Real.sin a.val)
  cos a := rnd 53 (Real.cos a.val)
  sqrt a := rnd 53 √a.val

/-- Element types with `p` bits. -/
noncomputable instance (p : ℕ) : DctNum (Flx p) (Flx 53) where
  zero := ⟨0, Bits.zero p⟩
  one := ⟨1, Bits.one p⟩
  add a b := rnd p (a.val + b.val)
  sub a b := rnd p (a.val - b.val)
  mul a b := rnd p (a.val * b.val)
  neg a := ⟨-a.val, a.bits.neg⟩
  fromF64 a := rnd p a.val
  sqrt2 := rnd p √2
  fracSqrt2 := rnd p (1 / √2)

theorem abs_le_of {x : ℝ} (p : ℕ) {a : ℝ} (ha : 0 ≤ a) (h : |x| ≤ a) : (1 / 2 : ℝ) ^ p * |x| ≤ (1 / 2) ^ p * a :=
  mul_le_mul_of_nonneg_left h (by positivity)

/-- They satisfy the rounding model, with unit roundoff `2⁻ᵖ`. -/
noncomputable def rounding (p : ℕ) : Rounding (Flx p) (Flx 53) where
  val := Flx.val
  u := (1 / 2) ^ p
  u_nonneg := by positivity
  zero := rfl
  one := rfl
  neg _ := rfl
  add a b := rnd_err p _
  sub a b := rnd_err p _
  mul a b := rnd_err p _
  two := by
    have h : (rnd 53 ((2 : ℕ) : ℝ)).val = 2 := by rw [rnd_exact (by exact_mod_cast Bits.two 53)]; norm_num
    show (rnd p (rnd 53 ((2 : ℕ) : ℝ)).val).val = 2
    rw [h, rnd_exact (Bits.two p)]
  half := rnd_exact (Bits.half p)
  sqrt2 := by
    have := rnd_err p √2
    rwa [abs_of_nonneg (sqrt_nonneg _)] at this
  fracSqrt2 := by
    have := rnd_err p (1 / √2)
    rwa [abs_of_nonneg (show (0 : ℝ) ≤ 1 / √2 by positivity)] at this
  valF := Flx.val
  v := (1 / 2) ^ 53
  v_nonneg := by positivity
  v_le := by norm_num
  t := (1 / 2) ^ 53
  t_nonneg := by positivity
  f_nat n := by
    have := rnd_err 53 (n : ℝ)
    rwa [abs_of_nonneg (Nat.cast_nonneg n : (0 : ℝ) ≤ n)] at this
  f_half := rfl
  f_pi := by
    have := rnd_err 53 π
    rwa [abs_of_nonneg pi_pos.le] at this
  f_neg _ := rfl
  f_add a b := rnd_err 53 _
  f_sub a b := rnd_err 53 _
  f_mul a b := rnd_err 53 _
  f_div a b _ := rnd_err 53 _
  f_sqrt a _ := by
    have := rnd_err 53 √a.val
    rwa [abs_of_nonneg (sqrt_nonneg _)] at this
  f_sin a := (rnd_err 53 _).trans ((abs_le_of 53 zero_le_one (abs_sin_le_one _)).trans (le_of_eq (mul_one _)))
  f_cos a := (rnd_err 53 _).trans ((abs_le_of 53 zero_le_one (abs_cos_le_one _)).trans (le_of_eq (mul_one _)))
  from_f64 a := rnd_err p _

end Flx

/-- Exact arithmetic satisfies the model as well, without any error. -/
noncomputable def exactRounding : Rounding ℝ ℝ where
  val := id
  u := 0
  u_nonneg := le_refl _
  zero := rfl
  one := rfl
  neg _ := rfl
  add a b := by simp
  sub a b := by simp
  mul a b := by simp
  two := by simp
  half := by simp
  sqrt2 := by simp
  fracSqrt2 := by simp
  valF := id
  v := 0
  v_nonneg := le_refl _
  v_le := by norm_num
  t := 0
  t_nonneg := le_refl _
  f_nat n := by simp
  f_half := by simp
  f_pi := by simp
  f_neg _ := rfl
  f_add a b := by simp
  f_sub a b := by simp
  f_mul a b := by simp
  f_div a b _ := by simp
  f_sqrt a _ := by simp
  f_sin a := by simp
  f_cos a := by simp
  from_f64 a := by simp

end RustDct
