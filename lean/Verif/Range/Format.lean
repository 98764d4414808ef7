import Mathlib.Data.Int.Log
import Verif.Float.Rne
import Mathlib.Analysis.Real.Pi.Bounds
import Verif.Range
/-!
# Number formats of bounded range

`Fp f`: the values of a binary IEEE 754 format: two zeros, the other finite numbers, subnormal ones included, two infinities, and NaN.
Operations round to nearest, ties to even.  `Fp b32` is `f32` and `Fp b64` is `f64` (sign and payload of NaN are left out).
-/

set_option linter.all false

namespace RustDct
open Real

/-- A binary format: `p` bits of significand, least exponent `q` and largest exponent `E` of the last bit. -/
structure Format where
  p : ℕ
  q : ℤ
  E : ℤ
  hp : 4 ≤ p
  hq : q + p ≤ 0
  hE : 1 ≤ E

/-- `f32` -/
def b32 : Format := ⟨24, -149, 104, by norm_num, by norm_num, by norm_num⟩
/-- `f64` -/
def b64 : Format := ⟨53, -1074, 971, by norm_num, by norm_num, by norm_num⟩

/-- The largest finite number. -/
noncomputable def Format.max (f : Format) : ℝ := ((2 ^ f.p - 1 : ℤ) : ℝ) * 2 ^ f.E
/-- The least positive normal number. -/
noncomputable def Format.min (f : Format) : ℝ := 2 ^ (f.q + f.p - 1)

/-- The finite numbers of a format. -/
def Format.Rep (f : Format) (x : ℝ) : Prop := (∃ m e : ℤ, |m| ≤ 2 ^ f.p ∧ f.q ≤ e ∧ x = m * 2 ^ e) ∧ |x| ≤ f.max

theorem Format.one_le (f : Format) : (1 : ℤ) ≤ 2 ^ f.p - 1 := by
  have : (2 : ℤ) ^ 4 ≤ 2 ^ f.p := pow_le_pow_right₀ (by norm_num) f.hp
  linarith

theorem Format.max_ge (f : Format) : 30 ≤ f.max := by
  have h1 : (2 : ℤ) ^ 4 ≤ 2 ^ f.p := pow_le_pow_right₀ (by norm_num) f.hp
  have h2 : (15 : ℝ) ≤ ((2 ^ f.p - 1 : ℤ) : ℝ) := by exact_mod_cast (show (15 : ℤ) ≤ 2 ^ f.p - 1 by linarith)
  have h3 : (2 : ℝ) ≤ 2 ^ f.E := by
    calc (2 : ℝ) = 2 ^ (1 : ℤ) := by norm_num
      _ ≤ 2 ^ f.E := zpow_le_zpow_right₀ (by norm_num) f.hE
  unfold Format.max
  nlinarith

theorem Format.min_pos (f : Format) : 0 < f.min := by unfold Format.min; positivity
theorem Format.min_le (f : Format) : f.min ≤ 1 := by
  have := f.hq
  calc f.min ≤ 2 ^ (0 : ℤ) := zpow_le_zpow_right₀ (by norm_num) (by omega)
    _ = 1 := by norm_num

theorem Format.max_ne (f : Format) : f.max ≠ 0 := by have := f.max_ge; linarith
theorem Format.Rep.zero (f : Format) : f.Rep 0 := ⟨⟨0, f.q, by simp, le_refl _, by simp⟩, by rw [abs_zero]; linarith [f.max_ge]⟩
theorem Format.Rep.pow (f : Format) {e : ℤ} (h : f.q ≤ e) (h1 : e ≤ 1) : f.Rep (2 ^ e) := by
  have h2 : (2 : ℝ) ^ e ≤ 2 ^ (1 : ℤ) := zpow_le_zpow_right₀ (by norm_num) h1
  have h3 := f.max_ge
  have h4 : (0 : ℝ) < 2 ^ e := by positivity
  refine ⟨⟨1, e, by simpa using one_le_pow₀ (n := f.p) (show (1 : ℤ) ≤ 2 by norm_num), h, by simp⟩, ?_⟩
  rw [abs_of_pos h4]
  norm_num at h2
  linarith
theorem Format.Rep.neg {f : Format} {x : ℝ} (h : f.Rep x) : f.Rep (-x) := by
  obtain ⟨⟨m, e, h1, h2, rfl⟩, h3⟩ := h
  exact ⟨⟨-m, e, by rwa [abs_neg], h2, by push_cast; ring⟩, by rwa [abs_neg]⟩
theorem Format.Rep.one (f : Format) : f.Rep 1 := by
  have h1 := f.hq; have h2 := f.hp
  simpa using Format.Rep.pow f (e := 0) (by omega) (by omega)
theorem Format.Rep.two (f : Format) : f.Rep 2 := by
  have h1 := f.hq; have h2 := f.hp
  simpa using Format.Rep.pow f (e := 1) (by omega) (by omega)
theorem Format.Rep.half (f : Format) : f.Rep (1 / 2) := by
  have h1 := f.hq; have h2 := f.hp
  have := Format.Rep.pow f (e := -1) (by omega) (by omega)
  norm_num at this ⊢
  exact this

/-- The exponent of the last bit of `x` in the format. -/
noncomputable def Format.lastBit (f : Format) (x : ℝ) : ℤ := Max.max (Int.log 2 |x| + 1 - f.p) f.q

/-- Rounding gives a number of the format with a small error. -/
theorem Format.round_ok (f : Format) {x : ℝ} (hx : |x| ≤ f.max) :
    f.Rep (roundTo (f.lastBit x) x) ∧ |roundTo (f.lastBit x) x - x| ≤ (1 / 2) ^ f.p * Max.max |x| f.min := by
  by_cases h0 : x = 0
  · have e : roundTo (f.lastBit x) x = 0 := by rw [roundTo_exact 0 (by rw [h0]; simp), h0]
    rw [e]
    exact ⟨Format.Rep.zero f, by subst h0; simp only [sub_self, abs_zero]; have := f.min_pos; positivity⟩
  have h0 : 0 < |x| := abs_pos.2 h0
  set k := Max.max (Int.log 2 |x|) (f.q + f.p - 1) with hk
  have he : f.lastBit x = k + 1 - f.p := by unfold Format.lastBit; omega
  set e : ℤ := f.lastBit x
  have hqe : f.q ≤ e := by have := le_max_right (Int.log 2 |x|) (f.q + f.p - 1); omega
  have hE : (0 : ℝ) < 2 ^ e := by positivity
  have hp2 : (0 : ℝ) < 2 ^ f.p := by positivity
  have h2 : |x| < (2 : ℝ) ^ (k + 1) := by
    have : |x| < (2 : ℝ) ^ (Int.log 2 |x| + 1) := by exact_mod_cast Int.lt_zpow_succ_log_self (b := 2) (by norm_num) |x|
    exact this.trans_le (zpow_le_zpow_right₀ (by norm_num) (by have := le_max_left (Int.log 2 |x|) (f.q + f.p - 1); omega))
  have hpe : (2 : ℝ) ^ (k + 1) = 2 ^ f.p * 2 ^ e := by
    rw [← zpow_natCast, ← zpow_add₀ (by norm_num)]; congr 1; omega
  have hpk : (2 : ℝ) ^ e / 2 = (1 / 2) ^ f.p * 2 ^ k := by
    have : (2 : ℝ) ^ k * 2 = 2 ^ f.p * 2 ^ e := by rw [← hpe, zpow_add_one₀ (by norm_num)]
    rw [one_div, inv_pow]
    field_simp
    linarith
  have hlog : (2 : ℝ) ^ (Int.log 2 |x|) ≤ |x| := by exact_mod_cast Int.zpow_log_le_self (b := 2) (by norm_num) h0
  have hk1 : (2 : ℝ) ^ k ≤ Max.max |x| f.min := by
    rcases max_choice (Int.log 2 |x|) (f.q + f.p - 1) with h | h
    · refine le_max_of_le_left ?_
      rw [hk, h]
      exact hlog
    · refine le_max_of_le_right ?_
      rw [hk, h]; rfl
  -- the largest number of the format is a multiple of the unit in the last place
  have heE : e ≤ f.E := by
    have hlt : f.max < (2 : ℝ) ^ (f.E + f.p) := by
      unfold Format.max
      rw [zpow_add₀ (by norm_num), mul_comm, zpow_natCast]
      refine mul_lt_mul_of_pos_left ?_ (by positivity)
      push_cast
      linarith
    have h3 : (2 : ℝ) ^ (Int.log 2 |x|) < 2 ^ (f.E + f.p) := (hlog.trans hx).trans_lt hlt
    have h4 : Int.log 2 |x| < f.E + f.p := (zpow_lt_zpow_iff_right₀ (by norm_num)).1 h3
    have h5 := f.hq
    have h6 := f.hE
    have : k < f.E + f.p := max_lt h4 (by omega)
    omega
  obtain ⟨N, hN⟩ : ∃ N : ℤ, f.max = N * 2 ^ e := by
    obtain ⟨d, hd⟩ : ∃ d : ℕ, f.E = d + e := ⟨(f.E - e).toNat, by omega⟩
    refine ⟨(2 ^ f.p - 1) * 2 ^ d, ?_⟩
    unfold Format.max
    rw [hd, zpow_add₀ (by norm_num), zpow_natCast]
    push_cast
    ring
  have hxN : |x / 2 ^ e| ≤ N := by
    rw [abs_div, abs_of_pos hE, div_le_iff₀ hE, ← hN]; exact hx
  refine ⟨⟨⟨rne (x / 2 ^ e), e, rne_abs_le ?_, hqe, rfl⟩, ?_⟩, ?_⟩
  · rw [abs_div, abs_of_pos hE, div_le_iff₀ hE]
    push_cast
    rw [← hpe]
    exact h2.le
  · unfold roundTo
    rw [abs_mul, abs_of_pos hE, hN]
    refine mul_le_mul_of_nonneg_right ?_ hE.le
    exact_mod_cast rne_abs_le hxN
  · calc |roundTo e x - x| ≤ 2 ^ e / 2 := roundTo_err e x
      _ = (1 / 2) ^ f.p * 2 ^ k := hpk
      _ ≤ _ := mul_le_mul_of_nonneg_left hk1 (by positivity)

/-- Numbers of the format stay what they are. -/
theorem Format.Rep.round {f : Format} {x : ℝ} (h : f.Rep x) : roundTo (f.lastBit x) x = x := by
  obtain ⟨⟨m, e, h1, h2, rfl⟩, h3⟩ := h
  rcases eq_or_ne m 0 with rfl | hm
  · exact roundTo_exact 0 (by simp)
  have hE : (0 : ℝ) < 2 ^ e := by positivity
  -- the exponent of the last bit is at most `e`, unless `m` is a power of two
  have hx : ((m : ℝ) * 2 ^ e) ≠ 0 := mul_ne_zero (by exact_mod_cast hm) hE.ne'
  have hlog : Int.log 2 |(m : ℝ) * 2 ^ e| = Int.log 2 |(m : ℝ)| + e := log_scale e (by exact_mod_cast hm)
  have hm0 : 0 < |(m : ℝ)| := abs_pos.2 (by exact_mod_cast hm)
  have hp := f.hp
  by_cases hc : |m| = 2 ^ f.p
  · have hl : Int.log 2 |(m : ℝ)| = f.p := by
      have : |(m : ℝ)| = ((2 : ℕ) : ℝ) ^ (f.p : ℤ) := by
        rw [zpow_natCast]; push_cast; exact_mod_cast hc
      rw [this, Int.log_zpow (by norm_num)]
    have hle : f.lastBit ((m : ℝ) * 2 ^ e) ≤ e + 1 := by unfold Format.lastBit; rw [hlog, hl]; omega
    have hle2 : f.lastBit ((m : ℝ) * 2 ^ e) = e + 1 := by unfold Format.lastBit at hle ⊢; rw [hlog, hl] at hle ⊢; omega
    obtain ⟨p', hp'⟩ : ∃ p', f.p = p' + 1 := ⟨f.p - 1, by omega⟩
    have hd : ∃ m' : ℤ, m = 2 * m' := by
      rcases abs_cases m with ⟨h, _⟩ | ⟨h, _⟩
      · exact ⟨2 ^ p', by rw [← h, hc, hp', pow_succ]; ring⟩
      · exact ⟨-2 ^ p', by rw [show m = -|m| by omega, hc, hp', pow_succ]; ring⟩
    obtain ⟨m', rfl⟩ := hd
    rw [hle2]
    refine roundTo_exact m' ?_
    rw [zpow_add_one₀ (by norm_num)]
    push_cast
    ring
  · have hlt : |(m : ℝ)| < 2 ^ f.p := by exact_mod_cast lt_of_le_of_ne h1 hc
    have hl : Int.log 2 |(m : ℝ)| < f.p := by
      rw [← Int.lt_zpow_iff_log_lt (by norm_num) hm0, zpow_natCast]
      push_cast
      exact hlt
    have hle : f.lastBit ((m : ℝ) * 2 ^ e) ≤ e := by unfold Format.lastBit; rw [hlog]; omega
    obtain ⟨d, hd⟩ : ∃ d : ℕ, e = f.lastBit ((m : ℝ) * 2 ^ e) + d := ⟨(e - f.lastBit ((m : ℝ) * 2 ^ e)).toNat, by omega⟩
    refine roundTo_exact (m * 2 ^ d) ?_
    conv_lhs => rw [hd]
    rw [zpow_add₀ (by norm_num), zpow_natCast]
    push_cast
    ring

/-- The values of a format. -/
inductive Fp (f : Format) : Type
  | zero (neg : Bool)
  | num (x : ℝ) (h : f.Rep x) (h0 : x ≠ 0)
  | inf (neg : Bool)
  | nan

namespace Fp
variable {f : Format}

/-- Neither infinite nor NaN. -/
def Fin : Fp f → Prop
  | zero _ => True
  | num _ _ _ => True
  | _ => False
/-- The number a finite value stands for. -/
def val : Fp f → ℝ
  | num x _ _ => x
  | _ => 0

open Classical in
/-- The sign. -/
noncomputable def isNeg : Fp f → Bool
  | zero s => s
  | num x _ _ => decide (x < 0)
  | inf s => s
  | nan => false

open Classical in
/-- The result of an operation with the exact result `x`: round to nearest, ties to even; beyond the largest finite number the result is
infinite.  If the exact result is zero, the operation chooses the sign `neg`. -/
noncomputable def rnd (f : Format) (neg : Bool) (x : ℝ) : Fp f :=
  if h : f.Rep (roundTo (f.lastBit x) x) then
    if h0 : roundTo (f.lastBit x) x = 0 then zero (if x = 0 then neg else decide (x < 0)) else num (roundTo (f.lastBit x) x) h h0
  else inf (decide (x < 0))

theorem rnd_val {s : Bool} {x : ℝ} (h : f.Rep (roundTo (f.lastBit x) x)) : Fin (rnd f s x) ∧ val (rnd f s x) = roundTo (f.lastBit x) x := by
  unfold rnd
  rw [dif_pos h]
  by_cases h0 : roundTo (f.lastBit x) x = 0
  · rw [dif_pos h0]; exact ⟨trivial, h0.symm⟩
  · rw [dif_neg h0]; exact ⟨trivial, rfl⟩

theorem rnd_fin {s : Bool} {x : ℝ} : Fin (rnd f s x) ↔ f.Rep (roundTo (f.lastBit x) x) := by
  refine ⟨fun h => ?_, fun h => (rnd_val h).1⟩
  by_contra hn
  unfold rnd at h
  rw [dif_neg hn] at h
  exact h

theorem rnd_ok (f : Format) (s : Bool) (x : ℝ) : RoundsTo Fin val ((1 / 2) ^ f.p) f.min f.max (rnd f s x) x := by
  intro hx
  obtain ⟨h1, h2⟩ := f.round_ok hx
  obtain ⟨h3, h4⟩ := rnd_val (s := s) h1
  exact ⟨h3, by rw [h4]; exact h2⟩

theorem rnd_exact {s : Bool} {x : ℝ} (h : f.Rep x) : Fin (rnd f s x) ∧ val (rnd f s x) = x := by
  have e := h.round
  have := rnd_val (s := s) (x := x) (by rw [e]; exact h)
  exact ⟨this.1, this.2.trans e⟩

/-- Relative error for results in the normal range. -/
theorem rnd_rel {s : Bool} {x : ℝ} (h1 : |x| ≤ f.max) (h2 : f.min ≤ x) : Fin (rnd f s x) ∧ |val (rnd f s x) - x| ≤ (1 / 2) ^ f.p * x := by
  have h := rnd_ok f s x h1
  have h0 : 0 ≤ x := f.min_pos.le.trans h2
  rw [abs_of_nonneg h0, max_eq_left h2] at h
  exact h

/-- Negation changes the sign, also of zeros and infinities. -/
def neg : Fp f → Fp f
  | zero s => zero (!s)
  | num a h h0 => num (-a) h.neg (neg_ne_zero.2 h0)
  | inf s => inf (!s)
  | nan => nan

/-- Addition.  An exact sum of zero is `-0` only if both operands are negative zeros; the sum of opposite infinities is NaN. -/
noncomputable def add : Fp f → Fp f → Fp f
  | nan, _ => nan
  | _, nan => nan
  | inf s, inf t => if s = t then inf s else nan
  | inf s, _ => inf s
  | _, inf t => inf t
  | a, b => rnd f (a.isNeg && b.isNeg) (a.val + b.val)

/-- Subtraction: addition of the negated operand. -/
noncomputable def sub (a b : Fp f) : Fp f := add a (neg b)

/-- Multiplication.  The product of zero and infinity is NaN. -/
noncomputable def mul : Fp f → Fp f → Fp f
  | nan, _ => nan
  | _, nan => nan
  | inf _, zero _ => nan
  | zero _, inf _ => nan
  | inf s, b => inf (s != b.isNeg)
  | a, inf t => inf (a.isNeg != t)
  | a, b => rnd f (a.isNeg != b.isNeg) (a.val * b.val)

/-- Division.  Finite by infinite is zero, nonzero by zero is infinite, zero by zero and infinite by infinite are NaN. -/
noncomputable def div : Fp f → Fp f → Fp f
  | nan, _ => nan
  | _, nan => nan
  | inf _, inf _ => nan
  | inf s, b => inf (s != b.isNeg)
  | a, inf t => zero (a.isNeg != t)
  | zero _, zero _ => nan
  | a, zero t => inf (a.isNeg != t)
  | a, b => rnd f (a.isNeg != b.isNeg) (a.val / b.val)

open Classical in
/-- Square root: NaN for negative numbers, but `√-0 = -0`. -/
noncomputable def sqrt : Fp f → Fp f
  | zero s => zero s
  | num x _ _ => if x < 0 then nan else rnd f false √x
  | inf s => if s then nan else inf false
  | nan => nan

/-- A function like sine, correctly rounded: NaN for infinities. -/
noncomputable def trig (g : ℝ → ℝ) : Fp f → Fp f
  | zero s => rnd f s (g 0)
  | num x h h0 => rnd f (isNeg (num x h h0)) (g x)
  | _ => nan

/-- Conversion to another format. -/
noncomputable def cast {f' : Format} : Fp f → Fp f'
  | zero s => zero s
  | num x _ _ => rnd f' false x
  | inf s => inf s
  | nan => nan

theorem not_fin_inf {s : Bool} : ¬ (inf s : Fp f).Fin := id
theorem not_fin_nan : ¬ (nan : Fp f).Fin := id

theorem add_fin {a b : Fp f} (ha : Fin a) (hb : Fin b) : add a b = rnd f (a.isNeg && b.isNeg) (a.val + b.val) := by
  cases a <;> cases b <;> first | rfl | exact absurd ha id | exact absurd hb id
theorem mul_fin {a b : Fp f} (ha : Fin a) (hb : Fin b) : mul a b = rnd f (a.isNeg != b.isNeg) (a.val * b.val) := by
  cases a <;> cases b <;> first | rfl | exact absurd ha id | exact absurd hb id
theorem neg_ok (a : Fp f) (ha : Fin a) : Fin (neg a) ∧ val (neg a) = -val a := by
  cases a <;> first | exact absurd ha id | exact ⟨trivial, by simp [neg, val]⟩
theorem add_ok (a b : Fp f) (ha : Fin a) (hb : Fin b) : RoundsTo Fin val ((1 / 2) ^ f.p) f.min f.max (add a b) (val a + val b) := by
  rw [add_fin ha hb]; exact rnd_ok f _ _
theorem sub_ok (a b : Fp f) (ha : Fin a) (hb : Fin b) : RoundsTo Fin val ((1 / 2) ^ f.p) f.min f.max (sub a b) (val a - val b) := by
  obtain ⟨h1, h2⟩ := neg_ok b hb
  have := add_ok a (neg b) ha h1
  rwa [h2, ← sub_eq_add_neg] at this
theorem mul_ok (a b : Fp f) (ha : Fin a) (hb : Fin b) : RoundsTo Fin val ((1 / 2) ^ f.p) f.min f.max (mul a b) (val a * val b) := by
  rw [mul_fin ha hb]; exact rnd_ok f _ _
theorem zero_ok (f : Format) (s : Bool) : RoundsTo Fin val ((1 / 2) ^ f.p) f.min f.max (zero s : Fp f) 0 := fun _ => ⟨trivial, by
  change |(0 : ℝ) - 0| ≤ _
  rw [sub_zero, abs_zero]
  have := f.min_pos
  positivity⟩
theorem div_ok (a b : Fp f) (ha : Fin a) (hb : Fin b) (h : val b ≠ 0) : RoundsTo Fin val ((1 / 2) ^ f.p) f.min f.max (div a b) (val a / val b) := by
  cases b with
  | zero s => exact absurd rfl h
  | inf s => exact absurd hb id
  | nan => exact absurd hb id
  | num y hy h0 => cases a <;> first | exact absurd ha id | exact rnd_ok f _ _
theorem sqrt_ok (a : Fp f) (ha : Fin a) (h : 0 ≤ val a) : RoundsTo Fin val ((1 / 2) ^ f.p) f.min f.max (sqrt a) √(val a) := by
  cases a with
  | zero s => change RoundsTo _ _ _ _ _ (zero s) √0; rw [Real.sqrt_zero]; exact zero_ok f s
  | num x hx h0 =>
    have : sqrt (num x hx h0) = rnd f false √x := if_neg (not_lt.2 h)
    rw [this]
    exact rnd_ok f _ _
  | inf s => exact absurd ha id
  | nan => exact absurd ha id
theorem trig_rounds (g : ℝ → ℝ) (a : Fp f) (ha : Fin a) : RoundsTo Fin val ((1 / 2) ^ f.p) f.min f.max (trig g a) (g (val a)) := by
  cases a <;> first | exact absurd ha id | exact rnd_ok f _ _
theorem cast_ok {f' : Format} (a : Fp f) (ha : Fin a) : RoundsTo Fin val ((1 / 2) ^ f'.p) f'.min f'.max (cast a : Fp f') (val a) := by
  cases a with
  | zero s => exact zero_ok f' s
  | num x hx h0 => exact rnd_ok f' _ _
  | inf s => exact absurd ha id
  | nan => exact absurd ha id
theorem cast_exact {f' : Format} {a : Fp f} (ha : Fin a) (h : f'.Rep (val a)) : Fin (cast a : Fp f') ∧ val (cast a : Fp f') = val a := by
  cases a with
  | zero s => exact ⟨trivial, rfl⟩
  | num x hx h0 => exact rnd_exact h
  | inf s => exact absurd ha id
  | nan => exact absurd ha id

/-- `f64` arithmetic: every operation correctly rounded. -/
noncomputable instance : F64 (Fp b64) where
  add := add
  sub := sub
  mul := mul
  div := div
  neg := neg
  nat n := rnd b64 false n
  half := rnd b64 false (1 / 2)
  pi := rnd b64 false π
  sin := trig Real.sin
  cos := trig Real.cos
  sqrt := sqrt

/-- IEEE 754 element types. -/
noncomputable instance (f : Format) : DctNum (Fp f) (Fp b64) where
  zero := zero false
  one := rnd f false 1
  add := add
  sub := sub
  mul := mul
  neg := neg
  fromF64 := cast
  sqrt2 := rnd f false √2
  fracSqrt2 := rnd f false (1 / √2)

theorem b64_max : (2 : ℝ) ^ 1000 ≤ b64.max := by
  unfold Format.max b64
  have h : (2 : ℝ) ^ (971 : ℤ) = 2 ^ 971 := zpow_ofNat 2 971
  dsimp only
  rw [h, show (2 : ℝ) ^ 1000 = 2 ^ 29 * 2 ^ 971 by rw [← pow_add]]
  refine mul_le_mul_of_nonneg_right (by norm_num) (by positivity)

theorem b64_min : b64.min ≤ (1 / 2) ^ 1000 := by
  unfold Format.min b64
  dsimp only
  rw [one_div, inv_pow, ← zpow_natCast, ← zpow_neg]
  exact zpow_le_zpow_right₀ (by norm_num) (by norm_num)

theorem b64_big {x : ℝ} (h : |x| ≤ 2 ^ 100) : |x| ≤ b64.max :=
  h.trans ((pow_le_pow_right₀ (by norm_num) (by norm_num)).trans b64_max)

theorem b64_small : b64.min ≤ (1 / 2) ^ 100 :=
  b64_min.trans (pow_le_pow_of_le_one (by norm_num) (by norm_num) (by norm_num))

theorem small_of {f : Format} {x : ℝ} (h : |x| ≤ 4) : |x| ≤ f.max := h.trans (by linarith [f.max_ge])

theorem one_le_sqrt2 : (1 : ℝ) ≤ √2 := Real.one_le_sqrt.2 (by norm_num)
theorem sqrt2_le : √2 ≤ 2 := by rw [Real.sqrt_le_left (by norm_num)]; norm_num

theorem min_le_half (f : Format) : f.min ≤ 1 / 2 := by
  have := f.hq
  calc f.min ≤ 2 ^ (-1 : ℤ) := zpow_le_zpow_right₀ (by norm_num) (by omega)
    _ = 1 / 2 := by norm_num

theorem trig_ok {g : ℝ → ℝ} (hg : ∀ x, |g x| ≤ 1) (a : Fp b64) (ha : Fin a) : Fin (trig g a : Fp b64) ∧ |val (trig g a : Fp b64) - g (val a)| ≤ (1 / 2) ^ 53 := by
  obtain ⟨h1, h2⟩ := trig_rounds g a ha (b64_big ((hg _).trans (by norm_num)))
  refine ⟨h1, h2.trans ?_⟩
  have : Max.max |g (val a)| b64.min ≤ 1 := max_le (hg _) b64.min_le
  calc (1 / 2 : ℝ) ^ b64.p * Max.max |g (val a)| b64.min ≤ (1 / 2) ^ b64.p * 1 := mul_le_mul_of_nonneg_left this (by positivity)
    _ = (1 / 2) ^ 53 := mul_one _

/-- They satisfy the model of floating-point arithmetic of bounded range. -/
noncomputable def ieee (f : Format) : Ieee (Fp f) (Fp b64) where
  fin := Fin
  val := val
  u := (1 / 2) ^ f.p
  L := f.min
  M := f.max
  u_nonneg := by positivity
  u_le := (pow_le_pow_of_le_one (by norm_num) (by norm_num) f.hp).trans (by norm_num)
  L_pos := f.min_pos
  L_le := f.min_le
  M_ge := by linarith [f.max_ge]
  zero := ⟨trivial, rfl⟩
  one := rnd_exact (Format.Rep.one f)
  neg := neg_ok
  add := add_ok
  sub := sub_ok
  mul := mul_ok
  two := by
    obtain ⟨h1, h2⟩ := rnd_exact (s := false) (show b64.Rep ((2 : ℕ) : ℝ) by exact_mod_cast Format.Rep.two b64)
    have h3 := cast_exact (f' := f) h1 (by rw [h2]; exact_mod_cast Format.Rep.two f)
    exact ⟨h3.1, h3.2.trans (h2.trans (by norm_num))⟩
  half := by
    obtain ⟨h1, h2⟩ := rnd_exact (s := false) (Format.Rep.half b64)
    have h3 := cast_exact (f' := f) h1 (by rw [h2]; exact Format.Rep.half f)
    exact ⟨h3.1, h3.2.trans h2⟩
  sqrt2 := rnd_rel (small_of (by rw [abs_of_nonneg (sqrt_nonneg _)]; linarith [sqrt2_le])) (f.min_le.trans one_le_sqrt2)
  fracSqrt2 := by
    have h0 := one_le_sqrt2
    have h1 : 1 / √2 ≤ 1 := by rw [div_le_one (by linarith)]; exact h0
    have h2 : 1 / 2 ≤ 1 / √2 := one_div_le_one_div_of_le (by linarith) sqrt2_le
    exact rnd_rel (small_of (by rw [abs_of_nonneg (by linarith)]; linarith)) ((min_le_half f).trans h2)
  finF := Fin
  valF := val
  v := (1 / 2) ^ 53
  LF := b64.min
  MF := b64.max
  t := (1 / 2) ^ 53
  v_nonneg := by positivity
  v_le := by norm_num
  LF_le := b64_small
  MF_ge := (pow_le_pow_right₀ (by norm_num) (by norm_num)).trans b64_max
  t_nonneg := by positivity
  t_le := by norm_num
  f_nat n hn := by
    rcases Nat.eq_zero_or_pos n with rfl | h
    · obtain ⟨h1, h2⟩ := rnd_exact (s := false) (show b64.Rep ((0 : ℕ) : ℝ) by exact_mod_cast Format.Rep.zero b64)
      refine ⟨h1, ?_⟩
      change |val (rnd b64 false ((0 : ℕ) : ℝ)) - ((0 : ℕ) : ℝ)| ≤ _
      rw [h2]; simp
    · have h1 : (1 : ℝ) ≤ n := by exact_mod_cast h
      have h2 : (n : ℝ) ≤ 2 ^ 64 := by exact_mod_cast hn.le
      exact rnd_rel (b64_big (by
        rw [abs_of_nonneg (by linarith)]
        exact h2.trans (pow_le_pow_right₀ (by norm_num) (by norm_num)))) (b64.min_le.trans h1)
  f_half := rnd_exact (Format.Rep.half b64)
  f_pi := rnd_rel (small_of (by rw [abs_of_pos pi_pos]; exact pi_le_four)) (b64.min_le.trans (by linarith [pi_gt_three]))
  f_neg := neg_ok
  f_add := add_ok
  f_sub := sub_ok
  f_mul := mul_ok
  f_div := div_ok
  f_sqrt := sqrt_ok
  f_sin := trig_ok abs_sin_le_one
  f_cos := trig_ok abs_cos_le_one
  from_f64 := cast_ok

/-- The angles and functions of the tables are accurate to 63 units of `f64`. -/
theorem table_err : ((1 + (1 / 2) ^ 53) ^ 2 * (1 + ((1 / 2) ^ 53 + 2 * π * ((1 + (1 / 2) ^ 53) ^ 7 / (1 - (1 / 2) ^ 53) - 1))) : ℝ) ≤ 1 + 63 * (1 / 2) ^ 53 := by
  have hp : π ≤ 3.15 := pi_lt_d2.le
  have h1 : ((1 + (1 / 2) ^ 53) ^ 7 / (1 - (1 / 2) ^ 53) - 1 : ℝ) ≤ 8.1 * (1 / 2) ^ 53 := by norm_num
  have h2 : 2 * π * ((1 + (1 / 2) ^ 53) ^ 7 / (1 - (1 / 2) ^ 53) - 1 : ℝ) ≤ 2 * 3.15 * (8.1 * (1 / 2) ^ 53) :=
    mul_le_mul (by linarith) h1 (by norm_num) (by norm_num)
  calc _ ≤ ((1 + (1 / 2) ^ 53) ^ 2 * (1 + ((1 / 2) ^ 53 + 2 * 3.15 * (8.1 * (1 / 2) ^ 53))) : ℝ) :=
        mul_le_mul_of_nonneg_left (by linarith) (by positivity)
    _ ≤ _ := by norm_num

/-- For element types with at most the precision of `f64`, the tables are as accurate as 64 operations. -/
theorem twiddles {f : Format} (hf : f.p ≤ 53) : (ieee f).Twiddles 64 := by
  unfold Ieee.Twiddles Ieee.tau
  change 1 + ((1 + (1 / 2 : ℝ) ^ f.p) * ((1 + (1 / 2) ^ 53) ^ 2 * (1 + ((1 / 2) ^ 53 + 2 * π * ((1 + (1 / 2) ^ 53) ^ 7 / (1 - (1 / 2) ^ 53) - 1)))) - 1) ≤ (1 + (1 / 2 : ℝ) ^ f.p) ^ 64
  have hu : (0 : ℝ) ≤ (1 / 2) ^ f.p := by positivity
  have hv : (1 / 2 : ℝ) ^ 53 ≤ (1 / 2) ^ f.p := pow_le_pow_of_le_one (by norm_num) (by norm_num) hf
  have hb := one_add_mul_le_pow (a := (1 / 2 : ℝ) ^ f.p) (by linarith) 63
  rw [show (1 + (1 / 2 : ℝ) ^ f.p) ^ 64 = (1 + (1 / 2 : ℝ) ^ f.p) * (1 + (1 / 2 : ℝ) ^ f.p) ^ 63 from pow_succ' _ 63, add_sub_cancel]
  refine mul_le_mul_of_nonneg_left (table_err.trans (le_trans ?_ hb)) (by linarith)
  push_cast
  linarith

/-- For `f32`, the tables are as accurate as two operations. -/
theorem twiddles32 : (ieee b32).Twiddles 2 := by
  unfold Ieee.Twiddles Ieee.tau
  change 1 + ((1 + (1 / 2 : ℝ) ^ 24) * ((1 + (1 / 2) ^ 53) ^ 2 * (1 + ((1 / 2) ^ 53 + 2 * π * ((1 + (1 / 2) ^ 53) ^ 7 / (1 - (1 / 2) ^ 53) - 1)))) - 1) ≤ (1 + (1 / 2 : ℝ) ^ 24) ^ 2
  rw [pow_two (1 + (1 / 2 : ℝ) ^ 24), add_sub_cancel]
  exact mul_le_mul_of_nonneg_left (table_err.trans (by norm_num)) (by positivity)

end Fp
end RustDct
