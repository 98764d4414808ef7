import Verif.Range
/-!
# A calculus of computed scalars of bounded range

`Bd R b c m x X`: if `c b` leaves room for `m` roundings, then the computed `x` is finite and differs from the exact `X`, a quantity
of size at most `c b`, by at most `m` roundings of `c b`.
-/

set_option linter.all false

namespace RustDct
open Real

variable {T F : Type} [F64 F] [DctNum T F]

def Bd (R : Ieee T F) (b : ℝ) (c m : ℕ) (x : T) (X : ℝ) : Prop :=
  1 ≤ c ∧ (c * b * (1 + R.u) ^ m ≤ R.M → R.fin x ∧ |X| ≤ c * b ∧ |R.val x - X| ≤ ((1 + R.u) ^ m - 1) * (c * b))

/-- `w` is a constant that approximates `W`, a quantity of size at most `e`, as well as `k` operations would. -/
def Tw (R : Ieee T F) (e k : ℕ) (w : T) (W : ℝ) : Prop :=
  1 ≤ e ∧ R.fin w ∧ |W| ≤ e ∧ |R.val w - W| ≤ ((1 + R.u) ^ k - 1) * e

theorem Ieee.one_le_g (R : Ieee T F) : 1 ≤ 1 + R.u := by linarith [R.u_nonneg]
theorem Ieee.one_le_pow (R : Ieee T F) (m : ℕ) : 1 ≤ (1 + R.u) ^ m := one_le_pow₀ R.one_le_g
theorem Ieee.pow_le (R : Ieee T F) {m m' : ℕ} (h : m ≤ m') : (1 + R.u) ^ m ≤ (1 + R.u) ^ m' := pow_le_pow_right₀ R.one_le_g h

/-- Error of size `(g - 1) X` becomes `(g (1 + u) - 1) X` by one rounding. -/
theorem round_step {u L M : ℝ} {r s x X g : ℝ} (hu : 0 ≤ u) (hg : 1 ≤ g) (hL : L ≤ X) (hx : |x| ≤ X) (hr : |r - x| ≤ (g - 1) * X) (hM : X * (g * (1 + u)) ≤ M) (h0 : 0 ≤ X) :
    |r| ≤ M ∧ (|s - r| ≤ u * max |r| L → |s - x| ≤ (g * (1 + u) - 1) * X) := by
  have h1 : |r| ≤ g * X := by
    have := abs_add_le (r - x) x
    rw [sub_add_cancel] at this
    linarith
  have h2 : g * X ≤ M := by
    refine le_trans ?_ hM
    nlinarith [mul_nonneg (mul_nonneg h0 (show 0 ≤ g by linarith)) hu]
  refine ⟨h1.trans h2, fun h3 => ?_⟩
  have h4 : max |r| L ≤ g * X := max_le h1 (hL.trans (by nlinarith))
  have h5 := mul_le_mul_of_nonneg_left h4 hu
  have h6 := abs_sub_le s r x
  nlinarith

section
variable {R : Ieee T F} {b : ℝ} {c c' m m' e k : ℕ} {x y w : T} {X Y W : ℝ}

theorem Bd.mono (h : Bd R b c m x X) (hb : R.L ≤ b) (hc : c ≤ c') (hm : m ≤ m') : Bd R b c' m' x X := by
  have b0 : 0 ≤ b := R.L_pos.le.trans hb
  have hcc : (c : ℝ) ≤ c' := by exact_mod_cast hc
  have h1 := R.pow_le hm
  have h2 : (c : ℝ) * b ≤ c' * b := mul_le_mul_of_nonneg_right hcc b0
  have h3 : (0 : ℝ) ≤ c * b := by positivity
  refine ⟨h.1.trans hc, fun hM => ?_⟩
  have h4 := R.one_le_pow m
  obtain ⟨h5, h6, h7⟩ := h.2 (le_trans (mul_le_mul h2 h1 (by linarith) (by linarith)) hM)
  exact ⟨h5, h6.trans h2, h7.trans (mul_le_mul (by linarith) h2 h3 (by linarith))⟩

theorem Bd.neg (h : Bd R b c m x X) : Bd R b c m (-x) (-X) := by
  refine ⟨h.1, fun hM => ?_⟩
  obtain ⟨h1, h2, h3⟩ := h.2 hM
  obtain ⟨h4, h5⟩ := R.neg x h1
  refine ⟨h4, by rwa [abs_neg], ?_⟩
  rw [h5, ← abs_neg]
  convert h3 using 2
  ring

theorem Bd.zero (hb : R.L ≤ b) : Bd R b 1 0 (0 : T) 0 := by
  refine ⟨le_refl _, fun _ => ⟨R.zero.1, by simpa using R.L_pos.le.trans hb, by simp [R.zero.2]⟩⟩

theorem Bd.one (hb : 1 ≤ b) : Bd R b 1 0 (1 : T) 1 := by
  refine ⟨le_refl _, fun _ => ⟨R.one.1, by simpa using hb, by simp [R.one.2]⟩⟩

theorem Bd.in (hf : R.fin x) (hx : |R.val x| ≤ b) : Bd R b 1 0 x (R.val x) :=
  ⟨le_refl _, fun _ => ⟨hf, by simpa using hx, by simp⟩⟩

theorem Bd.addsub (hb : R.L ≤ b) (hx : Bd R b c m x X) (hy : Bd R b c' m' y Y) :
    ((c + c' : ℕ) : ℝ) * b * (1 + R.u) ^ (max m m' + 1) ≤ R.M →
      R.fin x ∧ R.fin y ∧ |X| ≤ c * b ∧ |Y| ≤ c' * b ∧ |R.val x - X| ≤ ((1 + R.u) ^ max m m' - 1) * (c * b) ∧ |R.val y - Y| ≤ ((1 + R.u) ^ max m m' - 1) * (c' * b) := by
  intro hM
  have b0 : 0 ≤ b := R.L_pos.le.trans hb
  have h1 := (hx.mono hb (le_refl _) (le_max_left m m')).2
  have h2 := (hy.mono hb (le_refl _) (le_max_right m m')).2
  have h3 := R.one_le_pow (max m m')
  have h4 : (1 + R.u) ^ max m m' ≤ (1 + R.u) ^ (max m m' + 1) := R.pow_le (by omega)
  have h5 : (c : ℝ) * b * (1 + R.u) ^ max m m' ≤ ((c + c' : ℕ) : ℝ) * b * (1 + R.u) ^ (max m m' + 1) := by
    push_cast
    exact mul_le_mul (mul_le_mul_of_nonneg_right (by simp) b0) h4 (by linarith) (by positivity)
  have h6 : (c' : ℝ) * b * (1 + R.u) ^ max m m' ≤ ((c + c' : ℕ) : ℝ) * b * (1 + R.u) ^ (max m m' + 1) := by
    push_cast
    exact mul_le_mul (mul_le_mul_of_nonneg_right (by simp) b0) h4 (by linarith) (by positivity)
  obtain ⟨a1, a2, a3⟩ := h1 (h5.trans hM)
  obtain ⟨b1, b2, b3⟩ := h2 (h6.trans hM)
  exact ⟨a1, b1, a2, b2, a3, b3⟩

theorem Bd.one_mul_le (hb : R.L ≤ b) (hc : 1 ≤ c) : R.L ≤ c * b := by
  have b0 : 0 ≤ b := R.L_pos.le.trans hb
  have : (1 : ℝ) ≤ c := by exact_mod_cast hc
  nlinarith

theorem Bd.add (hb : R.L ≤ b) (hx : Bd R b c m x X) (hy : Bd R b c' m' y Y) : Bd R b (c + c') (max m m' + 1) (x + y) (X + Y) := by
  have b0 : 0 ≤ b := R.L_pos.le.trans hb
  refine ⟨by have := hx.1; omega, fun hM => ?_⟩
  obtain ⟨a1, b1, a2, b2, a3, b3⟩ := Bd.addsub hb hx hy hM
  have hcc := Bd.one_mul_le (R := R) (c := c + c') hb (by have := hx.1; omega)
  have hX : |X + Y| ≤ ((c + c' : ℕ) : ℝ) * b := (abs_add_le _ _).trans (by push_cast; linarith)
  have hE : |R.val x + R.val y - (X + Y)| ≤ ((1 + R.u) ^ max m m' - 1) * (((c + c' : ℕ) : ℝ) * b) := by
    rw [show R.val x + R.val y - (X + Y) = R.val x - X + (R.val y - Y) by ring]
    refine (abs_add_le _ _).trans ?_
    push_cast
    linarith
  obtain ⟨h1, h2⟩ := round_step (s := R.val (x + y)) R.u_nonneg (R.one_le_pow _) hcc hX hE (M := R.M) (by rw [← pow_succ]; exact hM) (R.L_pos.le.trans hcc)
  obtain ⟨h3, h4⟩ := R.add x y a1 b1 h1
  exact ⟨h3, hX, by rw [pow_succ]; exact h2 h4⟩

theorem Bd.sub (hb : R.L ≤ b) (hx : Bd R b c m x X) (hy : Bd R b c' m' y Y) : Bd R b (c + c') (max m m' + 1) (x - y) (X - Y) := by
  have b0 : 0 ≤ b := R.L_pos.le.trans hb
  refine ⟨by have := hx.1; omega, fun hM => ?_⟩
  obtain ⟨a1, b1, a2, b2, a3, b3⟩ := Bd.addsub hb hx hy hM
  have hcc := Bd.one_mul_le (R := R) (c := c + c') hb (by have := hx.1; omega)
  have hX : |X - Y| ≤ ((c + c' : ℕ) : ℝ) * b := (abs_sub _ _).trans (by push_cast; linarith)
  have hE : |R.val x - R.val y - (X - Y)| ≤ ((1 + R.u) ^ max m m' - 1) * (((c + c' : ℕ) : ℝ) * b) := by
    rw [show R.val x - R.val y - (X - Y) = R.val x - X - (R.val y - Y) by ring]
    refine (abs_sub _ _).trans ?_
    push_cast
    linarith
  obtain ⟨h1, h2⟩ := round_step (s := R.val (x - y)) R.u_nonneg (R.one_le_pow _) hcc hX hE (M := R.M) (by rw [← pow_succ]; exact hM) (R.L_pos.le.trans hcc)
  obtain ⟨h3, h4⟩ := R.sub x y a1 b1 h1
  exact ⟨h3, hX, by rw [pow_succ]; exact h2 h4⟩

theorem Bd.mul_aux (hb : R.L ≤ b) (hx : Bd R b c m x X) (hw : Tw R e k w W) (hM : ((c * e : ℕ) : ℝ) * b * (1 + R.u) ^ (m + k + 1) ≤ R.M) :
    R.fin x ∧ R.fin w ∧ |X * W| ≤ ((c * e : ℕ) : ℝ) * b ∧ |R.val x * R.val w - X * W| ≤ ((1 + R.u) ^ (m + k) - 1) * (((c * e : ℕ) : ℝ) * b) := by
  have b0 : 0 ≤ b := R.L_pos.le.trans hb
  have he : (1 : ℝ) ≤ e := by exact_mod_cast hw.1
  have h0 := R.one_le_pow m
  have h1 : (c : ℝ) * b * (1 + R.u) ^ m ≤ ((c * e : ℕ) : ℝ) * b * (1 + R.u) ^ (m + k + 1) := by
    push_cast
    refine mul_le_mul (mul_le_mul_of_nonneg_right ?_ b0) (R.pow_le (by omega)) (by linarith) (by positivity)
    nlinarith [(Nat.cast_nonneg c : (0 : ℝ) ≤ c)]
  obtain ⟨a1, a2, a3⟩ := hx.2 (h1.trans hM)
  obtain ⟨-, w1, w2, w3⟩ := hw
  refine ⟨a1, w1, ?_, ?_⟩
  · rw [abs_mul]
    push_cast
    calc |X| * |W| ≤ (c * b) * e := mul_le_mul a2 w2 (abs_nonneg _) (by positivity)
      _ = _ := by ring
  · have hk := R.one_le_pow k
    have e1 : R.val x * R.val w - X * W = (R.val x - X) * R.val w + X * (R.val w - W) := by ring
    have e2 : |R.val w| ≤ (1 + R.u) ^ k * e := by
      have := abs_add_le (R.val w - W) W
      rw [sub_add_cancel] at this
      linarith
    rw [e1]
    push_cast
    calc |(R.val x - X) * R.val w + X * (R.val w - W)| ≤ |R.val x - X| * |R.val w| + |X| * |R.val w - W| := by
          refine (abs_add_le _ _).trans ?_; rw [abs_mul, abs_mul]
      _ ≤ (((1 + R.u) ^ m - 1) * (c * b)) * ((1 + R.u) ^ k * e) + (c * b) * (((1 + R.u) ^ k - 1) * e) :=
          add_le_add (mul_le_mul a3 e2 (abs_nonneg _) (mul_nonneg (by linarith) (by positivity))) (mul_le_mul a2 w3 (abs_nonneg _) (by positivity))
      _ = _ := by rw [pow_add]; ring

theorem Bd.mul (hb : R.L ≤ b) (hx : Bd R b c m x X) (hw : Tw R e k w W) : Bd R b (c * e) (m + k + 1) (x * w) (X * W) := by
  have h1 : 1 ≤ c * e := Nat.mul_pos hx.1 hw.1
  refine ⟨h1, fun hM => ?_⟩
  obtain ⟨a1, w1, hX, hE⟩ := Bd.mul_aux hb hx hw hM
  have hcc := Bd.one_mul_le (R := R) (c := c * e) hb h1
  obtain ⟨h1, h2⟩ := round_step (s := R.val (x * w)) R.u_nonneg (R.one_le_pow _) hcc hX hE (M := R.M) (by rw [← pow_succ]; exact hM) (R.L_pos.le.trans hcc)
  obtain ⟨h3, h4⟩ := R.mul x w a1 w1 h1
  exact ⟨h3, hX, by rw [pow_succ]; exact h2 h4⟩

theorem Bd.mul' (hb : R.L ≤ b) (hx : Bd R b c m x X) (hw : Tw R e k w W) : Bd R b (c * e) (m + k + 1) (w * x) (W * X) := by
  have h1 : 1 ≤ c * e := Nat.mul_pos hx.1 hw.1
  refine ⟨h1, fun hM => ?_⟩
  obtain ⟨a1, w1, hX, hE⟩ := Bd.mul_aux hb hx hw hM
  have hcc := Bd.one_mul_le (R := R) (c := c * e) hb h1
  obtain ⟨h1, h2⟩ := round_step (s := R.val (w * x)) R.u_nonneg (R.one_le_pow _) hcc hX hE (M := R.M) (by rw [← pow_succ]; exact hM) (R.L_pos.le.trans hcc)
  rw [mul_comm (R.val x)] at h1 h2
  obtain ⟨h3, h4⟩ := R.mul w x w1 a1 h1
  rw [mul_comm W]
  exact ⟨h3, hX, by rw [pow_succ]; exact h2 h4⟩

theorem Bd.mul1 (hb : R.L ≤ b) (hx : Bd R b c m x X) (hw : Tw R 1 k w W) : Bd R b c (m + k + 1) (x * w) (X * W) := by
  have := Bd.mul hb hx hw; rwa [mul_one] at this
theorem Bd.mul1' (hb : R.L ≤ b) (hx : Bd R b c m x X) (hw : Tw R 1 k w W) : Bd R b c (m + k + 1) (w * x) (W * X) := by
  have := Bd.mul' hb hx hw; rwa [mul_one] at this

theorem Tw.mono {k' : ℕ} (h : Tw R e k w W) (hk : k ≤ k') : Tw R e k' w W :=
  ⟨h.1, h.2.1, h.2.2.1, h.2.2.2.trans (mul_le_mul_of_nonneg_right (by linarith [R.pow_le hk]) (Nat.cast_nonneg _))⟩
theorem Tw.neg (h : Tw R e k w W) : Tw R e k (-w) (-W) := by
  obtain ⟨h0, h1, h2, h3⟩ := h
  obtain ⟨h4, h5⟩ := R.neg w h1
  refine ⟨h0, h4, by rwa [abs_neg], ?_⟩
  rw [h5, ← abs_neg]
  convert h3 using 2
  ring

theorem Tw.half : Tw R 1 0 (thalf T) (thalf ℝ) := by
  refine ⟨le_refl _, R.half.1, ?_, ?_⟩ <;> norm_num [R.half.2]
theorem Tw.two : Tw R 2 0 (ttwo T) (ttwo ℝ) := by
  refine ⟨by norm_num, R.two.1, ?_, ?_⟩ <;> norm_num [R.two.2]
theorem Tw.one : Tw R 1 0 (1 : T) (1 : ℝ) := by
  refine ⟨le_refl _, R.one.1, ?_, ?_⟩ <;> norm_num [R.one.2]
theorem Tw.fracSqrt2 : Tw R 1 1 (DctNum.fracSqrt2 : T) (DctNum.fracSqrt2 : ℝ) := by
  have h1 : (1 : ℝ) ≤ √2 := Real.one_le_sqrt.2 (by norm_num)
  have h2 : 1 / √2 ≤ 1 := by rw [div_le_one (by linarith)]; exact h1
  have h0 : 0 ≤ 1 / √2 := by positivity
  refine ⟨le_refl _, R.fracSqrt2.1, ?_, ?_⟩
  · show |1 / √2| ≤ _
    rw [abs_of_nonneg h0]; simpa using h2
  · refine R.fracSqrt2.2.trans ?_
    have := mul_le_mul_of_nonneg_left h2 R.u_nonneg
    simp only [pow_one, add_sub_cancel_left, Nat.cast_one]
    exact this
theorem Tw.sqrt2 : Tw R 2 1 (DctNum.sqrt2 : T) (DctNum.sqrt2 : ℝ) := by
  have h2 : √2 ≤ 2 := by rw [Real.sqrt_le_left (by norm_num)]; norm_num
  refine ⟨by norm_num, R.sqrt2.1, ?_, ?_⟩
  · show |√2| ≤ _
    rw [abs_of_nonneg (sqrt_nonneg _)]; simpa using h2
  · refine R.sqrt2.2.trans ?_
    have := mul_le_mul_of_nonneg_left h2 R.u_nonneg
    simp only [pow_one, add_sub_cancel_left, Nat.cast_ofNat]
    exact this

end

section
variable {R : Ieee T F} {b : ℝ} {c m e k : ℕ} {x w : T} {X W : ℝ} (hb : R.L ≤ b)
include hb
theorem Bd.mulr (hw : Tw R e k w W) (hx : Bd R b c m x X) : Bd R b (c * e) (m + k + 1) (x * w) (X * W) := Bd.mul hb hx hw
theorem Bd.mul'r (hw : Tw R e k w W) (hx : Bd R b c m x X) : Bd R b (c * e) (m + k + 1) (w * x) (W * X) := Bd.mul' hb hx hw
theorem Bd.mul1r (hw : Tw R 1 k w W) (hx : Bd R b c m x X) : Bd R b c (m + k + 1) (x * w) (X * W) := Bd.mul1 hb hx hw
theorem Bd.mul1'r (hw : Tw R 1 k w W) (hx : Bd R b c m x X) : Bd R b c (m + k + 1) (w * x) (W * X) := Bd.mul1' hb hx hw
end

/-- Closes a goal about a constant. -/
macro "tw" : tactic => `(tactic| first | assumption | exact Tw.half | exact Tw.two | exact Tw.one | exact Tw.fracSqrt2 | exact Tw.sqrt2 | exact Tw.neg Tw.one | (apply Tw.neg; assumption))

/-- Computes gain and roundings of an expression from those of its variables. -/
macro "bdc" : tactic => `(tactic| repeat' first
  | assumption
  | (apply Bd.add (by assumption))
  | (apply Bd.sub (by assumption))
  | (apply Bd.mul1r; (· assumption); (· tw))
  | (apply Bd.mul1'r; (· assumption); (· tw))
  | (apply Bd.mulr; (· assumption); (· tw))
  | (apply Bd.mul'r; (· assumption); (· tw))
  | (exact Bd.zero (by assumption))
  | (apply Bd.neg))

/-- Gain and roundings of an expression are at most those of the goal. -/
macro "bd" : tactic => `(tactic| (apply Bd.mono; (· bdc); (· assumption); (· omega); (· omega)))

end RustDct
