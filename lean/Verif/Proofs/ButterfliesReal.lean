import Verif.Proofs.SplitSpec
import Verif.Proofs.Butterflies
/-!
# Over ℝ the fixed-size kernels compute DCT2, DCT3, DST2 and DST3
-/

set_option linter.all false

namespace RustDct
open Real Finset

section
variable {α : Type} (f : ℕ → α)
theorem vec_two : vec 2 f = [f 0, f 1] := by simp [vec, List.range_succ]
theorem vec_three : vec 3 f = [f 0, f 1, f 2] := by simp [vec, List.range_succ]
theorem vec_four : vec 4 f = [f 0, f 1, f 2, f 3] := by simp [vec, List.range_succ]
theorem vec_eight : vec 8 f = [f 0, f 1, f 2, f 3, f 4, f 5, f 6, f 7] := by simp [vec, List.range_succ]
theorem vec_sixteen : vec 16 f = [f 0, f 1, f 2, f 3, f 4, f 5, f 6, f 7, f 8, f 9, f 10, f 11, f 12, f 13, f 14, f 15] := by
  simp [vec, List.range_succ]
end

/-! ### General form of the recursions, with the inner transforms used by the kernels -/

/-- inner inputs of the type 2 recursion for size `n` -/
noncomputable def rSum (n : ℕ) (x : ℕ → ℝ) (i : ℕ) : ℝ := x i + x (n - 1 - i)
noncomputable def rDiff (n : ℕ) (x : ℕ → ℝ) (i : ℕ) : ℝ := x i - x (n - 1 - i)
noncomputable def rCos (n q : ℕ) (x : ℕ → ℝ) : ℕ → ℝ := cIn q (rDiff n x)
noncomputable def rSin (n q : ℕ) (x : ℕ → ℝ) (i : ℕ) : ℝ := sIn q (rDiff n x) (q - 1 - i)

theorem rec2_even {n h k j : ℕ} (hn : n = 2 * h) (hk : k = 2 * j) (x : ℕ → ℝ) :
    Spec.dct2At n x k = Spec.dct2At h (rSum n x) j := by
  subst hn hk; exact dct2At_even x j

theorem rec2_one {n q : ℕ} (hn : n = 4 * q) (x : ℕ → ℝ) :
    Spec.dct2At n x 1 = Spec.dct2At q (rCos n q x) 0 := by
  subst hn
  have := dct2At_odd (h := 2 * q) x 0
  rw [show 2 * (2 * q) = 4 * q by ring, dct4At_zero] at this
  simp only [Nat.mul_zero, Nat.zero_add] at this
  exact this

theorem sIn_rev {n q : ℕ} (x : ℕ → ℝ) (k : ℕ) :
    Spec.dst2At q (sIn q (rDiff n x)) k = (-1) ^ k * Spec.dst2At q (rSin n q x) k := by
  have := dst2At_rev (q := q) (sIn q (rDiff n x)) k
  unfold rSin
  rw [this, ← mul_assoc, ← pow_add, (Even.neg_one_pow ⟨k, rfl⟩), one_mul]

theorem rec2_p1 {n q k m : ℕ} (hn : n = 4 * q) (hk : k = 4 * m + 5) (x : ℕ → ℝ) :
    Spec.dct2At n x k = Spec.dct2At q (rCos n q x) (m + 1) + (-1) ^ m * Spec.dst2At q (rSin n q x) m := by
  subst hn hk
  have := dct2At_odd (h := 2 * q) x (2 * (m + 1))
  rw [show 2 * (2 * q) = 4 * q by ring, show 2 * (2 * (m + 1)) + 1 = 4 * m + 5 by ring] at this
  rw [this, dct4At_even _ (by omega), Nat.add_sub_cancel, ← sIn_rev]
  rfl

theorem rec2_m1 {n q k m : ℕ} (hn : n = 4 * q) (hk : k = 4 * m + 3) (x : ℕ → ℝ) :
    Spec.dct2At n x k = Spec.dct2At q (rCos n q x) (m + 1) - (-1) ^ m * Spec.dst2At q (rSin n q x) m := by
  subst hn hk
  have := dct2At_odd (h := 2 * q) x (2 * (m + 1) - 1)
  rw [show 2 * (2 * q) = 4 * q by ring, show 2 * (2 * (m + 1) - 1) + 1 = 4 * m + 3 by omega] at this
  rw [this, dct4At_odd _ (by omega), Nat.add_sub_cancel, ← sIn_rev]
  rfl

theorem rec2_last {n q k m : ℕ} (hn : n = 4 * q) (hq : q = m + 1) (hk : k = 4 * m + 3) (x : ℕ → ℝ) :
    Spec.dct2At n x k = -((-1) ^ m * Spec.dst2At q (rSin n q x) m) := by
  rw [rec2_m1 hn hk, ← hq, dct2At_self]; ring

/-- inner inputs of the type 3 recursion -/
noncomputable def rEven (x : ℕ → ℝ) (i : ℕ) : ℝ := x (2 * i)
noncomputable def rA (x : ℕ → ℝ) : ℕ → ℝ := aIn (fun i => x (2 * i + 1))
noncomputable def rB (q : ℕ) (x : ℕ → ℝ) : ℕ → ℝ := bIn q (fun i => x (2 * i + 1))

theorem rec3_low {n h q k : ℕ} (hn : n = 4 * q) (hh : h = 2 * q) (hq : 1 ≤ q) (x : ℕ → ℝ) :
    Spec.dct3At n x k = Spec.dct3At h (rEven x) k +
      (Spec.dct3At q (rA x) k * cos (th4 q k) + Spec.dst3At q (rB q x) k * sin (th4 q k)) := by
  subst hh hn
  have := dct3At_low (h := 2 * q) x k
  rw [show 2 * (2 * q) = 4 * q by ring, dct4At_low3 hq] at this
  exact this

theorem rec3_top {n h q k j : ℕ} (hn : n = 4 * q) (hh : h = 2 * q) (hk : k = n - 1 - j) (hj : j < q) (x : ℕ → ℝ) :
    Spec.dct3At n x k = Spec.dct3At h (rEven x) j -
      (Spec.dct3At q (rA x) j * cos (th4 q j) + Spec.dst3At q (rB q x) j * sin (th4 q j)) := by
  subst hh hn hk
  have := dct3At_high (h := 2 * q) x (k := j) (by omega)
  rw [show 2 * (2 * q) = 4 * q by ring, dct4At_low3 (by omega)] at this
  exact this

theorem rec3_mid_low {n h q k j : ℕ} (hn : n = 4 * q) (hh : h = 2 * q) (hk : k = 2 * q - 1 - j) (hj : j < q) (x : ℕ → ℝ) :
    Spec.dct3At n x k = Spec.dct3At h (rEven x) k +
      (Spec.dct3At q (rA x) j * sin (th4 q j) - Spec.dst3At q (rB q x) j * cos (th4 q j)) := by
  subst hh hn hk
  have := dct3At_low (h := 2 * q) x (2 * q - 1 - j)
  rw [show 2 * (2 * q) = 4 * q by ring, dct4At_high3 (by omega) _ (by omega)] at this
  exact this

theorem rec3_mid_high {n h q k j i : ℕ} (hn : n = 4 * q) (hh : h = 2 * q) (hk : k = 2 * q + j) (hi : i = 2 * q - 1 - j) (hj : j < q) (x : ℕ → ℝ) :
    Spec.dct3At n x k = Spec.dct3At h (rEven x) i -
      (Spec.dct3At q (rA x) j * sin (th4 q j) - Spec.dst3At q (rB q x) j * cos (th4 q j)) := by
  subst hh hn hk hi
  have := dct3At_high (h := 2 * q) x (k := 2 * q - 1 - j) (by omega)
  rw [show 2 * (2 * q) = 4 * q by ring, dct4At_high3 (by omega) _ (by omega),
    show 4 * q - 1 - (2 * q - 1 - j) = 2 * q + j by omega] at this
  exact this

theorem dst2_eq' {n k j : ℕ} (hj : j < n) (hk : k = n - 1 - j) (f : ℕ → ℝ) :
    Spec.dst2At n f k = Spec.dct2At n (fun i => (-1) ^ i * f i) j := by
  subst hk; exact dst2At_eq f hj

/-- The twiddle factors of the kernels. -/
theorem twiddle_cos {i q L : ℕ} (hL : L = 16 * q) :
    (Cx.conj (singleTwiddle (2 * i + 1) L) : Cx ℝ).re = cos (th4 q i) := by
  simp only [Cx.conj, singleTwiddle_re]
  unfold th4; rw [hL]; push_cast
  congr 1
  by_cases h : (q : ℝ) = 0
  · simp [h]
  · field_simp; ring
theorem twiddle_sin {i q L : ℕ} (hL : L = 16 * q) :
    (Cx.conj (singleTwiddle (2 * i + 1) L) : Cx ℝ).im = sin (th4 q i) := by
  simp only [Cx.conj, singleTwiddle_im, neg_neg]
  unfold th4; rw [hL]; push_cast
  congr 1
  by_cases h : (q : ℝ) = 0
  · simp [h]
  · field_simp; ring

/-! ### Size 1 and 2 -/

theorem dct2At_one (x : ℕ → ℝ) : Spec.dct2At 1 x 0 = x 0 := by simp [Spec.dct2At]
theorem dst2At_one (x : ℕ → ℝ) : Spec.dst2At 1 x 0 = x 0 := by
  simp only [Spec.dst2At, sum_range_one, Nat.cast_zero, Nat.cast_one, div_one, zero_add, one_mul]
  rw [show (1 : ℝ) / 2 * π = π / 2 by ring, sin_pi_div_two, mul_one]
theorem dct3At_one (x : ℕ → ℝ) : Spec.dct3At 1 x 0 = x 0 / 2 := by simp [Spec.dct3At, Spec.halfAt]; ring
theorem dst3At_one (x : ℕ → ℝ) : Spec.dst3At 1 x 0 = x 0 / 2 := by
  simp only [Spec.dst3At, sum_range_one, Spec.halfAt, Nat.sub_self, if_true, Nat.cast_zero, Nat.cast_one, div_one, zero_add, mul_one]
  rw [show (1 : ℝ) / 2 * π = π / 2 by ring, sin_pi_div_two]; ring
theorem dct4At_one (x : ℕ → ℝ) : Spec.dct4At 1 x 0 = x 0 * (1 / √2) := by
  simp only [Spec.dct4At, sum_range_one, Nat.cast_zero, Nat.cast_one, div_one, zero_add]
  rw [show (1 : ℝ) / 2 * (1 / 2) * π = π / 4 by ring, cos_pi_div_four]
  congr 1
  rw [div_eq_div_iff (by norm_num) (by positivity), Real.mul_self_sqrt (by norm_num)]; ring

theorem b2_dct2 (f : ℕ → ℝ) : vec 2 (Spec.dct2At 2 f) = [f 0 + f 1, (f 0 - f 1) * (1 / √2)] := by
  rw [vec_two]
  have h0 := dct2At_even (h := 1) f 0
  have h1 := dct2At_odd (h := 1) f 0
  rw [dct2At_one] at h0
  rw [dct4At_one] at h1
  norm_num at h0 h1
  rw [h0, h1]
  simp

theorem b2_dct3 (f : ℕ → ℝ) : vec 2 (Spec.dct3At 2 f) = [f 0 * (1 / 2) + f 1 * (1 / √2), f 0 * (1 / 2) - f 1 * (1 / √2)] := by
  rw [vec_two]
  have h0 := dct3At_low (h := 1) f 0
  have h1 := dct3At_high (h := 1) f (k := 0) (by omega)
  rw [dct3At_one, dct4At_one] at h0 h1
  norm_num at h0 h1
  rw [h0, h1]
  simp only [List.cons.injEq]
  refine ⟨?_, ?_, trivial⟩ <;> simp <;> ring

theorem b2_dst2 (f : ℕ → ℝ) : vec 2 (Spec.dst2At 2 f) = [(f 0 + f 1) * (1 / √2), f 0 - f 1] := by
  have := b2_dct2 (fun i => (-1) ^ i * f i)
  rw [vec_two] at this ⊢
  rw [dst2_eq' (j := 1) (by omega) (by omega), dst2_eq' (j := 0) (by omega) (by omega)]
  simp only [List.cons.injEq] at this ⊢
  rw [this.1, this.2.1]
  refine ⟨by ring, by ring, trivial⟩

theorem b2_dst3 (f : ℕ → ℝ) : vec 2 (Spec.dst3At 2 f) = [f 0 * (1 / √2) + f 1 * (1 / 2), f 0 * (1 / √2) - f 1 * (1 / 2)] := by
  have := b2_dct3 (fun i => f (2 - 1 - i))
  rw [vec_two] at this ⊢
  rw [dst3At_eq f (by omega), dst3At_eq f (by omega)]
  simp only [List.cons.injEq] at this ⊢
  rw [this.1, this.2.1]
  refine ⟨by norm_num; ring, by norm_num, trivial⟩

theorem Type2And3Butterfly2.real_dct2 (self : Type2And3Butterfly2 ℝ) (f : ℕ → ℝ) :
    self.inplaceDct2 (vec 2 f) = .ok (vec 2 (Spec.dct2At 2 f)) := by
  rw [b2_dct2, vec_two, Type2And3Butterfly2.inplaceDct2_gen]; simp
theorem Type2And3Butterfly2.real_dct3 (self : Type2And3Butterfly2 ℝ) (f : ℕ → ℝ) :
    self.inplaceDct3 (vec 2 f) = .ok (vec 2 (Spec.dct3At 2 f)) := by
  rw [b2_dct3, vec_two, Type2And3Butterfly2.inplaceDct3_gen]; simp
theorem Type2And3Butterfly2.real_dst2 (self : Type2And3Butterfly2 ℝ) (f : ℕ → ℝ) :
    self.inplaceDst2 (vec 2 f) = .ok (vec 2 (Spec.dst2At 2 f)) := by
  rw [b2_dst2, vec_two, Type2And3Butterfly2.inplaceDst2_gen]; simp
theorem Type2And3Butterfly2.real_dst3 (self : Type2And3Butterfly2 ℝ) (f : ℕ → ℝ) :
    self.inplaceDst3 (vec 2 f) = .ok (vec 2 (Spec.dst3At 2 f)) := by
  rw [b2_dst3, vec_two, Type2And3Butterfly2.inplaceDst3_gen]; simp

/-! ### Size 3 -/

theorem tw3 : (Type2And3Butterfly3.new : Type2And3Butterfly3 ℝ).twiddle = √3 / 2 := by
  simp only [Type2And3Butterfly3.new, singleTwiddleRe_eq]
  rw [← cos_pi_div_six]; congr 1; push_cast; ring

theorem b3_dct2 (f : ℕ → ℝ) : vec 3 (Spec.dct2At 3 f) =
    [f 0 + f 1 + f 2, (f 0 - f 2) * (√3 / 2), (f 0 + f 2) * (1 / 2) - f 1] := by
  rw [vec_three]
  simp only [Spec.dct2At, sum_range_succ, sum_range_zero, Nat.cast_zero, Nat.cast_one, Nat.cast_ofNat, zero_mul, zero_div,
    cos_zero, mul_one, zero_add, one_mul]
  have c1 : cos (1 / 2 * π / 3) = √3 / 2 := by rw [← cos_pi_div_six]; congr 1; ring
  have c2 : cos ((1 + 1 / 2) * π / 3) = 0 := by rw [← cos_pi_div_two]; congr 1; ring
  have c3 : cos ((2 + 1 / 2) * π / 3) = -(√3 / 2) := by
    rw [← cos_pi_div_six, ← cos_pi_sub]; congr 1; ring
  have c4 : cos (2 * (1 / 2) * π / 3) = 1 / 2 := by refine Eq.trans ?_ cos_pi_div_three; congr 1; ring
  have c5 : cos (2 * (1 + 1 / 2) * π / 3) = -1 := by rw [← cos_pi]; congr 1; ring
  have c6 : cos (2 * (2 + 1 / 2) * π / 3) = 1 / 2 := by
    rw [show (2 : ℝ) * (2 + 1 / 2) * π / 3 = 2 * π - π / 3 by ring, cos_two_pi_sub, cos_pi_div_three]
  rw [c1, c2, c3, c4, c5, c6]
  simp only [List.cons.injEq]
  refine ⟨by first | trivial | ring, by ring, by ring, trivial⟩

theorem b3_dct3 (f : ℕ → ℝ) : vec 3 (Spec.dct3At 3 f) =
    [f 0 * (1 / 2) + f 1 * (√3 / 2) + f 2 * (1 / 2), f 0 * (1 / 2) - f 2, f 0 * (1 / 2) + f 1 * -(√3 / 2) + f 2 * (1 / 2)] := by
  rw [vec_three]
  simp only [Spec.dct3At, Spec.halfAt, sum_range_succ, sum_range_zero, Nat.cast_zero, Nat.cast_one, Nat.cast_ofNat, mul_zero, zero_mul, zero_div,
    cos_zero, mul_one, zero_add, one_mul, if_true, one_ne_zero, OfNat.ofNat_ne_zero, if_false]
  have c1 : cos (1 / 2 * π / 3) = √3 / 2 := by rw [← cos_pi_div_six]; congr 1; ring
  have c2 : cos ((1 + 1 / 2) * π / 3) = 0 := by rw [← cos_pi_div_two]; congr 1; ring
  have c3 : cos ((2 + 1 / 2) * π / 3) = -(√3 / 2) := by
    rw [← cos_pi_div_six, ← cos_pi_sub]; congr 1; ring
  have c4 : cos (1 / 2 * 2 * π / 3) = 1 / 2 := by refine Eq.trans ?_ cos_pi_div_three; congr 1; ring
  have c5 : cos ((1 + 1 / 2) * 2 * π / 3) = -1 := by rw [← cos_pi]; congr 1; ring
  have c6 : cos ((2 + 1 / 2) * 2 * π / 3) = 1 / 2 := by
    rw [show ((2 : ℝ) + 1 / 2) * 2 * π / 3 = 2 * π - π / 3 by ring, cos_two_pi_sub, cos_pi_div_three]
  rw [c1, c2, c3, c4, c5, c6]
  simp only [List.cons.injEq]
  refine ⟨by first | trivial | ring, by ring, by ring, trivial⟩

theorem b3_dst2 (f : ℕ → ℝ) : vec 3 (Spec.dst2At 3 f) =
    [(f 0 + f 2) * (1 / 2) + f 1, (f 0 - f 2) * (√3 / 2), f 0 - f 1 + f 2] := by
  have := b3_dct2 (fun i => (-1) ^ i * f i)
  rw [vec_three] at this ⊢
  rw [dst2_eq' (j := 2) (by omega) (by omega), dst2_eq' (j := 1) (by omega) (by omega), dst2_eq' (j := 0) (by omega) (by omega)]
  simp only [List.cons.injEq] at this ⊢
  rw [this.1, this.2.1, this.2.2.1]
  refine ⟨by ring, by ring, by ring, trivial⟩

theorem b3_dst3 (f : ℕ → ℝ) : vec 3 (Spec.dst3At 3 f) =
    [f 2 * (1 / 2) + f 1 * (√3 / 2) + f 0 * (1 / 2), f 0 - f 2 * (1 / 2), f 2 * (1 / 2) + f 1 * -(√3 / 2) + f 0 * (1 / 2)] := by
  have := b3_dct3 (fun i => f (3 - 1 - i))
  rw [vec_three] at this ⊢
  rw [dst3At_eq f (by omega), dst3At_eq f (by omega), dst3At_eq f (by omega)]
  simp only [List.cons.injEq] at this ⊢
  rw [this.1, this.2.1, this.2.2.1]
  refine ⟨by norm_num, by norm_num, by norm_num, trivial⟩

theorem Type2And3Butterfly3.real_dct2 (f : ℕ → ℝ) :
    (Type2And3Butterfly3.new : Type2And3Butterfly3 ℝ).inplaceDct2 (vec 3 f) = .ok (vec 3 (Spec.dct2At 3 f)) := by
  rw [b3_dct2, vec_three, Type2And3Butterfly3.inplaceDct2_gen, tw3, thalf_real]
theorem Type2And3Butterfly3.real_dct3 (f : ℕ → ℝ) :
    (Type2And3Butterfly3.new : Type2And3Butterfly3 ℝ).inplaceDct3 (vec 3 f) = .ok (vec 3 (Spec.dct3At 3 f)) := by
  rw [b3_dct3, vec_three, Type2And3Butterfly3.inplaceDct3_gen, tw3, thalf_real]
theorem Type2And3Butterfly3.real_dst2 (f : ℕ → ℝ) :
    (Type2And3Butterfly3.new : Type2And3Butterfly3 ℝ).inplaceDst2 (vec 3 f) = .ok (vec 3 (Spec.dst2At 3 f)) := by
  rw [b3_dst2, vec_three, Type2And3Butterfly3.inplaceDst2_gen, tw3, thalf_real]
theorem Type2And3Butterfly3.real_dst3 (f : ℕ → ℝ) :
    (Type2And3Butterfly3.new : Type2And3Butterfly3 ℝ).inplaceDst3 (vec 3 f) = .ok (vec 3 (Spec.dst3At 3 f)) := by
  rw [b3_dst3, vec_three, Type2And3Butterfly3.inplaceDst3_gen, tw3, thalf_real]


/-! ### Size 4 -/

theorem b4_dct2 (x : ℕ → ℝ) : vec 4 (Spec.dct2At 4 x) =
    [Spec.dct2At 2 (rSum 4 x) 0,
      Spec.dct2At 1 (rCos 4 1 x) 0,
      Spec.dct2At 2 (rSum 4 x) 1,
      -((-1) ^ 0 * Spec.dst2At 1 (rSin 4 1 x) 0)] := by
  rw [vec_four]
  simp only [List.cons.injEq]
  exact ⟨rec2_even (by norm_num) (by norm_num) x,
    rec2_one (by norm_num) x,
    rec2_even (by norm_num) (by norm_num) x,
    rec2_last (by norm_num) (by norm_num) (by norm_num) x, trivial⟩

theorem b4_dct3 (x : ℕ → ℝ) : vec 4 (Spec.dct3At 4 x) =
    [Spec.dct3At 2 (rEven x) 0 + (Spec.dct3At 1 (rA x) 0 * cos (th4 1 0) + Spec.dst3At 1 (rB 1 x) 0 * sin (th4 1 0)),
      Spec.dct3At 2 (rEven x) 1 + (Spec.dct3At 1 (rA x) 0 * sin (th4 1 0) - Spec.dst3At 1 (rB 1 x) 0 * cos (th4 1 0)),
      Spec.dct3At 2 (rEven x) 1 - (Spec.dct3At 1 (rA x) 0 * sin (th4 1 0) - Spec.dst3At 1 (rB 1 x) 0 * cos (th4 1 0)),
      Spec.dct3At 2 (rEven x) 0 - (Spec.dct3At 1 (rA x) 0 * cos (th4 1 0) + Spec.dst3At 1 (rB 1 x) 0 * sin (th4 1 0))] := by
  rw [vec_four]
  simp only [List.cons.injEq]
  exact ⟨rec3_low (by norm_num) (by norm_num) (by norm_num) x,
    rec3_mid_low (j := 0) (by norm_num) (by norm_num) (by norm_num) (by norm_num) x,
    rec3_mid_high (j := 0) (by norm_num) (by norm_num) (by norm_num) (by norm_num) (by norm_num) x,
    rec3_top (j := 0) (by norm_num) (by norm_num) (by norm_num) (by norm_num) x, trivial⟩

theorem b4_dst2 (x : ℕ → ℝ) : vec 4 (Spec.dst2At 4 x) =
    [Spec.dct2At 4 (fun i => (-1) ^ i * x i) 3, Spec.dct2At 4 (fun i => (-1) ^ i * x i) 2, Spec.dct2At 4 (fun i => (-1) ^ i * x i) 1, Spec.dct2At 4 (fun i => (-1) ^ i * x i) 0] := by
  rw [vec_four]
  simp only [List.cons.injEq]
  exact ⟨dst2_eq' (by norm_num) (by norm_num) x, dst2_eq' (by norm_num) (by norm_num) x, dst2_eq' (by norm_num) (by norm_num) x, dst2_eq' (by norm_num) (by norm_num) x, trivial⟩

theorem b4_dst3 (x : ℕ → ℝ) : vec 4 (Spec.dst3At 4 x) =
    [(-1) ^ 0 * Spec.dct3At 4 (fun i => x (4 - 1 - i)) 0, (-1) ^ 1 * Spec.dct3At 4 (fun i => x (4 - 1 - i)) 1, (-1) ^ 2 * Spec.dct3At 4 (fun i => x (4 - 1 - i)) 2, (-1) ^ 3 * Spec.dct3At 4 (fun i => x (4 - 1 - i)) 3] := by
  rw [vec_four]
  simp only [List.cons.injEq]
  exact ⟨dst3At_eq x (by norm_num), dst3At_eq x (by norm_num), dst3At_eq x (by norm_num), dst3At_eq x (by norm_num), trivial⟩

/-! ### Size 8 -/

theorem b8_dct2 (x : ℕ → ℝ) : vec 8 (Spec.dct2At 8 x) =
    [Spec.dct2At 4 (rSum 8 x) 0,
      Spec.dct2At 2 (rCos 8 2 x) 0,
      Spec.dct2At 4 (rSum 8 x) 1,
      Spec.dct2At 2 (rCos 8 2 x) 1 - (-1) ^ 0 * Spec.dst2At 2 (rSin 8 2 x) 0,
      Spec.dct2At 4 (rSum 8 x) 2,
      Spec.dct2At 2 (rCos 8 2 x) 1 + (-1) ^ 0 * Spec.dst2At 2 (rSin 8 2 x) 0,
      Spec.dct2At 4 (rSum 8 x) 3,
      -((-1) ^ 1 * Spec.dst2At 2 (rSin 8 2 x) 1)] := by
  rw [vec_eight]
  simp only [List.cons.injEq]
  exact ⟨rec2_even (by norm_num) (by norm_num) x,
    rec2_one (by norm_num) x,
    rec2_even (by norm_num) (by norm_num) x,
    rec2_m1 (by norm_num) (by norm_num) x,
    rec2_even (by norm_num) (by norm_num) x,
    rec2_p1 (by norm_num) (by norm_num) x,
    rec2_even (by norm_num) (by norm_num) x,
    rec2_last (by norm_num) (by norm_num) (by norm_num) x, trivial⟩

theorem b8_dct3 (x : ℕ → ℝ) : vec 8 (Spec.dct3At 8 x) =
    [Spec.dct3At 4 (rEven x) 0 + (Spec.dct3At 2 (rA x) 0 * cos (th4 2 0) + Spec.dst3At 2 (rB 2 x) 0 * sin (th4 2 0)),
      Spec.dct3At 4 (rEven x) 1 + (Spec.dct3At 2 (rA x) 1 * cos (th4 2 1) + Spec.dst3At 2 (rB 2 x) 1 * sin (th4 2 1)),
      Spec.dct3At 4 (rEven x) 2 + (Spec.dct3At 2 (rA x) 1 * sin (th4 2 1) - Spec.dst3At 2 (rB 2 x) 1 * cos (th4 2 1)),
      Spec.dct3At 4 (rEven x) 3 + (Spec.dct3At 2 (rA x) 0 * sin (th4 2 0) - Spec.dst3At 2 (rB 2 x) 0 * cos (th4 2 0)),
      Spec.dct3At 4 (rEven x) 3 - (Spec.dct3At 2 (rA x) 0 * sin (th4 2 0) - Spec.dst3At 2 (rB 2 x) 0 * cos (th4 2 0)),
      Spec.dct3At 4 (rEven x) 2 - (Spec.dct3At 2 (rA x) 1 * sin (th4 2 1) - Spec.dst3At 2 (rB 2 x) 1 * cos (th4 2 1)),
      Spec.dct3At 4 (rEven x) 1 - (Spec.dct3At 2 (rA x) 1 * cos (th4 2 1) + Spec.dst3At 2 (rB 2 x) 1 * sin (th4 2 1)),
      Spec.dct3At 4 (rEven x) 0 - (Spec.dct3At 2 (rA x) 0 * cos (th4 2 0) + Spec.dst3At 2 (rB 2 x) 0 * sin (th4 2 0))] := by
  rw [vec_eight]
  simp only [List.cons.injEq]
  exact ⟨rec3_low (by norm_num) (by norm_num) (by norm_num) x,
    rec3_low (by norm_num) (by norm_num) (by norm_num) x,
    rec3_mid_low (j := 1) (by norm_num) (by norm_num) (by norm_num) (by norm_num) x,
    rec3_mid_low (j := 0) (by norm_num) (by norm_num) (by norm_num) (by norm_num) x,
    rec3_mid_high (j := 0) (by norm_num) (by norm_num) (by norm_num) (by norm_num) (by norm_num) x,
    rec3_mid_high (j := 1) (by norm_num) (by norm_num) (by norm_num) (by norm_num) (by norm_num) x,
    rec3_top (j := 1) (by norm_num) (by norm_num) (by norm_num) (by norm_num) x,
    rec3_top (j := 0) (by norm_num) (by norm_num) (by norm_num) (by norm_num) x, trivial⟩

theorem b8_dst2 (x : ℕ → ℝ) : vec 8 (Spec.dst2At 8 x) =
    [Spec.dct2At 8 (fun i => (-1) ^ i * x i) 7, Spec.dct2At 8 (fun i => (-1) ^ i * x i) 6, Spec.dct2At 8 (fun i => (-1) ^ i * x i) 5, Spec.dct2At 8 (fun i => (-1) ^ i * x i) 4, Spec.dct2At 8 (fun i => (-1) ^ i * x i) 3, Spec.dct2At 8 (fun i => (-1) ^ i * x i) 2, Spec.dct2At 8 (fun i => (-1) ^ i * x i) 1, Spec.dct2At 8 (fun i => (-1) ^ i * x i) 0] := by
  rw [vec_eight]
  simp only [List.cons.injEq]
  exact ⟨dst2_eq' (by norm_num) (by norm_num) x, dst2_eq' (by norm_num) (by norm_num) x, dst2_eq' (by norm_num) (by norm_num) x, dst2_eq' (by norm_num) (by norm_num) x, dst2_eq' (by norm_num) (by norm_num) x, dst2_eq' (by norm_num) (by norm_num) x, dst2_eq' (by norm_num) (by norm_num) x, dst2_eq' (by norm_num) (by norm_num) x, trivial⟩

theorem b8_dst3 (x : ℕ → ℝ) : vec 8 (Spec.dst3At 8 x) =
    [(-1) ^ 0 * Spec.dct3At 8 (fun i => x (8 - 1 - i)) 0, (-1) ^ 1 * Spec.dct3At 8 (fun i => x (8 - 1 - i)) 1, (-1) ^ 2 * Spec.dct3At 8 (fun i => x (8 - 1 - i)) 2, (-1) ^ 3 * Spec.dct3At 8 (fun i => x (8 - 1 - i)) 3, (-1) ^ 4 * Spec.dct3At 8 (fun i => x (8 - 1 - i)) 4, (-1) ^ 5 * Spec.dct3At 8 (fun i => x (8 - 1 - i)) 5, (-1) ^ 6 * Spec.dct3At 8 (fun i => x (8 - 1 - i)) 6, (-1) ^ 7 * Spec.dct3At 8 (fun i => x (8 - 1 - i)) 7] := by
  rw [vec_eight]
  simp only [List.cons.injEq]
  exact ⟨dst3At_eq x (by norm_num), dst3At_eq x (by norm_num), dst3At_eq x (by norm_num), dst3At_eq x (by norm_num), dst3At_eq x (by norm_num), dst3At_eq x (by norm_num), dst3At_eq x (by norm_num), dst3At_eq x (by norm_num), trivial⟩

/-! ### Size 16 -/

theorem b16_dct2 (x : ℕ → ℝ) : vec 16 (Spec.dct2At 16 x) =
    [Spec.dct2At 8 (rSum 16 x) 0,
      Spec.dct2At 4 (rCos 16 4 x) 0,
      Spec.dct2At 8 (rSum 16 x) 1,
      Spec.dct2At 4 (rCos 16 4 x) 1 - (-1) ^ 0 * Spec.dst2At 4 (rSin 16 4 x) 0,
      Spec.dct2At 8 (rSum 16 x) 2,
      Spec.dct2At 4 (rCos 16 4 x) 1 + (-1) ^ 0 * Spec.dst2At 4 (rSin 16 4 x) 0,
      Spec.dct2At 8 (rSum 16 x) 3,
      Spec.dct2At 4 (rCos 16 4 x) 2 - (-1) ^ 1 * Spec.dst2At 4 (rSin 16 4 x) 1,
      Spec.dct2At 8 (rSum 16 x) 4,
      Spec.dct2At 4 (rCos 16 4 x) 2 + (-1) ^ 1 * Spec.dst2At 4 (rSin 16 4 x) 1,
      Spec.dct2At 8 (rSum 16 x) 5,
      Spec.dct2At 4 (rCos 16 4 x) 3 - (-1) ^ 2 * Spec.dst2At 4 (rSin 16 4 x) 2,
      Spec.dct2At 8 (rSum 16 x) 6,
      Spec.dct2At 4 (rCos 16 4 x) 3 + (-1) ^ 2 * Spec.dst2At 4 (rSin 16 4 x) 2,
      Spec.dct2At 8 (rSum 16 x) 7,
      -((-1) ^ 3 * Spec.dst2At 4 (rSin 16 4 x) 3)] := by
  rw [vec_sixteen]
  simp only [List.cons.injEq]
  exact ⟨rec2_even (by norm_num) (by norm_num) x,
    rec2_one (by norm_num) x,
    rec2_even (by norm_num) (by norm_num) x,
    rec2_m1 (by norm_num) (by norm_num) x,
    rec2_even (by norm_num) (by norm_num) x,
    rec2_p1 (by norm_num) (by norm_num) x,
    rec2_even (by norm_num) (by norm_num) x,
    rec2_m1 (by norm_num) (by norm_num) x,
    rec2_even (by norm_num) (by norm_num) x,
    rec2_p1 (by norm_num) (by norm_num) x,
    rec2_even (by norm_num) (by norm_num) x,
    rec2_m1 (by norm_num) (by norm_num) x,
    rec2_even (by norm_num) (by norm_num) x,
    rec2_p1 (by norm_num) (by norm_num) x,
    rec2_even (by norm_num) (by norm_num) x,
    rec2_last (by norm_num) (by norm_num) (by norm_num) x, trivial⟩

theorem b16_dct3 (x : ℕ → ℝ) : vec 16 (Spec.dct3At 16 x) =
    [Spec.dct3At 8 (rEven x) 0 + (Spec.dct3At 4 (rA x) 0 * cos (th4 4 0) + Spec.dst3At 4 (rB 4 x) 0 * sin (th4 4 0)),
      Spec.dct3At 8 (rEven x) 1 + (Spec.dct3At 4 (rA x) 1 * cos (th4 4 1) + Spec.dst3At 4 (rB 4 x) 1 * sin (th4 4 1)),
      Spec.dct3At 8 (rEven x) 2 + (Spec.dct3At 4 (rA x) 2 * cos (th4 4 2) + Spec.dst3At 4 (rB 4 x) 2 * sin (th4 4 2)),
      Spec.dct3At 8 (rEven x) 3 + (Spec.dct3At 4 (rA x) 3 * cos (th4 4 3) + Spec.dst3At 4 (rB 4 x) 3 * sin (th4 4 3)),
      Spec.dct3At 8 (rEven x) 4 + (Spec.dct3At 4 (rA x) 3 * sin (th4 4 3) - Spec.dst3At 4 (rB 4 x) 3 * cos (th4 4 3)),
      Spec.dct3At 8 (rEven x) 5 + (Spec.dct3At 4 (rA x) 2 * sin (th4 4 2) - Spec.dst3At 4 (rB 4 x) 2 * cos (th4 4 2)),
      Spec.dct3At 8 (rEven x) 6 + (Spec.dct3At 4 (rA x) 1 * sin (th4 4 1) - Spec.dst3At 4 (rB 4 x) 1 * cos (th4 4 1)),
      Spec.dct3At 8 (rEven x) 7 + (Spec.dct3At 4 (rA x) 0 * sin (th4 4 0) - Spec.dst3At 4 (rB 4 x) 0 * cos (th4 4 0)),
      Spec.dct3At 8 (rEven x) 7 - (Spec.dct3At 4 (rA x) 0 * sin (th4 4 0) - Spec.dst3At 4 (rB 4 x) 0 * cos (th4 4 0)),
      Spec.dct3At 8 (rEven x) 6 - (Spec.dct3At 4 (rA x) 1 * sin (th4 4 1) - Spec.dst3At 4 (rB 4 x) 1 * cos (th4 4 1)),
      Spec.dct3At 8 (rEven x) 5 - (Spec.dct3At 4 (rA x) 2 * sin (th4 4 2) - Spec.dst3At 4 (rB 4 x) 2 * cos (th4 4 2)),
      Spec.dct3At 8 (rEven x) 4 - (Spec.dct3At 4 (rA x) 3 * sin (th4 4 3) - Spec.dst3At 4 (rB 4 x) 3 * cos (th4 4 3)),
      Spec.dct3At 8 (rEven x) 3 - (Spec.dct3At 4 (rA x) 3 * cos (th4 4 3) + Spec.dst3At 4 (rB 4 x) 3 * sin (th4 4 3)),
      Spec.dct3At 8 (rEven x) 2 - (Spec.dct3At 4 (rA x) 2 * cos (th4 4 2) + Spec.dst3At 4 (rB 4 x) 2 * sin (th4 4 2)),
      Spec.dct3At 8 (rEven x) 1 - (Spec.dct3At 4 (rA x) 1 * cos (th4 4 1) + Spec.dst3At 4 (rB 4 x) 1 * sin (th4 4 1)),
      Spec.dct3At 8 (rEven x) 0 - (Spec.dct3At 4 (rA x) 0 * cos (th4 4 0) + Spec.dst3At 4 (rB 4 x) 0 * sin (th4 4 0))] := by
  rw [vec_sixteen]
  simp only [List.cons.injEq]
  exact ⟨rec3_low (by norm_num) (by norm_num) (by norm_num) x,
    rec3_low (by norm_num) (by norm_num) (by norm_num) x,
    rec3_low (by norm_num) (by norm_num) (by norm_num) x,
    rec3_low (by norm_num) (by norm_num) (by norm_num) x,
    rec3_mid_low (j := 3) (by norm_num) (by norm_num) (by norm_num) (by norm_num) x,
    rec3_mid_low (j := 2) (by norm_num) (by norm_num) (by norm_num) (by norm_num) x,
    rec3_mid_low (j := 1) (by norm_num) (by norm_num) (by norm_num) (by norm_num) x,
    rec3_mid_low (j := 0) (by norm_num) (by norm_num) (by norm_num) (by norm_num) x,
    rec3_mid_high (j := 0) (by norm_num) (by norm_num) (by norm_num) (by norm_num) (by norm_num) x,
    rec3_mid_high (j := 1) (by norm_num) (by norm_num) (by norm_num) (by norm_num) (by norm_num) x,
    rec3_mid_high (j := 2) (by norm_num) (by norm_num) (by norm_num) (by norm_num) (by norm_num) x,
    rec3_mid_high (j := 3) (by norm_num) (by norm_num) (by norm_num) (by norm_num) (by norm_num) x,
    rec3_top (j := 3) (by norm_num) (by norm_num) (by norm_num) (by norm_num) x,
    rec3_top (j := 2) (by norm_num) (by norm_num) (by norm_num) (by norm_num) x,
    rec3_top (j := 1) (by norm_num) (by norm_num) (by norm_num) (by norm_num) x,
    rec3_top (j := 0) (by norm_num) (by norm_num) (by norm_num) (by norm_num) x, trivial⟩

theorem b16_dst2 (x : ℕ → ℝ) : vec 16 (Spec.dst2At 16 x) =
    [Spec.dct2At 16 (fun i => (-1) ^ i * x i) 15, Spec.dct2At 16 (fun i => (-1) ^ i * x i) 14, Spec.dct2At 16 (fun i => (-1) ^ i * x i) 13, Spec.dct2At 16 (fun i => (-1) ^ i * x i) 12, Spec.dct2At 16 (fun i => (-1) ^ i * x i) 11, Spec.dct2At 16 (fun i => (-1) ^ i * x i) 10, Spec.dct2At 16 (fun i => (-1) ^ i * x i) 9, Spec.dct2At 16 (fun i => (-1) ^ i * x i) 8, Spec.dct2At 16 (fun i => (-1) ^ i * x i) 7, Spec.dct2At 16 (fun i => (-1) ^ i * x i) 6, Spec.dct2At 16 (fun i => (-1) ^ i * x i) 5, Spec.dct2At 16 (fun i => (-1) ^ i * x i) 4, Spec.dct2At 16 (fun i => (-1) ^ i * x i) 3, Spec.dct2At 16 (fun i => (-1) ^ i * x i) 2, Spec.dct2At 16 (fun i => (-1) ^ i * x i) 1, Spec.dct2At 16 (fun i => (-1) ^ i * x i) 0] := by
  rw [vec_sixteen]
  simp only [List.cons.injEq]
  exact ⟨dst2_eq' (by norm_num) (by norm_num) x, dst2_eq' (by norm_num) (by norm_num) x, dst2_eq' (by norm_num) (by norm_num) x, dst2_eq' (by norm_num) (by norm_num) x, dst2_eq' (by norm_num) (by norm_num) x, dst2_eq' (by norm_num) (by norm_num) x, dst2_eq' (by norm_num) (by norm_num) x, dst2_eq' (by norm_num) (by norm_num) x, dst2_eq' (by norm_num) (by norm_num) x, dst2_eq' (by norm_num) (by norm_num) x, dst2_eq' (by norm_num) (by norm_num) x, dst2_eq' (by norm_num) (by norm_num) x, dst2_eq' (by norm_num) (by norm_num) x, dst2_eq' (by norm_num) (by norm_num) x, dst2_eq' (by norm_num) (by norm_num) x, dst2_eq' (by norm_num) (by norm_num) x, trivial⟩

theorem b16_dst3 (x : ℕ → ℝ) : vec 16 (Spec.dst3At 16 x) =
    [(-1) ^ 0 * Spec.dct3At 16 (fun i => x (16 - 1 - i)) 0, (-1) ^ 1 * Spec.dct3At 16 (fun i => x (16 - 1 - i)) 1, (-1) ^ 2 * Spec.dct3At 16 (fun i => x (16 - 1 - i)) 2, (-1) ^ 3 * Spec.dct3At 16 (fun i => x (16 - 1 - i)) 3, (-1) ^ 4 * Spec.dct3At 16 (fun i => x (16 - 1 - i)) 4, (-1) ^ 5 * Spec.dct3At 16 (fun i => x (16 - 1 - i)) 5, (-1) ^ 6 * Spec.dct3At 16 (fun i => x (16 - 1 - i)) 6, (-1) ^ 7 * Spec.dct3At 16 (fun i => x (16 - 1 - i)) 7, (-1) ^ 8 * Spec.dct3At 16 (fun i => x (16 - 1 - i)) 8, (-1) ^ 9 * Spec.dct3At 16 (fun i => x (16 - 1 - i)) 9, (-1) ^ 10 * Spec.dct3At 16 (fun i => x (16 - 1 - i)) 10, (-1) ^ 11 * Spec.dct3At 16 (fun i => x (16 - 1 - i)) 11, (-1) ^ 12 * Spec.dct3At 16 (fun i => x (16 - 1 - i)) 12, (-1) ^ 13 * Spec.dct3At 16 (fun i => x (16 - 1 - i)) 13, (-1) ^ 14 * Spec.dct3At 16 (fun i => x (16 - 1 - i)) 14, (-1) ^ 15 * Spec.dct3At 16 (fun i => x (16 - 1 - i)) 15] := by
  rw [vec_sixteen]
  simp only [List.cons.injEq]
  exact ⟨dst3At_eq x (by norm_num), dst3At_eq x (by norm_num), dst3At_eq x (by norm_num), dst3At_eq x (by norm_num), dst3At_eq x (by norm_num), dst3At_eq x (by norm_num), dst3At_eq x (by norm_num), dst3At_eq x (by norm_num), dst3At_eq x (by norm_num), dst3At_eq x (by norm_num), dst3At_eq x (by norm_num), dst3At_eq x (by norm_num), dst3At_eq x (by norm_num), dst3At_eq x (by norm_num), dst3At_eq x (by norm_num), dst3At_eq x (by norm_num), trivial⟩


theorem cons_eq {α : Type} {a b : α} {l m : List α} (h : a = b) (h' : l = m) : a :: l = b :: m := by rw [h, h']

theorem tw4_re : (Type2And3Butterfly4.new : Type2And3Butterfly4 ℝ).twiddle.re = cos (th4 1 0) :=
  twiddle_cos (i := 0) (q := 1) rfl
theorem tw4_im : (Type2And3Butterfly4.new : Type2And3Butterfly4 ℝ).twiddle.im = sin (th4 1 0) :=
  twiddle_sin (i := 0) (q := 1) rfl

theorem b4_dct2' (x : ℕ → ℝ) : vec 4 (Spec.dct2At 4 x) = [(x 0 + x 3) + (x 2 + x 1),
    (x 0 - x 3) * cos (th4 1 0) - (x 2 - x 1) * sin (th4 1 0), ((x 0 + x 3) - (x 2 + x 1)) * (1 / √2),
    (x 2 - x 1) * cos (th4 1 0) + (x 0 - x 3) * sin (th4 1 0)] := by
  rw [b4_dct2]
  have h2 := b2_dct2 (rSum 4 x)
  rw [vec_two] at h2
  simp only [List.cons.injEq] at h2 ⊢
  rw [h2.1, h2.2.1, dct2At_one, dst2At_one]
  refine ⟨?_, ?_, ?_, ?_, trivial⟩
  · show x 0 + x 3 + (x 1 + x 2) = _; ring
  · show (x 0 - x 3) * cos (th4 1 0) + (x 1 - x 2) * sin (th4 1 0) = _; ring
  · show (x 0 + x 3 - (x 1 + x 2)) * (1 / √2) = _; ring
  · show -((-1) ^ 0 * ((x 1 - x 2) * cos (th4 1 0) - (x 0 - x 3) * sin (th4 1 0))) = _; ring

theorem b4_dct3' (x : ℕ → ℝ) : vec 4 (Spec.dct3At 4 x) = [
    x 0 * (1 / 2) + x 2 * (1 / √2) + (x 1 * cos (th4 1 0) + x 3 * sin (th4 1 0)),
    x 0 * (1 / 2) - x 2 * (1 / √2) + (x 1 * sin (th4 1 0) - x 3 * cos (th4 1 0)),
    x 0 * (1 / 2) - x 2 * (1 / √2) - (x 1 * sin (th4 1 0) - x 3 * cos (th4 1 0)),
    x 0 * (1 / 2) + x 2 * (1 / √2) - (x 1 * cos (th4 1 0) + x 3 * sin (th4 1 0))] := by
  rw [b4_dct3]
  have h2 := b2_dct3 (rEven x)
  rw [vec_two] at h2
  simp only [List.cons.injEq] at h2 ⊢
  have ha : rA x 0 = x 1 * 2 := rfl
  have hb : rB 1 x 0 = x 3 * 2 := rfl
  have e0 : rEven x 0 = x 0 := rfl
  have e1 : rEven x 1 = x 2 := rfl
  rw [h2.1, h2.2.1, dct3At_one, dst3At_one, ha, hb, e0, e1]
  refine ⟨?_, ?_, ?_, ?_, trivial⟩ <;> ring

theorem Type2And3Butterfly4.real_dct2 (x : ℕ → ℝ) :
    (Type2And3Butterfly4.new : Type2And3Butterfly4 ℝ).inplaceDct2 (vec 4 x) = .ok (vec 4 (Spec.dct2At 4 x)) := by
  rw [b4_dct2', vec_four, Type2And3Butterfly4.inplaceDct2_gen, tw4_re, tw4_im, fracSqrt2_real]
theorem Type2And3Butterfly4.real_dct3 (x : ℕ → ℝ) :
    (Type2And3Butterfly4.new : Type2And3Butterfly4 ℝ).inplaceDct3 (vec 4 x) = .ok (vec 4 (Spec.dct3At 4 x)) := by
  rw [b4_dct3', vec_four, Type2And3Butterfly4.inplaceDct3_gen, tw4_re, tw4_im, fracSqrt2_real, thalf_real]
theorem Type2And3Butterfly4.real_dst2 (x : ℕ → ℝ) :
    (Type2And3Butterfly4.new : Type2And3Butterfly4 ℝ).inplaceDst2 (vec 4 x) = .ok (vec 4 (Spec.dst2At 4 x)) := by
  have h := b4_dct2' (fun i => (-1) ^ i * x i)
  rw [b4_dst2, vec_four, Type2And3Butterfly4.inplaceDst2_gen, tw4_re, tw4_im, fracSqrt2_real]
  rw [vec_four] at h
  simp only [List.cons.injEq] at h
  rw [h.1, h.2.1, h.2.2.1, h.2.2.2.1]
  congr 1
  simp only [List.cons.injEq]
  refine ⟨?_, ?_, ?_, ?_, trivial⟩ <;> ring
theorem Type2And3Butterfly4.real_dst3 (x : ℕ → ℝ) :
    (Type2And3Butterfly4.new : Type2And3Butterfly4 ℝ).inplaceDst3 (vec 4 x) = .ok (vec 4 (Spec.dst3At 4 x)) := by
  have h := b4_dct3' (fun i => x (4 - 1 - i))
  rw [b4_dst3, vec_four, Type2And3Butterfly4.inplaceDst3_gen, tw4_re, tw4_im, fracSqrt2_real, thalf_real]
  rw [vec_four] at h
  simp only [List.cons.injEq] at h
  rw [h.1, h.2.1, h.2.2.1, h.2.2.2.1]
  congr 1
  simp only [List.cons.injEq, Nat.reduceSub]
  refine ⟨?_, ?_, ?_, ?_, trivial⟩ <;> ring

theorem tw8 : (Type2And3Butterfly8.new : Type2And3Butterfly8 ℝ).twiddles = [⟨cos (th4 2 0), sin (th4 2 0)⟩, ⟨cos (th4 2 1), sin (th4 2 1)⟩] := by
  have e : ∀ i, (Cx.conj (singleTwiddle (2 * i + 1) 32) : Cx ℝ) = ⟨cos (th4 2 i), sin (th4 2 i)⟩ := fun i => by
    rw [← twiddle_cos (i := i) (q := 2) (L := 32) (by norm_num), ← twiddle_sin (i := i) (q := 2) (L := 32) (by norm_num)]
  show [Cx.conj (singleTwiddle (2 * 0 + 1) 32), Cx.conj (singleTwiddle (2 * 1 + 1) 32)] = _
  simp only [e]

theorem Type2And3Butterfly8.real_dct2 (x : ℕ → ℝ) :
    (Type2And3Butterfly8.new : Type2And3Butterfly8 ℝ).inplaceDct2 (vec 8 x) = .ok (vec 8 (Spec.dct2At 8 x)) := by
  have hd := Type2And3Butterfly4.real_dct2 (rSum 8 x)
  have he := Type2And3Butterfly2.real_dct2 Type2And3Butterfly2.new (rCos 8 2 x)
  have ho := Type2And3Butterfly2.real_dst2 Type2And3Butterfly2.new (rSin 8 2 x)
  rw [vec_four, vec_four] at hd
  rw [vec_two, vec_two] at he ho
  rw [vec_eight x]
  refine Eq.trans (Type2And3Butterfly8.inplaceDct2_gen _ tw8 (Eq.trans (congrArg _ ?_) hd) (Eq.trans (congrArg _ ?_) he) (Eq.trans (congrArg _ ?_) ho)) ?_
  rotate_left 3
  · congr 1
    rw [b8_dct2]
    refine (cons_eq ?_ (cons_eq ?_ (cons_eq ?_ (cons_eq ?_ (cons_eq ?_ (cons_eq ?_ (cons_eq ?_ (cons_eq ?_ rfl)))))))) <;> first | rfl | ring
  · refine (cons_eq ?_ (cons_eq ?_ (cons_eq ?_ (cons_eq ?_ rfl))))
    · show _ = x 0 + x 7; ring
    · show _ = x 1 + x 6; ring
    · show _ = x 2 + x 5; ring
    · show _ = x 3 + x 4; ring
  · refine (cons_eq ?_ (cons_eq ?_ rfl))
    · show _ = (x 0 - x 7) * cos (th4 2 0) + (x 3 - x 4) * sin (th4 2 0); ring
    · show _ = (x 1 - x 6) * cos (th4 2 1) + (x 2 - x 5) * sin (th4 2 1); ring
  · refine (cons_eq ?_ (cons_eq ?_ rfl))
    · show _ = (x 2 - x 5) * cos (th4 2 1) - (x 1 - x 6) * sin (th4 2 1); ring
    · show _ = (x 3 - x 4) * cos (th4 2 0) - (x 0 - x 7) * sin (th4 2 0); ring

theorem Type2And3Butterfly8.real_dst2 (x : ℕ → ℝ) :
    (Type2And3Butterfly8.new : Type2And3Butterfly8 ℝ).inplaceDst2 (vec 8 x) = .ok (vec 8 (Spec.dst2At 8 x)) := by
  have hd := Type2And3Butterfly4.real_dct2 (rSum 8 (fun i => (-1) ^ i * x i))
  have he := Type2And3Butterfly2.real_dct2 Type2And3Butterfly2.new (rCos 8 2 (fun i => (-1) ^ i * x i))
  have ho := Type2And3Butterfly2.real_dst2 Type2And3Butterfly2.new (rSin 8 2 (fun i => (-1) ^ i * x i))
  rw [vec_four, vec_four] at hd
  rw [vec_two, vec_two] at he ho
  rw [vec_eight x]
  refine Eq.trans (Type2And3Butterfly8.inplaceDst2_gen _ tw8 (Eq.trans (congrArg _ ?_) hd) (Eq.trans (congrArg _ ?_) he) (Eq.trans (congrArg _ ?_) ho)) ?_
  rotate_left 3
  · congr 1
    have h := b8_dct2 (fun i => (-1) ^ i * x i)
    rw [vec_eight] at h
    simp only [List.cons.injEq] at h
    rw [b8_dst2]
    obtain ⟨h0, h1, h2, h3, h4, h5, h6, h7, -⟩ := h
    rw [h0, h1, h2, h3, h4, h5, h6, h7]
    refine (cons_eq ?_ (cons_eq ?_ (cons_eq ?_ (cons_eq ?_ (cons_eq ?_ (cons_eq ?_ (cons_eq ?_ (cons_eq ?_ rfl)))))))) <;> first | rfl | ring
  · refine (cons_eq ?_ (cons_eq ?_ (cons_eq ?_ (cons_eq ?_ rfl))))
    · show _ = ((-1) ^ 0 * x 0) + ((-1) ^ 7 * x 7); ring
    · show _ = ((-1) ^ 1 * x 1) + ((-1) ^ 6 * x 6); ring
    · show _ = ((-1) ^ 2 * x 2) + ((-1) ^ 5 * x 5); ring
    · show _ = ((-1) ^ 3 * x 3) + ((-1) ^ 4 * x 4); ring
  · refine (cons_eq ?_ (cons_eq ?_ rfl))
    · show _ = (((-1) ^ 0 * x 0) - ((-1) ^ 7 * x 7)) * cos (th4 2 0) + (((-1) ^ 3 * x 3) - ((-1) ^ 4 * x 4)) * sin (th4 2 0); ring
    · show _ = (((-1) ^ 1 * x 1) - ((-1) ^ 6 * x 6)) * cos (th4 2 1) + (((-1) ^ 2 * x 2) - ((-1) ^ 5 * x 5)) * sin (th4 2 1); ring
  · refine (cons_eq ?_ (cons_eq ?_ rfl))
    · show _ = (((-1) ^ 2 * x 2) - ((-1) ^ 5 * x 5)) * cos (th4 2 1) - (((-1) ^ 1 * x 1) - ((-1) ^ 6 * x 6)) * sin (th4 2 1); ring
    · show _ = (((-1) ^ 3 * x 3) - ((-1) ^ 4 * x 4)) * cos (th4 2 0) - (((-1) ^ 0 * x 0) - ((-1) ^ 7 * x 7)) * sin (th4 2 0); ring

theorem Type2And3Butterfly8.real_dct3 (x : ℕ → ℝ) :
    (Type2And3Butterfly8.new : Type2And3Butterfly8 ℝ).inplaceDct3 (vec 8 x) = .ok (vec 8 (Spec.dct3At 8 x)) := by
  have hd := Type2And3Butterfly4.real_dct3 (rEven x)
  have he := Type2And3Butterfly2.real_dct3 Type2And3Butterfly2.new (rA x)
  have ho := Type2And3Butterfly2.real_dst3 Type2And3Butterfly2.new (rB 2 x)
  rw [vec_four, vec_four] at hd
  rw [vec_two, vec_two] at he ho
  rw [vec_eight x]
  refine Eq.trans (Type2And3Butterfly8.inplaceDct3_gen _ tw8 hd (Eq.trans (congrArg _ ?_) he) (Eq.trans (congrArg _ ?_) ho)) ?_
  rotate_left 2
  · congr 1
    rw [b8_dct3]
  · rw [ttwo_real]; rfl
  · rw [ttwo_real]; rfl

theorem Type2And3Butterfly8.real_dst3 (x : ℕ → ℝ) :
    (Type2And3Butterfly8.new : Type2And3Butterfly8 ℝ).inplaceDst3 (vec 8 x) = .ok (vec 8 (Spec.dst3At 8 x)) := by
  have hd := Type2And3Butterfly4.real_dct3 (rEven (fun i => x (8 - 1 - i)))
  have he := Type2And3Butterfly2.real_dct3 Type2And3Butterfly2.new (rA (fun i => x (8 - 1 - i)))
  have ho := Type2And3Butterfly2.real_dst3 Type2And3Butterfly2.new (rB 2 (fun i => x (8 - 1 - i)))
  rw [vec_four, vec_four] at hd
  rw [vec_two, vec_two] at he ho
  rw [vec_eight x]
  refine Eq.trans (Type2And3Butterfly8.inplaceDst3_gen _ tw8 hd (Eq.trans (congrArg _ ?_) he) (Eq.trans (congrArg _ ?_) ho)) ?_
  rotate_left 2
  · congr 1
    have h := b8_dct3 (fun i => x (8 - 1 - i))
    rw [vec_eight] at h
    simp only [List.cons.injEq] at h
    rw [b8_dst3]
    obtain ⟨h0, h1, h2, h3, h4, h5, h6, h7, -⟩ := h
    rw [h0, h1, h2, h3, h4, h5, h6, h7]
    refine (cons_eq ?_ (cons_eq ?_ (cons_eq ?_ (cons_eq ?_ (cons_eq ?_ (cons_eq ?_ (cons_eq ?_ (cons_eq ?_ rfl)))))))) <;> first | rfl | ring
  · rw [ttwo_real]; rfl
  · rw [ttwo_real]; rfl

theorem tw16 : (Type2And3Butterfly16.new : Type2And3Butterfly16 ℝ).twiddles = [⟨cos (th4 4 0), sin (th4 4 0)⟩, ⟨cos (th4 4 1), sin (th4 4 1)⟩, ⟨cos (th4 4 2), sin (th4 4 2)⟩, ⟨cos (th4 4 3), sin (th4 4 3)⟩] := by
  have e : ∀ i, (Cx.conj (singleTwiddle (2 * i + 1) 64) : Cx ℝ) = ⟨cos (th4 4 i), sin (th4 4 i)⟩ := fun i => by
    rw [← twiddle_cos (i := i) (q := 4) (L := 64) (by norm_num), ← twiddle_sin (i := i) (q := 4) (L := 64) (by norm_num)]
  show [Cx.conj (singleTwiddle (2 * 0 + 1) 64), Cx.conj (singleTwiddle (2 * 1 + 1) 64), Cx.conj (singleTwiddle (2 * 2 + 1) 64), Cx.conj (singleTwiddle (2 * 3 + 1) 64)] = _
  simp only [e]

theorem Type2And3Butterfly16.real_dct2 (x : ℕ → ℝ) :
    (Type2And3Butterfly16.new : Type2And3Butterfly16 ℝ).inplaceDct2 (vec 16 x) = .ok (vec 16 (Spec.dct2At 16 x)) := by
  have hd := Type2And3Butterfly8.real_dct2 (rSum 16 x)
  have he := Type2And3Butterfly4.real_dct2 (rCos 16 4 x)
  have ho := Type2And3Butterfly4.real_dst2 (rSin 16 4 x)
  rw [vec_eight, vec_eight] at hd
  rw [vec_four, vec_four] at he ho
  rw [vec_sixteen x]
  refine Eq.trans (Type2And3Butterfly16.inplaceDct2_gen _ tw16 (Eq.trans (congrArg _ ?_) hd) (Eq.trans (congrArg _ ?_) he) (Eq.trans (congrArg _ ?_) ho)) ?_
  rotate_left 3
  · congr 1
    rw [b16_dct2]
    refine (cons_eq ?_ (cons_eq ?_ (cons_eq ?_ (cons_eq ?_ (cons_eq ?_ (cons_eq ?_ (cons_eq ?_ (cons_eq ?_ (cons_eq ?_ (cons_eq ?_ (cons_eq ?_ (cons_eq ?_ (cons_eq ?_ (cons_eq ?_ (cons_eq ?_ (cons_eq ?_ rfl)))))))))))))))) <;> first | rfl | ring
  · refine (cons_eq ?_ (cons_eq ?_ (cons_eq ?_ (cons_eq ?_ (cons_eq ?_ (cons_eq ?_ (cons_eq ?_ (cons_eq ?_ rfl))))))))
    · show _ = x 0 + x 15; ring
    · show _ = x 1 + x 14; ring
    · show _ = x 2 + x 13; ring
    · show _ = x 3 + x 12; ring
    · show _ = x 4 + x 11; ring
    · show _ = x 5 + x 10; ring
    · show _ = x 6 + x 9; ring
    · show _ = x 7 + x 8; ring
  · refine (cons_eq ?_ (cons_eq ?_ (cons_eq ?_ (cons_eq ?_ rfl))))
    · show _ = (x 0 - x 15) * cos (th4 4 0) + (x 7 - x 8) * sin (th4 4 0); ring
    · show _ = (x 1 - x 14) * cos (th4 4 1) + (x 6 - x 9) * sin (th4 4 1); ring
    · show _ = (x 2 - x 13) * cos (th4 4 2) + (x 5 - x 10) * sin (th4 4 2); ring
    · show _ = (x 3 - x 12) * cos (th4 4 3) + (x 4 - x 11) * sin (th4 4 3); ring
  · refine (cons_eq ?_ (cons_eq ?_ (cons_eq ?_ (cons_eq ?_ rfl))))
    · show _ = (x 4 - x 11) * cos (th4 4 3) - (x 3 - x 12) * sin (th4 4 3); ring
    · show _ = (x 5 - x 10) * cos (th4 4 2) - (x 2 - x 13) * sin (th4 4 2); ring
    · show _ = (x 6 - x 9) * cos (th4 4 1) - (x 1 - x 14) * sin (th4 4 1); ring
    · show _ = (x 7 - x 8) * cos (th4 4 0) - (x 0 - x 15) * sin (th4 4 0); ring

theorem Type2And3Butterfly16.real_dst2 (x : ℕ → ℝ) :
    (Type2And3Butterfly16.new : Type2And3Butterfly16 ℝ).inplaceDst2 (vec 16 x) = .ok (vec 16 (Spec.dst2At 16 x)) := by
  have hd := Type2And3Butterfly8.real_dct2 (rSum 16 (fun i => (-1) ^ i * x i))
  have he := Type2And3Butterfly4.real_dct2 (rCos 16 4 (fun i => (-1) ^ i * x i))
  have ho := Type2And3Butterfly4.real_dst2 (rSin 16 4 (fun i => (-1) ^ i * x i))
  rw [vec_eight, vec_eight] at hd
  rw [vec_four, vec_four] at he ho
  rw [vec_sixteen x]
  refine Eq.trans (Type2And3Butterfly16.inplaceDst2_gen _ tw16 (Eq.trans (congrArg _ ?_) hd) (Eq.trans (congrArg _ ?_) he) (Eq.trans (congrArg _ ?_) ho)) ?_
  rotate_left 3
  · congr 1
    have h := b16_dct2 (fun i => (-1) ^ i * x i)
    rw [vec_sixteen] at h
    simp only [List.cons.injEq] at h
    rw [b16_dst2]
    obtain ⟨h0, h1, h2, h3, h4, h5, h6, h7, h8, h9, h10, h11, h12, h13, h14, h15, -⟩ := h
    rw [h0, h1, h2, h3, h4, h5, h6, h7, h8, h9, h10, h11, h12, h13, h14, h15]
    refine (cons_eq ?_ (cons_eq ?_ (cons_eq ?_ (cons_eq ?_ (cons_eq ?_ (cons_eq ?_ (cons_eq ?_ (cons_eq ?_ (cons_eq ?_ (cons_eq ?_ (cons_eq ?_ (cons_eq ?_ (cons_eq ?_ (cons_eq ?_ (cons_eq ?_ (cons_eq ?_ rfl)))))))))))))))) <;> first | rfl | ring
  · refine (cons_eq ?_ (cons_eq ?_ (cons_eq ?_ (cons_eq ?_ (cons_eq ?_ (cons_eq ?_ (cons_eq ?_ (cons_eq ?_ rfl))))))))
    · show _ = ((-1) ^ 0 * x 0) + ((-1) ^ 15 * x 15); ring
    · show _ = ((-1) ^ 1 * x 1) + ((-1) ^ 14 * x 14); ring
    · show _ = ((-1) ^ 2 * x 2) + ((-1) ^ 13 * x 13); ring
    · show _ = ((-1) ^ 3 * x 3) + ((-1) ^ 12 * x 12); ring
    · show _ = ((-1) ^ 4 * x 4) + ((-1) ^ 11 * x 11); ring
    · show _ = ((-1) ^ 5 * x 5) + ((-1) ^ 10 * x 10); ring
    · show _ = ((-1) ^ 6 * x 6) + ((-1) ^ 9 * x 9); ring
    · show _ = ((-1) ^ 7 * x 7) + ((-1) ^ 8 * x 8); ring
  · refine (cons_eq ?_ (cons_eq ?_ (cons_eq ?_ (cons_eq ?_ rfl))))
    · show _ = (((-1) ^ 0 * x 0) - ((-1) ^ 15 * x 15)) * cos (th4 4 0) + (((-1) ^ 7 * x 7) - ((-1) ^ 8 * x 8)) * sin (th4 4 0); ring
    · show _ = (((-1) ^ 1 * x 1) - ((-1) ^ 14 * x 14)) * cos (th4 4 1) + (((-1) ^ 6 * x 6) - ((-1) ^ 9 * x 9)) * sin (th4 4 1); ring
    · show _ = (((-1) ^ 2 * x 2) - ((-1) ^ 13 * x 13)) * cos (th4 4 2) + (((-1) ^ 5 * x 5) - ((-1) ^ 10 * x 10)) * sin (th4 4 2); ring
    · show _ = (((-1) ^ 3 * x 3) - ((-1) ^ 12 * x 12)) * cos (th4 4 3) + (((-1) ^ 4 * x 4) - ((-1) ^ 11 * x 11)) * sin (th4 4 3); ring
  · refine (cons_eq ?_ (cons_eq ?_ (cons_eq ?_ (cons_eq ?_ rfl))))
    · show _ = (((-1) ^ 4 * x 4) - ((-1) ^ 11 * x 11)) * cos (th4 4 3) - (((-1) ^ 3 * x 3) - ((-1) ^ 12 * x 12)) * sin (th4 4 3); ring
    · show _ = (((-1) ^ 5 * x 5) - ((-1) ^ 10 * x 10)) * cos (th4 4 2) - (((-1) ^ 2 * x 2) - ((-1) ^ 13 * x 13)) * sin (th4 4 2); ring
    · show _ = (((-1) ^ 6 * x 6) - ((-1) ^ 9 * x 9)) * cos (th4 4 1) - (((-1) ^ 1 * x 1) - ((-1) ^ 14 * x 14)) * sin (th4 4 1); ring
    · show _ = (((-1) ^ 7 * x 7) - ((-1) ^ 8 * x 8)) * cos (th4 4 0) - (((-1) ^ 0 * x 0) - ((-1) ^ 15 * x 15)) * sin (th4 4 0); ring

theorem Type2And3Butterfly16.real_dct3 (x : ℕ → ℝ) :
    (Type2And3Butterfly16.new : Type2And3Butterfly16 ℝ).inplaceDct3 (vec 16 x) = .ok (vec 16 (Spec.dct3At 16 x)) := by
  have hd := Type2And3Butterfly8.real_dct3 (rEven x)
  have he := Type2And3Butterfly4.real_dct3 (rA x)
  have ho := Type2And3Butterfly4.real_dst3 (rB 4 x)
  rw [vec_eight, vec_eight] at hd
  rw [vec_four, vec_four] at he ho
  rw [vec_sixteen x]
  refine Eq.trans (Type2And3Butterfly16.inplaceDct3_gen _ tw16 hd (Eq.trans (congrArg _ ?_) he) (Eq.trans (congrArg _ ?_) ho)) ?_
  rotate_left 2
  · congr 1
    rw [b16_dct3]
  · rw [ttwo_real]; rfl
  · rw [ttwo_real]; rfl

theorem Type2And3Butterfly16.real_dst3 (x : ℕ → ℝ) :
    (Type2And3Butterfly16.new : Type2And3Butterfly16 ℝ).inplaceDst3 (vec 16 x) = .ok (vec 16 (Spec.dst3At 16 x)) := by
  have hd := Type2And3Butterfly8.real_dct3 (rEven (fun i => x (16 - 1 - i)))
  have he := Type2And3Butterfly4.real_dct3 (rA (fun i => x (16 - 1 - i)))
  have ho := Type2And3Butterfly4.real_dst3 (rB 4 (fun i => x (16 - 1 - i)))
  rw [vec_eight, vec_eight] at hd
  rw [vec_four, vec_four] at he ho
  rw [vec_sixteen x]
  refine Eq.trans (Type2And3Butterfly16.inplaceDst3_gen _ tw16 hd (Eq.trans (congrArg _ ?_) he) (Eq.trans (congrArg _ ?_) ho)) ?_
  rotate_left 2
  · congr 1
    have h := b16_dct3 (fun i => x (16 - 1 - i))
    rw [vec_sixteen] at h
    simp only [List.cons.injEq] at h
    rw [b16_dst3]
    obtain ⟨h0, h1, h2, h3, h4, h5, h6, h7, h8, h9, h10, h11, h12, h13, h14, h15, -⟩ := h
    rw [h0, h1, h2, h3, h4, h5, h6, h7, h8, h9, h10, h11, h12, h13, h14, h15]
    refine (cons_eq ?_ (cons_eq ?_ (cons_eq ?_ (cons_eq ?_ (cons_eq ?_ (cons_eq ?_ (cons_eq ?_ (cons_eq ?_ (cons_eq ?_ (cons_eq ?_ (cons_eq ?_ (cons_eq ?_ (cons_eq ?_ (cons_eq ?_ (cons_eq ?_ (cons_eq ?_ rfl)))))))))))))))) <;> first | rfl | ring
  · rw [ttwo_real]; rfl
  · rw [ttwo_real]; rfl

end RustDct
