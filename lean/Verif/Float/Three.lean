import Verif.Float.Naive
/-!
# Accuracy of the three-point kernel
-/

set_option linter.all false

namespace RustDct
open Finset Real

variable {T F : Type} [F64 F] [DctNum T F] (R : Rounding T F)

theorem three_cases {P : ℕ → Prop} (h0 : P 0) (h1 : P 1) (h2 : P 2) : ∀ i, i < 3 → P i := by
  intro i hi; interval_cases i <;> assumption

theorem vec_three_inj {a b c : ℝ} {f : ℕ → ℝ} (h : vec 3 f = [a, b, c]) : f 0 = a ∧ f 1 = b ∧ f 2 = c := by
  rw [vec_three] at h
  simp only [List.cons.injEq] at h
  exact ⟨h.1, h.2.1, h.2.2.1⟩

theorem Rounding.ap_tw3 : Ap (R.val (Type2And3Butterfly3.new : Type2And3Butterfly3 T).twiddle) (√3 / 2) 1 (1 + R.tau) := by
  have h := R.ap_twre (i := 1) (n := 12) (by norm_num) (by norm_num)
  rw [show (singleTwiddleRe 1 12 : ℝ) = √3 / 2 from tw3] at h
  exact h

theorem Type2And3Butterfly3.acc_dct2 : KAcc R .dct2 3 (Type2And3Butterfly3.new : Type2And3Butterfly3 T).inplaceDct2 (gainErr 3 R.term) := by
  refine ⟨fun f => lf [f 0 + f 1 + f 2, (f 0 - f 2) * (Type2And3Butterfly3.new : Type2And3Butterfly3 T).twiddle, (f 0 + f 2) * thalf T - f 1],
    fun f => by rw [vec_three, Type2And3Butterfly3.inplaceDct2_gen, vec_three (lf _)]; rfl, ?_⟩
  refine TransAcc.of_ap (by norm_num) (fun h => by cases h) R.one_le_term fun f => ?_
  obtain ⟨e0, e1, e2⟩ := vec_three_inj (b3_dct2 (R.seq f))
  have u0 := R.u_nonneg
  have t0 := R.tau_nonneg
  have b : ∀ i, Ap (R.val (f i)) (R.seq f i) |R.val (f i)| 1 := fun i => R.ap_id0 (f i)
  have b' : ∀ i, Ap (R.val (f i)) (R.seq f i) |R.val (f i)| ((1 + R.u) * 1) := fun i => (b i).mono (by linarith)
  have b'' : ∀ i, Ap (R.val (f i)) (R.seq f i) |R.val (f i)| ((1 + R.u) * ((1 + R.u) * 1)) := fun i => (b i).mono (by nlinarith)
  have htw := R.ap_tw3
  have q0 : 1 + R.u ≤ (1 + R.u) * (1 + R.tau) := le_mul_of_one_le_right (by linarith) (by linarith)
  have q : (1 + R.u) * 1 ≤ (1 + R.u) * (1 + R.tau) := by rw [mul_one]; exact q0
  have q1 : (1 + R.u) * (1 * (1 + R.tau)) ≤ (1 + R.u) * (1 + R.tau) := by rw [one_mul]
  have q2 : (1 + R.u) * 1 ≤ (1 + R.u) * ((1 + R.u) * (1 + R.tau)) := by
    rw [mul_one]; exact le_mul_of_one_le_right (by linarith) (by linarith)
  have q3 : 1 ≤ (1 + R.u) * (1 + R.tau) := by linarith
  have g1 : (1 + R.u) ^ 2 ≤ R.term := R.u2_le_term
  have g2 : (1 + R.u) ^ 3 ≤ R.term := le_mul_of_one_le_right (by positivity) (by linarith)
  have g3 : (1 + R.u) ^ 2 * (1 + R.tau) ≤ R.term := mul_le_mul_of_nonneg_right (pow_le_pow_right₀ R.one_le_u (by norm_num)) (by linarith)
  have a0 := abs_nonneg (R.val (f 0))
  have a1 := abs_nonneg (R.val (f 1))
  have a2 := abs_nonneg (R.val (f 2))
  have hsum : ∑ j ∈ range 3, Kind.dct2.weight 3 j * |R.val (f j)| = |R.val (f 0)| + |R.val (f 1)| + |R.val (f 2)| := by
    simp [sum_range_succ, Kind.weight, Spec.halfAt]
  rw [hsum]
  refine three_cases ?_ ?_ ?_
  · rw [show Kind.dct2.specAt 3 (R.seq f) 0 = _ from e0]
    refine ((R.ap_add (R.ap_add (b 0) (b 1)) (b' 2)).mono ?_).monoX ?_
    · unfold Rounding.term at *; nlinarith
    · linarith
  · rw [show Kind.dct2.specAt 3 (R.seq f) 1 = _ from e1]
    refine ((R.ap_mul (R.ap_sub (b 0) (b 2)) htw).mono ?_).monoX ?_
    · unfold Rounding.term at *; nlinarith
    · linarith
  · rw [show Kind.dct2.specAt 3 (R.seq f) 2 = _ from e2]
    refine ((R.ap_sub (R.ap_half (R.ap_add (b 0) (b 2))) (b'' 1)).mono ?_).monoX ?_
    · unfold Rounding.term at *; nlinarith
    · linarith

theorem Type2And3Butterfly3.acc_dct3 : KAcc R .dct3 3 (Type2And3Butterfly3.new : Type2And3Butterfly3 T).inplaceDct3 (gainErr 3 R.term) := by
  refine ⟨fun f => lf [f 0 * thalf T + f 1 * (Type2And3Butterfly3.new : Type2And3Butterfly3 T).twiddle + f 2 * thalf T, f 0 * thalf T - f 2, f 0 * thalf T + f 1 * -(Type2And3Butterfly3.new : Type2And3Butterfly3 T).twiddle + f 2 * thalf T],
    fun f => by rw [vec_three, Type2And3Butterfly3.inplaceDct3_gen, vec_three (lf _)]; rfl, ?_⟩
  refine TransAcc.of_ap (by norm_num) (fun h => by cases h) R.one_le_term fun f => ?_
  obtain ⟨e0, e1, e2⟩ := vec_three_inj (b3_dct3 (R.seq f))
  have u0 := R.u_nonneg
  have t0 := R.tau_nonneg
  have b : ∀ i, Ap (R.val (f i)) (R.seq f i) |R.val (f i)| 1 := fun i => R.ap_id0 (f i)
  have b' : ∀ i, Ap (R.val (f i)) (R.seq f i) |R.val (f i)| ((1 + R.u) * 1) := fun i => (b i).mono (by linarith)
  have b'' : ∀ i, Ap (R.val (f i)) (R.seq f i) |R.val (f i)| ((1 + R.u) * ((1 + R.u) * 1)) := fun i => (b i).mono (by nlinarith)
  have htw := R.ap_tw3
  have q0 : 1 + R.u ≤ (1 + R.u) * (1 + R.tau) := le_mul_of_one_le_right (by linarith) (by linarith)
  have q : (1 + R.u) * 1 ≤ (1 + R.u) * (1 + R.tau) := by rw [mul_one]; exact q0
  have q1 : (1 + R.u) * (1 * (1 + R.tau)) ≤ (1 + R.u) * (1 + R.tau) := by rw [one_mul]
  have q2 : (1 + R.u) * 1 ≤ (1 + R.u) * ((1 + R.u) * (1 + R.tau)) := by
    rw [mul_one]; exact le_mul_of_one_le_right (by linarith) (by linarith)
  have q3 : 1 ≤ (1 + R.u) * (1 + R.tau) := by linarith
  have g1 : (1 + R.u) ^ 2 ≤ R.term := R.u2_le_term
  have g2 : (1 + R.u) ^ 3 ≤ R.term := le_mul_of_one_le_right (by positivity) (by linarith)
  have g3 : (1 + R.u) ^ 2 * (1 + R.tau) ≤ R.term := mul_le_mul_of_nonneg_right (pow_le_pow_right₀ R.one_le_u (by norm_num)) (by linarith)
  have a0 := abs_nonneg (R.val (f 0))
  have a1 := abs_nonneg (R.val (f 1))
  have a2 := abs_nonneg (R.val (f 2))
  have hsum : ∑ j ∈ range 3, Kind.dct3.weight 3 j * |R.val (f j)| = 2⁻¹ * |R.val (f 0)| + |R.val (f 1)| + |R.val (f 2)| := by
    simp [sum_range_succ, Kind.weight, Spec.halfAt]
  rw [hsum]
  refine three_cases ?_ ?_ ?_
  · rw [show Kind.dct3.specAt 3 (R.seq f) 0 = _ from e0]
    refine ((R.ap_add (R.ap_add ((R.ap_half (b 0)).mono q) ((R.ap_mul (b 1) htw).mono q1)) ((R.ap_half (b 2)).mono q2)).mono ?_).monoX ?_
    · unfold Rounding.term at *; nlinarith
    · linarith
  · rw [show Kind.dct3.specAt 3 (R.seq f) 1 = _ from e1]
    refine ((R.ap_sub ((R.ap_half (b 0)).mono q) ((b 2).mono q3)).mono ?_).monoX ?_
    · unfold Rounding.term at *; nlinarith
    · linarith
  · rw [show Kind.dct3.specAt 3 (R.seq f) 2 = _ from e2]
    refine ((R.ap_add (R.ap_add ((R.ap_half (b 0)).mono q) ((R.ap_mul (b 1) (R.ap_neg htw)).mono q1)) ((R.ap_half (b 2)).mono q2)).mono ?_).monoX ?_
    · unfold Rounding.term at *; nlinarith
    · linarith

theorem Type2And3Butterfly3.acc_dst2 : KAcc R .dst2 3 (Type2And3Butterfly3.new : Type2And3Butterfly3 T).inplaceDst2 (gainErr 3 R.term) := by
  refine ⟨fun f => lf [(f 0 + f 2) * thalf T + f 1, (f 0 - f 2) * (Type2And3Butterfly3.new : Type2And3Butterfly3 T).twiddle, f 0 - f 1 + f 2],
    fun f => by rw [vec_three, Type2And3Butterfly3.inplaceDst2_gen, vec_three (lf _)]; rfl, ?_⟩
  refine TransAcc.of_ap (by norm_num) (fun h => by cases h) R.one_le_term fun f => ?_
  obtain ⟨e0, e1, e2⟩ := vec_three_inj (b3_dst2 (R.seq f))
  have u0 := R.u_nonneg
  have t0 := R.tau_nonneg
  have b : ∀ i, Ap (R.val (f i)) (R.seq f i) |R.val (f i)| 1 := fun i => R.ap_id0 (f i)
  have b' : ∀ i, Ap (R.val (f i)) (R.seq f i) |R.val (f i)| ((1 + R.u) * 1) := fun i => (b i).mono (by linarith)
  have b'' : ∀ i, Ap (R.val (f i)) (R.seq f i) |R.val (f i)| ((1 + R.u) * ((1 + R.u) * 1)) := fun i => (b i).mono (by nlinarith)
  have htw := R.ap_tw3
  have q0 : 1 + R.u ≤ (1 + R.u) * (1 + R.tau) := le_mul_of_one_le_right (by linarith) (by linarith)
  have q : (1 + R.u) * 1 ≤ (1 + R.u) * (1 + R.tau) := by rw [mul_one]; exact q0
  have q1 : (1 + R.u) * (1 * (1 + R.tau)) ≤ (1 + R.u) * (1 + R.tau) := by rw [one_mul]
  have q2 : (1 + R.u) * 1 ≤ (1 + R.u) * ((1 + R.u) * (1 + R.tau)) := by
    rw [mul_one]; exact le_mul_of_one_le_right (by linarith) (by linarith)
  have q3 : 1 ≤ (1 + R.u) * (1 + R.tau) := by linarith
  have g1 : (1 + R.u) ^ 2 ≤ R.term := R.u2_le_term
  have g2 : (1 + R.u) ^ 3 ≤ R.term := le_mul_of_one_le_right (by positivity) (by linarith)
  have g3 : (1 + R.u) ^ 2 * (1 + R.tau) ≤ R.term := mul_le_mul_of_nonneg_right (pow_le_pow_right₀ R.one_le_u (by norm_num)) (by linarith)
  have a0 := abs_nonneg (R.val (f 0))
  have a1 := abs_nonneg (R.val (f 1))
  have a2 := abs_nonneg (R.val (f 2))
  have hsum : ∑ j ∈ range 3, Kind.dst2.weight 3 j * |R.val (f j)| = |R.val (f 0)| + |R.val (f 1)| + |R.val (f 2)| := by
    simp [sum_range_succ, Kind.weight, Spec.halfAt]
  rw [hsum]
  refine three_cases ?_ ?_ ?_
  · rw [show Kind.dst2.specAt 3 (R.seq f) 0 = _ from e0]
    refine ((R.ap_add (R.ap_half (R.ap_add (b 0) (b 2))) (b'' 1)).mono ?_).monoX ?_
    · unfold Rounding.term at *; nlinarith
    · linarith
  · rw [show Kind.dst2.specAt 3 (R.seq f) 1 = _ from e1]
    refine ((R.ap_mul (R.ap_sub (b 0) (b 2)) htw).mono ?_).monoX ?_
    · unfold Rounding.term at *; nlinarith
    · linarith
  · rw [show Kind.dst2.specAt 3 (R.seq f) 2 = _ from e2]
    refine ((R.ap_add (R.ap_sub (b 0) (b 1)) (b' 2)).mono ?_).monoX ?_
    · unfold Rounding.term at *; nlinarith
    · linarith

theorem Type2And3Butterfly3.acc_dst3 : KAcc R .dst3 3 (Type2And3Butterfly3.new : Type2And3Butterfly3 T).inplaceDst3 (gainErr 3 R.term) := by
  refine ⟨fun f => lf [f 2 * thalf T + f 1 * (Type2And3Butterfly3.new : Type2And3Butterfly3 T).twiddle + f 0 * thalf T, f 0 - f 2 * thalf T, f 2 * thalf T + f 1 * -(Type2And3Butterfly3.new : Type2And3Butterfly3 T).twiddle + f 0 * thalf T],
    fun f => by rw [vec_three, Type2And3Butterfly3.inplaceDst3_gen, vec_three (lf _)]; rfl, ?_⟩
  refine TransAcc.of_ap (by norm_num) (fun h => by cases h) R.one_le_term fun f => ?_
  obtain ⟨e0, e1, e2⟩ := vec_three_inj (b3_dst3 (R.seq f))
  have u0 := R.u_nonneg
  have t0 := R.tau_nonneg
  have b : ∀ i, Ap (R.val (f i)) (R.seq f i) |R.val (f i)| 1 := fun i => R.ap_id0 (f i)
  have b' : ∀ i, Ap (R.val (f i)) (R.seq f i) |R.val (f i)| ((1 + R.u) * 1) := fun i => (b i).mono (by linarith)
  have b'' : ∀ i, Ap (R.val (f i)) (R.seq f i) |R.val (f i)| ((1 + R.u) * ((1 + R.u) * 1)) := fun i => (b i).mono (by nlinarith)
  have htw := R.ap_tw3
  have q0 : 1 + R.u ≤ (1 + R.u) * (1 + R.tau) := le_mul_of_one_le_right (by linarith) (by linarith)
  have q : (1 + R.u) * 1 ≤ (1 + R.u) * (1 + R.tau) := by rw [mul_one]; exact q0
  have q1 : (1 + R.u) * (1 * (1 + R.tau)) ≤ (1 + R.u) * (1 + R.tau) := by rw [one_mul]
  have q2 : (1 + R.u) * 1 ≤ (1 + R.u) * ((1 + R.u) * (1 + R.tau)) := by
    rw [mul_one]; exact le_mul_of_one_le_right (by linarith) (by linarith)
  have q3 : 1 ≤ (1 + R.u) * (1 + R.tau) := by linarith
  have g1 : (1 + R.u) ^ 2 ≤ R.term := R.u2_le_term
  have g2 : (1 + R.u) ^ 3 ≤ R.term := le_mul_of_one_le_right (by positivity) (by linarith)
  have g3 : (1 + R.u) ^ 2 * (1 + R.tau) ≤ R.term := mul_le_mul_of_nonneg_right (pow_le_pow_right₀ R.one_le_u (by norm_num)) (by linarith)
  have a0 := abs_nonneg (R.val (f 0))
  have a1 := abs_nonneg (R.val (f 1))
  have a2 := abs_nonneg (R.val (f 2))
  have hsum : ∑ j ∈ range 3, Kind.dst3.weight 3 j * |R.val (f j)| = |R.val (f 0)| + |R.val (f 1)| + 2⁻¹ * |R.val (f 2)| := by
    simp [sum_range_succ, Kind.weight, Spec.halfAt]
  rw [hsum]
  refine three_cases ?_ ?_ ?_
  · rw [show Kind.dst3.specAt 3 (R.seq f) 0 = _ from e0]
    refine ((R.ap_add (R.ap_add ((R.ap_half (b 2)).mono q) ((R.ap_mul (b 1) htw).mono q1)) ((R.ap_half (b 0)).mono q2)).mono ?_).monoX ?_
    · unfold Rounding.term at *; nlinarith
    · linarith
  · rw [show Kind.dst3.specAt 3 (R.seq f) 1 = _ from e1]
    refine ((R.ap_sub ((b 0).mono q3) ((R.ap_half (b 2)).mono q)).mono ?_).monoX ?_
    · unfold Rounding.term at *; nlinarith
    · linarith
  · rw [show Kind.dst3.specAt 3 (R.seq f) 2 = _ from e2]
    refine ((R.ap_add (R.ap_add ((R.ap_half (b 2)).mono q) ((R.ap_mul (b 1) (R.ap_neg htw)).mono q1)) ((R.ap_half (b 0)).mono q2)).mono ?_).monoX ?_
    · unfold Rounding.term at *; nlinarith
    · linarith

theorem Type2And3Butterfly3.acc : Acc23 R 3 (Type2And3Butterfly3.new : Type2And3Butterfly3 T).toObj (gainErr 3 R.term) :=
  ⟨.of_body (Type2And3Butterfly3.acc_dct2 R), .of_body (Type2And3Butterfly3.acc_dct3 R), .of_body (Type2And3Butterfly3.acc_dst2 R), .of_body (Type2And3Butterfly3.acc_dst3 R)⟩

end RustDct
