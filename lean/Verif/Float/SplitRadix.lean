import Verif.Float.Trans
/-!
# Accuracy of one split radix step
-/

set_option linter.all false

namespace RustDct
open Finset Real

variable {T F : Type} [F64 F] [DctNum T F] (R : Rounding T F)

theorem Rounding.one_le_tau : 1 ≤ 1 + R.tau := by linarith [R.tau_nonneg]
theorem Rounding.one_le_rot : 1 ≤ R.rot := by
  unfold Rounding.rot
  have := one_le_pow₀ (n := 2) R.one_le_u
  nlinarith [R.one_le_tau]

/-- The computed twiddles of split radix approximate the exact ones. -/
theorem Rounding.srTw_re {q i L : ℕ} (hL : L = 16 * q) (hi : i < q) : Ap (R.val (Cx.conj (singleTwiddle (2 * i + 1) L) : Cx T).re) (srTw q i).re 1 (1 + R.tau) := by
  have h := R.ap_tw_re (i := 2 * i + 1) (n := L) (by omega) (by omega)
  have e := sr_twiddle (i := i) hL
  rw [show srTw q i = Cx.conj (singleTwiddle (2 * i + 1) L) from e.symm]
  exact h
theorem Rounding.srTw_im {q i L : ℕ} (hL : L = 16 * q) (hi : i < q) : Ap (R.val (Cx.conj (singleTwiddle (2 * i + 1) L) : Cx T).im) (srTw q i).im 1 (1 + R.tau) := by
  have h := R.ap_tw_im (i := 2 * i + 1) (n := L) (by omega) (by omega)
  have e := sr_twiddle (i := i) hL
  rw [show srTw q i = Cx.conj (singleTwiddle (2 * i + 1) L) from e.symm]
  exact R.ap_neg h

theorem srTw_sq (q i : ℕ) : (srTw q i).re ^ 2 + (srTw q i).im ^ 2 = 1 := by
  simp only [srTw]; rw [add_comm]; exact sin_sq_add_cos_sq _

/-- `a * c + b * s` with approximate `a`, `b` and twiddles. -/
theorem Rounding.ap_rot_add {a b c s : T} {x y C S g : ℝ} (ha : Ap (R.val a) x |x| g) (hb : Ap (R.val b) y |y| g) (hc : Ap (R.val c) C 1 (1 + R.tau))
    (hs : Ap (R.val s) S 1 (1 + R.tau)) : Ap (R.val (a * c + b * s)) (x * C + y * S) (|x| + |y|) (R.rot * g) := by
  have h := R.ap_add (R.ap_mul ha hc) (R.ap_mul hb hs)
  rw [mul_one, mul_one] at h
  convert h using 1
  unfold Rounding.rot; ring
theorem Rounding.ap_rot_sub {a b c s : T} {x y C S g : ℝ} (ha : Ap (R.val a) x |x| g) (hb : Ap (R.val b) y |y| g) (hc : Ap (R.val c) C 1 (1 + R.tau))
    (hs : Ap (R.val s) S 1 (1 + R.tau)) : Ap (R.val (a * c - b * s)) (x * C - y * S) (|x| + |y|) (R.rot * g) := by
  have h := R.ap_sub (R.ap_mul ha hc) (R.ap_mul hb hs)
  rw [mul_one, mul_one] at h
  convert h using 1
  unfold Rounding.rot; ring

theorem abs_add_sq_le (x y : ℝ) : (|x| + |y|) ^ 2 ≤ 2 * (x ^ 2 + y ^ 2) := by
  have h1 := sq_abs x
  have h2 := sq_abs y
  nlinarith [sq_nonneg (|x| - |y|)]

/-! ### DCT2 -/

section
variable (tw : ℕ → Cx T) (tr : ℕ → Cx ℝ) (q : ℕ)

def sr2Pre (f : ℕ → T) : (ℕ → T) × (ℕ → T) × (ℕ → T) := (sr2Half q f, sr2Cos tw q f, sr2Sin tw q f)
def sr2Post (p : (ℕ → T) × (ℕ → T) × (ℕ → T)) : ℕ → T := sr2Out q p.1 p.2.1 p.2.2
end

theorem sr2Pre_sq {q : ℕ} (tr : ℕ → Cx ℝ) (ht : ∀ i, i < q → (tr i).re ^ 2 + (tr i).im ^ 2 = 1) (x : ℕ → ℝ) :
    ∑ i ∈ range (2 * q), sr2Half q x i ^ 2 + ∑ i ∈ range q, sr2Cos tr q x i ^ 2 + ∑ i ∈ range q, sr2Sin tr q x i ^ 2 =
      2 * ∑ i ∈ range (4 * q), x i ^ 2 := by
  rw [sum_pair, ← sum_range_reflect (fun i => sr2Sin tr q x i ^ 2), sum4, mul_sum, ← sum_add_distrib, ← sum_add_distrib]
  refine sum_congr rfl fun i hi => ?_
  rw [mem_range] at hi
  have h1 : sr2Half q x i = x (4 * q - 1 - i) + x i := by
    unfold sr2Half; rw [if_pos hi, show 4 * q - i - 1 = 4 * q - 1 - i by omega]
  have h2 : sr2Half q x (2 * q - 1 - i) = x (2 * q - 1 - i) + x (2 * q + i) := by
    unfold sr2Half; rw [if_neg (by omega), show 4 * q - (2 * q - 1 - i) - 1 = 2 * q + i by omega]
  have h3 : sr2Sin tr q x (q - 1 - i) ^ 2 = sr2SinRaw tr q x i ^ 2 := by
    unfold sr2Sin; rw [show q - 1 - (q - 1 - i) = i by omega]; split_ifs <;> ring
  rw [h1, h2, h3]
  unfold sr2Cos sr2SinRaw
  rw [show 4 * q - i - 1 = 4 * q - 1 - i by omega, show 2 * q - i - 1 = 2 * q - 1 - i by omega]
  have := ht i hi
  linear_combination ((x i - x (4 * q - 1 - i)) ^ 2 + (x (2 * q - 1 - i) - x (2 * q + i)) ^ 2) * this

theorem sr2Pre_bounded {q : ℕ} {tr : ℕ → Cx ℝ} (ht : ∀ i, i < q → (tr i).re ^ 2 + (tr i).im ^ 2 = 1) :
    Bounded (nm1 (4 * q)) (n111 (2 * q) q q) (sr2Pre tr q) √2 where
  nn := sqrt_nonneg _
  sub := fun x y => by
    refine Prod.ext ?_ (Prod.ext ?_ ?_) <;> funext i
    · simp only [sr2Pre, sr2Half, Prod.fst_sub, Pi.sub_apply]; split_ifs <;> ring
    · simp only [sr2Pre, sr2Cos, Prod.fst_sub, Prod.snd_sub, Pi.sub_apply]; ring
    · simp only [sr2Pre, sr2Sin, sr2SinRaw, Prod.snd_sub, Pi.sub_apply]; split_ifs <;> ring
  le := fun x => by
    rw [n111_of, nm1_of, ← sqrt_mul (by norm_num)]
    exact le_of_eq (congrArg _ (sr2Pre_sq tr ht x))

theorem sr2Pre_acc {q : ℕ} {tw : ℕ → Cx T} {tr : ℕ → Cx ℝ} (ht : ∀ i, i < q → (tr i).re ^ 2 + (tr i).im ^ 2 = 1)
    (hre : ∀ i, i < q → Ap (R.val (tw i).re) (tr i).re 1 (1 + R.tau)) (him : ∀ i, i < q → Ap (R.val (tw i).im) (tr i).im 1 (1 + R.tau)) :
    Acc R.seq R.seq3 (nm1 (4 * q)) (n111 (2 * q) q q) (sr2Pre tr q) (sr2Pre tw q) √2 (2 * (R.rot * (1 + R.u) - 1)) := fun f => by
  set ε := R.rot * (1 + R.u) - 1 with hε
  have hu := R.u_nonneg
  have hr := R.one_le_rot
  have hε0 : 0 ≤ ε := by nlinarith
  have huε : R.u ≤ ε := by nlinarith
  set x := R.seq f with hx
  rw [n111_of, nm1_of, ← sqrt_mul (by norm_num)]
  apply sqrt_le_mul_sqrt (by linarith)
  rw [← sr2Pre_sq tr ht x, sum_pair, sum_pair, ← sum_range_reflect (fun i => (R.seq3 (sr2Pre tw q f) - sr2Pre tr q x).2.2 i ^ 2),
    ← sum_range_reflect (fun i => sr2Sin tr q x i ^ 2), ← sum_add_distrib, ← sum_add_distrib, ← sum_add_distrib, ← sum_add_distrib, mul_sum]
  refine sum_le_sum fun i hi => ?_
  rw [mem_range] at hi
  have hrel : ∀ {a b : ℝ}, |a| ≤ R.u * |b| → a ^ 2 ≤ (2 * ε) ^ 2 * b ^ 2 := fun {a b} h => by
    rw [← sq_abs b]
    exact sq_le_of_abs_le (h.trans (mul_le_mul_of_nonneg_right (by linarith) (abs_nonneg _)))
  have e1 : ∀ j, j < 2 * q → ((R.seq3 (sr2Pre tw q f) - sr2Pre tr q x).1 j) ^ 2 ≤ (2 * ε) ^ 2 * sr2Half q x j ^ 2 := fun j hj => by
    apply hrel
    simp only [Rounding.seq3, sr2Pre, Prod.fst_sub, Pi.sub_apply, sr2Half, Rounding.seq, hx]
    split_ifs <;> exact R.add _ _
  have hd1 : Ap (R.val (f i - f (4 * q - i - 1))) (x i - x (4 * q - i - 1)) _ (1 + R.u) := Ap.of_rel hu (R.sub _ _)
  have hd2 : Ap (R.val (f (2 * q - i - 1) - f (2 * q + i))) (x (2 * q - i - 1) - x (2 * q + i)) _ (1 + R.u) := Ap.of_rel hu (R.sub _ _)
  have hc := R.ap_rot_add hd1 hd2 (hre i hi) (him i hi)
  have hs := R.ap_rot_sub hd2 hd1 (hre i hi) (him i hi)
  have e2 : ((R.seq3 (sr2Pre tw q f) - sr2Pre tr q x).2.1 i) ^ 2 ≤ ε ^ 2 * (|x i - x (4 * q - i - 1)| + |x (2 * q - i - 1) - x (2 * q + i)|) ^ 2 := by
    apply sq_le_of_abs_le
    exact hc.err
  have e3 : ((R.seq3 (sr2Pre tw q f) - sr2Pre tr q x).2.2 (q - 1 - i)) ^ 2 ≤ ε ^ 2 * (|x (2 * q - i - 1) - x (2 * q + i)| + |x i - x (4 * q - i - 1)|) ^ 2 := by
    apply sq_le_of_abs_le
    refine le_trans (le_of_eq ?_) hs.err
    simp only [Rounding.seq3, sr2Pre, Prod.snd_sub, Pi.sub_apply, sr2Sin, Rounding.seq, hx, show q - 1 - (q - 1 - i) = i by omega, sr2SinRaw]
    split_ifs
    · rfl
    · rw [R.neg, ← abs_neg]; congr 1; ring
  have e4 : sr2Cos tr q x i ^ 2 + sr2Sin tr q x (q - 1 - i) ^ 2 = (x i - x (4 * q - i - 1)) ^ 2 + (x (2 * q - i - 1) - x (2 * q + i)) ^ 2 := by
    have : sr2Sin tr q x (q - 1 - i) ^ 2 = sr2SinRaw tr q x i ^ 2 := by
      unfold sr2Sin; rw [show q - 1 - (q - 1 - i) = i by omega]; split_ifs <;> ring
    rw [this]
    unfold sr2Cos sr2SinRaw
    have := ht i hi
    linear_combination ((x i - x (4 * q - i - 1)) ^ 2 + (x (2 * q - i - 1) - x (2 * q + i)) ^ 2) * this
  have m1 := abs_add_sq_le (x i - x (4 * q - i - 1)) (x (2 * q - i - 1) - x (2 * q + i))
  have e5 := e1 i (by omega)
  have e6 := e1 (2 * q - 1 - i) (by omega)
  have : 0 ≤ ε ^ 2 := sq_nonneg _
  rw [add_comm |x (2 * q - i - 1) - x (2 * q + i)|] at e3
  have m2 := mul_le_mul_of_nonneg_left m1 this
  nlinarith

/-! Recombination. -/

theorem sum_odd_even (m : ℕ) (g : ℕ → ℝ) : ∑ k ∈ range (2 * m), g k = ∑ j ∈ range m, g (2 * j) + ∑ j ∈ range m, g (2 * j + 1) := by
  induction m with
  | zero => simp
  | succ m ih => rw [show 2 * (m + 1) = 2 * m + 1 + 1 by ring, sum_range_succ, sum_range_succ, ih, sum_range_succ, sum_range_succ]; ring

theorem sum_halfAt_zero {q : ℕ} (hq : 1 ≤ q) (g : ℕ → ℝ) : ∑ j ∈ range q, Spec.halfAt 0 j * g j = g 0 / 2 + ∑ m ∈ range (q - 1), g (m + 1) := by
  obtain ⟨p, rfl⟩ : ∃ p, q = p + 1 := ⟨q - 1, by omega⟩
  rw [sum_range_succ', Nat.add_sub_cancel, add_comm]
  congr 1
  · simp [Spec.halfAt]; ring
  · exact sum_congr rfl fun i _ => by simp [Spec.halfAt]

theorem sum_reflect' {q : ℕ} (g : ℕ → ℝ) : ∑ m ∈ range (q - 1), g (m + 1) = ∑ m ∈ range (q - 1), g (q - (m + 1)) := by
  rw [← sum_range_reflect]
  refine sum_congr rfl fun i hi => ?_
  rw [mem_range] at hi
  congr 1; omega

theorem sr2Post_sq {q : ℕ} (hq : 1 ≤ q) (a e o : ℕ → ℝ) :
    ∑ k ∈ range (4 * q), Spec.halfAt 0 k * sr2Out q a e o k ^ 2 =
      ∑ j ∈ range (2 * q), Spec.halfAt 0 j * a j ^ 2 + 2 * ∑ j ∈ range q, Spec.halfAt 0 j * e j ^ 2 + 2 * ∑ j ∈ range q, Spec.halfAt 0 j * o j ^ 2 := by
  rw [show 4 * q = 2 * (2 * q) by ring, sum_odd_even]
  rw [add_assoc]
  congr 1
  · refine sum_congr rfl fun j _ => ?_
    unfold sr2Out
    rw [if_pos (by omega), show 2 * j / 2 = j by omega]
    simp [Spec.halfAt]
  · rw [sum_ends hq, sum_halfAt_zero hq, sum_halfAt_zero hq, sum_reflect' (fun j => o j ^ 2)]
    have hone : ∀ j, Spec.halfAt 0 (2 * j + 1) = 1 := fun j => by simp [Spec.halfAt]
    simp only [hone, one_mul]
    have h0 : sr2Out q a e o (2 * 0 + 1) = e 0 := by simp [sr2Out]
    have hl : sr2Out q a e o (2 * (2 * q - 1) + 1) = -(o 0) := by
      unfold sr2Out
      rw [if_neg (by omega), if_neg (by omega), if_pos (by omega)]
    have hp : ∀ m, m < q - 1 → sr2Out q a e o (2 * (2 * m + 1) + 1) ^ 2 + sr2Out q a e o (2 * (2 * m + 2) + 1) ^ 2 = 2 * (e (m + 1) ^ 2 + o (q - (m + 1)) ^ 2) := fun m hm => by
      have e1 : sr2Out q a e o (2 * (2 * m + 1) + 1) = e (m + 1) + (if (m + 1 + q) % 2 = 0 then -(o (q - (m + 1))) else o (q - (m + 1))) := by
        unfold sr2Out
        rw [if_neg (c := (2 * (2 * m + 1) + 1) % 2 = 0) (by omega), if_neg (c := 2 * (2 * m + 1) + 1 = 1) (by omega),
          if_neg (c := 2 * (2 * m + 1) + 1 = 4 * q - 1) (by omega), if_neg (c := (2 * (2 * m + 1) + 1) % 4 = 1) (by omega),
          show (2 * (2 * m + 1) + 1) / 4 + 1 = m + 1 by omega]
      have e2 : sr2Out q a e o (2 * (2 * m + 2) + 1) = e (m + 1) - (if (m + 1 + q) % 2 = 0 then -(o (q - (m + 1))) else o (q - (m + 1))) := by
        unfold sr2Out
        rw [if_neg (c := (2 * (2 * m + 2) + 1) % 2 = 0) (by omega), if_neg (c := 2 * (2 * m + 2) + 1 = 1) (by omega),
          if_neg (c := 2 * (2 * m + 2) + 1 = 4 * q - 1) (by omega), if_pos (c := (2 * (2 * m + 2) + 1) % 4 = 1) (by omega),
          show (2 * (2 * m + 2) + 1) / 4 = m + 1 by omega]
      rw [e1, e2]
      split_ifs <;> ring
    rw [h0, hl, sum_congr rfl fun m hm => hp m (mem_range.1 hm), ← mul_sum, sum_add_distrib]
    ring

/-- The norm of the three inner results. -/
noncomputable def n122 (q : ℕ) : Nm ((ℕ → ℝ) × (ℕ → ℝ) × (ℕ → ℝ)) :=
  (Kind.dct3.nm (2 * q)).three (Kind.dct3.nm q) (Kind.dct3.nm q) 1 2 2 zero_le_one zero_le_two zero_le_two

theorem dct3_nm_of {n : ℕ} (x : ℕ → ℝ) : (Kind.dct3.nm n).of x = √(∑ i ∈ range n, Spec.halfAt 0 i * x i ^ 2) := by
  simp [Kind.nm, Nm.w, wn, Kind.weight]
theorem dct3_nm_sq {n : ℕ} (x : ℕ → ℝ) : (Kind.dct3.nm n).of x ^ 2 = ∑ i ∈ range n, Spec.halfAt 0 i * x i ^ 2 := by
  rw [dct3_nm_of, sq_sqrt (sum_nonneg fun i _ => mul_nonneg (halfAt_nonneg _ _) (sq_nonneg _))]

theorem sr2Post_bounded {q : ℕ} (hq : 1 ≤ q) : Bounded (n122 q) (Kind.dct3.nm (4 * q)) (sr2Post q) 1 where
  nn := zero_le_one
  sub := fun x y => by
    funext k
    simp only [sr2Post, sr2Out, Prod.fst_sub, Prod.snd_sub, Pi.sub_apply]
    split_ifs <;> ring
  le := fun x => by
    rw [one_mul, dct3_nm_of, sr2Post, sr2Post_sq hq]
    simp only [n122, Nm.three, dct3_nm_sq, one_mul, le_refl]

theorem Rounding.rel_zero {a b : ℝ} (h : a = b) : |a - b| ≤ R.u * |b| := by
  rw [h, sub_self, abs_zero]; exact mul_nonneg R.u_nonneg (abs_nonneg _)

theorem sr2Post_acc {q : ℕ} (hq : 1 ≤ q) : Acc R.seq3 R.seq (n122 q) (Kind.dct3.nm (4 * q)) (sr2Post q) (sr2Post q) 1 R.u := by
  refine Acc.of_entries R.u_nonneg (sr2Post_bounded hq) fun p i hi => ?_
  simp only [Real.norm_eq_abs, sr2Post, Rounding.seq, Rounding.seq3, sr2Out]
  split_ifs
  · exact R.rel_zero rfl
  · exact R.rel_zero rfl
  · exact R.rel_zero (R.neg _)
  · rw [← R.neg]; exact R.sub _ _
  · exact R.sub _ _
  · rw [← R.neg]; exact R.add _ _
  · exact R.add _ _

theorem Rounding.one_le_step : 1 ≤ R.step := by
  unfold Rounding.step
  have h1 := R.one_le_u
  have h2 := one_le_pow₀ (n := 2) (one_le_mul_of_one_le_of_one_le R.one_le_rot h1)
  exact one_le_mul_of_one_le_of_one_le h1 h2

theorem sr2_acc {q : ℕ} (hq : 1 ≤ q) {Dh Dq : (ℕ → T) → ℕ → T} {ε : ℝ} (hε : 0 ≤ ε) (hh : TransAcc R .dct2 (2 * q) Dh ε)
    (hqq : TransAcc R .dct2 q Dq ε) :
    TransAcc R .dct2 (4 * q) (fun f => let tw := fun i => Cx.conj (singleTwiddle (2 * i + 1) (4 * q * 4))
        sr2Out q (Dh (sr2Half q f)) (Dq (sr2Cos tw q f)) (Dq (sr2Sin tw q f))) ((1 + ε) * R.step - 1) := by
  have hq0 : (0 : ℝ) < q := by exact_mod_cast hq
  have ht := fun i (_ : i < q) => srTw_sq q i
  have a1 := sr2Pre_acc (tw := fun i => Cx.conj (singleTwiddle (2 * i + 1) (4 * q * 4))) R ht (fun i hi => R.srTw_re (by ring) hi) (fun i hi => R.srTw_im (by ring) hi)
  have b1 := sr2Pre_bounded ht
  have hL : (0 : ℝ) ≤ √q := sqrt_nonneg _
  have s0 : √(q : ℝ) ^ 2 = q := sq_sqrt hq0.le
  have s1 : √(Kind.dct2.scale (2 * q)) ^ 2 = q := by rw [sq_sqrt (Kind.scale_nonneg _ (by omega))]; simp [Kind.scale]
  have s2 : √(Kind.dct2.scale q) ^ 2 = q / 2 := by rw [sq_sqrt (Kind.scale_nonneg _ (by omega))]; simp [Kind.scale]
  have b2 : Bounded (n111 (2 * q) q q) (n122 q) (fun x => (Kind.dct2.specAt (2 * q) x.1, Kind.dct2.specAt q x.2.1, Kind.dct2.specAt q x.2.2)) √q :=
    Bounded.three (Kind.dct2.bounded (by omega) (by simp)) (Kind.dct2.bounded hq (by simp)) (Kind.dct2.bounded hq (by simp)) hL
      (by rw [s0, s1]; simp) (by rw [s0, s2]; linarith) (by rw [s0, s2]; linarith)
  have a2 : Acc R.seq3 R.seq3 (n111 (2 * q) q q) (n122 q) (fun x => (Kind.dct2.specAt (2 * q) x.1, Kind.dct2.specAt q x.2.1, Kind.dct2.specAt q x.2.2))
      (fun a => (Dh a.1, Dq a.2.1, Dq a.2.2)) √q ε :=
    Acc.three hh hqq hqq hL hε (by rw [s0, s1]; simp) (by rw [s0, s2]; linarith) (by rw [s0, s2]; linarith)
  have a3 := sr2Post_acc R hq
  have a23 := Acc.comp R.u_nonneg b2 (sr2Post_bounded hq) a2 a3
  have hpos : 0 ≤ (1 + ε) * (1 + R.u) - 1 := by nlinarith [R.u_nonneg]
  have a := Acc.comp hpos b1 (b2.comp (sr2Post_bounded hq)) a1 a23
  refine TransAcc.of_acc (a.mono (by positivity) ?_) (fun x i hi => sr2_out hq x hi) ?_
  · have := two_g (g := R.rot * (1 + R.u))
    unfold Rounding.step
    have h2 : 0 ≤ (1 + ε) * (1 + R.u) := by linarith
    nlinarith
  · rw [one_mul, ← sqrt_mul hq0.le]; congr 1; simp [Kind.scale]; ring

/-! ### DCT3 -/

section
variable (tw : ℕ → Cx T) (q : ℕ)
def sr3Pre (f : ℕ → T) : (ℕ → T) × (ℕ → T) × (ℕ → T) := (sr3Even f, sr3N1 f, sr3N3 q f)
def sr3Rot (p : (ℕ → T) × (ℕ → T) × (ℕ → T)) : (ℕ → T) × (ℕ → T) × (ℕ → T) := (p.1, sr3Low tw p.2.1 p.2.2, sr3High tw p.2.1 p.2.2)
def sr3Add (p : (ℕ → T) × (ℕ → T) × (ℕ → T)) : ℕ → T := fun k =>
  if k < q then p.1 k + p.2.1 k
  else if k < 2 * q then p.1 k + p.2.2 (2 * q - k - 1)
  else if k < 3 * q then p.1 (4 * q - k - 1) - p.2.2 (k - 2 * q)
  else p.1 (4 * q - k - 1) - p.2.1 (4 * q - k - 1)
end

/-- The norm of the inputs of the three inner transforms. -/
noncomputable def nhh (q : ℕ) : Nm ((ℕ → ℝ) × (ℕ → ℝ) × (ℕ → ℝ)) :=
  (Kind.dct3.nm (2 * q)).three (Kind.dct3.nm q) (Kind.dct3.nm q) 1 (1 / 2) (1 / 2) zero_le_one (by norm_num) (by norm_num)

theorem sr3Pre_sq {q : ℕ} (hq : 1 ≤ q) (x : ℕ → ℝ) :
    ∑ k ∈ range (4 * q), Spec.halfAt 0 k * x k ^ 2 =
      ∑ j ∈ range (2 * q), Spec.halfAt 0 j * sr3Even x j ^ 2 + 1 / 2 * ∑ j ∈ range q, Spec.halfAt 0 j * sr3N1 x j ^ 2 +
        1 / 2 * ∑ j ∈ range q, Spec.halfAt 0 j * sr3N3 q x j ^ 2 := by
  rw [show 4 * q = 2 * (2 * q) by ring, sum_odd_even]
  rw [add_assoc]
  congr 1
  · refine sum_congr rfl fun j _ => ?_
    simp [Spec.halfAt, sr3Even]
  · rw [sum_ends hq, sum_halfAt_zero hq, sum_halfAt_zero hq, sum_reflect' (fun j => sr3N3 q x j ^ 2)]
    have hone : ∀ j, Spec.halfAt 0 (2 * j + 1) = 1 := fun j => by simp [Spec.halfAt]
    simp only [hone, one_mul]
    have hp : ∀ m, m < q - 1 → sr3N1 x (m + 1) ^ 2 + sr3N3 q x (q - (m + 1)) ^ 2 = 2 * (x (2 * (2 * m + 1) + 1) ^ 2 + x (2 * (2 * m + 2) + 1) ^ 2) := fun m hm => by
      unfold sr3N1 sr3N3
      rw [if_neg (by omega), if_neg (by omega), show q - (q - (m + 1)) = m + 1 by omega, show 4 * (m + 1) - 1 = 2 * (2 * m + 1) + 1 by omega,
        show 4 * (m + 1) + 1 = 2 * (2 * m + 2) + 1 by omega]
      ring
    have h1 : sr3N1 x 0 = x (2 * 0 + 1) * 2 := by simp [sr3N1]
    have h3 : sr3N3 q x 0 = x (2 * (2 * q - 1) + 1) * 2 := by simp [sr3N3, show 2 * (2 * q - 1) + 1 = 4 * q - 1 by omega]
    have hs : ∑ m ∈ range (q - 1), (x (2 * (2 * m + 1) + 1) ^ 2 + x (2 * (2 * m + 2) + 1) ^ 2) =
        1 / 2 * (∑ m ∈ range (q - 1), sr3N1 x (m + 1) ^ 2 + ∑ m ∈ range (q - 1), sr3N3 q x (q - (m + 1)) ^ 2) := by
      rw [← sum_add_distrib, mul_sum]
      exact sum_congr rfl fun m hm => by rw [hp m (mem_range.1 hm)]; ring
    rw [hs, h1, h3]
    ring

theorem sr3Pre_bounded {q : ℕ} (hq : 1 ≤ q) : Bounded (Kind.dct3.nm (4 * q)) (nhh q) (sr3Pre q) 1 where
  nn := zero_le_one
  sub := fun x y => by
    refine Prod.ext ?_ (Prod.ext ?_ ?_) <;> funext i
    · simp only [sr3Pre, sr3Even, Prod.fst_sub, Pi.sub_apply]
    · simp only [sr3Pre, sr3N1, Prod.fst_sub, Prod.snd_sub, Pi.sub_apply]; split_ifs <;> ring
    · simp only [sr3Pre, sr3N3, Prod.snd_sub, Pi.sub_apply]; split_ifs <;> ring
  le := fun x => by
    rw [one_mul, dct3_nm_of, sr3Pre_sq hq]
    simp only [nhh, Nm.three, dct3_nm_sq, one_mul, le_refl, sr3Pre]

section
variable {V V' V'' A B B' B'' : Type} [AddCommGroup V] {v : A → V} {N : Nm V}
  {w w' w'' : ℕ → ℝ} {n n' n'' : ℕ} {hw : ∀ i, 0 ≤ w i} {hw' : ∀ i, 0 ≤ w' i} {hw'' : ∀ i, 0 ≤ w'' i} {α β γ : ℝ} {hα : 0 ≤ α} {hβ : 0 ≤ β} {hγ : 0 ≤ γ}
  {v1 : B → ℕ → ℝ} {v2 : B' → ℕ → ℝ} {v3 : B'' → ℕ → ℝ} {S1 S2 S3 : V → ℕ → ℝ} {P : A → B × B' × B''} {L ε : ℝ}

/-- Three results side by side, all entries with relative error `ε`. -/
theorem Acc.of_entries3 (hε : 0 ≤ ε)
    (hS : Bounded N ((Nm.w ℝ w n hw).three (Nm.w ℝ w' n' hw') (Nm.w ℝ w'' n'' hw'') α β γ hα hβ hγ) (fun x => (S1 x, S2 x, S3 x)) L)
    (h1 : ∀ a i, i < n → |v1 (P a).1 i - S1 (v a) i| ≤ ε * |S1 (v a) i|)
    (h2 : ∀ a i, i < n' → |v2 (P a).2.1 i - S2 (v a) i| ≤ ε * |S2 (v a) i|)
    (h3 : ∀ a i, i < n'' → |v3 (P a).2.2 i - S3 (v a) i| ≤ ε * |S3 (v a) i|) :
    Acc v (fun b : B × B' × B'' => (v1 b.1, v2 b.2.1, v3 b.2.2)) N ((Nm.w ℝ w n hw).three (Nm.w ℝ w' n' hw') (Nm.w ℝ w'' n'' hw'') α β γ hα hβ hγ)
      (fun x => (S1 x, S2 x, S3 x)) P L ε := fun a => by
  refine le_trans ?_ (mul_le_mul_of_nonneg_left (hS.le _) hε)
  exact three_le hε (wn_mul_le hε hw (h1 a)) (wn_mul_le hε hw' (h2 a)) (wn_mul_le hε hw'' (h3 a)) (by rw [mul_comm]) (by rw [mul_comm]) (by rw [mul_comm])

end

theorem sr3Pre_acc {q : ℕ} (hq : 1 ≤ q) : Acc R.seq R.seq3 (Kind.dct3.nm (4 * q)) (nhh q) (sr3Pre q) (sr3Pre q) 1 R.u := by
  refine Acc.of_entries3 R.u_nonneg (sr3Pre_bounded hq) (fun f i hi => ?_) (fun f i hi => ?_) (fun f i hi => ?_)
  · exact R.rel_zero rfl
  · simp only [Rounding.seq, sr3Pre, sr3N1]
    split_ifs
    · rw [ttwo_real, ← R.two]; exact R.mul _ _
    · exact R.add _ _
  · simp only [Rounding.seq, sr3Pre, sr3N3]
    split_ifs
    · rw [ttwo_real, ← R.two]; exact R.mul _ _
    · exact R.sub _ _

theorem sr3Rot_sq {q : ℕ} (tr : ℕ → Cx ℝ) {i : ℕ} (ht : (tr i).re ^ 2 + (tr i).im ^ 2 = 1) (c s : ℕ → ℝ) :
    sr3Low tr c s i ^ 2 + sr3High tr c s i ^ 2 = c i ^ 2 + s i ^ 2 := by
  unfold sr3Low sr3High
  split_ifs <;> linear_combination (c i ^ 2 + s i ^ 2) * ht

theorem sr3Rot_bounded {q : ℕ} {tr : ℕ → Cx ℝ} (ht : ∀ i, i < q → (tr i).re ^ 2 + (tr i).im ^ 2 = 1) :
    Bounded (n111 (2 * q) q q) (n111 (2 * q) q q) (sr3Rot tr) 1 where
  nn := zero_le_one
  sub := fun x y => by
    refine Prod.ext ?_ (Prod.ext ?_ ?_) <;> funext i
    · simp only [sr3Rot, Prod.fst_sub]
    · simp only [sr3Rot, sr3Low, Prod.fst_sub, Prod.snd_sub, Pi.sub_apply]; split_ifs <;> ring
    · simp only [sr3Rot, sr3High, Prod.fst_sub, Prod.snd_sub, Pi.sub_apply]; split_ifs <;> ring
  le := fun x => by
    rw [one_mul, n111_of, n111_of, add_assoc, add_assoc, ← sum_add_distrib, ← sum_add_distrib]
    apply le_of_eq
    congr 2
    exact sum_congr rfl fun i hi => sr3Rot_sq (q := q) tr (ht i (mem_range.1 hi)) _ _

theorem sr3Rot_acc {q : ℕ} {tw : ℕ → Cx T} {tr : ℕ → Cx ℝ}
    (hre : ∀ i, i < q → Ap (R.val (tw i).re) (tr i).re 1 (1 + R.tau)) (him : ∀ i, i < q → Ap (R.val (tw i).im) (tr i).im 1 (1 + R.tau)) :
    Acc R.seq3 R.seq3 (n111 (2 * q) q q) (n111 (2 * q) q q) (sr3Rot tr) (sr3Rot tw) 1 (2 * (R.rot - 1)) := fun p => by
  have hr := R.one_le_rot
  rw [one_mul, n111_of, n111_of]
  apply sqrt_le_mul_sqrt (by linarith)
  have z : ∑ i ∈ range (2 * q), (R.seq3 (sr3Rot tw p) - sr3Rot tr (R.seq3 p)).1 i ^ 2 = 0 :=
    sum_eq_zero fun i _ => by simp [sr3Rot, Rounding.seq3]
  have z' : 0 ≤ ∑ i ∈ range (2 * q), (R.seq3 p).1 i ^ 2 := sum_nonneg fun i _ => sq_nonneg _
  rw [z, zero_add, ← sum_add_distrib, add_assoc, ← sum_add_distrib, mul_add]
  refine le_trans ?_ (le_add_of_nonneg_left (mul_nonneg (sq_nonneg _) z'))
  rw [mul_sum]
  refine sum_le_sum fun i hi => ?_
  rw [mem_range] at hi
  set c := R.val (p.2.1 i)
  set s := if i % 2 = 0 then R.val (p.2.2 i) else -R.val (p.2.2 i) with hs
  have hs2 : R.val (if i % 2 = 0 then p.2.2 i else -(p.2.2 i)) = s := by rw [hs]; split_ifs <;> simp [R.neg]
  have hc : Ap (R.val (p.2.1 i)) c |c| 1 := Ap.exact _
  have hs' : Ap (R.val (if i % 2 = 0 then p.2.2 i else -(p.2.2 i))) s |s| 1 := by rw [hs2]; exact Ap.exact _
  have h1 := (R.ap_rot_add hc hs' (hre i hi) (him i hi)).err
  have h2 := (R.ap_rot_sub hc hs' (him i hi) (hre i hi)).err
  rw [mul_one] at h1 h2
  have e1 := sq_le_of_abs_le h1
  have e2 := sq_le_of_abs_le h2
  have e3 : (R.seq3 (sr3Rot tw p) - sr3Rot tr (R.seq3 p)).2.1 i ^ 2 ≤ (R.rot - 1) ^ 2 * (|c| + |s|) ^ 2 := e1
  have e4 : (R.seq3 (sr3Rot tw p) - sr3Rot tr (R.seq3 p)).2.2 i ^ 2 ≤ (R.rot - 1) ^ 2 * (|c| + |s|) ^ 2 := e2
  have m := mul_le_mul_of_nonneg_left (abs_add_sq_le c s) (sq_nonneg (R.rot - 1))
  have e5 : (R.seq3 p).2.2 i ^ 2 = s ^ 2 := by
    rw [hs]
    show R.val (p.2.2 i) ^ 2 = _
    split_ifs <;> ring
  have e6 : (R.seq3 p).2.1 i ^ 2 = c ^ 2 := rfl
  rw [e5, e6]
  nlinarith

theorem sr3Add_sq {q : ℕ} (p : (ℕ → ℝ) × (ℕ → ℝ) × (ℕ → ℝ)) :
    ∑ k ∈ range (4 * q), sr3Add q p k ^ 2 = 2 * (∑ i ∈ range (2 * q), p.1 i ^ 2 + ∑ i ∈ range q, p.2.1 i ^ 2 + ∑ i ∈ range q, p.2.2 i ^ 2) := by
  rw [sum4, sum_pair, ← sum_add_distrib, ← sum_add_distrib, mul_sum]
  refine sum_congr rfl fun i hi => ?_
  rw [mem_range] at hi
  have h1 : sr3Add q p i = p.1 i + p.2.1 i := by unfold sr3Add; rw [if_pos hi]
  have h2 : sr3Add q p (2 * q - 1 - i) = p.1 (2 * q - 1 - i) + p.2.2 i := by
    unfold sr3Add; rw [if_neg (by omega), if_pos (by omega), show 2 * q - (2 * q - 1 - i) - 1 = i by omega]
  have h3 : sr3Add q p (2 * q + i) = p.1 (2 * q - 1 - i) - p.2.2 i := by
    unfold sr3Add
    rw [if_neg (by omega), if_neg (by omega), if_pos (by omega), show 4 * q - (2 * q + i) - 1 = 2 * q - 1 - i by omega, show 2 * q + i - 2 * q = i by omega]
  have h4 : sr3Add q p (4 * q - 1 - i) = p.1 i - p.2.1 i := by
    unfold sr3Add
    rw [if_neg (by omega), if_neg (by omega), if_neg (by omega), show 4 * q - (4 * q - 1 - i) - 1 = i by omega]
  rw [h1, h2, h3, h4]
  ring

theorem sr3Add_bounded {q : ℕ} : Bounded (n111 (2 * q) q q) (nm1 (4 * q)) (sr3Add q) √2 where
  nn := sqrt_nonneg _
  sub := fun x y => by
    funext k
    simp only [sr3Add, Prod.fst_sub, Prod.snd_sub, Pi.sub_apply]
    split_ifs <;> ring
  le := fun x => by
    rw [nm1_of, n111_of, ← sqrt_mul (by norm_num), sr3Add_sq]

theorem sr3Add_acc {q : ℕ} : Acc R.seq3 R.seq (n111 (2 * q) q q) (nm1 (4 * q)) (sr3Add q) (sr3Add q) √2 R.u := by
  refine Acc.of_entries R.u_nonneg sr3Add_bounded fun p i hi => ?_
  simp only [Real.norm_eq_abs, Rounding.seq, Rounding.seq3, sr3Add]
  split_ifs
  · exact R.add _ _
  · exact R.add _ _
  · exact R.sub _ _
  · exact R.sub _ _

theorem sr3_acc {q : ℕ} (hq : 1 ≤ q) {Dh Dq : (ℕ → T) → ℕ → T} {ε : ℝ} (hε : 0 ≤ ε) (hh : TransAcc R .dct3 (2 * q) Dh ε)
    (hqq : TransAcc R .dct3 q Dq ε) :
    TransAcc R .dct3 (4 * q) (fun f => let tw := fun i => Cx.conj (singleTwiddle (2 * i + 1) (4 * q * 4))
        sr3Out tw q (Dh (sr3Even f)) (Dq (sr3N1 f)) (Dq (sr3N3 q f))) ((1 + ε) * R.step - 1) := by
  have hq0 : (0 : ℝ) < q := by exact_mod_cast hq
  have ht := fun i (_ : i < q) => srTw_sq q i
  have hu := R.u_nonneg
  have hr := R.one_le_rot
  have hL : (0 : ℝ) ≤ √q := sqrt_nonneg _
  have s0 : √(q : ℝ) ^ 2 = q := sq_sqrt hq0.le
  have s1 : √(Kind.dct3.scale (2 * q)) ^ 2 = q := by rw [sq_sqrt (Kind.scale_nonneg _ (by omega))]; simp [Kind.scale]
  have s2 : √(Kind.dct3.scale q) ^ 2 = q / 2 := by rw [sq_sqrt (Kind.scale_nonneg _ (by omega))]; simp [Kind.scale]
  have b1 := sr3Pre_bounded hq
  have a1 := sr3Pre_acc R hq
  have b2 : Bounded (nhh q) (n111 (2 * q) q q) (fun x => (Kind.dct3.specAt (2 * q) x.1, Kind.dct3.specAt q x.2.1, Kind.dct3.specAt q x.2.2)) √q :=
    Bounded.three (Kind.dct3.bounded (by omega) (by simp)) (Kind.dct3.bounded hq (by simp)) (Kind.dct3.bounded hq (by simp)) hL
      (by rw [s0, s1]; simp) (by rw [s0, s2]; linarith) (by rw [s0, s2]; linarith)
  have a2 : Acc R.seq3 R.seq3 (nhh q) (n111 (2 * q) q q) (fun x => (Kind.dct3.specAt (2 * q) x.1, Kind.dct3.specAt q x.2.1, Kind.dct3.specAt q x.2.2))
      (fun a => (Dh a.1, Dq a.2.1, Dq a.2.2)) √q ε :=
    Acc.three hh hqq hqq hL hε (by rw [s0, s1]; simp) (by rw [s0, s2]; linarith) (by rw [s0, s2]; linarith)
  have b3 := sr3Rot_bounded ht
  have a3 := sr3Rot_acc (tr := srTw q) (tw := fun i => Cx.conj (singleTwiddle (2 * i + 1) (4 * q * 4))) R (fun i hi => R.srTw_re (by ring) hi) (fun i hi => R.srTw_im (by ring) hi)
  have a4 := sr3Add_acc R (q := q)
  have a34 := Acc.comp hu b3 sr3Add_bounded a3 a4
  have h34 : 0 ≤ (1 + 2 * (R.rot - 1)) * (1 + R.u) - 1 := by nlinarith
  have a234 := Acc.comp h34 b2 (b3.comp sr3Add_bounded) a2 a34
  have h234 : 0 ≤ (1 + ε) * (1 + ((1 + 2 * (R.rot - 1)) * (1 + R.u) - 1)) - 1 := by nlinarith
  have a := Acc.comp h234 b1 (b2.comp (b3.comp sr3Add_bounded)) a1 a234
  refine TransAcc.of_acc (a.mono (by positivity) ?_) (fun x i hi => sr3_out hq x hi) ?_
  · have h1 := two_g (g := R.rot)
    unfold Rounding.step
    have e : (1 + R.u) * (1 + ((1 + ε) * (1 + ((1 + 2 * (R.rot - 1)) * (1 + R.u) - 1)) - 1)) = ((1 + ε) * (1 + R.u) ^ 2) * (1 + 2 * (R.rot - 1)) := by ring
    have e' : (1 + ε) * ((1 + R.u) * (R.rot * (1 + R.u)) ^ 2) = ((1 + ε) * (1 + R.u) ^ 2) * (R.rot ^ 2 * (1 + R.u)) := by ring
    rw [e, e']
    have : R.rot ^ 2 ≤ R.rot ^ 2 * (1 + R.u) := by nlinarith
    have hp : 0 ≤ (1 + ε) * (1 + R.u) ^ 2 := by positivity
    have := mul_le_mul_of_nonneg_left (h1.trans this) hp
    linarith
  · rw [mul_one, mul_one, mul_comm, ← sqrt_mul hq0.le]; congr 1; simp [Kind.scale]; ring

/-! ### DST2 and DST3 -/

theorem halfAt_reflect {n i : ℕ} (hi : i < n) : Spec.halfAt (n - 1) (n - 1 - i) = Spec.halfAt 0 i := by
  unfold Spec.halfAt; exact if_congr (by omega) rfl rfl

theorem dst2_of_dct2 {n : ℕ} {C : (ℕ → T) → ℕ → T} {ε : ℝ} (h : TransAcc R .dct2 n C ε) :
    TransAcc R .dst2 n (fun f k => C (fun j => if j < n ∧ j % 2 = 1 then -(f j) else f j) (n - 1 - k)) ε := fun f => by
  have h1 := h (fun j => if j < n ∧ j % 2 = 1 then -(f j) else f j)
  have e1 : (Kind.dst2.nm n).of (R.seq f) = (Kind.dct2.nm n).of (R.seq fun j => if j < n ∧ j % 2 = 1 then -(f j) else f j) := by
    simp only [Kind.nm, Nm.w, Kind.weight, wn, Rounding.seq]
    congr 1
    refine sum_congr rfl fun i _ => ?_
    split_ifs <;> simp [R.neg]
  rw [e1]
  refine le_trans (le_of_eq ?_) h1
  simp only [Kind.nm, Nm.w, Kind.inv, Kind.weight, wn]
  congr 1
  rw [← sum_range_reflect]
  refine sum_congr rfl fun i hi => ?_
  rw [mem_range] at hi
  rw [halfAt_reflect hi]
  congr 3
  simp only [Pi.sub_apply]
  congr 1
  · simp only [Rounding.seq, show n - 1 - (n - 1 - i) = i by omega]
  · show Spec.dst2At n _ _ = Spec.dct2At n _ _
    rw [dst2_eq' (j := i) (by omega) (by omega)]
    refine dct2At_congr (fun j hj => ?_) _
    rw [← ite_neg_pow]
    simp only [Rounding.seq]
    by_cases h : j % 2 = 0
    · rw [if_pos h, if_neg (by omega)]
    · rw [if_neg h, if_pos (by omega), R.neg]

theorem dst3_of_dct3 {n : ℕ} {C : (ℕ → T) → ℕ → T} {ε : ℝ} (h : TransAcc R .dct3 n C ε) :
    TransAcc R .dst3 n (fun f j => if j < n ∧ j % 2 = 1 then -(C (fun i => f (n - 1 - i)) j) else C (fun i => f (n - 1 - i)) j) ε := fun f => by
  have h1 := h (fun i => f (n - 1 - i))
  have e1 : (Kind.dst3.nm n).of (R.seq f) = (Kind.dct3.nm n).of (R.seq fun i => f (n - 1 - i)) := by
    simp only [Kind.nm, Nm.w, Kind.weight, wn, Rounding.seq]
    congr 1
    rw [← sum_range_reflect]
    refine sum_congr rfl fun i hi => ?_
    rw [mem_range] at hi
    rw [halfAt_reflect hi]
  rw [e1]
  refine le_trans (le_of_eq ?_) h1
  simp only [Kind.nm, Nm.w, Kind.inv, Kind.weight, wn]
  congr 1
  refine sum_congr rfl fun i hi => ?_
  rw [mem_range] at hi
  congr 2
  simp only [Pi.sub_apply]
  have e : Kind.dst3.specAt n (R.seq f) i = (-1) ^ i * Kind.dct3.specAt n (R.seq fun i => f (n - 1 - i)) i := by
    show Spec.dst3At n _ _ = _ * Spec.dct3At n _ _
    rw [dst3At_eq _ hi]
    rfl
  rw [e, ← ite_neg_pow]
  simp only [Rounding.seq]
  by_cases h : i % 2 = 0
  · rw [if_pos h, if_neg (by omega)]
  · rw [if_neg h, if_pos (by omega), R.neg]
    rw [show ∀ a b : ℝ, -a - -b = -(a - b) by intros; ring, norm_neg]

end RustDct
