import Verif.Float.Fft1
import Verif.Proofs.ConvertReal4
/-!
# Accuracy of the odd-length type 4 transforms that convert to an FFT
-/

set_option linter.all false

namespace RustDct
open Finset Real

variable {T F : Type} [F64 F] [DctNum T F] {R : Rounding T F}

theorem type4In_bounded {k : Kind} {n : ℕ} (hn : n % 2 = 1) (hk : ∀ i, k.weight n i = 1) : Bounded (k.nm n) (nmC n) (type4FftInput n) 1 where
  nn := zero_le_one
  sub := fun x y => by
    funext j
    apply Cx.toC_inj
    rw [Pi.sub_apply, Cx.toC_sub]
    simp only [type4FftInput]
    split_ifs <;> apply Complex.ext <;> simp [Cx.toC, Cx.ofRe]
    ring
  le := fun x => by
    rw [one_mul, Kind.nm_of, nmC_of]
    apply le_of_eq
    congr 1
    simp only [hk, one_mul]
    rw [← sum_fold4 hn fun i => x i ^ 2]
    refine sum_congr rfl fun j _ => ?_
    simp only [type4FftInput]
    split_ifs <;> simp [Cx.ofRe]

theorem type4In_acc {k : Kind} (n : ℕ) : Acc R.seq R.cseq (k.nm n) (nmC n) (type4FftInput n) (type4FftInput n) 1 0 :=
  Acc.exact (nmC_zero n) fun f => by
    funext j
    simp only [type4FftInput, Rounding.cseq, Rounding.cx, Rounding.seq, Cx.ofRe]
    split_ifs <;> simp [R.zero, R.neg]

/-- Output stage of the DCT4. -/
def outC (n : ℕ) (V : ℕ → Cx T) : ℕ → T :=
  out4 n V (fun r => r.re + r.im) (fun r => -r.re + r.im) (fun r => (r.re + r.im) * sgn4 n) (fun r => (r.re - r.im) * sgn4 n) (mid4 n V (fun x => -x))
/-- Output stage of the DST4. -/
def outS (n : ℕ) (V : ℕ → Cx T) : ℕ → T :=
  out4 n V (fun r => r.re + r.im) (fun r => r.re - r.im) (fun r => -(r.re + r.im) * sgn4 n) (fun r => (r.re - r.im) * sgn4 n) (mid4 n V (fun x => x))

/-- The entry of the FFT that output `k` is made of. -/
def idx4 (n k : ℕ) : ℕ := if k < n / 2 then 2 * k + 1 else if k = n / 2 then 0 else 2 * (n - 1 - k) + 1

theorem sum_pair_odd {n : ℕ} (hn : n % 2 = 1) (g : ℕ → ℝ) : ∑ k ∈ range n, g k = ∑ k ∈ range (n / 2), (g k + g (n - 1 - k)) + g (n / 2) := by
  obtain ⟨m, rfl⟩ : ∃ m, n = m + (m + 1) := ⟨n / 2, by omega⟩
  rw [show (m + (m + 1)) / 2 = m by omega, sum_range_add, sum_range_succ', sum_add_distrib, ← sum_range_reflect (fun k => g (m + (k + 1)))]
  rw [add_assoc]
  congr 2
  refine sum_congr rfl fun k hk => ?_
  rw [mem_range] at hk
  congr 1; omega

theorem sum_idx4 {n : ℕ} (hn : n % 2 = 1) (g : ℕ → ℝ) (hg : ∀ i, 0 ≤ g i) : ∑ k ∈ range n, g (idx4 n k) ≤ 2 * ∑ j ∈ range n, g j := by
  rw [sum_pair_odd hn, sum_even_odd n g]
  have e1 : ∑ k ∈ range (n / 2), (g (idx4 n k) + g (idx4 n (n - 1 - k))) = 2 * ∑ k ∈ range (n / 2), g (2 * k + 1) := by
    rw [mul_sum]
    refine sum_congr rfl fun k hk => ?_
    rw [mem_range] at hk
    unfold idx4
    rw [if_pos hk, if_neg (by omega), if_neg (by omega), show n - 1 - (n - 1 - k) = k by omega]
    ring
  have e2 : g (idx4 n (n / 2)) = g (2 * 0) := by simp [idx4]
  rw [e1, e2, show (n + 1) / 2 = n / 2 + 1 by omega, sum_range_succ']
  have : 0 ≤ ∑ j ∈ range (n / 2), g (2 * (j + 1)) := sum_nonneg fun i _ => hg _
  linarith [hg (2 * 0)]

theorem altSign_sq (m : ℕ) : (altSign m : ℝ) ^ 2 = 1 := by rw [altSign_real, ← pow_mul, mul_comm, pow_mul]; simp
theorem sgn4_sq (n : ℕ) : (sgn4 n : ℝ) ^ 2 = 1 := by unfold sgn4; split_ifs <;> norm_num

/-- The squares of an output and its mirror image. -/
def Paired (n : ℕ) (Q : (ℕ → Cx ℝ) → ℕ → ℝ) : Prop :=
  (∀ V k, k < n / 2 → Q V k ^ 2 + Q V (n - 1 - k) ^ 2 = (V (2 * k + 1)).re ^ 2 + (V (2 * k + 1)).im ^ 2) ∧ ∀ V, Q V (n / 2) ^ 2 ≤ (V 0).re ^ 2 + (V 0).im ^ 2

theorem pair_sq {a b s t g : ℝ} (hs : s ^ 2 = 1) (hg : g ^ 2 = 1) : ((a * (s * (√2 * (1 / 2))) + b * (s * (√2 * (1 / 2)))) * t) ^ 2 = t ^ 2 * ((a + b) ^ 2 / 2) := by
  have h2 : √2 ^ 2 = 2 := sq_sqrt (by norm_num)
  linear_combination (a + b) ^ 2 * t ^ 2 * √2 ^ 2 / 4 * hs + (a + b) ^ 2 * t ^ 2 / 4 * h2

theorem Paired.bounded {k : Kind} {n : ℕ} (hn : n % 2 = 1) (hk : ∀ i, k.weight n i = 1) {Q : (ℕ → Cx ℝ) → ℕ → ℝ} (h : Paired n Q)
    (hsub : ∀ x y, Q (x - y) = Q x - Q y) : Bounded (nmC n) (k.nm n) Q 1 where
  nn := zero_le_one
  sub := hsub
  le := fun V => by
    rw [one_mul, k.nm_of, nmC_of]
    refine sqrt_le_sqrt ?_
    simp only [hk, one_mul]
    rw [sum_pair_odd hn, sum_even_odd n, sum_congr rfl fun k hk => h.1 V k (mem_range.1 hk), show (n + 1) / 2 = n / 2 + 1 by omega, sum_range_succ']
    have h0 : 0 ≤ ∑ j ∈ range (n / 2), ((V (2 * (j + 1))).re ^ 2 + (V (2 * (j + 1))).im ^ 2) := sum_nonneg fun i _ => by positivity
    have := h.2 V
    simp only [mul_zero]
    linarith

theorem outC_paired {n : ℕ} (hn : n % 2 = 1) : Paired n (outC n) := by
  have h2 : √2 ^ 2 = 2 := sq_sqrt (by norm_num)
  constructor
  · intro V k hk
    have hs := altSign_sq (k / 2)
    have hg := sgn4_sq n
    unfold outC out4
    by_cases h1 : k < 2 * (n / 4)
    · rw [if_pos h1, if_neg (show ¬n - 1 - k < 2 * (n / 4) by omega), if_pos (show n - 2 * (n / 4) ≤ n - 1 - k by omega), show n - 1 - (n - 1 - k) = k by omega]
      by_cases h3 : k % 2 = 0
      · simp only [if_pos h3, Cx.scale, sqrt2_real, thalf_real]
        generalize (altSign (k / 2) : ℝ) = s at *
        generalize (sgn4 n : ℝ) = g at *
        generalize (V (2 * k + 1)).re = a
        generalize (V (2 * k + 1)).im = b
        linear_combination (a + b) ^ 2 * √2 ^ 2 / 4 * hs + (a + b) ^ 2 / 4 * h2 + (a - b) ^ 2 * √2 ^ 2 / 4 * g ^ 2 * hs + (a - b) ^ 2 / 4 * g ^ 2 * h2 + (a - b) ^ 2 / 2 * hg
      · simp only [if_neg h3, Cx.scale, sqrt2_real, thalf_real]
        generalize (altSign (k / 2) : ℝ) = s at *
        generalize (sgn4 n : ℝ) = g at *
        generalize (V (2 * k + 1)).re = a
        generalize (V (2 * k + 1)).im = b
        linear_combination (a - b) ^ 2 * √2 ^ 2 / 4 * hs + (a - b) ^ 2 / 4 * h2 + (a + b) ^ 2 * √2 ^ 2 / 4 * g ^ 2 * hs + (a + b) ^ 2 / 4 * g ^ 2 * h2 + (a + b) ^ 2 / 2 * hg
    · have h3 : n % 4 = 3 := by omega
      have h4 : n - 2 = 2 * k + 1 := by omega
      have hs := altSign_sq (n / 4)
      rw [if_neg h1, if_neg (show ¬n - 2 * (n / 4) ≤ k by omega), if_neg (show ¬n - 1 - k < 2 * (n / 4) by omega), if_neg (show ¬n - 2 * (n / 4) ≤ n - 1 - k by omega)]
      unfold mid4
      simp only [if_neg (show ¬n % 4 = 1 by omega), if_neg (show ¬k = n / 2 by omega), if_neg (show ¬k = n / 2 + 1 by omega), if_neg (show ¬n - 1 - k = n / 2 by omega), if_pos (show n - 1 - k = n / 2 + 1 by omega), h4, Cx.scale,
        sqrt2_real, thalf_real]
      generalize (altSign (n / 4) : ℝ) = s at *
      generalize (V (2 * k + 1)).re = a
      generalize (V (2 * k + 1)).im = b
      linear_combination (a + b) ^ 2 * √2 ^ 2 / 4 * hs + (a + b) ^ 2 / 4 * h2 + (a - b) ^ 2 * √2 ^ 2 / 4 * hs + (a - b) ^ 2 / 4 * h2
  · intro V
    have hs := altSign_sq (n / 4)
    unfold outC out4
    rw [if_neg (show ¬n / 2 < 2 * (n / 4) by omega), if_neg (show ¬n - 2 * (n / 4) ≤ n / 2 by omega)]
    unfold mid4
    by_cases h4 : n % 4 = 1
    · rw [if_pos h4]
      simp only [sqrt2_real, thalf_real]
      have e : ((V 0).re * altSign (n / 4) * (√2 * (1 / 2))) ^ 2 = (V 0).re ^ 2 / 2 := by
        linear_combination (V 0).re ^ 2 * √2 ^ 2 / 4 * hs + (V 0).re ^ 2 / 4 * h2
      rw [e]
      nlinarith [sq_nonneg (V 0).re, sq_nonneg (V 0).im]
    · rw [if_neg h4]
      simp only [sqrt2_real, thalf_real, if_true]
      have e : (-(V 0).re * altSign (n / 4) * (√2 * (1 / 2))) ^ 2 = (V 0).re ^ 2 / 2 := by
        linear_combination (V 0).re ^ 2 * √2 ^ 2 / 4 * hs + (V 0).re ^ 2 / 4 * h2
      rw [e]
      nlinarith [sq_nonneg (V 0).re, sq_nonneg (V 0).im]

theorem outC_sub (n : ℕ) (x y : ℕ → Cx ℝ) : outC n (x - y) = outC n x - outC n y := by
  funext k
  simp only [outC, out4, mid4, Cx.scale, Pi.sub_apply, Cx.sub_re, Cx.sub_im]
  split_ifs <;> ring

/-- The DST4 output is the DCT4 output up to signs. -/
theorem outS_sq (n k : ℕ) (V : ℕ → Cx ℝ) : outS n V k ^ 2 = outC n V k ^ 2 := by
  simp only [outC, outS, out4, mid4, Cx.scale]
  split_ifs <;> ring
theorem outS_sub (n : ℕ) (x y : ℕ → Cx ℝ) : outS n (x - y) = outS n x - outS n y := by
  funext k
  simp only [outS, out4, mid4, Cx.scale, Pi.sub_apply, Cx.sub_re, Cx.sub_im]
  split_ifs <;> ring

/-! ### Rounding errors -/

theorem Rounding.ap_altSign (R : Rounding T F) (m : ℕ) : Ap (R.val (altSign m)) (altSign m : ℝ) 1 1 := by
  have e : R.val (altSign m) = (altSign m : ℝ) := by
    induction m with
    | zero => simp only [altSign]; exact R.one
    | succ m ih => simp only [altSign]; rw [R.neg, ih]
  rw [e]
  refine Ap.exact' ?_
  rw [altSign_real, abs_pow]; simp

theorem Rounding.ap_sgn4 (R : Rounding T F) (n : ℕ) : Ap (R.val (sgn4 n)) (sgn4 n : ℝ) 1 1 := by
  have e : R.val (sgn4 n) = (sgn4 n : ℝ) := by
    unfold sgn4
    split_ifs
    · exact R.one
    · rw [R.neg, R.one]
  rw [e]
  refine Ap.exact' ?_
  unfold sgn4
  split_ifs <;> simp

theorem Rounding.ap_rs (R : Rounding T F) : Ap (R.val (DctNum.sqrt2 * thalf T)) (DctNum.sqrt2 * thalf ℝ) (√2 / 2) ((1 + R.u) ^ 2) := by
  have h1 : Ap (R.val DctNum.sqrt2) √2 √2 (1 + R.u) := ⟨R.one_le_u, by rw [abs_of_nonneg (sqrt_nonneg _)], by simpa using R.sqrt2⟩
  have h2 : Ap (R.val (thalf T)) (1 / 2) (1 / 2) 1 := by rw [R.half]; exact Ap.exact' (by norm_num)
  convert R.ap_mul h1 h2 using 1 <;> simp <;> ring

theorem Rounding.ap_scl (R : Rounding T F) {a : T} {x X : ℝ} (h : Ap (R.val a) x X 1) (m : ℕ) :
    Ap (R.val (a * (altSign m * (DctNum.sqrt2 * thalf T)))) (x * (altSign m * (DctNum.sqrt2 * thalf ℝ))) (√2 / 2 * X) ((1 + R.u) ^ 4) := by
  convert R.ap_mul h (R.ap_mul (R.ap_altSign m) R.ap_rs) using 1 <;> ring

/-- Each output is close to the exact one, relative to the entry of the FFT it is made of. -/
def Near4 (R : Rounding T F) (n : ℕ) (Q : (ℕ → Cx T) → ℕ → T) (Qr : (ℕ → Cx ℝ) → ℕ → ℝ) : Prop :=
  ∀ V k, k < n → |R.val (Q V k) - Qr (R.cseq V) k| ≤ ((1 + R.u) ^ 6 - 1) * (√2 / 2 * |(R.cseq V (idx4 n k)).re| + √2 / 2 * |(R.cseq V (idx4 n k)).im|)

theorem Near4.acc {k : Kind} {n : ℕ} (hn : n % 2 = 1) {Q : (ℕ → Cx T) → ℕ → T} {Qr : (ℕ → Cx ℝ) → ℕ → ℝ} (h : Near4 R n Q Qr) :
    Acc R.cseq R.seq (nmC n) (k.nm n) Qr Q 1 ((1 + R.u) ^ 12 - 1) := fun V => by
  have hu := R.one_le_u
  have hg : 1 ≤ (1 + R.u) ^ 6 := one_le_pow₀ hu
  have hg2 : 1 ≤ (1 + R.u) ^ 12 := one_le_pow₀ hu
  rw [one_mul, k.nm_of, nmC_of]
  apply sqrt_le_mul_sqrt (by linarith)
  have h1 := sum_idx4 hn (fun j => (R.cseq V j).re ^ 2 + (R.cseq V j).im ^ 2) fun i => by positivity
  have h2 : ∑ i ∈ range n, k.weight n i * (R.seq (Q V) - Qr (R.cseq V)) i ^ 2 ≤
      ∑ i ∈ range n, ((1 + R.u) ^ 6 - 1) ^ 2 * ((R.cseq V (idx4 n i)).re ^ 2 + (R.cseq V (idx4 n i)).im ^ 2) := by
    refine sum_le_sum fun i hi => ?_
    have h3 := sq_le_of_abs_le (h V i (mem_range.1 hi))
    have h4 := abs_add_sq_le (R.cseq V (idx4 n i)).re (R.cseq V (idx4 n i)).im
    have h5 : (√2 / 2 * |(R.cseq V (idx4 n i)).re| + √2 / 2 * |(R.cseq V (idx4 n i)).im|) ^ 2 ≤ (R.cseq V (idx4 n i)).re ^ 2 + (R.cseq V (idx4 n i)).im ^ 2 := by
      have e : √2 ^ 2 = 2 := sq_sqrt (by norm_num)
      have : (√2 / 2 * |(R.cseq V (idx4 n i)).re| + √2 / 2 * |(R.cseq V (idx4 n i)).im|) ^ 2 = (|(R.cseq V (idx4 n i)).re| + |(R.cseq V (idx4 n i)).im|) ^ 2 / 2 := by
        linear_combination (|(R.cseq V (idx4 n i)).re| + |(R.cseq V (idx4 n i)).im|) ^ 2 / 4 * e
      linarith
    have h6 : k.weight n i * (R.seq (Q V) - Qr (R.cseq V)) i ^ 2 ≤ 1 * (R.seq (Q V) - Qr (R.cseq V)) i ^ 2 :=
      mul_le_mul_of_nonneg_right (k.weight_le_one n i) (sq_nonneg _)
    rw [one_mul] at h6
    exact h6.trans (h3.trans (mul_le_mul_of_nonneg_left h5 (sq_nonneg _)))
  rw [← mul_sum] at h2
  refine h2.trans ((mul_le_mul_of_nonneg_left h1 (sq_nonneg _)).trans ?_)
  have h7 := four_sq_le hg
  have h8 : 0 ≤ ∑ j ∈ range n, ((R.cseq V j).re ^ 2 + (R.cseq V j).im ^ 2) := sum_nonneg fun i _ => by positivity
  have h9 : ((1 + R.u) ^ 6) ^ 2 = (1 + R.u) ^ 12 := by ring
  rw [h9] at h7
  nlinarith [mul_le_mul_of_nonneg_right h7 h8, sq_nonneg ((1 + R.u) ^ 6 - 1), mul_nonneg (sq_nonneg ((1 + R.u) ^ 6 - 1)) h8]

theorem Ap.near {r x X g g' : ℝ} (h : Ap r x X g) (hg : g ≤ g') {r' x' X' : ℝ} (h1 : r' = r) (h2 : x' = x) (h3 : X ≤ X') : |r' - x'| ≤ (g' - 1) * X' := by
  subst h1 h2
  exact ((h.mono hg).monoX h3).err

section
variable (R : Rounding T F) (z : Cx T) (m n : ℕ)

theorem Rounding.ap4_re : Ap (R.val (Cx.scale z (altSign m * (DctNum.sqrt2 * thalf T))).re) (Cx.scale (R.cx z) (altSign m * (DctNum.sqrt2 * thalf ℝ))).re (√2 / 2 * |(R.cx z).re|) ((1 + R.u) ^ 4) :=
  R.ap_scl (cx_ap_re z) m
theorem Rounding.ap4_im : Ap (R.val (Cx.scale z (altSign m * (DctNum.sqrt2 * thalf T))).im) (Cx.scale (R.cx z) (altSign m * (DctNum.sqrt2 * thalf ℝ))).im (√2 / 2 * |(R.cx z).im|) ((1 + R.u) ^ 4) :=
  R.ap_scl (cx_ap_im z) m
theorem Rounding.ap4_mid {a : T} {x : ℝ} (h : Ap (R.val a) x |x| 1) :
    Ap (R.val (a * altSign m * (DctNum.sqrt2 * thalf T))) (x * altSign m * (DctNum.sqrt2 * thalf ℝ)) (√2 / 2 * |x|) ((1 + R.u) ^ 4) := by
  convert R.ap_mul (R.ap_mul h (R.ap_altSign m)) R.ap_rs using 1 <;> ring

end

theorem outC_near (n : ℕ) (hn : n % 2 = 1) : Near4 R n (outC n) (outC n) := by
  intro V k hk
  have hu := R.one_le_u
  have g5 : (1 + R.u) * (1 + R.u) ^ 4 ≤ (1 + R.u) ^ 6 := by rw [← pow_succ']; exact pow_le_pow_right₀ hu (by norm_num)
  have g6 : (1 + R.u) * ((1 + R.u) * (1 + R.u) ^ 4 * 1) ≤ (1 + R.u) ^ 6 := le_of_eq (by ring)
  have g4 : (1 + R.u) ^ 4 ≤ (1 + R.u) ^ 6 := pow_le_pow_right₀ hu (by norm_num)
  have x0 : 0 ≤ √2 / 2 * |(R.cseq V (idx4 n k)).im| := by positivity
  unfold outC out4
  by_cases h1 : k < 2 * (n / 4)
  · have hi : idx4 n k = 2 * k + 1 := by unfold idx4; rw [if_pos (by omega)]
    rw [hi] at x0 ⊢
    by_cases h2 : k % 2 = 0
    · exact (R.ap_add (R.ap4_re (V (2 * k + 1)) (k / 2)) (R.ap4_im (V (2 * k + 1)) (k / 2))).near g5 (by simp only [if_pos h1, if_pos h2]) (by simp only [if_pos h1, if_pos h2]; rfl) (le_refl _)
    · exact (R.ap_add (R.ap_neg (R.ap4_re (V (2 * k + 1)) (k / 2))) (R.ap4_im (V (2 * k + 1)) (k / 2))).near g5 (by simp only [if_pos h1, if_neg h2]) (by simp only [if_pos h1, if_neg h2]; rfl) (le_refl _)
  · by_cases h3 : n - 2 * (n / 4) ≤ k
    · have hi : idx4 n k = 2 * (n - 1 - k) + 1 := by unfold idx4; rw [if_neg (by omega), if_neg (by omega)]
      rw [hi] at x0 ⊢
      by_cases h2 : (n - 1 - k) % 2 = 0
      · exact (R.ap_mul (R.ap_sub (R.ap4_re (V (2 * (n - 1 - k) + 1)) ((n - 1 - k) / 2)) (R.ap4_im (V (2 * (n - 1 - k) + 1)) ((n - 1 - k) / 2))) (R.ap_sgn4 n)).near g6
          (by simp only [if_neg h1, if_pos h3, if_pos h2]) (by simp only [if_neg h1, if_pos h3, if_pos h2]; rfl) (le_of_eq (mul_one _))
      · exact (R.ap_mul (R.ap_add (R.ap4_re (V (2 * (n - 1 - k) + 1)) ((n - 1 - k) / 2)) (R.ap4_im (V (2 * (n - 1 - k) + 1)) ((n - 1 - k) / 2))) (R.ap_sgn4 n)).near g6
          (by simp only [if_neg h1, if_pos h3, if_neg h2]) (by simp only [if_neg h1, if_pos h3, if_neg h2]; rfl) (le_of_eq (mul_one _))
    · by_cases h4 : n % 4 = 1
      · have hi : idx4 n k = 0 := by unfold idx4; rw [if_neg (by omega), if_pos (by omega)]
        rw [hi] at x0 ⊢
        exact (R.ap4_mid (n / 4) (cx_ap_re (V 0))).near g4 (by simp only [if_neg h1, if_neg h3, mid4, if_pos h4]) (by simp only [if_neg h1, if_neg h3, mid4, if_pos h4]; rfl) (le_add_of_nonneg_right x0)
      · by_cases h5 : k = n / 2
        · have hi : idx4 n k = 0 := by unfold idx4; rw [if_neg (by omega), if_pos (by omega)]
          rw [hi] at x0 ⊢
          have hz : Ap (R.val (-(V 0).re)) (-(R.cx (V 0)).re) |-(R.cx (V 0)).re| 1 := by rw [abs_neg]; exact R.ap_neg (cx_ap_re (V 0))
          exact (R.ap4_mid (n / 4) hz).near g4 (by simp only [if_neg h1, if_neg h3, mid4, if_neg h4, if_pos h5]) (by simp only [if_neg h1, if_neg h3, mid4, if_neg h4, if_pos h5]; rfl)
            (by rw [abs_neg]; exact le_add_of_nonneg_right x0)
        · by_cases h6 : k = n / 2 + 1
          · have hi : idx4 n k = n - 2 := by unfold idx4; rw [if_neg (by omega), if_neg (by omega)]; omega
            rw [hi] at x0 ⊢
            exact (R.ap_add (R.ap_neg (R.ap4_re (V (n - 2)) (n / 4))) (R.ap4_im (V (n - 2)) (n / 4))).near g5 (by simp only [if_neg h1, if_neg h3, mid4, if_neg h4, if_neg h5, if_pos h6])
              (by simp only [if_neg h1, if_neg h3, mid4, if_neg h4, if_neg h5, if_pos h6]; rfl) (le_refl _)
          · have hi : idx4 n k = n - 2 := by unfold idx4; rw [if_pos (by omega)]; omega
            rw [hi] at x0 ⊢
            exact (R.ap_add (R.ap4_re (V (n - 2)) (n / 4)) (R.ap4_im (V (n - 2)) (n / 4))).near g5 (by simp only [if_neg h1, if_neg h3, mid4, if_neg h4, if_neg h5, if_neg h6])
              (by simp only [if_neg h1, if_neg h3, mid4, if_neg h4, if_neg h5, if_neg h6]; rfl) (le_refl _)

theorem outS_near (n : ℕ) (hn : n % 2 = 1) : Near4 R n (outS n) (outS n) := by
  intro V k hk
  have hu := R.one_le_u
  have g5 : (1 + R.u) * (1 + R.u) ^ 4 ≤ (1 + R.u) ^ 6 := by rw [← pow_succ']; exact pow_le_pow_right₀ hu (by norm_num)
  have g6 : (1 + R.u) * ((1 + R.u) * (1 + R.u) ^ 4 * 1) ≤ (1 + R.u) ^ 6 := le_of_eq (by ring)
  have g4 : (1 + R.u) ^ 4 ≤ (1 + R.u) ^ 6 := pow_le_pow_right₀ hu (by norm_num)
  have x0 : 0 ≤ √2 / 2 * |(R.cseq V (idx4 n k)).im| := by positivity
  unfold outS out4
  by_cases h1 : k < 2 * (n / 4)
  · have hi : idx4 n k = 2 * k + 1 := by unfold idx4; rw [if_pos (by omega)]
    rw [hi] at x0 ⊢
    by_cases h2 : k % 2 = 0
    · exact (R.ap_add (R.ap4_re (V (2 * k + 1)) (k / 2)) (R.ap4_im (V (2 * k + 1)) (k / 2))).near g5 (by simp only [if_pos h1, if_pos h2]) (by simp only [if_pos h1, if_pos h2]; rfl) (le_refl _)
    · exact (R.ap_sub (R.ap4_re (V (2 * k + 1)) (k / 2)) (R.ap4_im (V (2 * k + 1)) (k / 2))).near g5 (by simp only [if_pos h1, if_neg h2]) (by simp only [if_pos h1, if_neg h2]; rfl) (le_refl _)
  · by_cases h3 : n - 2 * (n / 4) ≤ k
    · have hi : idx4 n k = 2 * (n - 1 - k) + 1 := by unfold idx4; rw [if_neg (by omega), if_neg (by omega)]
      rw [hi] at x0 ⊢
      by_cases h2 : (n - 1 - k) % 2 = 0
      · exact (R.ap_mul (R.ap_sub (R.ap4_re (V (2 * (n - 1 - k) + 1)) ((n - 1 - k) / 2)) (R.ap4_im (V (2 * (n - 1 - k) + 1)) ((n - 1 - k) / 2))) (R.ap_sgn4 n)).near g6
          (by simp only [if_neg h1, if_pos h3, if_pos h2]) (by simp only [if_neg h1, if_pos h3, if_pos h2]; rfl) (le_of_eq (mul_one _))
      · exact (R.ap_mul (R.ap_neg (R.ap_add (R.ap4_re (V (2 * (n - 1 - k) + 1)) ((n - 1 - k) / 2)) (R.ap4_im (V (2 * (n - 1 - k) + 1)) ((n - 1 - k) / 2)))) (R.ap_sgn4 n)).near g6
          (by simp only [if_neg h1, if_pos h3, if_neg h2]) (by simp only [if_neg h1, if_pos h3, if_neg h2]; rfl) (le_of_eq (mul_one _))
    · by_cases h4 : n % 4 = 1
      · have hi : idx4 n k = 0 := by unfold idx4; rw [if_neg (by omega), if_pos (by omega)]
        rw [hi] at x0 ⊢
        exact (R.ap4_mid (n / 4) (cx_ap_re (V 0))).near g4 (by simp only [if_neg h1, if_neg h3, mid4, if_pos h4]) (by simp only [if_neg h1, if_neg h3, mid4, if_pos h4]; rfl) (le_add_of_nonneg_right x0)
      · by_cases h5 : k = n / 2
        · have hi : idx4 n k = 0 := by unfold idx4; rw [if_neg (by omega), if_pos (by omega)]
          rw [hi] at x0 ⊢
          exact (R.ap4_mid (n / 4) (cx_ap_re (V 0))).near g4 (by simp only [if_neg h1, if_neg h3, mid4, if_neg h4, if_pos h5]) (by simp only [if_neg h1, if_neg h3, mid4, if_neg h4, if_pos h5]; rfl)
            (le_add_of_nonneg_right x0)
        · by_cases h6 : k = n / 2 + 1
          · have hi : idx4 n k = n - 2 := by unfold idx4; rw [if_neg (by omega), if_neg (by omega)]; omega
            rw [hi] at x0 ⊢
            exact (R.ap_add (R.ap_neg (R.ap4_re (V (n - 2)) (n / 4))) (R.ap4_im (V (n - 2)) (n / 4))).near g5 (by simp only [if_neg h1, if_neg h3, mid4, if_neg h4, if_neg h5, if_pos h6])
              (by simp only [if_neg h1, if_neg h3, mid4, if_neg h4, if_neg h5, if_pos h6]; rfl) (le_refl _)
          · have hi : idx4 n k = n - 2 := by unfold idx4; rw [if_pos (by omega)]; omega
            rw [hi] at x0 ⊢
            exact (R.ap_add (R.ap4_re (V (n - 2)) (n / 4)) (R.ap4_im (V (n - 2)) (n / 4))).near g5 (by simp only [if_neg h1, if_neg h3, mid4, if_neg h4, if_neg h5, if_neg h6])
              (by simp only [if_neg h1, if_neg h3, mid4, if_neg h4, if_neg h5, if_neg h6]; rfl) (le_refl _)

theorem outS_paired {n : ℕ} (hn : n % 2 = 1) : Paired n (outS n) :=
  ⟨fun V k hk => by rw [outS_sq, outS_sq]; exact (outC_paired hn).1 V k hk, fun V => by rw [outS_sq]; exact (outC_paired hn).2 V⟩

theorem Type4ConvertToFftOdd.acc_dct4 {fft : Fft T} {G : (ℕ → Cx T) → ℕ → Cx T} {φ : ℝ} (hφ : 0 ≤ φ) (hG : FftRuns fft G) {n : ℕ} (hn : n % 2 = 1) (hL : fft.len = n)
    (hD : DftAcc R n G φ) : PAcc R .dct4 (Type4ConvertToFftOdd.inst fft).dct4 n (Type4ConvertToFftOdd.inst fft).scratchLen (R.fft4 φ) := by
  refine ⟨_, Type4ConvertToFftOdd.runs_dct4 hG hn hL, ?_⟩
  have hu : 0 ≤ (1 + R.u) ^ 12 - 1 := by linarith [one_le_pow₀ (n := 12) R.one_le_u]
  have h := TransAcc.of_fft (k := .dct4) (c := √2) hφ hu (sqrt_nonneg _) (le_refl _) hD (type4In_bounded hn fun _ => rfl) (type4In_acc n)
    ((outC_paired hn).bounded (k := .dct4) hn (fun _ => rfl) (outC_sub n)) ((outC_near n hn).acc hn)
    (fun x i hi => RunsV.unique (Type4ConvertToFftOdd.runs_dct4 (dftFft_contract n 0).runs hn rfl) (Type4ConvertToFftOdd.correct_dct4 (dftFft_contract n 0) hn rfl) x hi) sqrt_scale
  exact h.mono (le_of_eq (by unfold Rounding.fft4; ring))

theorem Type4ConvertToFftOdd.acc_dst4 {fft : Fft T} {G : (ℕ → Cx T) → ℕ → Cx T} {φ : ℝ} (hφ : 0 ≤ φ) (hG : FftRuns fft G) {n : ℕ} (hn : n % 2 = 1) (hL : fft.len = n)
    (hD : DftAcc R n G φ) : PAcc R .dst4 (Type4ConvertToFftOdd.inst fft).dst4 n (Type4ConvertToFftOdd.inst fft).scratchLen (R.fft4 φ) := by
  refine ⟨_, Type4ConvertToFftOdd.runs_dst4 hG hn hL, ?_⟩
  have hu : 0 ≤ (1 + R.u) ^ 12 - 1 := by linarith [one_le_pow₀ (n := 12) R.one_le_u]
  have hrev : ∀ x : ℕ → ℝ, ∑ i ∈ range n, x (n - 1 - i) ^ 2 = ∑ i ∈ range n, x i ^ 2 := fun x => sum_range_reflect (fun i => x i ^ 2) n
  have bP : Bounded (Kind.dst4.nm n) (nmC n) (fun f : ℕ → ℝ => type4FftInput n fun i => f (n - 1 - i)) 1 :=
    { nn := zero_le_one
      sub := fun x y => (type4In_bounded (k := .dst4) hn fun _ => rfl).sub _ _
      le := fun x => by
        refine ((type4In_bounded (k := .dst4) hn fun _ => rfl).le _).trans (le_of_eq ?_)
        rw [Kind.nm_of, Kind.nm_of]
        simp only [Kind.weight, one_mul]
        rw [hrev] }
  have aP : Acc R.seq R.cseq (Kind.dst4.nm n) (nmC n) (fun f : ℕ → ℝ => type4FftInput n fun i => f (n - 1 - i)) (fun f : ℕ → T => type4FftInput n fun i => f (n - 1 - i)) 1 0 :=
    Acc.exact (nmC_zero n) fun f => by
      funext j
      simp only [type4FftInput, Rounding.cseq, Rounding.cx, Rounding.seq, Cx.ofRe]
      split_ifs <;> simp [R.zero, R.neg]
  have h := TransAcc.of_fft (k := .dst4) (c := √2) hφ hu (sqrt_nonneg _) (le_refl _) hD bP aP
    ((outS_paired hn).bounded (k := .dst4) hn (fun _ => rfl) (outS_sub n)) ((outS_near n hn).acc hn)
    (fun x i hi => RunsV.unique (Type4ConvertToFftOdd.runs_dst4 (dftFft_contract n 0).runs hn rfl) (Type4ConvertToFftOdd.correct_dst4 (dftFft_contract n 0) hn rfl) x hi) sqrt_scale
  exact h.mono (le_of_eq (by unfold Rounding.fft4; ring))

end RustDct
