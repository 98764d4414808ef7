import Verif.Float.Dft
import Verif.Float.Pow2
import Verif.Proofs.ConvertReal
/-!
# Accuracy of the type 2 and 3 transforms that convert to an FFT
-/

set_option linter.all false

namespace RustDct
open Finset Real

variable {T F : Type} [F64 F] [DctNum T F] {R : Rounding T F}

theorem Kind.nm_of (k : Kind) (n : ℕ) (x : ℕ → ℝ) : (k.nm n).of x = √(∑ i ∈ range n, k.weight n i * x i ^ 2) := by
  simp [Kind.nm, Nm.w, wn]

theorem halfAt_le_one (p i : ℕ) : Spec.halfAt p i ≤ 1 := by unfold Spec.halfAt; split_ifs <;> norm_num
theorem Kind.weight_le_one (k : Kind) (n i : ℕ) : k.weight n i ≤ 1 := by
  cases k <;> simp only [Kind.weight] <;> first | exact le_refl _ | exact halfAt_le_one _ _ | exact mul_le_one₀ (halfAt_le_one _ _) (halfAt_nonneg _ _) (halfAt_le_one _ _)

theorem Kind.nm_zero (k : Kind) (n : ℕ) : (k.nm n).of 0 = 0 := wn_zero
theorem nmC_zero (n : ℕ) : (nmC n).of 0 = 0 := wn_zero

/-- The twiddle factors have modulus one. -/
theorem singleTwiddle_sq (i n : ℕ) : (singleTwiddle i n : Cx ℝ).re ^ 2 + (singleTwiddle i n : Cx ℝ).im ^ 2 = 1 := by
  rw [singleTwiddle_re, singleTwiddle_im, neg_sq, add_comm]; exact sin_sq_add_cos_sq _

theorem cx_ap_re (c : Cx T) : Ap (R.val c.re) (R.cx c).re |(R.cx c).re| 1 := Ap.exact _
theorem cx_ap_im (c : Cx T) : Ap (R.val c.im) (R.cx c).im |(R.cx c).im| 1 := Ap.exact _

/-- `2 (g - 1) ≤ g² - 1`, squared. -/
theorem four_sq_le {g : ℝ} (hg : 1 ≤ g) : 4 * (g - 1) ^ 2 ≤ (g ^ 2 - 1) ^ 2 := by
  have h := two_g (g := g)
  have : (2 * (g - 1)) ^ 2 ≤ (g ^ 2 - 1) ^ 2 := pow_le_pow_left₀ (by linarith) (by linarith) 2
  linarith [this, show (2 * (g - 1)) ^ 2 = 4 * (g - 1) ^ 2 by ring]

/-! ### Real part after a rotation -/

section
variable (tw : ℕ → Cx T) (σ : ℕ → ℕ)
/-- Real part of the product with the twiddle factor. -/
def rotRe (z : ℕ → Cx T) (k : ℕ) : T := (Cx.mul (z (σ k)) (tw (σ k))).re
end

theorem rotRe_bounded {k : Kind} {n : ℕ} {σ : ℕ → ℕ} {tr : ℕ → Cx ℝ} (hσ : ∀ g : ℕ → ℝ, ∑ i ∈ range n, g (σ i) = ∑ i ∈ range n, g i)
    (ht : ∀ i, (tr i).re ^ 2 + (tr i).im ^ 2 = 1) : Bounded (nmC n) (k.nm n) (rotRe tr σ) 1 where
  nn := zero_le_one
  sub := fun x y => by
    funext i
    simp only [rotRe, Cx.mul, Pi.sub_apply, Cx.sub_re, Cx.sub_im]; ring
  le := fun z => by
    rw [one_mul, k.nm_of, nmC_of, ← hσ fun i => (z i).re ^ 2 + (z i).im ^ 2]
    refine sqrt_le_sqrt (sum_le_sum fun i _ => ?_)
    have h1 := k.weight_le_one n i
    have h2 : rotRe tr σ z i ^ 2 ≤ (z (σ i)).re ^ 2 + (z (σ i)).im ^ 2 := by
      simp only [rotRe, Cx.mul]
      have := ht (σ i)
      nlinarith [sq_nonneg ((z (σ i)).re * (tr (σ i)).im + (z (σ i)).im * (tr (σ i)).re)]
    have h3 : k.weight n i * rotRe tr σ z i ^ 2 ≤ 1 * rotRe tr σ z i ^ 2 := mul_le_mul_of_nonneg_right h1 (sq_nonneg _)
    linarith

theorem rotRe_acc {k : Kind} {n : ℕ} {σ : ℕ → ℕ} {tw : ℕ → Cx T} {tr : ℕ → Cx ℝ} (hσ : ∀ g : ℕ → ℝ, ∑ i ∈ range n, g (σ i) = ∑ i ∈ range n, g i)
    (hre : ∀ i, i < n → Ap (R.val (tw (σ i)).re) (tr (σ i)).re 1 (1 + R.tau)) (him : ∀ i, i < n → Ap (R.val (tw (σ i)).im) (tr (σ i)).im 1 (1 + R.tau)) :
    Acc R.cseq R.seq (nmC n) (k.nm n) (rotRe tr σ) (rotRe tw σ) 1 (R.rot ^ 2 - 1) := fun z => by
  have hr := R.one_le_rot
  rw [one_mul, k.nm_of, nmC_of]
  apply sqrt_le_mul_sqrt (by nlinarith)
  rw [← hσ fun i => (R.cseq z i).re ^ 2 + (R.cseq z i).im ^ 2, mul_sum]
  refine sum_le_sum fun i hi => ?_
  rw [mem_range] at hi
  have h1 := R.ap_rot_sub (cx_ap_re (R := R) (z (σ i))) (cx_ap_im (R := R) (z (σ i))) (hre i hi) (him i hi)
  rw [mul_one] at h1
  have h2 := sq_le_of_abs_le h1.err
  have h3 := abs_add_sq_le (R.cx (z (σ i))).re (R.cx (z (σ i))).im
  have h4 := four_sq_le hr
  have h5 := k.weight_le_one n i
  have h6 := k.weight_nonneg n i
  set e := (R.seq (rotRe tw σ z) - rotRe tr σ (R.cseq z)) i ^ 2 with he
  have h7 : e ≤ (R.rot - 1) ^ 2 * (|(R.cx (z (σ i))).re| + |(R.cx (z (σ i))).im|) ^ 2 := h2
  have h8 : 0 ≤ e := sq_nonneg _
  have h9 : k.weight n i * e ≤ 1 * e := mul_le_mul_of_nonneg_right h5 h8
  show k.weight n i * e ≤ (R.rot ^ 2 - 1) ^ 2 * ((R.cx (z (σ i))).re ^ 2 + (R.cx (z (σ i))).im ^ 2)
  have h10 := mul_le_mul_of_nonneg_left h3 (sq_nonneg (R.rot - 1))
  have h11 := mul_le_mul_of_nonneg_right h4 (add_nonneg (sq_nonneg (R.cx (z (σ i))).re) (sq_nonneg (R.cx (z (σ i))).im))
  nlinarith [sq_nonneg (R.rot - 1), add_nonneg (sq_nonneg (R.cx (z (σ i))).re) (sq_nonneg (R.cx (z (σ i))).im)]

/-! ### Type 2 -/

/-- FFT input of the DCT2. -/
def gath2 (n : ℕ) (f : ℕ → T) (j : ℕ) : Cx T := if j < (n + 1) / 2 then Cx.ofRe (f (j * 2)) else Cx.ofRe (f (2 * (n - 1 - j) + 1))

theorem gath2_bounded (n : ℕ) : Bounded (Kind.dct2.nm n) (nmC n) (gath2 n) 1 where
  nn := zero_le_one
  sub := fun x y => by
    funext j
    apply Cx.toC_inj
    rw [Pi.sub_apply, Cx.toC_sub]
    unfold gath2
    split_ifs <;> apply Complex.ext <;> simp [Cx.toC, Cx.ofRe]
  le := fun x => by
    rw [one_mul, Kind.nm_of, nmC_of]
    apply le_of_eq
    congr 1
    simp only [Kind.weight, one_mul]
    rw [← sum_gather n fun i => x i ^ 2]
    refine sum_congr rfl fun j _ => ?_
    unfold gath2
    split_ifs <;> simp [Cx.ofRe]

theorem gath2_acc (n : ℕ) : Acc R.seq R.cseq (Kind.dct2.nm n) (nmC n) (gath2 n) (gath2 n) 1 0 :=
  Acc.exact (nmC_zero n) fun f => by
    funext j
    simp only [gath2, Rounding.cseq, Rounding.cx, Rounding.seq, Cx.ofRe]
    split_ifs <;> simp [R.zero]

theorem sqrt_scale {n : ℕ} : 1 * (√(n : ℝ) * 1) ≤ √2 * √((n : ℝ) / 2) := by
  rw [one_mul, mul_one, ← sqrt_mul (by norm_num)]
  exact sqrt_le_sqrt (by linarith)

theorem dct2_fft_acc {fft : Fft T} {G : (ℕ → Cx T) → ℕ → Cx T} {φ : ℝ} (hφ : 0 ≤ φ) (hG : FftRuns fft G) {n : ℕ} (hn : 1 ≤ n) (hL : fft.len = n) (hD : DftAcc R n G φ) :
    TransAcc R .dct2 n (fun f k => (Cx.mul (G (gath2 n f) k) (singleTwiddle k (n * 4))).re) (R.fft2 φ) := by
  have hr := R.one_le_rot
  have h := TransAcc.of_fft (k := .dct2) (c := √2) (Q := rotRe (fun k => singleTwiddle k (n * 4)) id) (Qr := rotRe (fun k => singleTwiddle k (n * 4)) id)
    hφ (show 0 ≤ R.rot ^ 2 - 1 by nlinarith) (sqrt_nonneg _) (le_refl _) hD (gath2_bounded n) (gath2_acc n)
    (rotRe_bounded (fun _ => rfl) fun i => singleTwiddle_sq _ _)
    (rotRe_acc (fun _ => rfl) (fun i hi => R.ap_tw_re (by omega) (by simp only [id]; omega)) (fun i hi => R.ap_tw_im (by omega) (by simp only [id]; omega)))
    (fun x i hi => RunsV.unique (Type2And3ConvertToFft.runs_dct2 (dftFft_contract n 0).runs rfl) (Type2And3ConvertToFft.correct_dct2 (dftFft_contract n 0) rfl) x hi)
    sqrt_scale
  exact h.mono (le_of_eq (by unfold Rounding.fft2; ring))

theorem Type2And3ConvertToFft.acc_dct2 {fft : Fft T} {G : (ℕ → Cx T) → ℕ → Cx T} {φ : ℝ} (hφ : 0 ≤ φ) (hG : FftRuns fft G) {n : ℕ} (hn : 1 ≤ n) (hL : fft.len = n)
    (hD : DftAcc R n G φ) : PAcc R .dct2 (Type2And3ConvertToFft.inst fft).dct2 n (Type2And3ConvertToFft.inst fft).scratchLen (R.fft2 φ) :=
  ⟨_, Type2And3ConvertToFft.runs_dct2 hG hL, dct2_fft_acc hφ hG hn hL hD⟩

theorem Type2And3ConvertToFft.acc_dst2 [Zero T] {fft : Fft T} {G : (ℕ → Cx T) → ℕ → Cx T} {φ : ℝ} (hφ : 0 ≤ φ) (hG : FftRuns fft G) {n : ℕ} (hn : 1 ≤ n) (hL : fft.len = n)
    (hD : DftAcc R n G φ) : PAcc R .dst2 (Type2And3ConvertToFft.inst fft).dst2 n (Type2And3ConvertToFft.inst fft).scratchLen (R.fft2 φ) := by
  refine ⟨_, Type2And3ConvertToFft.runs_dst2 hG hL, (dst2_of_dct2 R (dct2_fft_acc hφ hG hn hL hD)).congr fun f k hk => ?_⟩
  beta_reduce
  rw [hG.ext (k := n - 1 - k) (c' := gath2 n fun j => if j < n ∧ j % 2 = 1 then -(f j) else f j) _ (by omega)]
  intro j hj
  rw [hL] at hj
  unfold gath2
  beta_reduce
  by_cases h1 : j < (n + 1) / 2
  · rw [if_pos h1, if_pos h1, if_neg (by omega)]
  · rw [if_neg h1, if_neg h1, if_pos (by omega)]

/-! ### Type 3 -/

/-- FFT input of the DCT3. -/
def pre3 (tw : ℕ → Cx T) (h : T) (n : ℕ) (f : ℕ → T) (j : ℕ) : Cx T :=
  if j = 0 then Cx.ofRe (f 0 * h) else Cx.scale (Cx.mul ⟨f j, f (n - j)⟩ (tw j)) h

/-- Output of the DCT3 from the FFT. -/
def scat3 (n : ℕ) (V : ℕ → Cx T) (k : ℕ) : T := if k % 2 = 0 then (V (k / 2)).re else (V (n - 1 - k / 2)).re

theorem sum_scatter (n : ℕ) (g : ℕ → ℝ) : ∑ k ∈ range n, (if k % 2 = 0 then g (k / 2) else g (n - 1 - k / 2)) = ∑ j ∈ range n, g j := by
  rw [sum_even_odd, sum_half_reflect n g]
  congr 1
  · exact sum_congr rfl fun j _ => by rw [if_pos (by omega), show 2 * j / 2 = j by omega]
  · exact sum_congr rfl fun j _ => by rw [if_neg (by omega), show (2 * j + 1) / 2 = j by omega]

theorem scat3_bounded {k : Kind} (n : ℕ) : Bounded (nmC n) (k.nm n) (scat3 n) 1 where
  nn := zero_le_one
  sub := fun x y => by
    funext i
    simp only [scat3, Pi.sub_apply, Cx.sub_re]
    split_ifs <;> rfl
  le := fun z => by
    rw [one_mul, k.nm_of, nmC_of, ← sum_scatter n fun j => (z j).re ^ 2 + (z j).im ^ 2]
    refine sqrt_le_sqrt (sum_le_sum fun i _ => ?_)
    have h1 := k.weight_le_one n i
    have h3 : k.weight n i * scat3 n z i ^ 2 ≤ 1 * scat3 n z i ^ 2 := mul_le_mul_of_nonneg_right h1 (sq_nonneg _)
    refine h3.trans ?_
    unfold scat3
    split_ifs <;> nlinarith [sq_nonneg (z (i / 2)).im, sq_nonneg (z (n - 1 - i / 2)).im]

theorem scat3_acc {k : Kind} (n : ℕ) : Acc R.cseq R.seq (nmC n) (k.nm n) (scat3 n) (scat3 n) 1 0 :=
  Acc.exact (k.nm_zero n) fun z => by
    funext i
    simp only [scat3, Rounding.cseq, Rounding.cx, Rounding.seq]
    split_ifs <;> rfl

theorem sum_reflect_one {n : ℕ} (g : ℕ → ℝ) : ∑ j ∈ range (n - 1), g (n - (j + 1)) = ∑ j ∈ range (n - 1), g (j + 1) := by
  rw [← sum_range_reflect]
  refine sum_congr rfl fun j hj => ?_
  rw [mem_range] at hj
  congr 1; omega

theorem pre3_sum {n : ℕ} (hn : 1 ≤ n) (g : ℕ → ℝ) (x : ℕ → ℝ) (h0 : g 0 = x 0 ^ 2 / 4) (h1 : ∀ j, 1 ≤ j → j < n → g j = (x j ^ 2 + x (n - j) ^ 2) / 4) :
    ∑ j ∈ range n, g j = 1 / 2 * ∑ i ∈ range n, Spec.halfAt 0 i * x i ^ 2 := by
  rw [sum_halfAt_zero hn]
  obtain ⟨m, rfl⟩ : ∃ m, n = m + 1 := ⟨n - 1, by omega⟩
  rw [sum_range_succ', h0, sum_congr rfl fun j hj => h1 (j + 1) (by omega) (by rw [mem_range] at hj; omega)]
  rw [← Finset.sum_div, sum_add_distrib]
  have := sum_reflect_one (n := m + 1) fun i => x i ^ 2
  simp only [Nat.add_sub_cancel] at this ⊢
  rw [this]
  ring

theorem pre3_re {tr : ℕ → Cx ℝ} {n j : ℕ} (x : ℕ → ℝ) (hj : j ≠ 0) :
    (pre3 tr (1 / 2) n x j).re = (x j * (tr j).re - x (n - j) * (tr j).im) * (1 / 2) := by simp [pre3, hj, Cx.scale, Cx.mul]
theorem pre3_im {tr : ℕ → Cx ℝ} {n j : ℕ} (x : ℕ → ℝ) (hj : j ≠ 0) :
    (pre3 tr (1 / 2) n x j).im = (x j * (tr j).im + x (n - j) * (tr j).re) * (1 / 2) := by simp [pre3, hj, Cx.scale, Cx.mul]

theorem pre3_sq {n : ℕ} (hn : 1 ≤ n) {tr : ℕ → Cx ℝ} (ht : ∀ i, (tr i).re ^ 2 + (tr i).im ^ 2 = 1) (x : ℕ → ℝ) :
    ∑ j ∈ range n, ((pre3 tr (1 / 2) n x j).re ^ 2 + (pre3 tr (1 / 2) n x j).im ^ 2) = 1 / 2 * ∑ i ∈ range n, Spec.halfAt 0 i * x i ^ 2 := by
  apply pre3_sum hn
  · simp [pre3, Cx.ofRe]; ring
  · intro j h1 _
    rw [pre3_re x (by omega), pre3_im x (by omega)]
    linear_combination (x j ^ 2 + x (n - j) ^ 2) / 4 * ht j

theorem pre3_bounded {n : ℕ} (hn : 1 ≤ n) {tr : ℕ → Cx ℝ} (ht : ∀ i, (tr i).re ^ 2 + (tr i).im ^ 2 = 1) :
    Bounded (Kind.dct3.nm n) (nmC n) (pre3 tr (1 / 2) n) √(1 / 2) where
  nn := sqrt_nonneg _
  sub := fun x y => by
    funext j
    apply Cx.toC_inj
    rw [Pi.sub_apply, Cx.toC_sub]
    unfold pre3
    split_ifs <;> apply Complex.ext <;> simp [Cx.toC, Cx.ofRe, Cx.scale, Cx.mul] <;> ring
  le := fun x => by
    rw [Kind.nm_of, nmC_of, pre3_sq hn ht, ← sqrt_mul (by norm_num)]
    rfl

theorem pre3_acc {n : ℕ} (hn : 1 ≤ n) {tw : ℕ → Cx T} {tr : ℕ → Cx ℝ} (ht : ∀ i, (tr i).re ^ 2 + (tr i).im ^ 2 = 1)
    (hre : ∀ i, i < n → Ap (R.val (tw i).re) (tr i).re 1 (1 + R.tau)) (him : ∀ i, i < n → Ap (R.val (tw i).im) (tr i).im 1 (1 + R.tau)) :
    Acc R.seq R.cseq (Kind.dct3.nm n) (nmC n) (pre3 tr (1 / 2) n) (pre3 tw (thalf T) n) √(1 / 2) ((R.rot * (1 + R.u)) ^ 2 - 1) := fun f => by
  set x := R.seq f with hx
  have hr := R.one_le_rot
  have hu := R.u_nonneg
  have hg : 1 ≤ R.rot * (1 + R.u) := one_le_mul_of_one_le_of_one_le hr R.one_le_u
  have hug : R.u ≤ (R.rot * (1 + R.u)) ^ 2 - 1 := by nlinarith
  rw [Kind.nm_of, nmC_of, ← sqrt_mul (by norm_num)]
  apply sqrt_le_mul_sqrt (by nlinarith)
  show _ ≤ ((R.rot * (1 + R.u)) ^ 2 - 1) ^ 2 * (1 / 2 * ∑ i ∈ range n, Spec.halfAt 0 i * x i ^ 2)
  rw [← pre3_sq hn ht x, mul_sum]
  refine sum_le_sum fun j hj => ?_
  rw [mem_range] at hj
  have hh : Ap (R.val (thalf T)) (1 / 2) (1 / 2) 1 := by rw [R.half]; exact Ap.exact' (by norm_num)
  simp only [Pi.sub_apply, Cx.sub_re, Cx.sub_im]
  by_cases h0 : j = 0
  · subst h0
    have h1 := (R.ap_mul (Ap.exact (R.val (f 0))) hh).err
    simp only [pre3, if_pos, Rounding.cseq, Rounding.cx, Cx.ofRe, R.zero]
    have h2 : |R.val (f 0 * thalf T) - x 0 * (1 / 2)| ≤ R.u * |x 0 * (1 / 2)| := by
      rw [abs_mul, abs_of_pos (show (0 : ℝ) < 1 / 2 by norm_num)]
      refine h1.trans (le_of_eq ?_)
      simp only [hx, Rounding.seq]; ring
    have h3 := sq_le_of_abs_le h2
    rw [sq_abs] at h3
    have h4 : R.u ^ 2 ≤ ((R.rot * (1 + R.u)) ^ 2 - 1) ^ 2 := pow_le_pow_left₀ hu hug 2
    have h5 := mul_le_mul_of_nonneg_right h4 (sq_nonneg (x 0 * (1 / 2)))
    nlinarith
  · have a1 : Ap (R.val (f j)) (x j) |x j| 1 := Ap.exact _
    have a2 : Ap (R.val (f (n - j))) (x (n - j)) |x (n - j)| 1 := Ap.exact _
    have e1 := (R.ap_mul (R.ap_rot_sub a1 a2 (hre j hj) (him j hj)) hh).err
    have e2 := (R.ap_mul (R.ap_rot_add a1 a2 (him j hj) (hre j hj)) hh).err
    have g1 : (R.cseq (pre3 tw (thalf T) n f) j).re = R.val ((f j * (tw j).re - f (n - j) * (tw j).im) * thalf T) := by
      simp [pre3, h0, Rounding.cseq, Rounding.cx, Cx.scale, Cx.mul]
    have g2 : (R.cseq (pre3 tw (thalf T) n f) j).im = R.val ((f j * (tw j).im + f (n - j) * (tw j).re) * thalf T) := by
      simp [pre3, h0, Rounding.cseq, Rounding.cx, Cx.scale, Cx.mul]
    rw [g1, g2, pre3_re x h0, pre3_im x h0]
    have s1 := sq_le_of_abs_le e1
    have s2 := sq_le_of_abs_le e2
    have h3 := abs_add_sq_le (x j) (x (n - j))
    have h4 := four_sq_le hg
    have h5 : ((x j * (tr j).re - x (n - j) * (tr j).im) * (1 / 2)) ^ 2 + ((x j * (tr j).im + x (n - j) * (tr j).re) * (1 / 2)) ^ 2 = (x j ^ 2 + x (n - j) ^ 2) / 4 := by
      linear_combination (x j ^ 2 + x (n - j) ^ 2) / 4 * ht j
    rw [h5]
    have h6 : (1 + R.u) * (R.rot * 1 * 1) = R.rot * (1 + R.u) := by ring
    rw [h6] at s1 s2
    have h7 := mul_le_mul_of_nonneg_left h3 (sq_nonneg (R.rot * (1 + R.u) - 1))
    have h8 := mul_le_mul_of_nonneg_right h4 (add_nonneg (sq_nonneg (x j)) (sq_nonneg (x (n - j))))
    nlinarith

theorem dct3_fft_acc {fft : Fft T} {G : (ℕ → Cx T) → ℕ → Cx T} {φ : ℝ} (hφ : 0 ≤ φ) (hG : FftRuns fft G) {n : ℕ} (hn : 1 ≤ n) (hL : fft.len = n) (hD : DftAcc R n G φ) :
    TransAcc R .dct3 n (fun f => scat3 n (G (pre3 (fun j => singleTwiddle j (n * 4)) (thalf T) n f))) (R.fft3 φ) := by
  have hr := R.one_le_rot
  have hu := R.u_nonneg
  have hg : 1 ≤ R.rot * (1 + R.u) := one_le_mul_of_one_le_of_one_le hr R.one_le_u
  have h := TransAcc.of_fft (k := .dct3) (c := 1) (Q := scat3 n) (Qr := scat3 n)
    hφ (le_refl _) zero_le_one (show 0 ≤ (R.rot * (1 + R.u)) ^ 2 - 1 by nlinarith) hD
    (pre3_bounded hn fun i => singleTwiddle_sq i (n * 4))
    (pre3_acc hn (fun i => singleTwiddle_sq i (n * 4)) (fun i hi => R.ap_tw_re (by omega) (by omega)) (fun i hi => R.ap_tw_im (by omega) (by omega)))
    (scat3_bounded n) (scat3_acc n)
    (fun x i hi => by
      have e := RunsV.unique (Type2And3ConvertToFft.runs_dct3 (dftFft_contract n 0).runs hn rfl) (Type2And3ConvertToFft.correct_dct3 (dftFft_contract n 0) hn rfl) x hi
      rw [show Kind.dct3.specAt n x i = Spec.dct3At n x i from rfl, ← e, thalf_real]
      rfl)
    (by
      rw [one_mul, one_mul, ← sqrt_mul (Nat.cast_nonneg n)]
      exact sqrt_le_sqrt (le_of_eq (by simp only [Kind.scale]; ring)))
  exact h.mono (le_of_eq (by unfold Rounding.fft3; ring))

theorem Type2And3ConvertToFft.acc_dct3 {fft : Fft T} {G : (ℕ → Cx T) → ℕ → Cx T} {φ : ℝ} (hφ : 0 ≤ φ) (hG : FftRuns fft G) {n : ℕ} (hn : 1 ≤ n) (hL : fft.len = n)
    (hD : DftAcc R n G φ) : PAcc R .dct3 (Type2And3ConvertToFft.inst fft).dct3 n (Type2And3ConvertToFft.inst fft).scratchLen (R.fft3 φ) :=
  ⟨_, Type2And3ConvertToFft.runs_dct3 hG hn hL, dct3_fft_acc hφ hG hn hL hD⟩

theorem Type2And3ConvertToFft.acc_dst3 [Zero T] {fft : Fft T} {G : (ℕ → Cx T) → ℕ → Cx T} {φ : ℝ} (hφ : 0 ≤ φ) (hG : FftRuns fft G) {n : ℕ} (hn : 1 ≤ n) (hL : fft.len = n)
    (hD : DftAcc R n G φ) : PAcc R .dst3 (Type2And3ConvertToFft.inst fft).dst3 n (Type2And3ConvertToFft.inst fft).scratchLen (R.fft3 φ) := by
  refine ⟨_, Type2And3ConvertToFft.runs_dst3 hG hn hL, (dst3_of_dct3 R (dct3_fft_acc hφ hG hn hL hD)).congr fun f k hk => ?_⟩
  have e : ∀ m, m < n → G (fun j => if j = 0 then Cx.ofRe (f (n - 1) * thalf T) else
      Cx.scale (Cx.mul ⟨f (n - j - 1), f (j - 1)⟩ (singleTwiddle j (n * 4))) (thalf T)) m =
      G (pre3 (fun j => singleTwiddle j (n * 4)) (thalf T) n fun i => f (n - 1 - i)) m := fun m hm => by
    refine hG.ext (fun j hj => ?_) (by omega)
    rw [hL] at hj
    unfold pre3
    by_cases h : j = 0
    · simp [h]
    · beta_reduce
      rw [if_neg h, if_neg h, show n - j - 1 = n - 1 - j by omega, show n - 1 - (n - j) = j - 1 by omega]
  simp only [scat3]
  by_cases h : k % 2 = 0
  · rw [if_pos h, if_neg (by omega), if_pos h, e _ (by omega)]
  · rw [if_neg h, if_pos (by omega), if_neg h, e _ (by omega)]

end RustDct
