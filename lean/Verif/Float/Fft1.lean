import Verif.Float.Fft23
import Verif.Proofs.ConvertReal67
/-!
# Accuracy of the DCT1, DST1, DST6 and DST7 that convert to an FFT

The last three leave entries of their FFT buffer unset, so the statements about them are for scratch that starts out as zero.
-/

set_option linter.all false

namespace RustDct
open Finset Real

variable {T F : Type} [F64 F] [DctNum T F] {R : Rounding T F}

/-- As `RunsV`, for scratch that starts with `s` zeros. -/
def RunsZ [Zero T] (p : Proc T) (n s : ℕ) (C : (ℕ → T) → ℕ → T) : Prop :=
  ∀ (f : ℕ → T) (extra : List T), ∃ scr', p ⟨vec n f, List.replicate s 0 ++ extra⟩ = .ok ⟨vec n (C f), scr' ++ extra⟩ ∧ scr'.length = s

theorem vec_zeros [Zero T] (s : ℕ) : vec s (fun _ => (0 : T)) = List.replicate s 0 := by
  apply List.ext_getElem <;> simp [vec]

theorem RunsG.toZ [Zero T] {p : Proc T} {n s : ℕ} {C : (ℕ → T) → (ℕ → T) → ℕ → T} (h : RunsG p n s C) : RunsZ p n s (C fun _ => 0) := by
  intro f extra
  obtain ⟨scr', h1, h2⟩ := h f (fun _ => 0) extra
  rw [vec_zeros] at h1
  exact ⟨scr', h1, h2⟩

theorem RunsV.toZ [Zero T] {p : Proc T} {n s : ℕ} {C : (ℕ → T) → ℕ → T} (h : RunsV p n s C) : RunsZ p n s C := by
  intro f extra
  obtain ⟨scr', h1, h2, h3⟩ := h f (List.replicate s 0 ++ extra) (by simp)
  rw [List.drop_append_of_le_length (by simp)] at h3
  simp at h2
  refine ⟨scr'.take s, ?_, by simp; omega⟩
  rw [h1]
  congr 2
  conv_lhs => rw [← List.take_append_drop s scr']
  rw [h3]; simp

theorem RunsG.unique {T : Type} {p : Proc T} {n s : ℕ} {C C' : (ℕ → T) → (ℕ → T) → ℕ → T} (h : RunsG p n s C) (h' : RunsG p n s C') (g f : ℕ → T) {k : ℕ}
    (hk : k < n) : C g f k = C' g f k := by
  obtain ⟨s1, h1, -⟩ := h f g []
  obtain ⟨s2, h2, -⟩ := h' f g []
  rw [h1] at h2
  injection h2 with h2
  injection h2 with h2 _
  exact vec_inj h2 k hk

/-- The program runs on zeroed scratch and its result has relative error at most `ε`. -/
def PAccZ (R : Rounding T F) (k : Kind) (p : Proc T) (n s : ℕ) (ε : ℝ) : Prop := ∃ C, RunsZ p n s C ∧ TransAcc R k n C ε

theorem PAcc.toZ {k : Kind} {p : Proc T} {n s : ℕ} {ε : ℝ} (h : PAcc R k p n s ε) : PAccZ R k p n s ε := by
  obtain ⟨C, h1, h2⟩ := h
  exact ⟨C, h1.toZ, h2⟩

theorem PAccZ.mono {k : Kind} {p : Proc T} {n s : ℕ} {ε ε' : ℝ} (h : PAccZ R k p n s ε) (he : ε ≤ ε') : PAccZ R k p n s ε' := by
  obtain ⟨C, h1, h2⟩ := h
  exact ⟨C, h1, h2.mono he⟩

/-! ### Picking parts of the output of the FFT -/

/-- Real (`true`) or imaginary (`false`) part. -/
def part (b : Bool) (c : Cx T) : T := if b then c.re else c.im

theorem part_sub (b : Bool) (c d : Cx ℝ) : part b (c - d) = part b c - part b d := by
  cases b <;> simp only [part, Bool.false_eq_true, if_false, if_true, Cx.sub_re, Cx.sub_im]
theorem part_cx (b : Bool) (c : Cx T) : R.val (part b c) = part b (R.cx c) := by cases b <;> rfl
theorem part_sq_le (b : Bool) (c : Cx ℝ) : part b c ^ 2 ≤ c.re ^ 2 + c.im ^ 2 := by
  cases b <;> simp only [part] <;> norm_num <;> positivity

theorem sum_inj_le {n N : ℕ} {σ : ℕ → ℕ} (h1 : ∀ i, i < n → σ i < N) (h2 : ∀ i j, i < n → j < n → σ i = σ j → i = j) {g : ℕ → ℝ} (hg : ∀ i, 0 ≤ g i) :
    ∑ i ∈ range n, g (σ i) ≤ ∑ j ∈ range N, g j := by
  rw [← sum_image (f := g) (s := range n) (g := σ)]
  · apply sum_le_sum_of_subset_of_nonneg
    · intro j hj
      rw [mem_image] at hj
      obtain ⟨i, hi, rfl⟩ := hj
      exact mem_range.2 (h1 i (mem_range.1 hi))
    · exact fun i _ _ => hg i
  · intro i hi j hj h
    exact h2 i j (by simpa using hi) (by simpa using hj) h

def pick (b : Bool) (σ : ℕ → ℕ) (V : ℕ → Cx T) (k : ℕ) : T := part b (V (σ k))
def pickHalf (b : Bool) (σ : ℕ → ℕ) (V : ℕ → Cx T) (k : ℕ) : T := part b (V (σ k)) * thalf T

section
variable {k : Kind} {n N : ℕ} {σ : ℕ → ℕ} (h1 : ∀ i, i < n → σ i < N) (h2 : ∀ i j, i < n → j < n → σ i = σ j → i = j) (b : Bool)
include h1 h2

theorem pick_bounded : Bounded (nmC N) (k.nm n) (pick b σ) 1 where
  nn := zero_le_one
  sub := fun x y => by funext i; simp only [pick, Pi.sub_apply, part_sub]
  le := fun z => by
    rw [one_mul, k.nm_of, nmC_of]
    refine sqrt_le_sqrt (le_trans (sum_le_sum fun i _ => ?_) (sum_inj_le h1 h2 (g := fun j => (z j).re ^ 2 + (z j).im ^ 2) fun i => by positivity))
    have h3 : k.weight n i * pick b σ z i ^ 2 ≤ 1 * pick b σ z i ^ 2 := mul_le_mul_of_nonneg_right (k.weight_le_one n i) (sq_nonneg _)
    refine h3.trans ?_
    rw [one_mul]
    exact part_sq_le b _

theorem pick_acc : Acc R.cseq R.seq (nmC N) (k.nm n) (pick b σ) (pick b σ) 1 0 :=
  Acc.exact (k.nm_zero n) fun z => by
    funext i
    exact part_cx b _

theorem pickHalf_bounded : Bounded (nmC N) (k.nm n) (pickHalf b σ) (1 / 2) where
  nn := by norm_num
  sub := fun x y => by funext i; simp only [pickHalf, Pi.sub_apply, part_sub, thalf_real]; ring
  le := fun z => by
    rw [k.nm_of, nmC_of]
    refine sqrt_le_mul_sqrt (by norm_num) ?_
    refine le_trans ?_ (mul_le_mul_of_nonneg_left (sum_inj_le h1 h2 (g := fun j => (z j).re ^ 2 + (z j).im ^ 2) fun i => by positivity) (by norm_num))
    rw [mul_sum]
    refine sum_le_sum fun i _ => ?_
    have h3 : k.weight n i * pickHalf b σ z i ^ 2 ≤ 1 * pickHalf b σ z i ^ 2 := mul_le_mul_of_nonneg_right (k.weight_le_one n i) (sq_nonneg _)
    refine h3.trans ?_
    have := part_sq_le b (z (σ i))
    simp only [pickHalf, thalf_real]
    nlinarith

theorem pickHalf_acc : Acc R.cseq R.seq (nmC N) (k.nm n) (pickHalf b σ) (pickHalf b σ) (1 / 2) R.u :=
  Acc.of_entries (hw := k.weight_nonneg n) R.u_nonneg (pickHalf_bounded h1 h2 b) fun z i _ => by
    have := R.mul (part b (z (σ i))) (thalf T)
    rw [R.half, part_cx] at this
    simpa [pickHalf, Rounding.seq, Rounding.cseq, thalf_real] using this

end

/-! ### DCT1 -/

/-- FFT input of the DCT1. -/
def mirr1 (n : ℕ) (f : ℕ → T) (j : ℕ) : Cx T := Cx.ofRe (if j < n then f j else f ((n - 1) * 2 - j))

theorem mirr1_sum {n : ℕ} (hn : 2 ≤ n) (g : ℕ → ℝ) :
    ∑ j ∈ range ((n - 1) * 2), g (if j < n then j else (n - 1) * 2 - j) = 2 * ∑ i ∈ range n, Kind.dct1.weight n i * g i := by
  obtain ⟨m, rfl⟩ : ∃ m, n = m + 2 := ⟨n - 2, by omega⟩
  simp only [Kind.weight, Spec.halfAt, show m + 2 - 1 = m + 1 by omega]
  have e1 : ∑ j ∈ range ((m + 1) * 2), g (if j < m + 2 then j else (m + 1) * 2 - j) = ∑ i ∈ range (m + 2), g i + ∑ i ∈ range m, g (i + 1) := by
    rw [show (m + 1) * 2 = (m + 2) + m by ring, sum_range_add]
    congr 1
    · exact sum_congr rfl fun i hi => by rw [if_pos (mem_range.1 hi)]
    · rw [← sum_range_reflect]
      refine sum_congr rfl fun i hi => ?_
      rw [mem_range] at hi
      rw [if_neg (by omega)]
      congr 1; omega
  have e2 : ∑ i ∈ range (m + 2), ((if i = 0 then (1 : ℝ) / 2 else 1) * if i = m + 1 then (1 : ℝ) / 2 else 1) * g i = g 0 / 2 + ∑ i ∈ range m, g (i + 1) + g (m + 1) / 2 := by
    rw [sum_range_succ, sum_range_succ']
    rw [sum_congr rfl (g := fun i => g (i + 1)) fun i hi => by
      rw [mem_range] at hi
      rw [if_neg (by omega), if_neg (by omega)]; ring]
    simp
    ring
  rw [e1, e2, sum_range_succ, sum_range_succ']
  ring

theorem mirr1_bounded {n : ℕ} (hn : 2 ≤ n) : Bounded (Kind.dct1.nm n) (nmC ((n - 1) * 2)) (mirr1 n) √2 where
  nn := sqrt_nonneg _
  sub := fun x y => by
    funext j
    apply Cx.toC_inj
    rw [Pi.sub_apply, Cx.toC_sub]
    unfold mirr1
    split_ifs <;> apply Complex.ext <;> simp [Cx.toC, Cx.ofRe]
  le := fun x => by
    rw [Kind.nm_of, nmC_of, ← sqrt_mul (by norm_num), ← mirr1_sum hn]
    refine sqrt_le_sqrt (le_of_eq (sum_congr rfl fun j _ => ?_))
    unfold mirr1
    split_ifs <;> simp [Cx.ofRe]

theorem mirr1_acc (n : ℕ) : Acc R.seq R.cseq (Kind.dct1.nm n) (nmC ((n - 1) * 2)) (mirr1 n) (mirr1 n) √2 0 :=
  Acc.exact (nmC_zero _) fun f => by
    funext j
    simp only [mirr1, Rounding.cseq, Rounding.cx, Rounding.seq, Cx.ofRe]
    split_ifs <;> simp [R.zero]

theorem half_sqrt_le {a b : ℝ} (h : a ≤ 4 * b) : 1 / 2 * (√a * √2) ≤ √2 * √b := by
  have h1 : √a ≤ 2 * √b := sqrt_le_mul_sqrt (by norm_num) (by linarith)
  have := mul_le_mul_of_nonneg_left h1 (sqrt_nonneg 2)
  linarith

theorem Dct1ConvertToFft.acc {fft : Fft T} {G : (ℕ → Cx T) → ℕ → Cx T} {φ : ℝ} (hφ : 0 ≤ φ) (hG : FftRuns fft G) {n : ℕ} (hn : 2 ≤ n) (hL : fft.len = (n - 1) * 2)
    (hD : DftAcc R ((n - 1) * 2) G φ) : PAcc R .dct1 (Dct1ConvertToFft.inst fft).dct1 n (Dct1ConvertToFft.inst fft).scratchLen (R.fft1 φ) := by
  refine ⟨_, Dct1ConvertToFft.runs hG hn hL, ?_⟩
  have i1 : ∀ i, i < n → id i < (n - 1) * 2 := fun i hi => by simp only [id]; omega
  have i2 : ∀ i j : ℕ, i < n → j < n → id i = id j → i = j := fun i j _ _ h => h
  have h := TransAcc.of_fft (k := .dct1) (c := √2) hφ R.u_nonneg (sqrt_nonneg _) (le_refl _) hD (mirr1_bounded hn) (mirr1_acc n)
    (pickHalf_bounded (k := .dct1) i1 i2 true) (pickHalf_acc i1 i2 true)
    (fun x i hi => RunsV.unique (Dct1ConvertToFft.runs (dftFft_contract ((n - 1) * 2) 0).runs hn rfl) (Dct1ConvertToFft.correct (dftFft_contract ((n - 1) * 2) 0) hn rfl) x hi)
    (by
      have e1 : ((n - 1 : ℕ) : ℝ) = n - 1 := by rw [Nat.cast_sub (by omega)]; simp
      have e2 : (2 : ℝ) ≤ n := by exact_mod_cast hn
      refine half_sqrt_le ?_
      simp only [Kind.scale]
      push_cast
      rw [e1]
      linarith)
  exact h.mono (le_of_eq (by unfold Rounding.fft1; ring))

/-! ### DST1 -/

theorem dst1In_sum (n : ℕ) (x : ℕ → ℝ) :
    ∑ j ∈ range ((n + 1) * 2), ((dst1FftInput n (fun _ => 0) x j).re ^ 2 + (dst1FftInput n (fun _ => 0) x j).im ^ 2) = 2 * ∑ i ∈ range n, x i ^ 2 := by
  rw [mul_two, sum_range_add, sum_range_succ', sum_range_succ' _ n]
  have e1 : ∀ i ∈ range n, (dst1FftInput n (fun _ => 0) x (i + 1)).re ^ 2 + (dst1FftInput n (fun _ => 0) x (i + 1)).im ^ 2 = x i ^ 2 := fun i hi => by
    rw [mem_range] at hi
    unfold dst1FftInput
    rw [if_neg (by omega), if_pos (by omega)]
    simp [Cx.ofRe]
  have e2 : ∀ i ∈ range n, (dst1FftInput n (fun _ => 0) x (n + 1 + (i + 1))).re ^ 2 + (dst1FftInput n (fun _ => 0) x (n + 1 + (i + 1))).im ^ 2 = x (n - 1 - i) ^ 2 := fun i hi => by
    rw [mem_range] at hi
    unfold dst1FftInput
    rw [if_neg (by omega), if_neg (by omega), show (n + 1) * 2 - 1 - (n + 1 + (i + 1)) = n - 1 - i by omega]
    simp [Cx.ofRe]
  rw [sum_congr rfl e1, sum_congr rfl e2, sum_range_reflect (fun i => x i ^ 2)]
  simp [dst1FftInput]
  ring

theorem dst1In_bounded (n : ℕ) : Bounded (Kind.dst1.nm n) (nmC ((n + 1) * 2)) (dst1FftInput n fun _ => 0) √2 where
  nn := sqrt_nonneg _
  sub := fun x y => by
    funext j
    apply Cx.toC_inj
    rw [Pi.sub_apply, Cx.toC_sub]
    unfold dst1FftInput
    split_ifs <;> apply Complex.ext <;> simp [Cx.toC, Cx.ofRe]
    ring
  le := fun x => by
    rw [Kind.nm_of, nmC_of, ← sqrt_mul (by norm_num), dst1In_sum]
    simp [Kind.weight]

theorem dst1In_acc (n : ℕ) : Acc R.seq R.cseq (Kind.dst1.nm n) (nmC ((n + 1) * 2)) (dst1FftInput n fun _ => 0) (dst1FftInput n fun _ => 0) √2 0 :=
  Acc.exact (nmC_zero _) fun f => by
    funext j
    simp only [dst1FftInput, Rounding.cseq, Rounding.cx, Rounding.seq, Cx.ofRe]
    split_ifs <;> simp [R.zero, R.neg]

theorem Dst1ConvertToFft.acc {fft : Fft T} {G : (ℕ → Cx T) → ℕ → Cx T} {φ : ℝ} (hφ : 0 ≤ φ) (hG : FftRuns fft G) {n : ℕ} (hL : fft.len = (n + 1) * 2)
    (hD : DftAcc R ((n + 1) * 2) G φ) : PAccZ R .dst1 (Dst1ConvertToFft.inst fft).dst1 n (Dst1ConvertToFft.inst fft).scratchLen (R.fft1 φ) := by
  refine ⟨_, (Dst1ConvertToFft.runs hG hL).toZ, ?_⟩
  have i1 : ∀ i, i < n → (fun k => (n + 1) * 2 - 1 - k) i < (n + 1) * 2 := fun i hi => by beta_reduce; omega
  have i2 : ∀ i j : ℕ, i < n → j < n → (fun k => (n + 1) * 2 - 1 - k) i = (fun k => (n + 1) * 2 - 1 - k) j → i = j := fun i j _ _ h => by beta_reduce at h; omega
  have h := TransAcc.of_fft (k := .dst1) (c := √2) hφ R.u_nonneg (sqrt_nonneg _) (le_refl _) hD (dst1In_bounded n) (dst1In_acc n)
    (pickHalf_bounded (k := .dst1) i1 i2 false) (pickHalf_acc i1 i2 false)
    (fun x i hi => by
      have e := RunsG.unique (Dst1ConvertToFft.runs (dftFft_contract ((n + 1) * 2) 0).runs rfl) (Dst1ConvertToFft.correct (dftFft_contract ((n + 1) * 2) 0) rfl) (fun _ => 0) x hi
      rw [show dst1Pollution n (fun _ => 0) i = 0 by simp [dst1Pollution], add_zero] at e
      exact e)
    (by
      refine half_sqrt_le ?_
      simp only [Kind.scale]
      push_cast
      linarith)
  exact h.mono (le_of_eq (by unfold Rounding.fft1; ring))

/-! ### DST6 -/

theorem dst6In_sum (n : ℕ) (x : ℕ → ℝ) :
    ∑ j ∈ range (n * 2 + 1), ((dst6FftInput (fun _ => 0) x j).re ^ 2 + (dst6FftInput (fun _ => 0) x j).im ^ 2) = ∑ i ∈ range n, x i ^ 2 := by
  rw [sum_even_odd, sum_eq_zero, zero_add, show (n * 2 + 1) / 2 = n by omega]
  · refine sum_congr rfl fun i _ => ?_
    simp only [dst6FftInput]
    rw [if_pos (by omega), show (2 * i + 1) / 2 = i by omega]
    simp
  · intro i _
    simp only [dst6FftInput]
    rw [if_neg (by omega)]
    simp

theorem dst6In_bounded (n : ℕ) : Bounded (Kind.dst6.nm n) (nmC (n * 2 + 1)) (dst6FftInput fun _ => 0) 1 where
  nn := zero_le_one
  sub := fun x y => by
    funext j
    apply Cx.toC_inj
    rw [Pi.sub_apply, Cx.toC_sub]
    unfold dst6FftInput
    split_ifs <;> apply Complex.ext <;> simp [Cx.toC]
  le := fun x => by
    rw [Kind.nm_of, nmC_of, one_mul, dst6In_sum]
    simp [Kind.weight]

theorem dst6In_acc (n : ℕ) : Acc R.seq R.cseq (Kind.dst6.nm n) (nmC (n * 2 + 1)) (dst6FftInput fun _ => 0) (dst6FftInput fun _ => 0) 1 0 :=
  Acc.exact (nmC_zero _) fun f => by
    funext j
    simp only [dst6FftInput, Rounding.cseq, Rounding.cx, Rounding.seq]
    split_ifs <;> simp [R.zero]

theorem Dst6And7ConvertToFft.acc_dst6 {fft : Fft T} {G : (ℕ → Cx T) → ℕ → Cx T} {φ : ℝ} (hφ : 0 ≤ φ) (hG : FftRuns fft G) {n : ℕ} (hL : fft.len = n * 2 + 1)
    (hD : DftAcc R (n * 2 + 1) G φ) : PAccZ R .dst6 (Dst6And7ConvertToFft.inst fft).dst6 n (Dst6And7ConvertToFft.inst fft).scratchLen (2 * φ) := by
  refine ⟨_, (Dst6And7ConvertToFft.runs_dst6 hG hL).toZ, ?_⟩
  have i1 : ∀ i, i < n → (fun k => if k % 2 = 1 then (k + 1) / 2 else n - k / 2) i < n * 2 + 1 := fun i hi => by beta_reduce; split_ifs <;> omega
  have i2 : ∀ i j : ℕ, i < n → j < n → (fun k => if k % 2 = 1 then (k + 1) / 2 else n - k / 2) i = (fun k => if k % 2 = 1 then (k + 1) / 2 else n - k / 2) j → i = j :=
    fun i j _ _ h => by beta_reduce at h; split_ifs at h <;> omega
  have h := TransAcc.of_fft (k := .dst6) (c := 2) hφ (le_refl _) (by norm_num) (le_refl _) hD (dst6In_bounded n) (dst6In_acc n)
    (pick_bounded (k := .dst7) i1 i2 true) (pick_acc i1 i2 true)
    (fun x i hi => by
      have e := RunsG.unique (Dst6And7ConvertToFft.runs_dst6 (dftFft_contract (n * 2 + 1) 0).runs rfl) (Dst6And7ConvertToFft.correct_dst6 (dftFft_contract (n * 2 + 1) 0) rfl) (fun _ => 0) x hi
      rw [show dst6Pollution n (fun _ => 0) i = 0 by simp [dst6Pollution], add_zero] at e
      refine Eq.trans ?_ e
      simp only [pick, part, if_true]
      split_ifs <;> rfl)
    (by
      rw [one_mul, mul_one]
      refine sqrt_le_mul_sqrt (by norm_num) ?_
      simp only [Kind.scale]
      push_cast
      linarith)
  refine (h.mono (ε' := 2 * φ) (le_of_eq (by ring))).congr fun f k hk => ?_
  simp only [pick, part, if_true]
  split_ifs <;> rfl

/-! ### DST7 -/

theorem sum_dst7Index (n : ℕ) (g : ℕ → ℝ) : ∑ m ∈ range n, g (dst7Index n m) = ∑ i ∈ range n, g i := by
  rw [← sum_gather n g]
  refine sum_congr rfl fun m hm => ?_
  rw [mem_range] at hm
  unfold dst7Index
  by_cases h : m < (n + 1) / 2
  · rw [if_pos h, if_pos h]
  · rw [if_neg h, if_neg h]; congr 1; omega

theorem dst7In_sum (n : ℕ) (x : ℕ → ℝ) :
    ∑ j ∈ range (n * 2 + 1), ((dst7FftInput n (fun _ => 0) x j).re ^ 2 + (dst7FftInput n (fun _ => 0) x j).im ^ 2) = 2 * ∑ i ∈ range n, x i ^ 2 := by
  rw [sum_range_succ', mul_two, sum_range_add]
  have e1 : ∀ i ∈ range n, (dst7FftInput n (fun _ => 0) x (i + 1)).re ^ 2 + (dst7FftInput n (fun _ => 0) x (i + 1)).im ^ 2 = x (dst7Index n (n - 1 - i)) ^ 2 := fun i hi => by
    rw [mem_range] at hi
    unfold dst7FftInput
    rw [if_neg (by omega), if_pos (by omega), show n - (i + 1) = n - 1 - i by omega]
    simp [Cx.ofRe, Cx.neg]
  have e2 : ∀ i ∈ range n, (dst7FftInput n (fun _ => 0) x (n + i + 1)).re ^ 2 + (dst7FftInput n (fun _ => 0) x (n + i + 1)).im ^ 2 = x (dst7Index n i) ^ 2 := fun i hi => by
    rw [mem_range] at hi
    unfold dst7FftInput
    rw [if_neg (by omega), if_neg (by omega), show n + i + 1 - (n + 1) = i by omega]
    simp [Cx.ofRe]
  rw [sum_congr rfl e1, sum_congr rfl e2, sum_range_reflect (fun i => x (dst7Index n i) ^ 2), sum_dst7Index n fun i => x i ^ 2]
  simp [dst7FftInput]
  ring

theorem dst7In_bounded (n : ℕ) : Bounded (Kind.dst7.nm n) (nmC (n * 2 + 1)) (dst7FftInput n fun _ => 0) √2 where
  nn := sqrt_nonneg _
  sub := fun x y => by
    funext j
    apply Cx.toC_inj
    rw [Pi.sub_apply, Cx.toC_sub]
    unfold dst7FftInput
    split_ifs <;> apply Complex.ext <;> simp [Cx.toC, Cx.ofRe, Cx.neg]
    ring
  le := fun x => by
    rw [Kind.nm_of, nmC_of, ← sqrt_mul (by norm_num), dst7In_sum]
    simp [Kind.weight]

theorem dst7In_acc (n : ℕ) : Acc R.seq R.cseq (Kind.dst7.nm n) (nmC (n * 2 + 1)) (dst7FftInput n fun _ => 0) (dst7FftInput n fun _ => 0) √2 0 :=
  Acc.exact (nmC_zero _) fun f => by
    funext j
    simp only [dst7FftInput, Rounding.cseq, Rounding.cx, Rounding.seq, Cx.ofRe, Cx.neg]
    split_ifs <;> simp [R.zero, R.neg]

theorem Dst6And7ConvertToFft.acc_dst7 {fft : Fft T} {G : (ℕ → Cx T) → ℕ → Cx T} {φ : ℝ} (hφ : 0 ≤ φ) (hG : FftRuns fft G) {n : ℕ} (hL : fft.len = n * 2 + 1)
    (hD : DftAcc R (n * 2 + 1) G φ) : PAccZ R .dst7 (Dst6And7ConvertToFft.inst fft).dst7 n (Dst6And7ConvertToFft.inst fft).scratchLen (R.fft1 φ) := by
  refine ⟨_, (Dst6And7ConvertToFft.runs_dst7 hG hL).toZ, ?_⟩
  have i1 : ∀ i, i < n → (fun k => k * 2 + 1) i < n * 2 + 1 := fun i hi => by beta_reduce; omega
  have i2 : ∀ i j : ℕ, i < n → j < n → (fun k => k * 2 + 1) i = (fun k => k * 2 + 1) j → i = j := fun i j _ _ h => by beta_reduce at h; omega
  have h := TransAcc.of_fft (k := .dst7) (c := √2) hφ R.u_nonneg (sqrt_nonneg _) (le_refl _) hD (dst7In_bounded n) (dst7In_acc n)
    (pickHalf_bounded (k := .dst6) i1 i2 false) (pickHalf_acc i1 i2 false)
    (fun x i hi => by
      have e := RunsG.unique (Dst6And7ConvertToFft.runs_dst7 (dftFft_contract (n * 2 + 1) 0).runs rfl) (Dst6And7ConvertToFft.correct_dst7 (dftFft_contract (n * 2 + 1) 0) rfl) (fun _ => 0) x hi
      rw [show dst7Pollution (fun _ => 0) i = 0 by simp [dst7Pollution], add_zero] at e
      exact e)
    (by
      refine half_sqrt_le ?_
      simp only [Kind.scale]
      push_cast
      linarith)
  exact h.mono (le_of_eq (by unfold Rounding.fft1; ring))

end RustDct
