import Verif.Float.Even4
import Verif.Float.Fft1
import Verif.Float.Fft4
import Verif.Float.Three
import Verif.Float.Pow2
import Verif.Float.Fft23
import Verif.Proofs.PlannerMade
import Verif.Proofs.Methods
/-!
# Accuracy of what the planner returns
-/

set_option linter.all false

namespace RustDct
open Finset Real

variable {T F : Type} [F64 F] [DctNum T F] {R : Rounding T F}

/-! ### The FFT contract on sequences -/

theorem sum_vec_real (n : ℕ) (f : ℕ → ℝ) : (vec n f).sum = ∑ i ∈ range n, f i := by
  induction n with
  | zero => simp
  | succ n ih => rw [Finset.sum_range_succ, ← ih, vec, vec, List.range_succ]; simp

theorem cnorm_vec (n : ℕ) (c : ℕ → Cx ℝ) : Spec.cnorm ((vec n c).map Cx.toC) = (nmC n).of c := by
  unfold Spec.cnorm
  rw [map_vec, map_vec, sum_vec_real]
  simp only [nmC, Nm.w, wn, one_mul, Cx.norm_toC]

theorem zipWith_vec_same {A B C : Type} (n : ℕ) (g : A → B → C) (f : ℕ → A) (h : ℕ → B) : List.zipWith g (vec n f) (vec n h) = vec n fun i => g (f i) (h i) := by
  apply List.ext_getElem <;> simp [vec]

theorem FftAccurate.runs {fft : Fft T} {φ : ℝ} (hφ : 0 ≤ φ) (h : FftAccurate R fft φ) : ∃ G, FftRuns fft G ∧ DftAcc R fft.len G φ := by
  obtain ⟨-, G, h⟩ := h
  have h1 : ∀ c : ℕ → Cx T, ∃ d : ℕ → Cx T, G (vec fft.len c) = vec fft.len d := fun c => exists_vec (h _ (length_vec _ _)).2.1
  choose D hD using h1
  refine ⟨D, fun c scr hs => ?_, fun c => ?_⟩
  · obtain ⟨scr', e, hl⟩ := (h _ (length_vec _ c)).1 scr hs
    exact ⟨scr', by rw [e, hD], hl⟩
  · have h3 := (h _ (length_vec _ c)).2.2
    rw [hD] at h3
    have e : ∀ d : ℕ → Cx T, (vec fft.len d).map R.toC = (vec fft.len (R.cseq d)).map Cx.toC := fun d => by
      rw [map_vec, map_vec]; rfl
    rw [e, e, dft_vec, map_vec, map_vec, zipWith_vec_same] at h3
    have e2 : (vec fft.len fun i => (R.cseq (D c) i).toC - (dftRI fft.len (R.cseq c) i).toC) = (vec fft.len (R.cseq (D c) - dftRI fft.len (R.cseq c))).map Cx.toC := by
      rw [map_vec]; rfl
    rw [e2, cnorm_vec, ← map_vec, cnorm_vec] at h3
    exact h3.trans (mul_le_mul_of_nonneg_left ((dftRI_bounded _).le _) hφ)

theorem PlanFftAccurate.shape {planFft : ℕ → Fft T} {φ : ℕ → ℝ} (hf : PlanFftAccurate R planFft φ) : PlanFftShape planFft := fun n => ⟨(hf n).1, (hf n).2.2.1⟩
theorem PlanFftAccurate.nonneg {planFft : ℕ → Fft T} {φ : ℕ → ℝ} (hf : PlanFftAccurate R planFft φ) (n : ℕ) : 0 ≤ φ n := (hf n).2.1
theorem PlanFftAccurate.runs {planFft : ℕ → Fft T} {φ : ℕ → ℝ} (hf : PlanFftAccurate R planFft φ) (n : ℕ) : ∃ G, FftRuns (planFft n) G ∧ DftAcc R n G (φ n) := by
  obtain ⟨G, h1, h2⟩ := (hf n).2.2.runs (hf n).2.1
  exact ⟨G, h1, by rwa [(hf n).1] at h2⟩

variable {planFft : ℕ → Fft T} {φ : ℕ → ℝ}

theorem canonDct1_acc (hf : PlanFftAccurate R planFft φ) {n : ℕ} (hn : 2 ≤ n) {o : Obj1 T} (ho : canonDct1 planFft n = .ok o) :
    PAcc R .dct1 o.run n o.scratchLen (R.err φ .dct1 n) := by
  unfold canonDct1 at ho
  simp only [Rounding.err]
  by_cases h : n < 10
  · rw [if_pos h] at ho ⊢
    have hx := Dct1Naive.new_tab (T := T) hn
    have hl := Dct1Naive.len_new hx
    rw [hx] at ho
    injection ho with ho
    subst ho
    change PAcc R .dct1 _ n (Dct1Naive.len _) _
    rw [hl]
    exact Dct1Naive.acc_dct1 R hn
  · rw [if_neg h] at ho ⊢
    rw [Dct1ConvertToFft.new_eq (fft := planFft ((n - 1) * 2)) (by rw [(hf.shape _).1]; omega) (hf.shape _).2] at ho
    injection ho with ho
    subst ho
    obtain ⟨G, hG, hD⟩ := hf.runs ((n - 1) * 2)
    exact Dct1ConvertToFft.acc (hf.nonneg _) hG hn (hf.shape _).1 hD

theorem canonDct5_acc_dct5 (R : Rounding T F) {n : ℕ} (hn : 1 ≤ n) {o : Obj1 T} (ho : canonDct5 n = .ok o) : PAcc R .dct5 o.run n o.scratchLen (R.naive n) := by
  unfold canonDct5 at ho
  have hx := Dct5Naive.new_tab (T := T) hn
  have hl := Dct5Naive.len_new hx
  rw [hx] at ho
  injection ho with ho
  subst ho
  change PAcc R .dct5 _ n (Dct5Naive.len _) _
  rw [hl]
  exact Dct5Naive.acc_dct5 R hn

theorem canonDct6_acc_dct6 (R : Rounding T F) {n : ℕ} (hn : 1 ≤ n) {o : Obj67 T} (ho : canonDct6 n = .ok o) : PAcc R .dct6 o.t6 n o.scratchLen (R.naive n) := by
  unfold canonDct6 at ho
  have hx := Dct6And7Naive.new_tab (T := T) hn
  have hl := Dct6And7Naive.len_new hx
  rw [hx] at ho
  injection ho with ho
  subst ho
  change PAcc R .dct6 _ n (Dct6And7Naive.len _) _
  rw [hl]
  exact Dct6And7Naive.acc_dct6 R hn

theorem canonDct6_acc_dct7 (R : Rounding T F) {n : ℕ} (hn : 1 ≤ n) {o : Obj67 T} (ho : canonDct6 n = .ok o) : PAcc R .dct7 o.t7 n o.scratchLen (R.naive n) := by
  unfold canonDct6 at ho
  have hx := Dct6And7Naive.new_tab (T := T) hn
  have hl := Dct6And7Naive.len_new hx
  rw [hx] at ho
  injection ho with ho
  subst ho
  change PAcc R .dct7 _ n (Dct6And7Naive.len _) _
  rw [hl]
  exact Dct6And7Naive.acc_dct7 R hn

theorem canonDct8_acc_dct8 (R : Rounding T F) {n : ℕ} (hn : 1 ≤ n) {o : Obj1 T} (ho : canonDct8 n = .ok o) : PAcc R .dct8 o.run n o.scratchLen (R.naive n) := by
  unfold canonDct8 at ho
  have hx := Dct8Naive.new_tab (T := T) (n := n)
  have hl := Dct8Naive.len_new hx
  rw [hx] at ho
  injection ho with ho
  subst ho
  change PAcc R .dct8 _ n (Dct8Naive.len _) _
  rw [hl]
  exact Dct8Naive.acc_dct8 R hn

theorem canonDst5_acc_dst5 (R : Rounding T F) {n : ℕ} (hn : 1 ≤ n) {o : Obj1 T} (ho : canonDst5 n = .ok o) : PAcc R .dst5 o.run n o.scratchLen (R.naive n) := by
  unfold canonDst5 at ho
  have hx := Dst5Naive.new_tab (T := T) (n := n)
  have hl := Dst5Naive.len_new hx
  rw [hx] at ho
  injection ho with ho
  subst ho
  change PAcc R .dst5 _ n (Dst5Naive.len _) _
  rw [hl]
  exact Dst5Naive.acc_dst5 R hn

theorem canonDst8_acc_dst8 (R : Rounding T F) {n : ℕ} (hn : 1 ≤ n) {o : Obj1 T} (ho : canonDst8 n = .ok o) : PAcc R .dst8 o.run n o.scratchLen (R.naive n) := by
  unfold canonDst8 at ho
  have hx := Dst8Naive.new_tab (T := T) hn
  have hl := Dst8Naive.len_new hx
  rw [hx] at ho
  injection ho with ho
  subst ho
  change PAcc R .dst8 _ n (Dst8Naive.len _) _
  rw [hl]
  exact Dst8Naive.acc_dst8 R hn

theorem canonDst1_acc (hf : PlanFftAccurate R planFft φ) {n : ℕ} (hn : 1 ≤ n) {o : Obj1 T} (ho : canonDst1 planFft n = .ok o) :
    PAccZ R .dst1 o.run n o.scratchLen (R.err φ .dst1 n) ∧ (n < 25 → PAcc R .dst1 o.run n o.scratchLen (R.err φ .dst1 n)) := by
  unfold canonDst1 at ho
  simp only [Rounding.err]
  by_cases h : n < 25
  · rw [if_pos h] at ho ⊢
    have hx := Dst1Naive.new_tab (T := T) (n := n)
    have hl := Dst1Naive.len_new hx
    rw [hx] at ho
    injection ho with ho
    subst ho
    have : PAcc R .dst1 (Dst1Naive.dst1 (⟨vec ((n + 1) * 2) (Dst1Naive.tab n)⟩ : Dst1Naive T)) n (Dst1Naive.len (⟨vec ((n + 1) * 2) (Dst1Naive.tab n)⟩ : Dst1Naive T)) (R.naive n) := by
      rw [hl]
      exact Dst1Naive.acc_dst1 R hn
    exact ⟨this.toZ, fun _ => this⟩
  · rw [if_neg h] at ho ⊢
    rw [Dst1ConvertToFft.new_eq (fft := planFft ((n + 1) * 2)) (by rw [(hf.shape _).1]; omega) (hf.shape _).2 (by rw [(hf.shape _).1]; omega)] at ho
    injection ho with ho
    subst ho
    obtain ⟨G, hG, hD⟩ := hf.runs ((n + 1) * 2)
    exact ⟨Dst1ConvertToFft.acc (hf.nonneg _) hG (hf.shape _).1 hD, fun h' => absurd h' h⟩

theorem canonDst6_acc_dst6 (hf : PlanFftAccurate R planFft φ) {n : ℕ} (hn : 1 ≤ n) {o : Obj67 T} (ho : canonDst6 planFft n = .ok o) :
    PAccZ R .dst6 o.t6 n o.scratchLen (R.err φ .dst6 n) ∧ (n < 45 → PAcc R .dst6 o.t6 n o.scratchLen (R.err φ .dst6 n)) := by
  unfold canonDst6 at ho
  simp only [Rounding.err]
  by_cases h : n < 45
  · rw [if_pos h] at ho ⊢
    have hx := Dst6And7Naive.new_tab (T := T) (n := n)
    have hl := Dst6And7Naive.len_new hx
    rw [hx] at ho
    injection ho with ho
    subst ho
    have : PAcc R .dst6 (Dst6And7Naive.dst6 (⟨vec (n * 4 + 2) (Dst6And7Naive.tab n)⟩ : Dst6And7Naive T)) n (Dst6And7Naive.len (⟨vec (n * 4 + 2) (Dst6And7Naive.tab n)⟩ : Dst6And7Naive T)) (R.naive n) := by
      rw [hl]
      exact Dst6And7Naive.acc_dst6 R hn
    exact ⟨this.toZ, fun _ => this⟩
  · rw [if_neg h] at ho ⊢
    rw [Dst6And7ConvertToFft.new_eq (fft := planFft (n * 2 + 1)) (by rw [(hf.shape _).1]; omega) (hf.shape _).2] at ho
    injection ho with ho
    subst ho
    obtain ⟨G, hG, hD⟩ := hf.runs (n * 2 + 1)
    exact ⟨Dst6And7ConvertToFft.acc_dst6 (hf.nonneg _) hG (hf.shape _).1 hD, fun h' => absurd h' h⟩

theorem canonDst6_acc_dst7 (hf : PlanFftAccurate R planFft φ) {n : ℕ} (hn : 1 ≤ n) {o : Obj67 T} (ho : canonDst6 planFft n = .ok o) :
    PAccZ R .dst7 o.t7 n o.scratchLen (R.err φ .dst7 n) ∧ (n < 45 → PAcc R .dst7 o.t7 n o.scratchLen (R.err φ .dst7 n)) := by
  unfold canonDst6 at ho
  simp only [Rounding.err]
  by_cases h : n < 45
  · rw [if_pos h] at ho ⊢
    have hx := Dst6And7Naive.new_tab (T := T) (n := n)
    have hl := Dst6And7Naive.len_new hx
    rw [hx] at ho
    injection ho with ho
    subst ho
    have : PAcc R .dst7 (Dst6And7Naive.dst7 (⟨vec (n * 4 + 2) (Dst6And7Naive.tab n)⟩ : Dst6And7Naive T)) n (Dst6And7Naive.len (⟨vec (n * 4 + 2) (Dst6And7Naive.tab n)⟩ : Dst6And7Naive T)) (R.naive n) := by
      rw [hl]
      exact Dst6And7Naive.acc_dst7 R hn
    exact ⟨this.toZ, fun _ => this⟩
  · rw [if_neg h] at ho ⊢
    rw [Dst6And7ConvertToFft.new_eq (fft := planFft (n * 2 + 1)) (by rw [(hf.shape _).1]; omega) (hf.shape _).2] at ho
    injection ho with ho
    subst ho
    obtain ⟨G, hG, hD⟩ := hf.runs (n * 2 + 1)
    exact ⟨Dst6And7ConvertToFft.acc_dst7 (hf.nonneg _) hG (hf.shape _).1 hD, fun h' => absurd h' h⟩

theorem canon23_acc (hf : PlanFftAccurate R planFft φ) {n : ℕ} (hn : 1 ≤ n) {o : Obj23 T} (ho : canon23 planFft n = .ok o) :
    PAcc R .dct2 o.dct2 n o.scratchLen (R.type23 n (R.fft2 (φ n))) ∧ PAcc R .dct3 o.dct3 n o.scratchLen (R.type23 n (R.fft3 (φ n))) ∧
    PAcc R .dst2 o.dst2 n o.scratchLen (R.type23 n (R.fft2 (φ n))) ∧ PAcc R .dst3 o.dst3 n o.scratchLen (R.type23 n (R.fft3 (φ n))) := by
  unfold Rounding.type23
  by_cases h3 : n = 3
  · simp only [if_pos h3]
    subst h3
    rw [canon23, if_pos (by rfl)] at ho
    injection ho with ho
    subst ho
    have := Type2And3Butterfly3.acc R
    exact ⟨this.dct2, this.dct3, this.dst2, this.dst3⟩
  · simp only [if_neg h3]
    by_cases hp : 2 ≤ n ∧ n = 2 ^ Nat.log 2 n
    · simp only [if_pos hp]
      obtain ⟨h2, hp⟩ := hp
      obtain ⟨j, hj⟩ : ∃ j, Nat.log 2 n = j + 1 := ⟨Nat.log 2 n - 1, by have := Nat.log_pos (by norm_num : 1 < 2) h2; omega⟩
      rw [hj] at hp ⊢
      obtain ⟨o', ho', this⟩ := canon23_pow2_acc R hf.shape j
      rw [← hp, ho] at ho'
      injection ho' with ho'
      subst ho'
      rw [← hp] at this
      exact ⟨this.dct2, this.dct3, this.dst2, this.dst3⟩
    · simp only [if_neg hp]
      have hp' : isPowerOfTwo n = true → n = 1 := fun h => by
        obtain ⟨k, rfl⟩ := (isPowerOfTwo_iff _).1 h
        rcases k with _ | k
        · rfl
        · exact absurd ⟨by rw [pow_succ]; have := Nat.one_le_two_pow (n := k); omega, by rw [Nat.log_pow (by norm_num)]⟩ hp
      have hb : dct2Butterflies.contains n = false := by
        have : ∀ k, isPowerOfTwo (2 ^ k) = true := fun k => (isPowerOfTwo_iff _).2 ⟨k, rfl⟩
        have h2 : n ≠ 2 := fun e => by have := hp' (e ▸ this 1); omega
        have h4 : n ≠ 4 := fun e => by have := hp' (e ▸ this 2); omega
        have h8 : n ≠ 8 := fun e => by have := hp' (e ▸ this 3); omega
        have h16 : n ≠ 16 := fun e => by have := hp' (e ▸ this 4); omega
        simp [dct2Butterflies, h2, h3, h4, h8, h16]
      rw [canon23, if_neg (by rw [hb]; exact Bool.false_ne_true), dif_neg (fun h => by have := hp' h.1; omega), Type2And3ConvertToFft.new_eq (hf.shape n).2] at ho
      injection ho with ho
      subst ho
      obtain ⟨G, hG, hD⟩ := hf.runs n
      exact ⟨Type2And3ConvertToFft.acc_dct2 (hf.nonneg _) hG hn (hf.shape _).1 hD, Type2And3ConvertToFft.acc_dct3 (hf.nonneg _) hG hn (hf.shape _).1 hD,
        Type2And3ConvertToFft.acc_dst2 (hf.nonneg _) hG hn (hf.shape _).1 hD, Type2And3ConvertToFft.acc_dst3 (hf.nonneg _) hG hn (hf.shape _).1 hD⟩

theorem Rounding.gainErr_nonneg {n : ℕ} {g : ℝ} (h : 1 ≤ g) : 0 ≤ gainErr n g := mul_nonneg (sqrt_nonneg _) (by linarith)

theorem Rounding.naive_nonneg (R : Rounding T F) (n : ℕ) : 0 ≤ R.naive n := Rounding.gainErr_nonneg (R.one_le_naive n)

theorem Rounding.fft1_nonneg (R : Rounding T F) {φ : ℝ} (h : 0 ≤ φ) : 0 ≤ R.fft1 φ :=
  mul_nonneg (sqrt_nonneg _) (by nlinarith [R.u_nonneg])
theorem Rounding.fft2_nonneg (R : Rounding T F) {φ : ℝ} (h : 0 ≤ φ) : 0 ≤ R.fft2 φ :=
  mul_nonneg (sqrt_nonneg _) (by linarith [one_le_mul_of_one_le_of_one_le (show 1 ≤ 1 + φ by linarith) (one_le_pow₀ (n := 2) R.one_le_rot)])
theorem Rounding.fft3_nonneg (R : Rounding T F) {φ : ℝ} (h : 0 ≤ φ) : 0 ≤ R.fft3 φ := by
  unfold Rounding.fft3
  linarith [one_le_mul_of_one_le_of_one_le (one_le_pow₀ (n := 2) (one_le_mul_of_one_le_of_one_le R.one_le_rot R.one_le_u)) (show 1 ≤ 1 + φ by linarith)]
theorem Rounding.fft4_nonneg (R : Rounding T F) {φ : ℝ} (h : 0 ≤ φ) : 0 ≤ R.fft4 φ :=
  mul_nonneg (sqrt_nonneg _) (by linarith [one_le_mul_of_one_le_of_one_le (show 1 ≤ 1 + φ by linarith) (one_le_pow₀ (n := 12) R.one_le_u)])
theorem Rounding.even4_nonneg (R : Rounding T F) {φ : ℝ} (h : 0 ≤ φ) : 0 ≤ R.even4 φ := by
  unfold Rounding.even4
  linarith [one_le_mul_of_one_le_of_one_le (one_le_mul_of_one_le_of_one_le R.one_le_u (show 1 ≤ 1 + φ by linarith)) (one_le_pow₀ (n := 2) R.one_le_rot)]
theorem Rounding.type23_nonneg (R : Rounding T F) {n : ℕ} {c : ℝ} (h : 0 ≤ c) : 0 ≤ R.type23 n c := by
  unfold Rounding.type23
  split_ifs
  · exact Rounding.gainErr_nonneg R.one_le_term
  · linarith [one_le_pow₀ (n := Nat.log 2 n) R.one_le_step]
  · exact h
theorem Rounding.type4_nonneg (R : Rounding T F) (h : ∀ n, 0 ≤ φ n) (n : ℕ) : 0 ≤ R.type4 φ n := by
  unfold Rounding.type4
  split_ifs
  · exact R.naive_nonneg _
  · exact R.even4_nonneg (R.type23_nonneg (R.fft3_nonneg (h _)))
  · exact R.naive_nonneg _
  · exact R.fft4_nonneg (h _)
theorem Rounding.err_nonneg (R : Rounding T F) (h : ∀ n, 0 ≤ φ n) (k : Kind) (n : ℕ) : 0 ≤ R.err φ k n := by
  cases k <;> simp only [Rounding.err] <;> try split_ifs
  all_goals first
    | exact R.naive_nonneg _
    | exact R.fft1_nonneg (h _)
    | exact R.type23_nonneg (R.fft2_nonneg (h _))
    | exact R.type23_nonneg (R.fft3_nonneg (h _))
    | exact R.type4_nonneg h _
    | linarith [h (n * 2 + 1)]

theorem canon4_acc (hf : PlanFftAccurate R planFft φ) {n : ℕ} (hn : 1 ≤ n) {o : Obj4 T} (ho : canon4 planFft n = .ok o) :
    PAcc R .dct4 o.dct4 n o.scratchLen (R.type4 φ n) ∧ PAcc R .dst4 o.dst4 n o.scratchLen (R.type4 φ n) := by
  have naive : ∀ {o : Obj4 T}, (Type4Naive.new n).map Type4Naive.toObj = .ok o → PAcc R .dct4 o.dct4 n o.scratchLen (R.naive n) ∧ PAcc R .dst4 o.dst4 n o.scratchLen (R.naive n) := by
    intro o ho
    have hx := Type4Naive.new_tab (T := T) (n := n)
    have hl := Type4Naive.len_new hx
    rw [hx] at ho
    injection ho with ho
    subst ho
    change PAcc R .dct4 _ n (Type4Naive.len _) _ ∧ PAcc R .dst4 _ n (Type4Naive.len _) _
    rw [hl]
    exact ⟨Type4Naive.acc_dct4 R hn, Type4Naive.acc_dst4 R hn⟩
  unfold canon4 at ho
  unfold Rounding.type4
  by_cases h2 : n % 2 = 0
  · rw [if_pos h2] at ho ⊢
    by_cases h6 : n < 6
    · rw [if_pos h6] at ho ⊢
      exact naive ho
    · rw [if_neg h6] at ho ⊢
      obtain ⟨i, e, -, hl⟩ := canon23_made hf.shape (n / 2)
      rw [e] at ho
      have ho' : (Type4ConvertToType3Even.new i).map Type4ConvertToType3Even.toObj = .ok o := ho
      rw [Type4ConvertToType3Even.new_eq hl] at ho'
      injection ho' with ho'
      subst ho'
      obtain ⟨-, h3, -, h3'⟩ := canon23_acc hf (show 1 ≤ n / 2 by omega) e
      have hε := R.type23_nonneg (n := n / 2) (R.fft3_nonneg (hf.nonneg (n / 2)))
      have a := Type4ConvertToType3Even.acc_dct4 (show 1 ≤ n / 2 by omega) hε h3.weak h3'.weak
      have b := Type4ConvertToType3Even.acc_dst4 (show 1 ≤ n / 2 by omega) hε h3.weak h3'.weak
      rw [show 2 * (n / 2) = n by omega] at a b
      exact ⟨a, b⟩
  · rw [if_neg h2] at ho ⊢
    by_cases h7 : n < 7
    · rw [if_pos h7] at ho ⊢
      exact naive ho
    · rw [if_neg h7] at ho ⊢
      rw [Type4ConvertToFftOdd.new_eq (fft := planFft n) (by rw [(hf.shape _).1]; omega) (hf.shape _).2] at ho
      injection ho with ho
      subst ho
      obtain ⟨G, hG, hD⟩ := hf.runs n
      exact ⟨Type4ConvertToFftOdd.acc_dct4 (hf.nonneg _) hG (by omega) (hf.shape _).1 hD, Type4ConvertToFftOdd.acc_dst4 (hf.nonneg _) hG (by omega) (hf.shape _).1 hD⟩

/-- Every planned instance is accurate: on zeroed scratch, and on any scratch where scratch does not matter. -/
theorem Planned.acc {calls : List (PlanCall T)} {k : Kind} {p : Proc T} {n s : ℕ} (hf : PlanFftAccurate R planFft φ) (h : Planned planFft calls k p n s) (hn : 1 ≤ n) :
    PAccZ R k p n s (R.err φ k n) ∧ (¬ k.leakyAt n → PAcc R k p n s (R.err φ k n)) := by
  have V : ∀ {k : Kind} {p : Proc T} {n s : ℕ} {ε : ℝ} {P : Prop}, PAcc R k p n s ε → PAccZ R k p n s ε ∧ (P → PAcc R k p n s ε) := fun h => ⟨h.toZ, fun _ => h⟩
  cases h with
  | @dct1 n a s' h =>
    have e := Yields.canon (fun W => planDct1_yields n) h
    have h2 : 2 ≤ n := by
      by_contra h2
      obtain ⟨e', he, -⟩ := canonDct1_err (planFft := planFft) h2
      rw [he] at e; cases e
    exact V (canonDct1_acc hf h2 e)
  | @dct2 n a s' h => exact V (canon23_acc hf hn (Yields.canon (fun W => planDct2_yields n) h)).1
  | @dct3 n a s' h _ => exact V (canon23_acc hf hn (Yields.canon (fun W => planDct2_yields n) h)).2.1
  | @dct4 n a s' h _ => exact V (canon4_acc hf hn (Yields.canon (fun W => planDct4_yields n) h)).1
  | @dct5 n a s' h => exact V (canonDct5_acc_dct5 R hn (Yields.canon (fun W => planDct5_yields n) h))
  | @dct6 n a s' h => exact V (canonDct6_acc_dct6 R hn (Yields.canon (fun W => planDct6_yields n) h))
  | @dct7 n a s' h => exact V (canonDct6_acc_dct7 R hn (Yields.canon (fun W => planDct6_yields n) h))
  | @dct8 n a s' h => exact V (canonDct8_acc_dct8 R hn (Yields.canon (fun W => planDct8_yields n) h))
  | @dst1 n a s' h =>
    have := canonDst1_acc hf hn (Yields.canon (fun W => planDst1_yields n) h)
    exact ⟨this.1, fun hk => this.2 (by simpa [Kind.leakyAt] using hk)⟩
  | @dst2 n a s' h => exact V (canon23_acc hf hn (Yields.canon (fun W => planDct2_yields n) h)).2.2.1
  | @dst3 n a s' h _ => exact V (canon23_acc hf hn (Yields.canon (fun W => planDct2_yields n) h)).2.2.2
  | @dst4 n a s' h _ => exact V (canon4_acc hf hn (Yields.canon (fun W => planDct4_yields n) h)).2
  | @dst5 n a s' h => exact V (canonDst5_acc_dst5 R hn (Yields.canon (fun W => planDst5_yields n) h))
  | @dst6 n a s' h =>
    have := canonDst6_acc_dst6 hf hn (Yields.canon (fun W => planDst6_yields n) h)
    exact ⟨this.1, fun hk => this.2 (by simpa [Kind.leakyAt] using hk)⟩
  | @dst7 n a s' h =>
    have := canonDst6_acc_dst7 hf hn (Yields.canon (fun W => planDst6_yields n) h)
    exact ⟨this.1, fun hk => this.2 (by simpa [Kind.leakyAt] using hk)⟩
  | @dst8 n a s' h => exact V (canonDst8_acc_dst8 R hn (Yields.canon (fun W => planDst8_yields n) h))

/-! ### On lists -/

theorem Kind.spec_vec (k : Kind) (n : ℕ) (f : ℕ → ℝ) : k.spec (vec n f) = vec n (k.specAt n f) := by
  have h : k.spec = Spec.onList k.specAt := by cases k <;> rfl
  rw [h]
  exact onList_vec_local _ k.local n f

theorem norm2_vec (n : ℕ) (f : ℕ → ℝ) : Spec.norm2 (vec n f) = wn (fun _ => 1) n f := by
  unfold Spec.norm2 wn
  rw [map_vec, sum_vec_real]
  simp

theorem Kind.half_le_weight (k : Kind) {n : ℕ} (h1 : k = .dct1 → 2 ≤ n) (i : ℕ) : 1 / 2 ≤ k.weight n i := by
  cases k <;> simp only [Kind.weight, Spec.halfAt]
  case dct1 =>
    have := h1 rfl
    by_cases h : i = 0
    · rw [if_pos h, if_neg (by omega)]; norm_num
    · rw [if_neg h]; split_ifs <;> norm_num
  all_goals first | (split_ifs <;> norm_num) | norm_num

/-- From the weighted to the ordinary norm. -/
theorem Kind.norm_le (k : Kind) {n : ℕ} (h1 : k = .dct1 → 2 ≤ n) {ε : ℝ} (hε : 0 ≤ ε) {d z : ℕ → ℝ} (h : (k.inv.nm n).of d ≤ ε * (k.inv.nm n).of z) :
    wn (fun _ => 1) n d ≤ k.boundary * ε * wn (fun _ => 1) n z := by
  by_cases hk : ∀ i, k.inv.weight n i = 1
  · have hb : (1 : ℝ) ≤ k.boundary := by
      cases k <;> simp only [Kind.boundary] <;> first | exact le_refl _ | exact Real.one_le_sqrt.2 (by norm_num)
    simp only [Kind.nm, Nm.w, show k.inv.weight n = fun _ => 1 from funext hk] at h
    refine h.trans ?_
    rw [mul_assoc]
    exact le_mul_of_one_le_left (mul_nonneg hε wn_nonneg) hb
  · have hb : k.boundary = √2 := by
      cases k <;> first | rfl | exact absurd (fun i => rfl) hk
    rw [hb]
    have a : wn (fun _ => 1) n d ≤ √2 * (k.inv.nm n).of d := by
      simp only [Kind.nm, Nm.w, wn]
      rw [← sqrt_mul (by norm_num)]
      apply sqrt_le_sqrt
      rw [mul_sum]
      refine sum_le_sum fun i _ => ?_
      have := k.inv.half_le_weight (n := n) (fun e => h1 (by revert e; cases k <;> simp [Kind.inv])) i
      nlinarith [sq_nonneg ‖d i‖]
    have b : (k.inv.nm n).of z ≤ wn (fun _ => 1) n z := by
      simp only [Kind.nm, Nm.w, wn]
      exact sqrt_le_sqrt (sum_le_sum fun i _ => mul_le_mul_of_nonneg_right (k.inv.weight_le_one n i) (sq_nonneg _))
    calc wn (fun _ => 1) n d ≤ √2 * (k.inv.nm n).of d := a
      _ ≤ √2 * (ε * (k.inv.nm n).of z) := mul_le_mul_of_nonneg_left h (sqrt_nonneg _)
      _ ≤ √2 * (ε * wn (fun _ => 1) n z) := mul_le_mul_of_nonneg_left (mul_le_mul_of_nonneg_left b hε) (sqrt_nonneg _)
      _ = _ := by ring

theorem TransAcc.close {k : Kind} {n : ℕ} {C : (ℕ → T) → ℕ → T} {ε : ℝ} (h : TransAcc R k n C ε) (hn : 1 ≤ n) (h1 : k = .dct1 → 2 ≤ n) (f : ℕ → T) :
    (k.inv.nm n).of (R.seq (C f) - k.specAt n (R.seq f)) ≤ ε * (k.inv.nm n).of (k.specAt n (R.seq f)) := by
  refine (h f).trans (le_of_eq ?_)
  congr 1
  have hp := k.parseval h1 (R.seq f)
  simp only [Kind.nm, Nm.w, wn, Real.norm_eq_abs, sq_abs]
  rw [← sqrt_mul (k.scale_nonneg hn)]
  congr 1
  simpa [pow_two] using hp.symm

theorem TransAcc.relErr {k : Kind} {n : ℕ} {C : (ℕ → T) → ℕ → T} {ε : ℝ} (h : TransAcc R k n C ε) (hε : 0 ≤ ε) (hn : 1 ≤ n) (h1 : k = .dct1 → 2 ≤ n) (f : ℕ → T) :
    Spec.RelErr (k.boundary * ε) ((vec n (C f)).map R.val) (k.spec ((vec n f).map R.val)) := by
  have h2 := k.norm_le h1 hε (h.close hn h1 f)
  rw [map_vec, map_vec, k.spec_vec]
  refine ⟨by simp, ?_⟩
  rw [zipWith_vec_same, norm2_vec, norm2_vec]
  exact h2

theorem PAcc.approximates {k : Kind} {p : Proc T} {n s : ℕ} {ε : ℝ} (h : PAcc R k p n s ε) (hε : 0 ≤ ε) (hn : 1 ≤ n) (h1 : k = .dct1 → 2 ≤ n) :
    Approximates R p n s k.spec (k.boundary * ε) := by
  obtain ⟨C, hC, h⟩ := h
  have key : ∀ m, ValidCall n s m → ∃ m', p m = .ok m' ∧ Spec.RelErr (k.boundary * ε) (m'.buf.map R.val) (k.spec (m.buf.map R.val)) := by
    rintro ⟨buf, scr⟩ ⟨hb, hs⟩
    obtain ⟨f, rfl⟩ := exists_vec hb
    obtain ⟨scr', e, -⟩ := hC f scr hs
    exact ⟨_, e, h.relErr hε hn h1 f⟩
  refine ⟨key, fun buf hb => ?_⟩
  obtain ⟨m', e, hm⟩ := key ⟨buf, List.replicate s 0⟩ ⟨hb, by simp⟩
  exact ⟨m'.buf, by unfold processDefault; rw [e], hm⟩

theorem PAccZ.approximates {k : Kind} {p : Proc T} {n s : ℕ} {ε : ℝ} (h : PAccZ R k p n s ε) (hε : 0 ≤ ε) (hn : 1 ≤ n) (h1 : k = .dct1 → 2 ≤ n) :
    ApproximatesZeroed R p n s k.spec (k.boundary * ε) := by
  obtain ⟨C, hC, h⟩ := h
  have key : ∀ buf, buf.length = n → ∃ m', p ⟨buf, List.replicate s 0⟩ = .ok m' ∧ Spec.RelErr (k.boundary * ε) (m'.buf.map R.val) (k.spec (buf.map R.val)) := by
    intro buf hb
    obtain ⟨f, rfl⟩ := exists_vec hb
    obtain ⟨scr', e, -⟩ := hC f []
    rw [List.append_nil] at e
    exact ⟨_, e, h.relErr hε hn h1 f⟩
  refine ⟨key, fun buf hb => ?_⟩
  obtain ⟨m', e, hm⟩ := key buf hb
  exact ⟨m'.buf, by unfold processDefault; rw [e], hm⟩

end RustDct
