import Verif.Range.Naive
import Verif.Float.Fft4
/-!
# The transforms that convert to an FFT, in arithmetic of bounded range
-/

set_option linter.all false

namespace RustDct
open Finset Real

variable {T F : Type} [F64 F] [DctNum T F] {R : Ieee T F}

def CBd (R : Ieee T F) (b : ℝ) (c m : ℕ) (z : Cx T) (Z : Cx ℝ) : Prop := Bd R b c m z.re Z.re ∧ Bd R b c m z.im Z.im

/-- The computed FFT `D` of length `N` against the DFT. -/
def DftRel (R : Ieee T F) (N : ℕ) (D : (ℕ → Cx T) → ℕ → Cx T) (γ μ : ℕ) : Prop :=
  ∀ (b : ℝ) (c m : ℕ) (f : ℕ → Cx T) (F : ℕ → Cx ℝ), R.L ≤ b → 1 ≤ c → (∀ j < N, CBd R b c m (f j) (F j)) → ∀ k < N, CBd R b (γ * c) (m + μ) (D f k) (dftRI N F k)

theorem dftRI_sub_le {N : ℕ} {x y : ℕ → Cx ℝ} {B : ℝ} (hr : ∀ j < N, |(x j).re - (y j).re| ≤ B) (hi : ∀ j < N, |(x j).im - (y j).im| ≤ B) (k : ℕ) :
    |(dftRI N x k).re - (dftRI N y k).re| ≤ 2 * N * B ∧ |(dftRI N x k).im - (dftRI N y k).im| ≤ 2 * N * B := by
  have hs : ∑ _j ∈ range N, (B + B) = 2 * N * B := by rw [sum_const, card_range, nsmul_eq_mul]; ring
  have hm : ∀ (a t : ℝ), |a| ≤ B → |t| ≤ 1 → |a * t| ≤ B := fun a t ha ht => by
    rw [abs_mul]
    exact (mul_le_mul_of_nonneg_left ht (abs_nonneg a)).trans (by linarith)
  constructor
  · simp only [dftRI]
    rw [← sum_sub_distrib, ← hs]
    refine (abs_sum_le_sum_abs _ _).trans (sum_le_sum fun j hj => ?_)
    rw [mem_range] at hj
    have h1 := hm _ _ (hr j hj) (abs_cos_le_one (2 * π * (j * k) / N))
    have h2 := hm _ _ (hi j hj) (abs_sin_le_one (2 * π * (j * k) / N))
    have h3 := abs_add_le (((x j).re - (y j).re) * cos (2 * π * (j * k) / N)) (((x j).im - (y j).im) * sin (2 * π * (j * k) / N))
    refine le_trans (le_of_eq ?_) (h3.trans (add_le_add h1 h2))
    congr 1; ring
  · simp only [dftRI]
    rw [← sum_sub_distrib, ← hs]
    refine (abs_sum_le_sum_abs _ _).trans (sum_le_sum fun j hj => ?_)
    rw [mem_range] at hj
    have h1 := hm _ _ (hi j hj) (abs_cos_le_one (2 * π * (j * k) / N))
    have h2 := hm _ _ (hr j hj) (abs_sin_le_one (2 * π * (j * k) / N))
    have h3 := abs_sub (((x j).im - (y j).im) * cos (2 * π * (j * k) / N)) (((x j).re - (y j).re) * sin (2 * π * (j * k) / N))
    refine le_trans (le_of_eq ?_) (h3.trans (add_le_add h1 h2))
    congr 1; ring

theorem dftRI_le {N : ℕ} {x : ℕ → Cx ℝ} {B : ℝ} (hr : ∀ j < N, |(x j).re| ≤ B) (hi : ∀ j < N, |(x j).im| ≤ B) (k : ℕ) :
    |(dftRI N x k).re| ≤ 2 * N * B ∧ |(dftRI N x k).im| ≤ 2 * N * B := by
  have h := dftRI_sub_le (x := x) (y := fun _ => ⟨0, 0⟩) (N := N) (B := B) (by simpa using hr) (by simpa using hi) k
  have h0 : dftRI N (fun _ => (⟨0, 0⟩ : Cx ℝ)) k = ⟨0, 0⟩ := by simp [dftRI]
  rw [h0] at h
  simpa using h

theorem FftRange.rel {fft : Fft T} {γ μ : ℕ} (h : FftRange R fft γ μ) (h1 : 1 ≤ γ) (hγ : 2 * fft.len ≤ γ) :
    ∃ G, FftRuns fft G ∧ DftRel R fft.len G γ μ := by
  obtain ⟨-, G, hG⟩ := h
  refine ⟨fun c k => (G (vec fft.len c)).getD k 0, fun c scr hs => ?_, ?_⟩
  · obtain ⟨a1, a2, -⟩ := hG (vec fft.len c) (by simp)
    obtain ⟨scr', a3, a4⟩ := a1 scr hs
    refine ⟨scr', ?_, a4⟩
    rw [a3]
    congr 2
    apply List.ext_getElem
    · simp [a2]
    · intro i hi hi'
      have e : ∀ y : List (Cx T), ∀ h : i < y.length, y[i] = y.getD i 0 := fun y h => by simp [List.getD, List.getElem?_eq_getElem h]
      rw [e _ hi]
      simp [vec, List.getD]
  · intro b c m f F hb hc hf k hk
    obtain ⟨-, a2, a3⟩ := hG (vec fft.len f) (by simp)
    have b0 : 0 ≤ b := R.L_pos.le.trans hb
    have hcb := Bd.one_mul_le (R := R) (c := c) hb hc
    have hcb0 := R.L_pos.le.trans hcb
    have g1 : (1 : ℝ) ≤ γ := by exact_mod_cast h1
    have p1 := R.one_le_pow m
    have p2 := R.one_le_pow μ
    have key : ((γ * c : ℕ) : ℝ) * b * (1 + R.u) ^ (m + μ) ≤ R.M → 
        (R.fin ((G (vec fft.len f)).getD k 0).re ∧ |(dftRI fft.len F k).re| ≤ ((γ * c : ℕ) : ℝ) * b ∧
          |R.val ((G (vec fft.len f)).getD k 0).re - (dftRI fft.len F k).re| ≤ ((1 + R.u) ^ (m + μ) - 1) * (((γ * c : ℕ) : ℝ) * b)) ∧ 
        (R.fin ((G (vec fft.len f)).getD k 0).im ∧ |(dftRI fft.len F k).im| ≤ ((γ * c : ℕ) : ℝ) * b ∧
          |R.val ((G (vec fft.len f)).getD k 0).im - (dftRI fft.len F k).im| ≤ ((1 + R.u) ^ (m + μ) - 1) * (((γ * c : ℕ) : ℝ) * b)) := by
      intro hM
      have e1 : ((γ * c : ℕ) : ℝ) * b * (1 + R.u) ^ (m + μ) = γ * (c * b * (1 + R.u) ^ m) * (1 + R.u) ^ μ := by push_cast; rw [pow_add]; ring
      rw [e1] at hM
      have hB : (0 : ℝ) ≤ c * b * (1 + R.u) ^ m := mul_nonneg hcb0 (by linarith)
      have hM' : c * b * (1 + R.u) ^ m ≤ R.M := by
        refine le_trans ?_ hM
        have : c * b * (1 + R.u) ^ m ≤ γ * (c * b * (1 + R.u) ^ m) := by nlinarith
        nlinarith
      have hin : ∀ j < fft.len, (R.fin (f j).re ∧ R.fin (f j).im) ∧ (|(F j).re| ≤ c * b ∧ |(F j).im| ≤ c * b) ∧
          (|R.val (f j).re - (F j).re| ≤ ((1 + R.u) ^ m - 1) * (c * b) ∧ |R.val (f j).im - (F j).im| ≤ ((1 + R.u) ^ m - 1) * (c * b)) ∧
          (|R.val (f j).re| ≤ c * b * (1 + R.u) ^ m ∧ |R.val (f j).im| ≤ c * b * (1 + R.u) ^ m) := fun j hj => by
        obtain ⟨x1, x2, x3⟩ := (hf j hj).1.2 hM'
        obtain ⟨y1, y2, y3⟩ := (hf j hj).2.2 hM'
        refine ⟨⟨x1, y1⟩, ⟨x2, y2⟩, ⟨x3, y3⟩, ?_, ?_⟩
        · have := abs_add_le (R.val (f j).re - (F j).re) (F j).re
          rw [sub_add_cancel] at this
          linarith
        · have := abs_add_le (R.val (f j).im - (F j).im) (F j).im
          rw [sub_add_cancel] at this
          linarith
      have hLB : R.L ≤ c * b * (1 + R.u) ^ m := hcb.trans (by nlinarith)
      have a4 := a3 _ hLB hM (by
        intro z hz
        simp only [vec, List.mem_map, List.mem_range] at hz
        obtain ⟨j, hj, rfl⟩ := hz
        obtain ⟨x, -, -, y⟩ := hin j hj
        exact ⟨x.1, x.2, y.1, y.2⟩)
      have e2 : Spec.dft ((vec fft.len f).map R.toC) = (vec fft.len (dftRI fft.len fun j => ⟨R.val (f j).re, R.val (f j).im⟩)).map Cx.toC := by
        rw [← dft_vec, map_vec, map_vec]
        rfl
      have hk2 : k < (List.zip (G (vec fft.len f)) (Spec.dft ((vec fft.len f).map R.toC))).length := by
        rw [List.length_zip, a2, e2]; simpa using hk
      have a5 := a4 _ (List.getElem_mem hk2)
      have e3 : (List.zip (G (vec fft.len f)) (Spec.dft ((vec fft.len f).map R.toC)))[k] =
          ((G (vec fft.len f)).getD k 0, (dftRI fft.len (fun j => ⟨R.val (f j).re, R.val (f j).im⟩) k).toC) := by
        rw [List.getElem_zip]
        refine Prod.ext ?_ ?_
        · simp [List.getD, List.getElem?_eq_getElem (show k < (G (vec fft.len f)).length by rw [a2]; exact hk)]
        · simp only [e2]
          simp [vec]
      rw [e3] at a5
      obtain ⟨f1, f2, f3, f4⟩ := a5
      have d1 := dftRI_sub_le (N := fft.len) (x := fun j => ⟨R.val (f j).re, R.val (f j).im⟩) (y := F) (fun j hj => (hin j hj).2.2.1.1) (fun j hj => (hin j hj).2.2.1.2) k
      have d2 := dftRI_le (N := fft.len) (x := F) (fun j hj => (hin j hj).2.1.1) (fun j hj => (hin j hj).2.1.2) k
      have g2 : 2 * (fft.len : ℝ) ≤ γ := by exact_mod_cast hγ
      have s1 : 2 * (fft.len : ℝ) * (c * b) ≤ ((γ * c : ℕ) : ℝ) * b := by
        push_cast; rw [mul_assoc (γ : ℝ)]
        exact mul_le_mul_of_nonneg_right g2 hcb0
      have s2 : 2 * (fft.len : ℝ) * (((1 + R.u) ^ m - 1) * (c * b)) + ((1 + R.u) ^ μ - 1) * (γ * (c * b * (1 + R.u) ^ m)) ≤
          ((1 + R.u) ^ (m + μ) - 1) * (((γ * c : ℕ) : ℝ) * b) := by
        have := mul_le_mul_of_nonneg_right g2 (show 0 ≤ ((1 + R.u) ^ m - 1) * (c * b) from mul_nonneg (by linarith) hcb0)
        push_cast
        rw [pow_add]
        nlinarith
      refine ⟨⟨f1, d2.1.trans s1, ?_⟩, f2, d2.2.trans s1, ?_⟩
      · refine (abs_sub_le _ (dftRI fft.len (fun j => ⟨R.val (f j).re, R.val (f j).im⟩) k).re _).trans (le_trans ?_ s2)
        have := d1.1
        simp only [Cx.toC] at f3
        linarith
      · refine (abs_sub_le _ (dftRI fft.len (fun j => ⟨R.val (f j).re, R.val (f j).im⟩) k).im _).trans (le_trans ?_ s2)
        have := d1.2
        simp only [Cx.toC] at f4
        linarith
    have hc1 : 1 ≤ γ * c := Nat.mul_pos h1 hc
    exact ⟨⟨hc1, fun hM => (key hM).1⟩, hc1, fun hM => (key hM).2⟩

/-! ### DCT1, DST1, DST6 and DST7 -/

theorem CBd.ofRe {b : ℝ} {c m : ℕ} {x : T} {X : ℝ} (hb : R.L ≤ b) (h : Bd R b c m x X) : CBd R b c m (Cx.ofRe x) (Cx.ofRe X) := ⟨h, Bd.zero' hb h.1⟩
theorem CBd.mono {b : ℝ} {c m c' m' : ℕ} {z : Cx T} {Z : Cx ℝ} (h : CBd R b c m z Z) (hb : R.L ≤ b) (hc : c ≤ c') (hm : m ≤ m') : CBd R b c' m' z Z :=
  ⟨h.1.mono hb hc hm, h.2.mono hb hc hm⟩

theorem Dct1ConvertToFft.rel {fft : Fft T} {G : (ℕ → Cx T) → ℕ → Cx T} {γ μ : ℕ} (hG : FftRuns fft G) {n : ℕ} (hn : 2 ≤ n) (hL : fft.len = (n - 1) * 2)
    (hD : DftRel R ((n - 1) * 2) G γ μ) : PRel R .dct1 (Dct1ConvertToFft.inst fft).dct1 n (Dct1ConvertToFft.inst fft).scratchLen γ (μ + 1) := by
  refine ⟨_, Dct1ConvertToFft.runs hG hn hL, fun b c m f F hb hc hf i hi => ?_⟩
  have e : _ = Kind.dct1.specAt n F i := RunsV.unique (Dct1ConvertToFft.runs (dftFft_contract ((n - 1) * 2) 0).runs hn rfl) (Dct1ConvertToFft.correct (dftFft_contract ((n - 1) * 2) 0) hn rfl) F hi
  rw [← e]
  refine Bd.mul1 (k := 0) hb (hD b c m _ _ hb hc (fun j hj => CBd.ofRe hb ?_) i (by omega)).1 Tw.half
  split_ifs <;> exact hf _ (by omega)

theorem Dst1ConvertToFft.rel {fft : Fft T} {G : (ℕ → Cx T) → ℕ → Cx T} {γ μ : ℕ} (hG : FftRuns fft G) {n : ℕ} (hL : fft.len = (n + 1) * 2)
    (hD : DftRel R ((n + 1) * 2) G γ μ) : PRelZ R .dst1 (Dst1ConvertToFft.inst fft).dst1 n (Dst1ConvertToFft.inst fft).scratchLen γ (μ + 1) := by
  refine ⟨_, (Dst1ConvertToFft.runs hG hL).toZ, fun b c m f F hb hc hf i hi => ?_⟩
  have e := RunsG.unique (Dst1ConvertToFft.runs (dftFft_contract ((n + 1) * 2) 0).runs rfl) (Dst1ConvertToFft.correct (dftFft_contract ((n + 1) * 2) 0) rfl) (fun _ => 0) F hi
  rw [show dst1Pollution n (fun _ => 0) i = 0 by simp [dst1Pollution], add_zero] at e
  change _ = Kind.dst1.specAt n F i at e
  rw [← e]
  refine Bd.mul1 (k := 0) hb (hD b c m _ _ hb hc (fun j hj => ?_) _ (by omega)).2 Tw.half
  unfold dst1FftInput
  split_ifs
  · exact ⟨Bd.zero' hb hc, Bd.zero' hb hc⟩
  · exact CBd.ofRe hb (hf _ (by omega))
  · exact CBd.ofRe hb (hf _ (by omega)).neg

theorem Dst6And7ConvertToFft.rel_dst6 {fft : Fft T} {G : (ℕ → Cx T) → ℕ → Cx T} {γ μ : ℕ} (hG : FftRuns fft G) {n : ℕ} (hL : fft.len = n * 2 + 1)
    (hD : DftRel R (n * 2 + 1) G γ μ) : PRelZ R .dst6 (Dst6And7ConvertToFft.inst fft).dst6 n (Dst6And7ConvertToFft.inst fft).scratchLen γ μ := by
  refine ⟨_, (Dst6And7ConvertToFft.runs_dst6 hG hL).toZ, fun b c m f F hb hc hf i hi => ?_⟩
  have e := RunsG.unique (Dst6And7ConvertToFft.runs_dst6 (dftFft_contract (n * 2 + 1) 0).runs rfl) (Dst6And7ConvertToFft.correct_dst6 (dftFft_contract (n * 2 + 1) 0) rfl) (fun _ => 0) F hi
  rw [show dst6Pollution n (fun _ => 0) i = 0 by simp [dst6Pollution], add_zero] at e
  change _ = Kind.dst6.specAt n F i at e
  rw [← e]
  have h : ∀ j < n * 2 + 1, CBd R b c m (dst6FftInput (fun _ => 0) f j) (dst6FftInput (fun _ => 0) F j) := fun j hj => by
    unfold dst6FftInput
    split_ifs
    · exact ⟨Bd.zero' hb hc, hf _ (by omega)⟩
    · exact ⟨Bd.zero' hb hc, Bd.zero' hb hc⟩
  beta_reduce
  split_ifs <;> exact (hD b c m _ _ hb hc h _ (by show _ < n * 2 + 1; omega)).1

theorem Dst6And7ConvertToFft.rel_dst7 {fft : Fft T} {G : (ℕ → Cx T) → ℕ → Cx T} {γ μ : ℕ} (hG : FftRuns fft G) {n : ℕ} (hL : fft.len = n * 2 + 1)
    (hD : DftRel R (n * 2 + 1) G γ μ) : PRelZ R .dst7 (Dst6And7ConvertToFft.inst fft).dst7 n (Dst6And7ConvertToFft.inst fft).scratchLen γ (μ + 1) := by
  refine ⟨_, (Dst6And7ConvertToFft.runs_dst7 hG hL).toZ, fun b c m f F hb hc hf i hi => ?_⟩
  have e := RunsG.unique (Dst6And7ConvertToFft.runs_dst7 (dftFft_contract (n * 2 + 1) 0).runs rfl) (Dst6And7ConvertToFft.correct_dst7 (dftFft_contract (n * 2 + 1) 0) rfl) (fun _ => 0) F hi
  rw [show dst7Pollution (fun _ => 0) i = 0 by simp [dst7Pollution], add_zero] at e
  change _ = Kind.dst7.specAt n F i at e
  rw [← e]
  have hd : ∀ m < n, dst7Index n m < n := fun m hm => by unfold dst7Index; split_ifs <;> omega
  refine Bd.mul1 (k := 0) hb (hD b c m _ _ hb hc (fun j hj => ?_) _ (by omega)).2 Tw.half
  unfold dst7FftInput
  split_ifs
  · exact ⟨Bd.zero' hb hc, Bd.zero' hb hc⟩
  · have h := CBd.ofRe hb (hf (dst7Index n (n - j)) (hd _ (by omega)))
    exact ⟨h.1.neg, h.2.neg⟩
  · exact CBd.ofRe hb (hf _ (hd _ (by omega)))

/-! ### Types 2 and 3 -/

theorem CBd.mul {b : ℝ} {c m r : ℕ} {z w : Cx T} {Z W : Cx ℝ} (hb : R.L ≤ b) (h : CBd R b c m z Z) (hr : Tw R 1 r w.re W.re) (hi : Tw R 1 r w.im W.im) :
    CBd R b (2 * c) (m + r + 2) (Cx.mul z w) (Cx.mul Z W) := by
  obtain ⟨h1, h2⟩ := h
  constructor
  · exact (Bd.sub hb (Bd.mul1 hb h1 hr) (Bd.mul1 hb h2 hi)).mono hb (by omega) (by omega)
  · exact (Bd.add hb (Bd.mul1 hb h1 hi) (Bd.mul1 hb h2 hr)).mono hb (by omega) (by omega)

theorem CBd.scale {b : ℝ} {c m r : ℕ} {z : Cx T} {Z : Cx ℝ} {w : T} {W : ℝ} (hb : R.L ≤ b) (h : CBd R b c m z Z) (hr : Tw R 1 r w W) :
    CBd R b c (m + r + 1) (Cx.scale z w) (Cx.scale Z W) := ⟨Bd.mul1 hb h.1 hr, Bd.mul1 hb h.2 hr⟩

theorem dst2_of_dct2_rel {n a d : ℕ} {C : (ℕ → T) → ℕ → T} (h : TransRel R .dct2 n C a d) :
    TransRel R .dst2 n (fun f k => C (fun j => if j < n ∧ j % 2 = 1 then -(f j) else f j) (n - 1 - k)) a d := by
  intro b c m f F hb hc hf i hi
  have h1 := h b c m (fun j => if j < n ∧ j % 2 = 1 then -(f j) else f j) (fun j => if j < n ∧ j % 2 = 1 then -(F j) else F j) hb hc
    (fun j hj => by
      beta_reduce
      split_ifs
      · exact (hf j hj).neg
      · exact hf j hj) (n - 1 - i) (by omega)
  have e : Kind.dst2.specAt n F i = Kind.dct2.specAt n (fun j => if j < n ∧ j % 2 = 1 then -(F j) else F j) (n - 1 - i) := by
    show Spec.dst2At n _ _ = Spec.dct2At n _ _
    rw [dst2_eq' (j := n - 1 - i) (by omega) (by omega)]
    refine dct2At_congr (fun j hj => ?_) _
    rw [← ite_neg_pow]
    by_cases h : j % 2 = 0
    · rw [if_pos h, if_neg (by omega)]
    · rw [if_neg h, if_pos (by omega)]
  rw [e]
  exact h1

theorem dst3_of_dct3_rel {n a d : ℕ} {C : (ℕ → T) → ℕ → T} (h : TransRel R .dct3 n C a d) :
    TransRel R .dst3 n (fun f j => if j < n ∧ j % 2 = 1 then -(C (fun i => f (n - 1 - i)) j) else C (fun i => f (n - 1 - i)) j) a d := by
  intro b c m f F hb hc hf i hi
  have h1 := h b c m (fun i => f (n - 1 - i)) (fun i => F (n - 1 - i)) hb hc (fun j hj => hf _ (by omega)) i hi
  have e : Kind.dst3.specAt n F i = if i < n ∧ i % 2 = 1 then -(Kind.dct3.specAt n (fun i => F (n - 1 - i)) i) else Kind.dct3.specAt n (fun i => F (n - 1 - i)) i := by
    show Spec.dst3At n _ _ = if _ then -(Spec.dct3At n _ _) else Spec.dct3At n _ _
    rw [dst3At_eq _ hi, ← ite_neg_pow]
    by_cases h : i % 2 = 0
    · rw [if_pos h, if_neg (by omega)]
    · rw [if_neg h, if_pos (by omega)]
  rw [e]
  beta_reduce
  split_ifs
  · exact h1.neg
  · exact h1

theorem dct2_fft_rel {fft : Fft T} {G : (ℕ → Cx T) → ℕ → Cx T} {γ μ r : ℕ} (hr : R.Twiddles r) (hG : FftRuns fft G) {n : ℕ} (hn : 1 ≤ n) (hn' : n ≤ 2 ^ 60) (hL : fft.len = n)
    (hD : DftRel R n G γ μ) : TransRel R .dct2 n (fun f k => (Cx.mul (G (gath2 n f) k) (singleTwiddle k (n * 4))).re) (2 * γ) (μ + r + 3) := by
  intro b c m f F hb hc hf i hi
  have e : _ = Kind.dct2.specAt n F i := RunsV.unique (Type2And3ConvertToFft.runs_dct2 (dftFft_contract n 0).runs rfl) (Type2And3ConvertToFft.correct_dct2 (dftFft_contract n 0) rfl) F hi
  rw [← e]
  have h := CBd.mul hb (hD b c m (gath2 n f) (gath2 n F) hb hc (fun j hj => by unfold gath2; split_ifs <;> exact CBd.ofRe hb (hf _ (by omega))) i hi)
    (Ieee.tw_re hr (i := i) (n := n * 4) (by omega) (by omega) (by omega)) (Ieee.tw_im hr (by omega) (by omega) (by omega))
  exact h.1.mono hb (le_of_eq (by ring)) (by omega)

theorem dct3_fft_rel {fft : Fft T} {G : (ℕ → Cx T) → ℕ → Cx T} {γ μ r : ℕ} (hr : R.Twiddles r) (hG : FftRuns fft G) {n : ℕ} (hn : 1 ≤ n) (hn' : n ≤ 2 ^ 60) (hL : fft.len = n)
    (hD : DftRel R n G γ μ) : TransRel R .dct3 n (fun f => scat3 n (G (pre3 (fun j => singleTwiddle j (n * 4)) (thalf T) n f))) (2 * γ) (μ + r + 3) := by
  intro b c m f F hb hc hf i hi
  have e : _ = Kind.dct3.specAt n F i := RunsV.unique (Type2And3ConvertToFft.runs_dct3 (dftFft_contract n 0).runs hn rfl) (Type2And3ConvertToFft.correct_dct3 (dftFft_contract n 0) hn rfl) F hi
  rw [← e]
  have h : ∀ j < n, CBd R b (2 * c) (m + (r + 3)) (pre3 (fun j => singleTwiddle j (n * 4)) (thalf T) n f j) (pre3 (fun j => singleTwiddle j (n * 4)) (thalf ℝ) n F j) := fun j hj => by
    unfold pre3
    split_ifs with h0
    · exact (CBd.ofRe hb (Bd.mul1 hb (hf 0 (by omega)) Tw.half)).mono hb (by omega) (by omega)
    · have h1 : CBd R b c m ⟨f j, f (n - j)⟩ ⟨F j, F (n - j)⟩ := ⟨hf _ hj, hf _ (by omega)⟩
      have h2 := CBd.scale hb (CBd.mul hb h1
        (Ieee.tw_re hr (i := j) (n := n * 4) (by omega) (by omega) (by omega)) (Ieee.tw_im hr (by omega) (by omega) (by omega))) Tw.half
      exact h2.mono hb (le_refl _) (by omega)
  have h2 := hD b (2 * c) (m + (r + 3)) _ _ hb (by omega) h
  show Bd R b _ _ (scat3 n _ i) (scat3 n (dftRI n (pre3 (fun j => singleTwiddle j (n * 4)) (thalf ℝ) n F)) i)
  unfold scat3
  split_ifs
  · exact (h2 (i / 2) (by omega)).1.mono hb (le_of_eq (by ring)) (by omega)
  · exact (h2 (n - 1 - i / 2) (by omega)).1.mono hb (le_of_eq (by ring)) (by omega)

theorem TransRel.congr {k : Kind} {n a d : ℕ} {C C' : (ℕ → T) → ℕ → T} (h : TransRel R k n C a d) (hC : ∀ f i, i < n → C' f i = C f i) : TransRel R k n C' a d :=
  fun b c m f F hb hc hf i hi => by rw [hC f i hi]; exact h b c m f F hb hc hf i hi

section
variable {fft : Fft T} {G : (ℕ → Cx T) → ℕ → Cx T} {γ μ r n : ℕ} (hr : R.Twiddles r) (hG : FftRuns fft G) (hn : 1 ≤ n) (hn' : n ≤ 2 ^ 60) (hL : fft.len = n) (hD : DftRel R n G γ μ)
include hr hG hn hn' hL hD

theorem Type2And3ConvertToFft.rel_dct2 : PRel R .dct2 (Type2And3ConvertToFft.inst fft).dct2 n (Type2And3ConvertToFft.inst fft).scratchLen (2 * γ) (μ + r + 3) :=
  ⟨_, Type2And3ConvertToFft.runs_dct2 hG hL, dct2_fft_rel hr hG hn hn' hL hD⟩

theorem Type2And3ConvertToFft.rel_dct3 : PRel R .dct3 (Type2And3ConvertToFft.inst fft).dct3 n (Type2And3ConvertToFft.inst fft).scratchLen (2 * γ) (μ + r + 3) :=
  ⟨_, Type2And3ConvertToFft.runs_dct3 hG hn hL, dct3_fft_rel hr hG hn hn' hL hD⟩

theorem Type2And3ConvertToFft.rel_dst2 : PRel R .dst2 (Type2And3ConvertToFft.inst fft).dst2 n (Type2And3ConvertToFft.inst fft).scratchLen (2 * γ) (μ + r + 3) := by
  refine ⟨_, Type2And3ConvertToFft.runs_dst2 hG hL, (dst2_of_dct2_rel (dct2_fft_rel hr hG hn hn' hL hD)).congr fun f k hk => ?_⟩
  beta_reduce
  rw [hG.ext (k := n - 1 - k) (c' := gath2 n fun j => if j < n ∧ j % 2 = 1 then -(f j) else f j) _ (by omega)]
  intro j hj
  rw [hL] at hj
  unfold gath2
  beta_reduce
  by_cases h1 : j < (n + 1) / 2
  · rw [if_pos h1, if_pos h1, if_neg (by omega)]
  · rw [if_neg h1, if_neg h1, if_pos (by omega)]

theorem Type2And3ConvertToFft.rel_dst3 : PRel R .dst3 (Type2And3ConvertToFft.inst fft).dst3 n (Type2And3ConvertToFft.inst fft).scratchLen (2 * γ) (μ + r + 3) := by
  refine ⟨_, Type2And3ConvertToFft.runs_dst3 hG hn hL, (dst3_of_dct3_rel (dct3_fft_rel hr hG hn hn' hL hD)).congr fun f k hk => ?_⟩
  have e : ∀ m, m < n → G (fun j => if j = 0 then Cx.ofRe (f (n - 1) * thalf T) else
      Cx.scale (Cx.mul ⟨f (n - j - 1), f (j - 1)⟩ (singleTwiddle j (n * 4))) (thalf T)) m =
      G (pre3 (fun j => singleTwiddle j (n * 4)) (thalf T) n fun i => f (n - 1 - i)) m := fun m hm => by
    refine hG.ext (fun j hj => ?_) (by omega)
    rw [hL] at hj
    unfold pre3
    by_cases h : j = 0
    · simp [h]
    · beta_reduce
      rw [if_neg h, if_neg h, show n - j - 1 = n - 1 - j by omega, show n - 1 - (n - j) = j - 1 by omega]
  simp only [scat3]
  by_cases h : k % 2 = 0
  · rw [if_pos h, if_neg (by omega), if_pos h, e _ (by omega)]
  · rw [if_neg h, if_pos (by omega), if_neg h, e _ (by omega)]
end

/-! ### Type 4, odd length -/

theorem Tw.altSign (m : ℕ) : Tw R 1 0 (RustDct.altSign m : T) (RustDct.altSign m : ℝ) := by
  induction m with
  | zero => exact Tw.one
  | succ m ih => exact ih.neg

theorem Tw.r4 : Tw R 1 2 (DctNum.sqrt2 * thalf T : T) (DctNum.sqrt2 * thalf ℝ : ℝ) := by
  have hs : √2 ≤ 2 := by rw [Real.sqrt_le_left (by norm_num)]; norm_num
  have h0 : 0 ≤ √2 := sqrt_nonneg _
  have hu := R.u_nonneg
  have hu' := R.u_le
  have e : (DctNum.sqrt2 * thalf ℝ : ℝ) = √2 * (1 / 2) := by rw [thalf_real]; rfl
  obtain ⟨h1, h2⟩ := R.sqrt2
  have h3 : |R.val DctNum.sqrt2 * R.val (thalf T) - √2 * (1 / 2)| ≤ ((1 + R.u) - 1) * 1 := by
    rw [R.half.2, ← sub_mul, abs_mul, abs_of_pos (show (0 : ℝ) < 1 / 2 by norm_num)]
    nlinarith
  have hX : |√2 * (1 / 2)| ≤ 1 := by rw [abs_of_nonneg (by positivity)]; linarith
  obtain ⟨h4, h5⟩ := round_step (s := R.val (DctNum.sqrt2 * thalf T)) hu R.one_le_g R.L_le hX h3 (M := R.M) (by nlinarith [R.M_ge]) zero_le_one
  obtain ⟨h6, h7⟩ := R.mul _ _ h1 R.half.1 h4
  refine ⟨le_refl _, h6, ?_, ?_⟩
  · rw [e]; simpa using hX
  · rw [e]; have := h5 h7; rw [pow_two]; simpa using this

theorem Tw.r4' (m : ℕ) : Tw R 1 3 (RustDct.altSign m * (DctNum.sqrt2 * thalf T) : T) (RustDct.altSign m * (DctNum.sqrt2 * thalf ℝ) : ℝ) := by
  have hu := R.u_nonneg
  have hu' := R.u_le
  obtain ⟨-, a1, a2, a3⟩ := Tw.altSign (R := R) m
  obtain ⟨-, b1, b2, b3⟩ := Tw.r4 (R := R)
  have e1 : R.val (RustDct.altSign m) = RustDct.altSign m := by
    simp only [pow_zero, sub_self, zero_mul] at a3
    exact sub_eq_zero.1 (abs_eq_zero.1 (le_antisymm a3 (abs_nonneg _)))
  simp only [Nat.cast_one] at a2 b2 b3
  have hX : |RustDct.altSign m * (DctNum.sqrt2 * thalf ℝ : ℝ)| ≤ 1 := by rw [abs_mul]; exact mul_le_one₀ a2 (abs_nonneg _) b2
  have h3 : |R.val (RustDct.altSign m) * R.val (DctNum.sqrt2 * thalf T) - RustDct.altSign m * (DctNum.sqrt2 * thalf ℝ : ℝ)| ≤ ((1 + R.u) ^ 2 - 1) * 1 := by
    rw [e1, ← mul_sub, abs_mul]
    exact (mul_le_mul a2 b3 (abs_nonneg _) zero_le_one).trans (le_of_eq (one_mul _))
  obtain ⟨h4, h5⟩ := round_step (s := R.val (RustDct.altSign m * (DctNum.sqrt2 * thalf T))) hu (R.one_le_pow 2) R.L_le hX h3 (M := R.M) (by nlinarith [R.M_ge]) zero_le_one
  obtain ⟨h6, h7⟩ := R.mul _ _ a1 b1 h4
  refine ⟨le_refl _, h6, by simpa using hX, ?_⟩
  have := h5 h7
  rw [← pow_succ] at this
  simpa using this

theorem Tw.sgn4 (n : ℕ) : Tw R 1 0 (RustDct.sgn4 n : T) (RustDct.sgn4 n : ℝ) := by
  unfold RustDct.sgn4
  split_ifs
  · exact Tw.one
  · exact Tw.one.neg

section
variable {n γ : ℕ} {b : ℝ} {c m : ℕ} {V : ℕ → Cx T} {W : ℕ → Cx ℝ} (hb : R.L ≤ b) (hn : n % 2 = 1) (hV : ∀ j < n, CBd R b c m (V j) (W j))
include hb hn hV

theorem Bd.mid4 {N : T → T} {N' : ℝ → ℝ} (hN : ∀ c m x X, Bd R b c m x X → Bd R b c m (N x) (N' X)) (k : ℕ) :
    Bd R b (2 * c) (m + 6) (RustDct.mid4 n V N k) (RustDct.mid4 n W N' k) := by
  have h0 := (hV 0 (by omega)).1
  have a := Tw.altSign (R := R) (n / 4)
  have r := Tw.r4 (R := R)
  simp only [RustDct.mid4]
  by_cases h1 : n % 4 = 1
  · rw [if_pos h1, if_pos h1]
    exact (Bd.mul1 hb (Bd.mul1 hb h0 a) r).mono hb (by omega) (by omega)
  · rw [if_neg h1, if_neg h1]
    obtain ⟨z1, z2⟩ := CBd.scale hb (hV (n - 2) (by omega)) (Tw.r4' (R := R) (n / 4))
    by_cases h2 : k = n / 2
    · rw [if_pos h2, if_pos h2]
      exact (Bd.mul1 hb (Bd.mul1 hb (hN _ _ _ _ h0) a) r).mono hb (by omega) (by omega)
    · rw [if_neg h2, if_neg h2]
      by_cases h3 : k = n / 2 + 1
      · rw [if_pos h3, if_pos h3]
        exact (Bd.add hb z1.neg z2).mono hb (by omega) (by omega)
      · rw [if_neg h3, if_neg h3]
        exact (Bd.add hb z1 z2).mono hb (by omega) (by omega)

theorem Bd.out4 {A B C D : Cx T → T} {A' B' C' D' : Cx ℝ → ℝ} {mid : ℕ → T} {mid' : ℕ → ℝ}
    (hA : ∀ z Z, CBd R b c (m + 4) z Z → Bd R b (2 * c) (m + 6) (A z) (A' Z)) (hB : ∀ z Z, CBd R b c (m + 4) z Z → Bd R b (2 * c) (m + 6) (B z) (B' Z))
    (hC : ∀ z Z, CBd R b c (m + 4) z Z → Bd R b (2 * c) (m + 6) (C z) (C' Z)) (hD : ∀ z Z, CBd R b c (m + 4) z Z → Bd R b (2 * c) (m + 6) (D z) (D' Z))
    (hm : ∀ k < n, Bd R b (2 * c) (m + 6) (mid k) (mid' k)) {k : ℕ} (hk : k < n) :
    Bd R b (2 * c) (m + 6) (RustDct.out4 n V A B C D mid k) (RustDct.out4 n W A' B' C' D' mid' k) := by
  have h : ∀ q, 2 * q + 1 < n → CBd R b c (m + 4) (Cx.scale (V (2 * q + 1)) (RustDct.altSign (q / 2) * (DctNum.sqrt2 * thalf T)))
      (Cx.scale (W (2 * q + 1)) (RustDct.altSign (q / 2) * (DctNum.sqrt2 * thalf ℝ))) := fun q hq => CBd.scale hb (hV _ hq) (Tw.r4' _)
  simp only [RustDct.out4]
  split_ifs
  · exact hA _ _ (h k (by omega))
  · exact hB _ _ (h k (by omega))
  · exact hD _ _ (h _ (by omega))
  · exact hC _ _ (h _ (by omega))
  · exact hm k hk
end

theorem type4In_bd {n c m : ℕ} {b : ℝ} (hb : R.L ≤ b) (hn : n % 2 = 1) {f : ℕ → T} {f' : ℕ → ℝ} (hf : ∀ i < n, Bd R b c m (f i) (f' i)) :
    ∀ j < n, CBd R b c m (type4FftInput n f j) (type4FftInput n f' j) := fun j hj => by
  have h : Bd R b c m (f (fold4 n (n / 2 + 4 * j))) (f' (fold4 n (n / 2 + 4 * j))) := hf _ (by unfold fold4; split_ifs <;> omega)
  simp only [type4FftInput]
  apply CBd.ofRe hb
  split_ifs
  · exact h.neg
  · exact h

theorem Type4ConvertToFftOdd.rel_dct4 {fft : Fft T} {G : (ℕ → Cx T) → ℕ → Cx T} {γ μ : ℕ} (hγ : 1 ≤ γ) (hG : FftRuns fft G) {n : ℕ} (hn : n % 2 = 1) (hL : fft.len = n)
    (hD : DftRel R n G γ μ) : PRel R .dct4 (Type4ConvertToFftOdd.inst fft).dct4 n (Type4ConvertToFftOdd.inst fft).scratchLen (2 * γ) (μ + 6) := by
  refine ⟨_, Type4ConvertToFftOdd.runs_dct4 hG hn hL, fun b c m f F hb hc hf i hi => ?_⟩
  have e : _ = Kind.dct4.specAt n F i := RunsV.unique (Type4ConvertToFftOdd.runs_dct4 (dftFft_contract n 0).runs hn rfl) (Type4ConvertToFftOdd.correct_dct4 (dftFft_contract n 0) hn rfl) F hi
  rw [← e]
  have h2 := hD b c m _ _ hb hc (type4In_bd hb hn hf)
  rw [show 2 * γ * c = 2 * (γ * c) by ring, show m + (μ + 6) = m + μ + 6 by ring]
  refine Bd.out4 hb hn h2 ?_ ?_ ?_ ?_ (fun k hk => Bd.mid4 hb hn h2 (fun _ _ _ _ h => h.neg) k) hi <;>
    (intro z Z hz; obtain ⟨z1, z2⟩ := hz; beta_reduce)
  · exact (Bd.add hb z1 z2).mono hb (by omega) (by omega)
  · exact (Bd.add hb z1.neg z2).mono hb (by omega) (by omega)
  · exact (Bd.mul1 hb (Bd.add hb z1 z2) (Tw.sgn4 n)).mono hb (by omega) (by omega)
  · exact (Bd.mul1 hb (Bd.sub hb z1 z2) (Tw.sgn4 n)).mono hb (by omega) (by omega)

theorem Type4ConvertToFftOdd.rel_dst4 {fft : Fft T} {G : (ℕ → Cx T) → ℕ → Cx T} {γ μ : ℕ} (hγ : 1 ≤ γ) (hG : FftRuns fft G) {n : ℕ} (hn : n % 2 = 1) (hL : fft.len = n)
    (hD : DftRel R n G γ μ) : PRel R .dst4 (Type4ConvertToFftOdd.inst fft).dst4 n (Type4ConvertToFftOdd.inst fft).scratchLen (2 * γ) (μ + 6) := by
  refine ⟨_, Type4ConvertToFftOdd.runs_dst4 hG hn hL, fun b c m f F hb hc hf i hi => ?_⟩
  have e : _ = Kind.dst4.specAt n F i := RunsV.unique (Type4ConvertToFftOdd.runs_dst4 (dftFft_contract n 0).runs hn rfl) (Type4ConvertToFftOdd.correct_dst4 (dftFft_contract n 0) hn rfl) F hi
  rw [← e]
  have h2 := hD b c m _ _ hb hc (type4In_bd hb hn (f := fun i => f (n - 1 - i)) (f' := fun i => F (n - 1 - i)) fun i hi => hf _ (by omega))
  rw [show 2 * γ * c = 2 * (γ * c) by ring, show m + (μ + 6) = m + μ + 6 by ring]
  refine Bd.out4 hb hn h2 ?_ ?_ ?_ ?_ (fun k hk => Bd.mid4 hb hn h2 (fun _ _ _ _ h => h) k) hi <;>
    (intro z Z hz; obtain ⟨z1, z2⟩ := hz; beta_reduce)
  · exact (Bd.add hb z1 z2).mono hb (by omega) (by omega)
  · exact (Bd.sub hb z1 z2).mono hb (by omega) (by omega)
  · exact (Bd.mul1 hb (Bd.add hb z1 z2).neg (Tw.sgn4 n)).mono hb (by omega) (by omega)
  · exact (Bd.mul1 hb (Bd.sub hb z1 z2) (Tw.sgn4 n)).mono hb (by omega) (by omega)

end RustDct
