import Verif.Codec
import Verif.Props.Mdct
/-!
# C87: the overlapped MDCT preserves energy and does not amplify quantisation errors
-/

set_option linter.all false

namespace RustDct
open Real Finset

/-! ### The matrix of the MDCT -/

theorem sum_cos_period {n : ℕ} (hn : 1 ≤ n) {m : ℤ} (h : ¬ (2 * n : ℤ) ∣ m) :
    ∑ j ∈ range (2 * n), cos (m * (π / n * (j + 1 / 2 + n / 2))) = 0 := by
  have hz : (n : ℝ) ≠ 0 := Nat.cast_ne_zero.2 (by omega)
  have e : ∀ j ∈ range (2 * n), cos (m * (π / n * ((j : ℝ) + 1 / 2 + n / 2))) =
      cos ((2 * j + 1) * (m * π / (2 * n))) * cos (m * π / 2) - sin ((2 * j + 1) * (m * π / (2 * n))) * sin (m * π / 2) := by
    intro j _
    rw [← cos_add]
    congr 1
    field_simp
  rw [sum_congr rfl e, sum_sub_distrib, ← sum_mul, ← sum_mul]
  have h1 : ∑ j ∈ range (2 * n), cos ((2 * (j : ℝ) + 1) * (m * π / (2 * n))) = 0 := by
    have := sumS_zero (n := 2 * n) (by omega) (m := 2 * m) (by
      intro hd
      apply h
      push_cast at hd
      exact Int.dvd_of_mul_dvd_mul_left (by norm_num : (2 : ℤ) ≠ 0) hd)
    rw [← this]
    refine sum_congr rfl fun j _ => ?_
    congr 1
    push_cast
    field_simp
  have h2 : ∑ j ∈ range (2 * n), sin ((2 * (j : ℝ) + 1) * (m * π / (2 * n))) = 0 := by
    have : ∑ j ∈ range (2 * n), sin ((2 * (j : ℝ) + 1) * (m * π / (2 * n))) = -∑ j ∈ range (2 * n), sin ((2 * (j : ℝ) + 1) * (m * π / (2 * n))) := by
      conv_lhs => rw [← sum_range_reflect]
      rw [← sum_neg_distrib]
      refine sum_congr rfl fun j hj => ?_
      have hj := mem_range.1 hj
      rw [← sin_neg, ← sin_add_int_mul_two_pi (-_) m]
      congr 1
      rw [show ((2 * n - 1 - j : ℕ) : ℝ) = 2 * n - 1 - j by rw [Nat.cast_sub (by omega), Nat.cast_sub (by omega)]; push_cast; ring]
      field_simp
      ring
    linarith
  rw [h1, h2]
  ring

/-- Inner product of two columns of the MDCT matrix. -/
theorem mdct_cols {n : ℕ} {k l : ℕ} (hk : k < n) (hl : l < n) :
    ∑ j ∈ range (2 * n), cos (π / n * (j + 1 / 2 + n / 2) * (k + 1 / 2)) * cos (π / n * (j + 1 / 2 + n / 2) * (l + 1 / 2)) = if k = l then (n : ℝ) else 0 := by
  rw [orth_of_sums (w := 1) (u := fun j => cos (((k - l : ℤ) : ℝ) * (π / n * (j + 1 / 2 + n / 2))))
    (v := fun j => cos (((k + l + 1 : ℤ) : ℝ) * (π / n * (j + 1 / 2 + n / 2))))
    (fun j _ => by
      rw [one_mul]
      apply cos_mul_cos'
      · push_cast; ring
      · push_cast; ring) rfl rfl]
  rw [sum_cos_period (by omega) (m := k + l + 1) (not_dvd_of (by omega) (by omega) (by omega))]
  by_cases h : k = l
  · subst h
    rw [if_pos rfl, show (k : ℤ) - k = 0 by ring]
    simp
  · rw [if_neg h, sum_cos_period (by omega) (not_dvd_of (by omega) (by omega) (by omega))]
    ring

/-- The inverse transform without a window. -/
noncomputable def bare (n : ℕ) (X : ℕ → ℝ) (i : ℕ) : ℝ := ∑ k ∈ range n, X k * cos (π / n * (i + 1 / 2 + n / 2) * (k + 1 / 2))

theorem bare_low {n : ℕ} (X : ℕ → ℝ) {i : ℕ} (hi : i < n) : bare n X (n - 1 - i) = -bare n X i := by
  have hz : (n : ℝ) ≠ 0 := Nat.cast_ne_zero.2 (by omega)
  unfold bare
  rw [← sum_neg_distrib]
  refine sum_congr rfl fun k _ => ?_
  rw [show π / (n : ℝ) * (((n - 1 - i : ℕ) : ℝ) + 1 / 2 + n / 2) * (k + 1 / 2) = (π - π / n * (i + 1 / 2 + n / 2) * (k + 1 / 2)) + k * (2 * π) by
    rw [Nat.cast_sub (by omega), Nat.cast_sub (by omega)]; push_cast; field_simp; ring, cos_add_nat_mul_two_pi, cos_pi_sub]
  ring

theorem bare_high {n : ℕ} (X : ℕ → ℝ) {i : ℕ} (hi : i < n) : bare n X (n + (n - 1 - i)) = bare n X (n + i) := by
  have hz : (n : ℝ) ≠ 0 := Nat.cast_ne_zero.2 (by omega)
  unfold bare
  refine sum_congr rfl fun k _ => ?_
  rw [show π / (n : ℝ) * (((n + (n - 1 - i) : ℕ) : ℝ) + 1 / 2 + n / 2) * (k + 1 / 2) = -(π / n * ((n + i : ℕ) + 1 / 2 + n / 2) * (k + 1 / 2)) + (2 * k + 1 : ℕ) * (2 * π) by
    rw [Nat.cast_add, Nat.cast_sub (by omega), Nat.cast_sub (by omega)]; push_cast; field_simp; ring, cos_add_nat_mul_two_pi, cos_neg]

theorem bare_energy {n : ℕ} (X : ℕ → ℝ) : ∑ j ∈ range (2 * n), bare n X j ^ 2 = n * ∑ k ∈ range n, X k ^ 2 := by
  unfold bare
  have e : ∀ j ∈ range (2 * n), (∑ k ∈ range n, X k * cos (π / n * ((j : ℝ) + 1 / 2 + n / 2) * (k + 1 / 2))) ^ 2 =
      ∑ k ∈ range n, ∑ l ∈ range n, X k * X l * (cos (π / n * (j + 1 / 2 + n / 2) * (k + 1 / 2)) * cos (π / n * (j + 1 / 2 + n / 2) * (l + 1 / 2))) := by
    intro j _
    rw [sq, sum_mul_sum]
    exact sum_congr rfl fun k _ => sum_congr rfl fun l _ => by ring
  rw [sum_congr rfl e, sum_comm, mul_sum]
  refine sum_congr rfl fun k hk => ?_
  rw [sum_comm]
  simp only [← mul_sum]
  rw [sum_congr rfl fun l hl => by rw [mdct_cols (mem_range.1 hk) (mem_range.1 hl)], sum_eq_single k (fun l _ hl => by rw [if_neg (Ne.symm hl), mul_zero])
    (fun h => absurd hk h), if_pos rfl]
  ring

/-! ### A window with the conditions of C23 -/

/-- The conditions on the window, as functions. -/
def Fits (n : ℕ) (c : ℝ) (w : ℕ → ℝ) : Prop := (∀ i, i < n → w (2 * n - 1 - i) = w i) ∧ ∀ i, i < n → w i ^ 2 + w (i + n) ^ 2 = c

variable {n : ℕ} {c : ℝ} {w : ℕ → ℝ}

theorem Fits.mirror (h : Fits n c w) {i : ℕ} (hi : i < n) : w (n + i) = w (n - 1 - i) := by
  have := h.1 (n - 1 - i) (by omega)
  rwa [show 2 * n - 1 - (n - 1 - i) = n + i by omega] at this

/-- The two halves of different coefficient vectors that overlap are orthogonal. -/
theorem Fits.cross (h : Fits n c w) (X Y : ℕ → ℝ) : ∑ i ∈ range n, Spec.imdctAt n w X (n + i) * Spec.imdctAt n w Y i = 0 := by
  have e : ∑ i ∈ range n, Spec.imdctAt n w X (n + i) * Spec.imdctAt n w Y i = -∑ i ∈ range n, Spec.imdctAt n w X (n + i) * Spec.imdctAt n w Y i := by
    conv_lhs => rw [← sum_range_reflect]
    rw [← sum_neg_distrib]
    refine sum_congr rfl fun i hi => ?_
    have hi := mem_range.1 hi
    change w (n + (n - 1 - i)) * bare n X (n + (n - 1 - i)) * (w (n - 1 - i) * bare n Y (n - 1 - i)) = -(w (n + i) * bare n X (n + i) * (w i * bare n Y i))
    rw [bare_low _ hi, bare_high _ hi, h.mirror (by omega : n - 1 - i < n), h.mirror hi, show n - 1 - (n - 1 - i) = i by omega]
    ring
  linarith

/-- The energy of the inverse transform of one coefficient vector. -/
theorem Fits.energy (h : Fits n c w) (X : ℕ → ℝ) :
    ∑ i ∈ range n, Spec.imdctAt n w X i ^ 2 + ∑ i ∈ range n, Spec.imdctAt n w X (n + i) ^ 2 = c * n / 2 * ∑ k ∈ range n, X k ^ 2 := by
  have k1 : ∑ i ∈ range n, Spec.imdctAt n w X i ^ 2 = ∑ i ∈ range n, w (n + i) ^ 2 * bare n X i ^ 2 := by
    conv_lhs => rw [← sum_range_reflect]
    refine sum_congr rfl fun i hi => ?_
    have hi := mem_range.1 hi
    change (w (n - 1 - i) * bare n X (n - 1 - i)) ^ 2 = _
    rw [bare_low _ hi, h.mirror hi]
    ring
  have k2 : ∑ i ∈ range n, Spec.imdctAt n w X (n + i) ^ 2 = ∑ i ∈ range n, w i ^ 2 * bare n X (n + i) ^ 2 := by
    conv_lhs => rw [← sum_range_reflect]
    refine sum_congr rfl fun i hi => ?_
    have hi := mem_range.1 hi
    change (w (n + (n - 1 - i)) * bare n X (n + (n - 1 - i))) ^ 2 = _
    rw [bare_high _ hi, h.mirror (by omega : n - 1 - i < n), show n - 1 - (n - 1 - i) = i by omega]
    ring
  have k3 : ∑ i ∈ range n, Spec.imdctAt n w X i ^ 2 = ∑ i ∈ range n, w i ^ 2 * bare n X i ^ 2 :=
    sum_congr rfl fun i _ => by change (w i * bare n X i) ^ 2 = _; ring
  have k4 : ∑ i ∈ range n, Spec.imdctAt n w X (n + i) ^ 2 = ∑ i ∈ range n, w (n + i) ^ 2 * bare n X (n + i) ^ 2 :=
    sum_congr rfl fun i _ => by change (w (n + i) * bare n X (n + i)) ^ 2 = _; ring
  have k5 : 2 * ∑ i ∈ range n, Spec.imdctAt n w X i ^ 2 = c * ∑ i ∈ range n, bare n X i ^ 2 := by
    rw [two_mul]
    nth_rw 1 [k3]
    rw [k1, ← sum_add_distrib, mul_sum]
    refine sum_congr rfl fun i hi => ?_
    rw [← h.2 i (mem_range.1 hi), show i + n = n + i by omega]
    ring
  have k6 : 2 * ∑ i ∈ range n, Spec.imdctAt n w X (n + i) ^ 2 = c * ∑ i ∈ range n, bare n X (n + i) ^ 2 := by
    rw [two_mul]
    nth_rw 1 [k4]
    rw [k2, ← sum_add_distrib, mul_sum]
    refine sum_congr rfl fun i hi => ?_
    rw [← h.2 i (mem_range.1 hi), show i + n = n + i by omega]
    ring
  have k7 := bare_energy (n := n) X
  rw [two_mul, sum_range_add] at k7
  linear_combination (1 / 2) * k5 + (1 / 2) * k6 + (c / 2) * k7

theorem imdctAt_diff (X Y : ℕ → ℝ) (i : ℕ) : Spec.imdctAt n w X i - Spec.imdctAt n w Y i = Spec.imdctAt n w (fun k => X k - Y k) i := by
  unfold Spec.imdctAt
  rw [← mul_sub, ← sum_sub_distrib]
  congr 1
  exact sum_congr rfl fun k _ => by ring

/-! ### Synthesis -/

/-- The blocks the decoder returns. -/
noncomputable def synthF (n : ℕ) (w : ℕ → ℝ) : (ℕ → ℝ) → List (ℕ → ℝ) → List (ℕ → ℝ)
  | acc, [] => [acc]
  | acc, X :: Xs => (fun i => acc i + Spec.imdctAt n w X i) :: synthF n w (fun i => Spec.imdctAt n w X (n + i)) Xs

noncomputable def distF (n : ℕ) (fs gs : List (ℕ → ℝ)) : ℝ := (List.zipWith (fun f g => ∑ i ∈ range n, (f i - g i) ^ 2) fs gs).sum

theorem Fits.synth (h : Fits n c w) : ∀ (Xs Ys : List (ℕ → ℝ)), Xs.length = Ys.length → ∀ (acc acc' D : ℕ → ℝ),
    (∀ i, i < n → acc i - acc' i = Spec.imdctAt n w D (n + i)) →
    distF n (synthF n w acc Xs) (synthF n w acc' Ys) = ∑ i ∈ range n, (acc i - acc' i) ^ 2 + c * n / 2 * distF n Xs Ys
  | [], [], _, acc, acc', D, _ => by simp [distF, synthF]
  | X :: Xs, Y :: Ys, hl, acc, acc', D, hd => by
    have ih := Fits.synth h Xs Ys (by simpa using hl) (fun i => Spec.imdctAt n w X (n + i)) (fun i => Spec.imdctAt n w Y (n + i)) (fun k => X k - Y k)
      (fun i _ => imdctAt_diff X Y (n + i))
    have e1 : ∑ i ∈ range n, (acc i + Spec.imdctAt n w X i - (acc' i + Spec.imdctAt n w Y i)) ^ 2 =
        ∑ i ∈ range n, (acc i - acc' i) ^ 2 + ∑ i ∈ range n, Spec.imdctAt n w (fun k => X k - Y k) i ^ 2 := by
      have hx := h.cross D (fun k => X k - Y k)
      have : ∑ i ∈ range n, (acc i + Spec.imdctAt n w X i - (acc' i + Spec.imdctAt n w Y i)) ^ 2 =
        ∑ i ∈ range n, (acc i - acc' i) ^ 2 + ∑ i ∈ range n, Spec.imdctAt n w (fun k => X k - Y k) i ^ 2 +
          2 * ∑ i ∈ range n, Spec.imdctAt n w D (n + i) * Spec.imdctAt n w (fun k => X k - Y k) i := by
        rw [mul_sum, ← sum_add_distrib, ← sum_add_distrib]
        refine sum_congr rfl fun i hi => ?_
        rw [← hd i (mem_range.1 hi), ← imdctAt_diff]
        ring
      rw [this, hx]
      ring
    have e2 := h.energy fun k => X k - Y k
    simp only [imdctAt_diff] at ih
    simp only [distF, synthF, List.zipWith_cons_cons, List.sum_cons] at ih ⊢
    rw [e1, ih]
    linear_combination e2

/-! ### Analysis -/

noncomputable def analF (n : ℕ) (w : ℕ → ℝ) : (ℕ → ℝ) → List (ℕ → ℝ) → List (ℕ → ℝ)
  | _, [] => []
  | f, g :: gs => Spec.mdctAt n w (cat n f g) :: analF n w g gs

noncomputable def energyF (n : ℕ) (fs : List (ℕ → ℝ)) : ℝ := (fs.map fun f => ∑ i ∈ range n, f i ^ 2).sum

/-- What the first block of a pair contributes to the energy of the coefficients. -/
noncomputable def lowE (n : ℕ) (w f : ℕ → ℝ) : ℝ := ∑ i ∈ range n, f i * (n / 2 * w i * (w i * f i - w (n - 1 - i) * f (n - 1 - i)))
/-- What the second one contributes. -/
noncomputable def highE (n : ℕ) (w f : ℕ → ℝ) : ℝ := ∑ i ∈ range n, f i * (n / 2 * w (n + i) * (w (n + i) * f i + w (n + (n - 1 - i)) * f (n - 1 - i)))

theorem mdct_energy (hn : 1 ≤ n) (f g : ℕ → ℝ) : ∑ k ∈ range n, Spec.mdctAt n w (cat n f g) k ^ 2 = lowE n w f + highE n w g := by
  have e : ∑ k ∈ range n, Spec.mdctAt n w (cat n f g) k ^ 2 = ∑ j ∈ range (2 * n), cat n f g j * Spec.imdctAt n w (Spec.mdctAt n w (cat n f g)) j := by
    have : ∀ k ∈ range n, Spec.mdctAt n w (cat n f g) k ^ 2 =
        ∑ j ∈ range (2 * n), Spec.mdctAt n w (cat n f g) k * (w j * cat n f g j * cos (π / n * (j + 1 / 2 + n / 2) * (k + 1 / 2))) := by
      intro k _
      rw [← mul_sum, sq]
      rfl
    rw [sum_congr rfl this, sum_comm]
    refine sum_congr rfl fun j _ => ?_
    unfold Spec.imdctAt
    rw [mul_sum, mul_sum]
    exact sum_congr rfl fun k _ => by ring
  rw [e, two_mul, sum_range_add]
  unfold lowE highE
  congr 1
  · refine sum_congr rfl fun i hi => ?_
    have hi := mem_range.1 hi
    rw [imdct_mdct hn _ _ (by omega), if_pos hi]
    unfold cat
    rw [if_pos hi, if_pos (by omega)]
    ring
  · refine sum_congr rfl fun i hi => ?_
    have hi := mem_range.1 hi
    rw [imdct_mdct hn _ _ (by omega), if_neg (by omega)]
    unfold cat
    rw [if_neg (by omega), if_neg (by omega), show n + i - n = i by omega, show 3 * n - 1 - (n + i) - n = n - 1 - i by omega,
      show 3 * n - 1 - (n + i) = n + (n - 1 - i) by omega]

theorem Fits.both (h : Fits n c w) (f : ℕ → ℝ) : lowE n w f + highE n w f = c * n / 2 * ∑ i ∈ range n, f i ^ 2 := by
  unfold lowE highE
  rw [← sum_add_distrib, mul_sum]
  refine sum_congr rfl fun i hi => ?_
  have hi := mem_range.1 hi
  rw [h.mirror (by omega : n - 1 - i < n), h.mirror hi, show n - 1 - (n - 1 - i) = i by omega]
  have := h.2 i hi
  rw [show i + n = n + i by omega, h.mirror hi] at this
  rw [← this]
  ring

theorem lowE_zero {f : ℕ → ℝ} (h : ∀ i, i < n → f i = 0) : lowE n w f = 0 :=
  sum_eq_zero fun i hi => by rw [h i (mem_range.1 hi), zero_mul]
theorem highE_zero {f : ℕ → ℝ} (h : ∀ i, i < n → f i = 0) : highE n w f = 0 :=
  sum_eq_zero fun i hi => by rw [h i (mem_range.1 hi), zero_mul]

theorem lowE_nonneg (hn : 1 ≤ n) (f : ℕ → ℝ) : 0 ≤ lowE n w f := by
  have := mdct_energy (w := w) hn f fun _ => 0
  rw [highE_zero fun _ _ => rfl, add_zero] at this
  rw [← this]
  exact sum_nonneg fun _ _ => sq_nonneg _
theorem highE_nonneg (hn : 1 ≤ n) (f : ℕ → ℝ) : 0 ≤ highE n w f := by
  have := mdct_energy (w := w) hn (fun _ => 0) f
  rw [lowE_zero fun _ _ => rfl, zero_add] at this
  rw [← this]
  exact sum_nonneg fun _ _ => sq_nonneg _

/-- What is missing at the two ends: the part of the first block in the pair before it and that of the last block in the pair after it. -/
theorem Fits.anal (hn : 1 ≤ n) (h : Fits n c w) : ∀ (gs : List (ℕ → ℝ)) (f : ℕ → ℝ),
    energyF n (analF n w f gs) + highE n w f + lowE n w ((f :: gs).getLast (by simp)) = c * n / 2 * energyF n (f :: gs)
  | [], f => by
    have := h.both f
    simp only [energyF, analF, List.map_cons, List.map_nil, List.sum_cons, List.sum_nil, List.getLast_singleton]
    linarith
  | g :: gs, f => by
    have ih := Fits.anal hn h gs g
    have e1 := h.both f
    have e2 := h.both g
    have e3 := mdct_energy (w := w) hn f g
    simp only [energyF, analF, List.map_cons, List.sum_cons] at ih ⊢
    rw [List.getLast_cons (by simp), e3]
    linear_combination ih + e1

/-- Decoding what was encoded. -/
theorem Fits.synth_anal (hn : 1 ≤ n) (h : Fits n c w) : ∀ (gs : List (ℕ → ℝ)) (f acc : ℕ → ℝ) (t : ℕ) (g : ℕ → ℝ), t + 1 < gs.length → gs[t]? = some g →
    ∃ o, (synthF n w acc (analF n w f gs))[t + 1]? = some o ∧ ∀ i, i < n → o i = c * n / 2 * g i
  | [g'], f, acc, t, g, ht, _ => by simp at ht
  | g' :: g'' :: gs, f, acc, 0, g, _, hg => by
    simp only [List.getElem?_cons_zero, Option.some.injEq] at hg
    subst hg
    refine ⟨_, rfl, fun i hi => ?_⟩
    exact tdac hn h.1 h.2 f g' g'' hi
  | g' :: g'' :: gs, f, acc, t + 1, g, ht, hg => by
    obtain ⟨o, ho, h'⟩ := Fits.synth_anal hn h (g'' :: gs) g' (fun i => Spec.imdctAt n w (Spec.mdctAt n w (cat n f g')) (n + i)) t g (by simpa using ht) (by simpa using hg)
    exact ⟨o, by rw [analF, synthF, List.getElem?_cons_succ]; exact ho, h'⟩

/-! ### The programs -/

theorem exists_vecs {n : ℕ} : ∀ {xs : List (List ℝ)}, (∀ x ∈ xs, x.length = n) → ∃ fs : List (ℕ → ℝ), xs = fs.map (vec n)
  | [], _ => ⟨[], rfl⟩
  | x :: xs, h => by
    obtain ⟨f, rfl⟩ := exists_vec (h x (by simp))
    obtain ⟨fs, rfl⟩ := exists_vecs (xs := xs) fun y hy => h y (by simp [hy])
    exact ⟨f :: fs, rfl⟩

theorem sum_of_vec (n : ℕ) (f : ℕ → ℝ) : (vec n f).sum = ∑ i ∈ range n, f i := by
  rw [vec, Finset.sum_range, ← List.sum_ofFn]
  congr 1
  apply List.ext_getElem <;> simp

theorem energy_vecs (fs : List (ℕ → ℝ)) : Spec.energy (fs.map (vec n)) = energyF n fs := by
  simp [Spec.energy, energyF, map_vec, sum_of_vec, Function.comp_def]

theorem distance_vecs : ∀ fs gs : List (ℕ → ℝ), Spec.distance (fs.map (vec n)) (gs.map (vec n)) = distF n fs gs
  | [], _ => by simp [Spec.distance, distF]
  | _ :: _, [] => by simp [Spec.distance, distF]
  | f :: fs, g :: gs => by
    have := distance_vecs fs gs
    simp only [Spec.distance, distF, List.map_cons, List.zipWith_cons_cons, List.sum_cons, zipWith_vec, sum_of_vec, Nat.min_self] at this ⊢
    rw [this]

theorem analyse_run {o : MdctObj ℝ} (hM : RunsM o.mdct n o.scratchLen (fun a b => Spec.mdctAt n w (cat n a b))) : ∀ (gs : List (ℕ → ℝ)) (f y : ℕ → ℝ) (scr : List ℝ),
    o.scratchLen ≤ scr.length → analyse o (vec n f) (gs.map (vec n)) ⟨vec n y, scr⟩ = .ok ((analF n w f gs).map (vec n))
  | [], _, _, _, _ => rfl
  | g :: gs, f, y, scr, hs => by
    obtain ⟨scr1, x1, k1, -⟩ := hM f g y scr hs
    rw [List.map_cons, analyse, x1]
    dsimp only
    rw [analyse_run hM gs g _ scr1 (by omega)]
    rfl

theorem synthesise_run {o : MdctObj ℝ} (hl : o.len = n) (hI : RunsI o.imdct n o.scratchLen (fun X o' k => o' k + Spec.imdctAt n w X k) (fun X o' k => o' k + Spec.imdctAt n w X (n + k))) :
    ∀ (Xs : List (ℕ → ℝ)) (acc : ℕ → ℝ) (scr : List ℝ), o.scratchLen ≤ scr.length →
      synthesise o (Xs.map (vec n)) (vec n acc) scr = .ok ((synthF n w acc Xs).map (vec n))
  | [], _, _, _ => rfl
  | X :: Xs, acc, scr, hs => by
    obtain ⟨scr1, x1, k1, -⟩ := hI X acc (fun _ => 0) scr hs
    rw [List.map_cons, synthesise, hl, replicate_eq_vec, x1]
    dsimp only
    rw [show (fun k => 0 + Spec.imdctAt n w X (n + k)) = fun k => Spec.imdctAt n w X (n + k) from funext fun _ => zero_add _,
      synthesise_run hl hI Xs _ scr1 (by omega)]
    rfl

theorem length_synthF : ∀ (Xs : List (ℕ → ℝ)) (acc : ℕ → ℝ), (synthF n w acc Xs).length = Xs.length + 1
  | [], _ => rfl
  | X :: Xs, acc => by simp [synthF, length_synthF Xs]

theorem length_analF : ∀ (gs : List (ℕ → ℝ)) (f : ℕ → ℝ), (analF n w f gs).length = gs.length
  | [], _ => rfl
  | g :: gs, f => by simp [analF, length_analF gs]

theorem synthF_interior : ∀ (Xs : List (ℕ → ℝ)) (acc : ℕ → ℝ) (t : ℕ) (X X' : ℕ → ℝ), Xs[t]? = some X → Xs[t + 1]? = some X' →
    (synthF n w acc Xs)[t + 1]? = some fun i => Spec.imdctAt n w X (n + i) + Spec.imdctAt n w X' i
  | X :: X' :: Xs, acc, 0, Y, Y', h, h' => by
    simp only [List.getElem?_cons_zero, List.getElem?_cons_succ, Option.some.injEq] at h h'
    subst h h'
    rfl
  | X :: Xs, acc, t + 1, Y, Y', h, h' => by
    rw [synthF, List.getElem?_cons_succ]
    exact synthF_interior Xs _ t Y Y' (by simpa using h) (by simpa using h')
  | [X], acc, 0, Y, Y', h, h' => by simp at h'
  | [], acc, t, Y, Y', h, h' => by simp at h

theorem Fits.low_le (h : Fits n c w) (X : ℕ → ℝ) : ∑ i ∈ range n, Spec.imdctAt n w X i ^ 2 ≤ c * n / 2 * ∑ k ∈ range n, X k ^ 2 := by
  rw [← h.energy]
  exact le_add_of_nonneg_right (sum_nonneg fun _ _ => sq_nonneg _)
theorem Fits.high_le (h : Fits n c w) (X : ℕ → ℝ) : ∑ i ∈ range n, Spec.imdctAt n w X (n + i) ^ 2 ≤ c * n / 2 * ∑ k ∈ range n, X k ^ 2 := by
  rw [← h.energy]
  exact le_add_of_nonneg_left (sum_nonneg fun _ _ => sq_nonneg _)

theorem Fits.local (h : Fits n c w) (X X' Y Y' : ℕ → ℝ) :
    ∑ i ∈ range n, (Spec.imdctAt n w Y (n + i) + Spec.imdctAt n w Y' i - (Spec.imdctAt n w X (n + i) + Spec.imdctAt n w X' i)) ^ 2 ≤
      c * n / 2 * (∑ k ∈ range n, (Y k - X k) ^ 2 + ∑ k ∈ range n, (Y' k - X' k) ^ 2) := by
  have e : ∑ i ∈ range n, (Spec.imdctAt n w Y (n + i) + Spec.imdctAt n w Y' i - (Spec.imdctAt n w X (n + i) + Spec.imdctAt n w X' i)) ^ 2 =
      ∑ i ∈ range n, Spec.imdctAt n w (fun k => Y k - X k) (n + i) ^ 2 + ∑ i ∈ range n, Spec.imdctAt n w (fun k => Y' k - X' k) i ^ 2 +
        2 * ∑ i ∈ range n, Spec.imdctAt n w (fun k => Y k - X k) (n + i) * Spec.imdctAt n w (fun k => Y' k - X' k) i := by
    rw [mul_sum, ← sum_add_distrib, ← sum_add_distrib]
    refine sum_congr rfl fun i _ => ?_
    rw [← imdctAt_diff, ← imdctAt_diff]
    ring
  rw [e, h.cross, mul_add]
  have := h.high_le fun k => Y k - X k
  have := h.low_le fun k => Y' k - X' k
  linarith

theorem distance_interior {xs ys : List (List ℝ)} (h : xs.length = ys.length) : Spec.distance xs.tail.dropLast ys.tail.dropLast ≤ Spec.distance xs ys := by
  unfold Spec.distance
  rw [List.dropLast_eq_take, List.dropLast_eq_take, show ys.tail.length = xs.tail.length by simp [h], ← List.take_zipWith, ← List.tail_zipWith]
  refine List.Sublist.sum_le_sum ((List.take_sublist _ _).trans (List.tail_sublist _)) fun a ha => ?_
  rw [List.mem_iff_getElem] at ha
  obtain ⟨i, hi, rfl⟩ := ha
  rw [List.getElem_zipWith]
  refine List.sum_nonneg fun b hb => ?_
  rw [List.mem_iff_getElem] at hb
  obtain ⟨j, hj, rfl⟩ := hb
  rw [List.getElem_zipWith]
  exact sq_nonneg _

theorem fits_of {win : List ℝ} (e : win = vec (2 * n) w) (hs : Spec.Symmetric n win) (hc : Spec.PrincenBradley n c win) : Fits n c w := by
  subst e
  constructor
  · intro i hi
    have := hs.2 i hi
    rwa [getD_vec (by omega), getD_vec (by omega)] at this
  · intro i hi
    have := hc.2 i hi
    rwa [getD_vec (by omega), getD_vec (by omega)] at this

/-! ### The property -/

section
variable {win : List ℝ} {o : MdctObj ℝ} {c : ℝ}

/-- The encoder returns one coefficient vector for every two neighbouring blocks. Their energy is at most `c n / 2` times that of the signal, and exactly that if the
signal begins and ends with a block of zeros. -/
theorem C87_analysis (h : MadeMdct FftContract win o) (hn : 1 ≤ o.len) (hs : Spec.Symmetric o.len win) (hc : Spec.PrincenBradley o.len c win)
    {a : List ℝ} {rest : List (List ℝ)} {m : Mem ℝ} (hl : ∀ b ∈ a :: rest, b.length = o.len) (hm : m.buf.length = o.len) (hscr : o.scratchLen ≤ m.scr.length) :
    ∃ Xs, analyse o a rest m = .ok Xs ∧ Xs.length = rest.length ∧ (∀ X ∈ Xs, X.length = o.len) ∧
      Spec.energy Xs ≤ c * o.len / 2 * Spec.energy (a :: rest) ∧
      (a = List.replicate o.len 0 → rest.getLast? = some (List.replicate o.len 0) → Spec.energy Xs = c * o.len / 2 * Spec.energy (a :: rest)) := by
  obtain ⟨w, e, hM, -⟩ := h.real hn
  have hf := fits_of e hs hc
  obtain ⟨y, scr⟩ := m
  obtain ⟨fs, e'⟩ := exists_vecs hl
  cases fs with
  | nil => simp at e'
  | cons f gs =>
    rw [List.map_cons, List.cons.injEq] at e'
    obtain ⟨rfl, rfl⟩ := e'
    obtain ⟨y', hy'⟩ := exists_vec hm
    change y = vec _ y' at hy'
    subst hy'
    have k := hf.anal hn gs f
    rw [← List.map_cons]
    refine ⟨_, analyse_run hM gs f y' scr hscr, by simp [length_analF], ?_, ?_, ?_⟩
    · intro X hX
      obtain ⟨g, -, rfl⟩ := List.mem_map.1 hX
      simp
    · rw [energy_vecs, energy_vecs]
      have := highE_nonneg (w := w) hn f
      have := lowE_nonneg (w := w) hn ((f :: gs).getLast (by simp))
      linarith
    · intro h1 h2
      rw [replicate_eq_vec] at h1 h2
      have z1 : highE o.len w f = 0 := highE_zero fun i hi => vec_inj h1 i hi
      have z2 : lowE o.len w ((f :: gs).getLast (by simp)) = 0 := by
        refine lowE_zero fun i hi => ?_
        have hne : gs ≠ [] := by
          rintro rfl
          simp at h2
        rw [List.getLast_cons hne]
        rw [List.getLast?_map, List.getLast?_eq_some_getLast hne, Option.map_some, Option.some.injEq] at h2
        exact vec_inj h2 i hi
      rw [energy_vecs, energy_vecs]
      linarith

/-- The decoder returns; the energy of what it returns is `c n / 2` times that of the coefficients, and the energy of the difference between what it returns for
two coefficient sequences is `c n / 2` times that of the difference of the sequences. -/
theorem C87_synthesis (h : MadeMdct FftContract win o) (hn : 1 ≤ o.len) (hs : Spec.Symmetric o.len win) (hc : Spec.PrincenBradley o.len c win)
    {Xs Ys : List (List ℝ)} {acc scr scr' : List ℝ} (hX : ∀ X ∈ Xs, X.length = o.len) (hY : ∀ Y ∈ Ys, Y.length = o.len) (hXY : Xs.length = Ys.length)
    (hacc : acc.length = o.len) (hscr : o.scratchLen ≤ scr.length) (hscr' : o.scratchLen ≤ scr'.length) :
    ∃ outs outs', synthesise o Xs acc scr = .ok outs ∧ synthesise o Ys acc scr' = .ok outs' ∧ outs.length = Xs.length + 1 ∧ outs'.length = Ys.length + 1 ∧
      Spec.distance outs outs' = c * o.len / 2 * Spec.distance Xs Ys ∧
      (acc = List.replicate o.len 0 → Spec.energy outs = c * o.len / 2 * Spec.energy Xs) := by
  obtain ⟨w, e, -, hI⟩ := h.real hn
  have hf := fits_of e hs hc
  obtain ⟨Xs, rfl⟩ := exists_vecs hX
  obtain ⟨Ys, rfl⟩ := exists_vecs hY
  obtain ⟨acc, rfl⟩ := exists_vec hacc
  rw [List.length_map, List.length_map] at hXY
  refine ⟨_, _, synthesise_run rfl hI Xs acc scr hscr, synthesise_run rfl hI Ys acc scr' hscr', by simp [length_synthF], by simp [length_synthF], ?_, ?_⟩
  · rw [distance_vecs, distance_vecs, hf.synth Xs Ys hXY acc acc (fun _ => 0) (fun i _ => by simp [Spec.imdctAt])]
    simp
  · intro ha
    rw [replicate_eq_vec] at ha
    have ha := vec_inj ha
    have z : ∀ (Zs : List (ℕ → ℝ)) (u : ℕ → ℝ), (∀ i, i < o.len → u i = 0) → (∀ Z ∈ Zs, Z = fun _ => 0) →
        ∀ fs : List (ℕ → ℝ), fs.length = Zs.length + 1 → distF o.len fs (synthF o.len w u Zs) = energyF o.len fs := by
      intro Zs
      induction Zs with
      | nil =>
        intro u hu _ fs hfs
        obtain ⟨f, rfl⟩ := List.length_eq_one_iff.1 hfs
        simp only [distF, synthF, energyF, List.zipWith_cons_cons, List.zipWith_nil_right, List.map_cons, List.map_nil, List.sum_cons, List.sum_nil]
        congr 1
        exact sum_congr rfl fun i hi => by rw [hu i (mem_range.1 hi), sub_zero]
      | cons Z Zs ih =>
        intro u hu hZ fs hfs
        cases fs with
        | nil => simp at hfs
        | cons f fs =>
          have hZ0 := hZ Z (by simp)
          subst hZ0
          have := ih (fun i => Spec.imdctAt o.len w (fun _ => 0) (o.len + i)) (fun i _ => by simp [Spec.imdctAt]) (fun Z hz => hZ Z (by simp [hz])) fs (by simpa using hfs)
          simp only [distF, synthF, energyF, List.zipWith_cons_cons, List.map_cons, List.sum_cons] at this ⊢
          rw [this]
          congr 1
          exact sum_congr rfl fun i hi => by rw [hu i (mem_range.1 hi)]; simp [Spec.imdctAt]
    have z' : ∀ Zs : List (ℕ → ℝ), distF o.len Zs (List.replicate Zs.length fun _ => 0) = energyF o.len Zs := by
      intro Zs
      induction Zs with
      | nil => simp [distF, energyF]
      | cons Z Zs ih =>
        simp only [distF, energyF, List.length_cons, List.replicate_succ, List.zipWith_cons_cons, List.map_cons, List.sum_cons] at ih ⊢
        rw [ih]
        simp
    have k := hf.synth Xs (List.replicate Xs.length fun _ => 0) (by simp) acc acc (fun _ => 0) (fun i _ => by simp [Spec.imdctAt])
    rw [z', z _ acc ha (fun Z hZ => List.eq_of_mem_replicate hZ) _ (by simp [length_synthF])] at k
    rw [energy_vecs, energy_vecs, k]
    simp

/-- Encoding, changing the coefficients in any way, and decoding: the energy of the error of the interior blocks is at most `c n / 2` times the energy of the change. The
energy of the error of one interior block is at most `c n / 2` times that of the change of its two coefficient vectors: a change is heard in two blocks only. -/
theorem C87_quantised (h : MadeMdct FftContract win o) (hn : 1 ≤ o.len) (hs : Spec.Symmetric o.len win) (hc : Spec.PrincenBradley o.len c win)
    {a acc : List ℝ} {rest Ys : List (List ℝ)} {m : Mem ℝ} {scr : List ℝ} (hl : ∀ b ∈ a :: rest, b.length = o.len) (hY : ∀ Y ∈ Ys, Y.length = o.len)
    (hYl : Ys.length = rest.length) (hacc : acc.length = o.len) (hm : m.buf.length = o.len) (hscr : o.scratchLen ≤ m.scr.length) (hscr' : o.scratchLen ≤ scr.length) :
    ∃ Xs outs, analyse o a rest m = .ok Xs ∧ synthesise o Ys acc scr = .ok outs ∧ outs.length = (a :: rest).length ∧
      Spec.distance outs.tail.dropLast (rest.dropLast.map fun b => b.map (c * o.len / 2 * ·)) ≤ c * o.len / 2 * Spec.distance Ys Xs ∧
      ∀ t b X X' Y Y', t + 1 < rest.length → rest[t]? = some b → Xs[t]? = some X → Xs[t + 1]? = some X' → Ys[t]? = some Y → Ys[t + 1]? = some Y' →
        ∃ out, outs[t + 1]? = some out ∧ Spec.distance [out] [b.map (c * o.len / 2 * ·)] ≤ c * o.len / 2 * Spec.distance [Y, Y'] [X, X'] := by
  obtain ⟨w, e, hM, hI⟩ := h.real hn
  have hf := fits_of e hs hc
  obtain ⟨y, sc⟩ := m
  obtain ⟨fs, e'⟩ := exists_vecs hl
  cases fs with
  | nil => simp at e'
  | cons f gs =>
    rw [List.map_cons, List.cons.injEq] at e'
    obtain ⟨rfl, rfl⟩ := e'
    obtain ⟨y', hy'⟩ := exists_vec hm
    change y = vec _ y' at hy'
    subst hy'
    obtain ⟨Ys, rfl⟩ := exists_vecs hY
    obtain ⟨acc, rfl⟩ := exists_vec hacc
    rw [List.length_map, List.length_map] at hYl
    refine ⟨_, _, analyse_run hM gs f y' sc hscr, synthesise_run rfl hI Ys acc scr hscr', by simp [length_synthF, hYl], ?_, ?_⟩
    · have e1 : ((gs.map (vec o.len)).dropLast.map fun b => b.map (c * o.len / 2 * ·)) =
          ((synthF o.len w acc (analF o.len w f gs)).map (vec o.len)).tail.dropLast := by
        apply List.ext_getElem?
        intro t
        by_cases ht : t + 1 < gs.length
        · obtain ⟨u, hu, hu'⟩ := hf.synth_anal hn gs f acc t gs[t] ht (List.getElem?_eq_getElem _)
          rw [List.getElem?_map, List.getElem?_dropLast, if_pos (by simp; omega), List.getElem?_map, List.getElem?_eq_getElem (by omega), Option.map_some, Option.map_some,
            List.getElem?_dropLast, if_pos (by simp [length_synthF, length_analF]; omega), List.getElem?_tail, List.getElem?_map, hu, Option.map_some, map_vec,
            vec_congr hu']
        · rw [List.getElem?_eq_none (by simp; omega), List.getElem?_eq_none (by simp [length_synthF, length_analF]; omega)]
      rw [e1]
      refine le_trans (distance_interior (by simp [length_synthF, length_analF, hYl])) (le_of_eq ?_)
      rw [distance_vecs, distance_vecs, hf.synth _ _ (by simp [length_analF, hYl]) acc acc (fun _ => 0) (fun i _ => by simp [Spec.imdctAt])]
      simp
    · intro t b X X' Y Y' ht hb hX hX' hY hY'
      rw [List.getElem?_map, Option.map_eq_some_iff] at hb hX hX' hY hY'
      obtain ⟨b, hb, rfl⟩ := hb
      obtain ⟨X, hX, rfl⟩ := hX
      obtain ⟨X', hX', rfl⟩ := hX'
      obtain ⟨Y, hY, rfl⟩ := hY
      obtain ⟨Y', hY', rfl⟩ := hY'
      obtain ⟨u, hu, hu'⟩ := hf.synth_anal hn gs f acc t b (by simpa using ht) hb
      rw [synthF_interior _ _ _ _ _ hX hX', Option.some.injEq] at hu
      subst hu
      refine ⟨_, by rw [List.getElem?_map, synthF_interior _ _ _ _ _ hY hY', Option.map_some], ?_⟩
      have k := hf.local X X' Y Y'
      rw [map_vec, vec_congr fun i hi => (hu' i hi).symm]
      simpa [Spec.distance, zipWith_vec, sum_of_vec] using k

end

/-- The three statements, for every instance the constructors make with a window that fulfils the conditions of C23. -/
theorem C87_made {win : List ℝ} {o : MdctObj ℝ} {c : ℝ} (h : MadeMdct FftContract win o) (hn : 1 ≤ o.len) (hs : Spec.Symmetric o.len win)
    (hc : Spec.PrincenBradley o.len c win) :
    EncodesEnergy o o.len (c * o.len / 2) ∧ DecodesEnergy o o.len (c * o.len / 2) ∧ ToleratesQuantisation o o.len (c * o.len / 2) :=
  ⟨fun _ _ _ => C87_analysis h hn hs hc, fun _ _ _ _ _ => C87_synthesis h hn hs hc, fun _ _ _ _ _ _ => C87_quantised h hn hs hc⟩

/-- And for every instance the planner returns, after any calls. -/
theorem C87_planned {planFft : ℕ → Fft ℝ} {calls : List (PlanCall ℝ)} {w : ℕ → List ℝ} {o : MdctObj ℝ} {n : ℕ} {c : ℝ} (hf : PlanFftContract planFft)
    (h : PlannedMdct planFft calls n w o) (hn : 1 ≤ n) (hs : Spec.Symmetric n (effectiveWindow n calls w (2 * n)))
    (hc : Spec.PrincenBradley n c (effectiveWindow n calls w (2 * n))) :
    EncodesEnergy o n (c * n / 2) ∧ DecodesEnergy o n (c * n / 2) ∧ ToleratesQuantisation o n (c * n / 2) := by
  obtain ⟨rfl, hm⟩ := h.made_window hf.shape
  exact C87_made (hm.mono (FromPlan.contract hf)) hn hs hc

/-- The hypotheses are met: an MDCT of length 64 with the window of MP3. A signal with energy 2 gives coefficients with energy 64. -/
example : ∃ (o : MdctObj ℝ) (Xs : List (List ℝ)) (m : Mem ℝ), PlannedMdct (fun n => (dftFft n : Fft ℝ)) [] 64 WindowFn.mp3 o ∧
    DecodesEnergy o 64 32 ∧ ToleratesQuantisation o 64 32 ∧
    analyse o (List.replicate 64 0) [1 :: -1 :: List.replicate 62 0, List.replicate 64 0] m = .ok Xs ∧ Spec.energy Xs = 64 := by
  obtain ⟨⟨p1, p2⟩, -⟩ := C24_windows (n := 64) (by norm_num)
  obtain ⟨o, ho⟩ := plannedMdct_exists dftFft_plan.shape [] (n := 64) rfl (w := WindowFn.mp3) p1.1
  obtain ⟨h1, h2, h3⟩ := C87_planned dftFft_plan ho (by norm_num) p1 p2
  rw [show (1 : ℝ) * (64 : ℕ) / 2 = 32 by norm_num] at h1 h2 h3
  obtain ⟨Xs, k1, -, -, -, k2⟩ := h1 (List.replicate 64 0) [1 :: -1 :: List.replicate 62 0, List.replicate 64 0] ⟨List.replicate 64 0, List.replicate o.scratchLen 0⟩
    (by simp) (by simp) (by simp)
  refine ⟨o, Xs, _, ho, h2, h3, k1, ?_⟩
  rw [k2 rfl rfl]
  norm_num [Spec.energy, List.map_replicate, List.sum_replicate]

end RustDct
