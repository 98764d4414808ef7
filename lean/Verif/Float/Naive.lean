import Verif.Float.Pow2
import Verif.Float.Dft
import Verif.Float.Fft23
/-!
# Accuracy of the naive algorithms
-/

set_option linter.all false

namespace RustDct
open Finset Real

variable {T F : Type} [F64 F] [DctNum T F] {R : Rounding T F}

/-! ### Twiddle tables -/

theorem Rounding.ap_pi (R : Rounding T F) : Ap (R.valF F64.pi) π π (1 + R.v) := ⟨R.one_le_v, by rw [abs_of_pos pi_pos], by simpa using R.f_pi⟩

theorem Rounding.ap_pidiv (R : Rounding T F) {d : F} {y : ℝ} (hy : 0 < y) (hd : |R.valF d - y| ≤ R.v * y) :
    Ap (R.valF (F64.pi / d)) (π / y) (π / y) ((1 + R.v) ^ 2 / (1 - R.v)) := by
  obtain ⟨hs, h4⟩ := R.ap_pi.div0 R.v_nonneg R.v_lt hy hd
  have h5 := h4.round R.v_nonneg (R.f_div _ _ hs)
  exact h5.mono (le_of_eq (by ring))

theorem Rounding.ap_pidiv' (R : Rounding T F) {d : F} {y : ℝ} (hy : 0 < y) (hd : |R.valF d - y| ≤ (3 * R.v + 2 * R.v ^ 2) * y) :
    Ap (R.valF (F64.pi / d)) (π / y) (π / y) ((1 + R.v) ^ 5 / (1 - R.v)) := by
  have h0 := R.v_nonneg
  have h1 := R.v_le
  have hlt : 3 * R.v + 2 * R.v ^ 2 < 1 := by nlinarith
  obtain ⟨hs, h4⟩ := R.ap_pi.div0 (by positivity) hlt hy hd
  have h5 := h4.round R.v_nonneg (R.f_div _ _ hs)
  refine h5.mono ?_
  rw [← mul_div_assoc, div_le_div_iff₀ (by linarith) (by linarith)]
  have h2 : 0 ≤ (1 + R.v) ^ 2 := sq_nonneg _
  have h3 : 1 - R.v ≤ (1 + R.v) ^ 3 * (1 - (3 * R.v + 2 * R.v ^ 2)) := by
    have : (1 + R.v) ^ 3 * (1 - (3 * R.v + 2 * R.v ^ 2)) - (1 - R.v) = R.v * (1 - 8 * R.v - 14 * R.v ^ 2 - 9 * R.v ^ 3 - 2 * R.v ^ 4) := by ring
    have h6 : R.v ^ 2 ≤ (1 / 16) ^ 2 := pow_le_pow_left₀ h0 h1 2
    have h7 : R.v ^ 3 ≤ (1 / 16) ^ 3 := pow_le_pow_left₀ h0 h1 3
    have h8 : R.v ^ 4 ≤ (1 / 16) ^ 4 := pow_le_pow_left₀ h0 h1 4
    have : 0 ≤ R.v * (1 - 8 * R.v - 14 * R.v ^ 2 - 9 * R.v ^ 3 - 2 * R.v ^ 4) := mul_nonneg h0 (by norm_num at h6 h7 h8; linarith)
    linarith
  calc (1 + R.v) * (1 + R.v) * (1 - R.v) = (1 + R.v) ^ 2 * (1 - R.v) := by ring
    _ ≤ (1 + R.v) ^ 2 * ((1 + R.v) ^ 3 * (1 - (3 * R.v + 2 * R.v ^ 2))) := mul_le_mul_of_nonneg_left h3 h2
    _ = _ := by ring

theorem Rounding.ang_mono (R : Rounding T F) {a b : ℕ} (h : a ≤ b) : (1 + R.v) ^ a / (1 - R.v) ≤ (1 + R.v) ^ b / (1 - R.v) :=
  div_le_div_of_nonneg_right (pow_le_pow_right₀ R.one_le_v h) (by linarith [R.v_lt])

theorem Rounding.ap_halfF (R : Rounding T F) : Ap (R.valF F64.half) (1 / 2) (1 / 2) (1 + R.v) :=
  (show Ap (R.valF F64.half) (1 / 2) (1 / 2) 1 from by rw [R.f_half]; exact Ap.exact' (by norm_num)).mono R.one_le_v

/-- The angle `π / y * i`. -/
theorem Rounding.ap_ang (R : Rounding T F) {c : F} {y : ℝ} (hy : 0 < y) (h : Ap (R.valF c) (π / y) (π / y) ((1 + R.v) ^ 5 / (1 - R.v))) {i : ℕ} (hi : (i : ℝ) ≤ 2 * y) :
    Ap (R.valF (c * F64.nat i)) (π / y * i) (2 * π) ((1 + R.v) ^ 7 / (1 - R.v)) := by
  have h1 := R.ap_mulf h (R.ap_nat i)
  refine (h1.mono (le_of_eq (by ring))).monoX ?_
  rw [div_mul_eq_mul_div, div_le_iff₀ hy]
  have := mul_le_mul_of_nonneg_left hi pi_pos.le
  linarith

/-- The angle `π / y * (i + 1/2)`. -/
theorem Rounding.ap_angh (R : Rounding T F) {c : F} {y : ℝ} (hy : 0 < y) (h : Ap (R.valF c) (π / y) (π / y) ((1 + R.v) ^ 2 / (1 - R.v))) {i : ℕ} (hi : (i : ℝ) + 1 / 2 ≤ 2 * y) :
    Ap (R.valF (c * (F64.nat i + F64.half))) (π / y * (i + 1 / 2)) (2 * π) ((1 + R.v) ^ 7 / (1 - R.v)) := by
  have h0 := ((R.ap_nat i).add0 R.ap_halfF).round R.v_nonneg (R.f_add _ _)
  have h1 := R.ap_mulf h h0
  refine (h1.mono ?_).monoX ?_
  · rw [show (1 + R.v) * ((1 + R.v) ^ 2 / (1 - R.v) * ((1 + R.v) * (1 + R.v))) = (1 + R.v) ^ 5 / (1 - R.v) by ring]
    exact R.ang_mono (by norm_num)
  · rw [div_mul_eq_mul_div, div_le_iff₀ hy]
    have := mul_le_mul_of_nonneg_left hi pi_pos.le
    linarith

theorem Rounding.conv_tau (R : Rounding T F) {c : F} {x : ℝ} (h : Ap (R.valF c) x 1 (1 + (R.t + 2 * π * ((1 + R.v) ^ 7 / (1 - R.v) - 1)))) :
    Ap (R.val (fromF64 c)) x 1 (1 + R.tau) := by
  have h1 := h.round R.u_nonneg (R.from_f64 _)
  refine h1.mono ?_
  have hv := one_le_pow₀ (n := 2) R.one_le_v
  have h3 := h.one_le
  unfold Rounding.tau
  rw [show 1 + ((1 + R.u) * ((1 + R.v) ^ 2 * (1 + (R.t + 2 * π * ((1 + R.v) ^ 7 / (1 - R.v) - 1)))) - 1) =
    (1 + R.u) * ((1 + R.v) ^ 2 * (1 + (R.t + 2 * π * ((1 + R.v) ^ 7 / (1 - R.v) - 1)))) by ring]
  apply mul_le_mul_of_nonneg_left _ (by linarith [R.u_nonneg])
  nlinarith

theorem Rounding.ap_cosT (R : Rounding T F) {θ : F} {x : ℝ} (h : Ap (R.valF θ) x (2 * π) ((1 + R.v) ^ 7 / (1 - R.v))) :
    Ap (R.val (fromF64 (F64.cos θ))) (cos x) 1 (1 + R.tau) := R.conv_tau (R.cos_close h)
theorem Rounding.ap_sinT (R : Rounding T F) {θ : F} {x : ℝ} (h : Ap (R.valF θ) x (2 * π) ((1 + R.v) ^ 7 / (1 - R.v))) :
    Ap (R.val (fromF64 (F64.sin θ))) (sin x) 1 (1 + R.tau) := R.conv_tau (R.sin_close h)

theorem Rounding.nat_sub_half (R : Rounding T F) {n : ℕ} (hn : 1 ≤ n) :
    |R.valF (F64.nat n - F64.half) - ((n : ℝ) - 1 / 2)| ≤ (3 * R.v + 2 * R.v ^ 2) * ((n : ℝ) - 1 / 2) := by
  have h1 : (1 : ℝ) ≤ n := by exact_mod_cast hn
  have hv := R.v_nonneg
  have a := R.f_nat n
  have b := R.f_sub (F64.nat n) F64.half
  rw [R.f_half] at b
  have c : |R.valF (F64.nat n) - 1 / 2 - ((n : ℝ) - 1 / 2)| ≤ 2 * R.v * ((n : ℝ) - 1 / 2) := by
    rw [show R.valF (F64.nat n) - 1 / 2 - ((n : ℝ) - 1 / 2) = R.valF (F64.nat n) - n by ring]
    refine a.trans ?_
    nlinarith
  have d : |R.valF (F64.nat n) - 1 / 2| ≤ (1 + 2 * R.v) * ((n : ℝ) - 1 / 2) := by
    have := abs_add_le (R.valF (F64.nat n) - 1 / 2 - ((n : ℝ) - 1 / 2)) ((n : ℝ) - 1 / 2)
    rw [sub_add_cancel, abs_of_pos (show 0 < (n : ℝ) - 1 / 2 by linarith)] at this
    linarith
  have e := abs_sub_le (R.valF (F64.nat n - F64.half)) (R.valF (F64.nat n) - 1 / 2) ((n : ℝ) - 1 / 2)
  have f := mul_le_mul_of_nonneg_left d hv
  nlinarith

theorem Rounding.nat_add_half (R : Rounding T F) (n : ℕ) :
    |R.valF (F64.nat n + F64.half) - ((n : ℝ) + 1 / 2)| ≤ (3 * R.v + 2 * R.v ^ 2) * ((n : ℝ) + 1 / 2) := by
  have h1 : (0 : ℝ) ≤ n := Nat.cast_nonneg n
  have hv := R.v_nonneg
  have h := ((R.ap_nat n).add0 R.ap_halfF).round hv (R.f_add _ _)
  refine h.err.trans (mul_le_mul_of_nonneg_right ?_ (by linarith))
  nlinarith

/-! ### Sums -/

/-- The inner loop, its exact counterpart and a bound for the difference. -/
theorem Rounding.ap_naive (R : Rounding T F) {W Wr : Type} {op : T → T → W → T} {opr : ℝ → ℝ → Wr → ℝ} {L n lo st t0 : ℕ} {w : ℕ → W} {wr : ℕ → Wr} {x : ℕ → T} {xr X : ℕ → ℝ}
    {c0 : T} {c0r C0 g : ℝ} (hL : 0 < L) (hlo : lo ≤ n)
    (hop : ∀ i < n, ∀ j < L, ∀ c cr C g', g ≤ g' → Ap (R.val c) cr C g' → Ap (R.val (op c (x i) (w j))) (opr cr (xr i) (wr j)) (C + X i) ((1 + R.u) * g'))
    (hc : Ap (R.val c0) c0r C0 g) :
    Ap (R.val (naiveSum op L w n x lo st t0 c0)) (naiveSum opr L wr n xr lo st t0 c0r) (C0 + ∑ i ∈ Ico lo n, X i) ((1 + R.u) ^ (n - lo) * g) := by
  unfold naiveSum
  rw [Finset.sum_Ico_eq_sum_range]
  have h : ∀ m, m ≤ n - lo → Ap (R.val ((List.range' lo m).foldl (fun c i => op c (x i) (w ((t0 + st * (i - lo)) % L))) c0))
      ((List.range' lo m).foldl (fun c i => opr c (xr i) (wr ((t0 + st * (i - lo)) % L))) c0r) (C0 + ∑ i ∈ range m, X (lo + i)) ((1 + R.u) ^ m * g) := by
    intro m
    induction m with
    | zero => intro _; simpa using hc
    | succ m ih =>
      intro hm
      have h1 := ih (by omega)
      rw [List.range'_concat, List.foldl_append, List.foldl_append, Finset.sum_range_succ, ← add_assoc]
      simp only [List.foldl_cons, List.foldl_nil, Nat.one_mul]
      have h2 := hop (lo + m) (by omega) ((t0 + st * (lo + m - lo)) % L) (Nat.mod_lt _ hL) _ _ _ _ (by
        have := one_le_pow₀ (n := m) R.one_le_u
        nlinarith [hc.one_le]) h1
      exact h2.mono (le_of_eq (by ring))
  exact h (n - lo) (le_refl _)

theorem Rounding.hop_add (R : Rounding T F) {L n : ℕ} {w : ℕ → T} {wr : ℕ → ℝ} {x : ℕ → T} {xr X : ℕ → ℝ} (hw : ∀ j < L, Ap (R.val (w j)) (wr j) 1 (1 + R.tau))
    (hx : ∀ i < n, Ap (R.val (x i)) (xr i) (X i) ((1 + R.u) ^ 2)) :
    ∀ i < n, ∀ j < L, ∀ c cr C g', R.term ≤ g' → Ap (R.val c) cr C g' → Ap (R.val (opAdd c (x i) (w j))) (opAdd cr (xr i) (wr j)) (C + X i) ((1 + R.u) * g') := by
  intro i hi j hj c cr C g' hg hc
  have h := R.ap_mul (hx i hi) (hw j hj)
  rw [mul_one] at h
  exact R.ap_add hc (h.mono (le_trans (le_of_eq (by unfold Rounding.term; ring)) hg))
theorem Rounding.hop_re (R : Rounding T F) {L n : ℕ} {w : ℕ → Cx T} {wr : ℕ → Cx ℝ} {x : ℕ → T} {xr X : ℕ → ℝ} (hw : ∀ j < L, Ap (R.val (w j).re) (wr j).re 1 (1 + R.tau))
    (hx : ∀ i < n, Ap (R.val (x i)) (xr i) (X i) ((1 + R.u) ^ 2)) :
    ∀ i < n, ∀ j < L, ∀ c cr C g', R.term ≤ g' → Ap (R.val c) cr C g' → Ap (R.val (opAddRe c (x i) (w j))) (opAddRe cr (xr i) (wr j)) (C + X i) ((1 + R.u) * g') := by
  intro i hi j hj c cr C g' hg hc
  have h := R.ap_mul (hx i hi) (hw j hj)
  rw [mul_one] at h
  exact R.ap_add hc (h.mono (le_trans (le_of_eq (by unfold Rounding.term; ring)) hg))
theorem Rounding.hop_im (R : Rounding T F) {L n : ℕ} {w : ℕ → Cx T} {wr : ℕ → Cx ℝ} {x : ℕ → T} {xr X : ℕ → ℝ} (hw : ∀ j < L, Ap (R.val (w j).im) (wr j).im 1 (1 + R.tau))
    (hx : ∀ i < n, Ap (R.val (x i)) (xr i) (X i) ((1 + R.u) ^ 2)) :
    ∀ i < n, ∀ j < L, ∀ c cr C g', R.term ≤ g' → Ap (R.val c) cr C g' → Ap (R.val (opSubIm c (x i) (w j))) (opSubIm cr (xr i) (wr j)) (C + X i) ((1 + R.u) * g') := by
  intro i hi j hj c cr C g' hg hc
  have h := R.ap_mul (hx i hi) (hw j hj)
  rw [mul_one] at h
  exact R.ap_sub hc (h.mono (le_trans (le_of_eq (by unfold Rounding.term; ring)) hg))

theorem Rounding.ap_foldl (R : Rounding T F) {n : ℕ} {x : ℕ → T} {xr X : ℕ → ℝ} {g : ℝ} (h1 : 1 ≤ g) (hx : ∀ i < n, Ap (R.val (x i)) (xr i) (X i) g) :
    Ap (R.val ((vec n x).foldl (fun acc e => acc + e) 0)) ((vec n xr).foldl (fun acc e => acc + e) 0) (∑ i ∈ range n, X i) ((1 + R.u) ^ n * g) := by
  induction n with
  | zero => simpa [vec, R.zero] using (Ap.exact' (r := 0) (X := 0) (by simp)).mono h1
  | succ n ih =>
    have h2 := ih fun i hi => hx i (by omega)
    unfold vec at h2 ⊢
    rw [List.range_succ, List.map_append, List.map_append, List.foldl_append, List.foldl_append, Finset.sum_range_succ]
    simp only [List.map_cons, List.map_nil, List.foldl_cons, List.foldl_nil]
    have h3 := R.ap_add h2 ((hx n (by omega)).mono (by
      have := one_le_pow₀ (n := n) R.one_le_u
      nlinarith))
    exact h3.mono (le_of_eq (by ring))

/-! ### Inputs -/

theorem Rounding.ap_id (R : Rounding T F) (a : T) : Ap (R.val a) (R.val a) |R.val a| ((1 + R.u) ^ 2) := (Ap.exact _).mono (one_le_pow₀ R.one_le_u)
theorem Rounding.ap_id0 (R : Rounding T F) (a : T) : Ap (R.val a) (R.val a) |R.val a| 1 := Ap.exact _

theorem Rounding.ap_hf (R : Rounding T F) {f : ℕ → T} {fr : ℕ → ℝ} {X : ℝ} {a : ℕ} {i : ℕ} (h : Ap (R.val (f i)) (fr i) X ((1 + R.u) ^ a)) :
    Ap (R.val (halfFirst f i)) (halfFirst fr i) (Spec.halfAt 0 i * X) ((1 + R.u) ^ (a + 1)) := by
  unfold halfFirst Spec.halfAt
  by_cases e : i = 0
  · subst e
    rw [if_pos rfl, if_pos rfl, if_pos rfl]
    have h2 := R.ap_mul h (show Ap (R.val (thalf T)) (1 / 2) (1 / 2) 1 from by rw [R.half]; exact Ap.exact' (by norm_num))
    have h3 := h2.mono (le_of_eq (show _ = (1 + R.u) ^ (a + 1) by ring))
    convert h3 using 1
    · simp
    · ring
  · rw [if_neg e, if_neg e, if_neg e, one_mul]
    exact h.mono (pow_le_pow_right₀ R.one_le_u (by omega))
theorem Rounding.ap_hl (R : Rounding T F) {n : ℕ} {f : ℕ → T} {fr : ℕ → ℝ} {X : ℝ} {a : ℕ} {i : ℕ} (h : Ap (R.val (f i)) (fr i) X ((1 + R.u) ^ a)) :
    Ap (R.val (halfLast n f i)) (halfLast n fr i) (Spec.halfAt (n - 1) i * X) ((1 + R.u) ^ (a + 1)) := by
  unfold halfLast Spec.halfAt
  by_cases e : i = n - 1
  · subst e
    rw [if_pos rfl, if_pos rfl, if_pos rfl]
    have h2 := R.ap_mul h (show Ap (R.val (thalf T)) (1 / 2) (1 / 2) 1 from by rw [R.half]; exact Ap.exact' (by norm_num))
    have h3 := h2.mono (le_of_eq (show _ = (1 + R.u) ^ (a + 1) by ring))
    convert h3 using 1
    · simp
    · ring
  · rw [if_neg e, if_neg e, if_neg e, one_mul]
    exact h.mono (pow_le_pow_right₀ R.one_le_u (by omega))

/-! ### From entries to the norm -/

theorem Kind.weight_sum_le (k : Kind) {n : ℕ} : ∑ i ∈ range n, k.weight n i ≤ n := by
  calc ∑ i ∈ range n, k.weight n i ≤ ∑ i ∈ range n, 1 := sum_le_sum fun i _ => k.weight_le_one n i
    _ = n := by simp

theorem sum_halfLast {n : ℕ} (hn : 1 ≤ n) : ∑ i ∈ range n, Spec.halfAt (n - 1) i = (n : ℝ) - 1 / 2 := by
  obtain ⟨m, rfl⟩ : ∃ m, n = m + 1 := ⟨n - 1, by omega⟩
  rw [sum_range_succ, sum_congr rfl fun i hi => show Spec.halfAt (m + 1 - 1) i = 1 by
    rw [mem_range] at hi; unfold Spec.halfAt; rw [if_neg (by omega)]]
  simp [Spec.halfAt]
  ring

theorem sum_halfBoth {n : ℕ} (hn : 2 ≤ n) : ∑ i ∈ range n, Spec.halfAt 0 i * Spec.halfAt (n - 1) i = (n : ℝ) - 1 := by
  obtain ⟨m, rfl⟩ : ∃ m, n = m + 2 := ⟨n - 2, by omega⟩
  rw [sum_range_succ, sum_congr rfl fun i hi => show Spec.halfAt 0 i * Spec.halfAt (m + 2 - 1) i = Spec.halfAt 0 i by
    rw [mem_range] at hi; unfold Spec.halfAt; rw [if_neg (show ¬ i = m + 2 - 1 by omega), mul_one], sum_halfAt (by omega)]
  simp [Spec.halfAt]
  ring

theorem Kind.weight_sum_scale (k : Kind) {n : ℕ} (hn : 1 ≤ n) (h1 : k = .dct1 → 2 ≤ n) : ∑ i ∈ range n, k.inv.weight n i ≤ 2 * k.scale n := by
  cases k <;> simp only [Kind.inv, Kind.weight, Kind.scale, sum_halfAt hn, sum_halfLast hn, Finset.sum_const, card_range, nsmul_eq_mul, mul_one] <;> first | linarith | skip
  rw [sum_halfBoth (h1 rfl)]; linarith

theorem TransAcc.of_ap {k : Kind} {n : ℕ} {C : (ℕ → T) → ℕ → T} {g : ℝ} (hn : 1 ≤ n) (h1 : k = .dct1 → 2 ≤ n) (hg : 1 ≤ g)
    (h : ∀ f i, i < n → Ap (R.val (C f i)) (k.specAt n (R.seq f) i) (∑ j ∈ range n, k.weight n j * |R.val (f j)|) g) :
    TransAcc R k n C (gainErr n g) := fun f => by
  have hs := k.scale_nonneg hn
  have hw := k.weight_nonneg n
  have cs : (∑ j ∈ range n, k.weight n j * |R.val (f j)|) ^ 2 ≤ n * ∑ j ∈ range n, k.weight n j * R.val (f j) ^ 2 := by
    have h2 := sum_mul_sq_le_sq_mul_sq (range n) (fun j => √(k.weight n j)) (fun j => √(k.weight n j) * |R.val (f j)|)
    have e1 : ∑ j ∈ range n, √(k.weight n j) * (√(k.weight n j) * |R.val (f j)|) = ∑ j ∈ range n, k.weight n j * |R.val (f j)| :=
      sum_congr rfl fun j _ => by rw [← mul_assoc, mul_self_sqrt (hw j)]
    have e2 : ∑ j ∈ range n, √(k.weight n j) ^ 2 = ∑ j ∈ range n, k.weight n j := sum_congr rfl fun j _ => sq_sqrt (hw j)
    have e3 : ∑ j ∈ range n, (√(k.weight n j) * |R.val (f j)|) ^ 2 = ∑ j ∈ range n, k.weight n j * R.val (f j) ^ 2 :=
      sum_congr rfl fun j _ => by rw [mul_pow, sq_sqrt (hw j), sq_abs]
    rw [e1, e2, e3] at h2
    exact h2.trans (mul_le_mul_of_nonneg_right k.weight_sum_le (sum_nonneg fun j _ => mul_nonneg (hw j) (sq_nonneg _)))
  have main : ∑ i ∈ range n, k.inv.weight n i * ((R.seq (C f) - k.specAt n (R.seq f)) i) ^ 2 ≤
      (gainErr n g * √(k.scale n)) ^ 2 * ∑ j ∈ range n, k.weight n j * R.val (f j) ^ 2 := by
    have hS : 0 ≤ ∑ j ∈ range n, k.weight n j * R.val (f j) ^ 2 := sum_nonneg fun j _ => mul_nonneg (hw j) (sq_nonneg _)
    calc ∑ i ∈ range n, k.inv.weight n i * ((R.seq (C f) - k.specAt n (R.seq f)) i) ^ 2
        ≤ ∑ i ∈ range n, k.inv.weight n i * ((g - 1) ^ 2 * (n * ∑ j ∈ range n, k.weight n j * R.val (f j) ^ 2)) := by
          refine sum_le_sum fun i hi => mul_le_mul_of_nonneg_left ?_ (k.inv.weight_nonneg n i)
          have h3 := (h f i (mem_range.1 hi)).err
          have h4 := sq_le_of_abs_le h3
          exact h4.trans (mul_le_mul_of_nonneg_left cs (sq_nonneg _))
      _ = (∑ i ∈ range n, k.inv.weight n i) * ((g - 1) ^ 2 * (n * ∑ j ∈ range n, k.weight n j * R.val (f j) ^ 2)) := by rw [sum_mul]
      _ ≤ (2 * k.scale n) * ((g - 1) ^ 2 * (n * ∑ j ∈ range n, k.weight n j * R.val (f j) ^ 2)) := by
          apply mul_le_mul_of_nonneg_right (k.weight_sum_scale hn h1)
          positivity
      _ = _ := by
          unfold gainErr
          rw [mul_pow, mul_pow, sq_sqrt hs, sq_sqrt (by positivity)]
          ring
  have h5 := sqrt_le_mul_sqrt (mul_nonneg (show 0 ≤ gainErr n g from mul_nonneg (sqrt_nonneg _) (by linarith)) (sqrt_nonneg _)) main
  simp only [Kind.nm, Nm.w, wn, Real.norm_eq_abs, sq_abs]
  refine h5.trans (le_of_eq ?_)
  simp only [Rounding.seq]
  ring

theorem Rounding.one_le_term (R : Rounding T F) : 1 ≤ R.term :=
  one_le_mul_of_one_le_of_one_le (one_le_pow₀ R.one_le_u) (by linarith [R.tau_nonneg])
theorem Rounding.u2_le_term (R : Rounding T F) : (1 + R.u) ^ 2 ≤ R.term := by
  unfold Rounding.term
  calc (1 + R.u) ^ 2 ≤ (1 + R.u) ^ 3 := pow_le_pow_right₀ R.one_le_u (by norm_num)
    _ ≤ _ := le_mul_of_one_le_right (pow_nonneg (by linarith [R.u_nonneg]) _) (by linarith [R.tau_nonneg])
theorem Rounding.one_le_naive (R : Rounding T F) (n : ℕ) : 1 ≤ (1 + R.u) ^ n * R.term :=
  one_le_mul_of_one_le_of_one_le (one_le_pow₀ R.one_le_u) R.one_le_term
theorem Rounding.pow_term_le (R : Rounding T F) {a b : ℕ} (h : a ≤ b) : (1 + R.u) ^ a * R.term ≤ (1 + R.u) ^ b * R.term :=
  mul_le_mul_of_nonneg_right (pow_le_pow_right₀ R.one_le_u h) (by linarith [R.one_le_term])
theorem Rounding.ap_zero (R : Rounding T F) : Ap (R.val 0) 0 0 R.term :=
  (show Ap (R.val 0) 0 0 1 from by rw [R.zero]; exact Ap.exact' (by simp)).mono R.one_le_term

theorem sum_split0 {n : ℕ} (hn : 1 ≤ n) (X : ℕ → ℝ) : X 0 + ∑ i ∈ Ico 1 n, X i = ∑ i ∈ range n, X i := (sum_range_split hn X).symm
theorem sum_ico0 {n : ℕ} (X : ℕ → ℝ) : 0 + ∑ i ∈ Ico 0 n, X i = ∑ i ∈ range n, X i := by rw [zero_add, Finset.range_eq_Ico]

/-! ### The inputs of the loops -/

section
variable (R) {n : ℕ} (f : ℕ → T)
theorem Rounding.hx_id : ∀ j < n, Ap (R.val (f j)) (R.seq f j) (1 * |R.val (f j)|) ((1 + R.u) ^ 2) := fun j _ => by rw [one_mul]; exact R.ap_id (f j)
theorem Rounding.hx_first : ∀ j < n, Ap (R.val (halfFirst f j)) (halfFirst (R.seq f) j) (Spec.halfAt 0 j * |R.val (f j)|) ((1 + R.u) ^ 2) := fun j _ =>
  R.ap_hf (a := 1) (fr := R.seq f) ((R.ap_id0 (f j)).mono (one_le_pow₀ R.one_le_u))
theorem Rounding.hx_last : ∀ j < n, Ap (R.val (halfLast n f j)) (halfLast n (R.seq f) j) (Spec.halfAt (n - 1) j * |R.val (f j)|) ((1 + R.u) ^ 2) := fun j _ =>
  R.ap_hl (a := 1) (fr := R.seq f) ((R.ap_id0 (f j)).mono (one_le_pow₀ R.one_le_u))
theorem Rounding.hx_both : ∀ j < n, Ap (R.val (halfLast n (halfFirst f) j)) (halfLast n (halfFirst (R.seq f)) j)
    (Spec.halfAt 0 j * Spec.halfAt (n - 1) j * |R.val (f j)|) ((1 + R.u) ^ 2) := fun j _ => by
  have h := R.ap_hl (n := n) (f := halfFirst f) (a := 1) (R.ap_hf (a := 0) (fr := R.seq f) (f := f) (i := j) (by rw [pow_zero]; exact R.ap_id0 (f j)))
  exact h.monoX (le_of_eq (by ring))
end

/-! ### Dct1Naive -/

def Dct1Naive.tab (n : ℕ) : ℕ → T := fun i => fromF64 (F64.cos ((F64.pi / F64.nat (n - 1) : F) * F64.nat i))
theorem Dct1Naive.new_tab {n : ℕ} (hn : 2 ≤ n) : (Dct1Naive.new n : Except Err (Dct1Naive T)) = .ok ⟨vec ((n - 1) * 2) (Dct1Naive.tab n)⟩ := by
  have h1 : n ≠ 1 := by omega
  simp only [Dct1Naive.new, if_neg h1, csub_ok (show 1 ≤ n by omega), ok_bind]
  rfl
theorem Dct1Naive.ap_tab (R : Rounding T F) {n : ℕ} (hn : 2 ≤ n) : ∀ j < (n - 1) * 2, Ap (R.val (Dct1Naive.tab n j : T)) (Dct1Naive.tab n j : ℝ) 1 (1 + R.tau) := by
  intro j hj
  have hy : (0 : ℝ) < (n - 1 : ℕ) := by exact_mod_cast (by omega : 0 < n - 1)
  exact R.ap_cosT (R.ap_ang hy ((R.ap_pidiv hy (R.f_nat _)).mono (R.ang_mono (by norm_num))) (by exact_mod_cast (by omega : j ≤ 2 * (n - 1))))

theorem Dct1Naive.acc_dct1 (R : Rounding T F) {n : ℕ} (hn : 2 ≤ n) :
    PAcc R .dct1 (Dct1Naive.dct1 (⟨vec ((n - 1) * 2) (Dct1Naive.tab n)⟩ : Dct1Naive T)) n n (R.naive n) := by
  refine ⟨_, Dct1Naive.runs_dct1 hn _, TransAcc.of_ap (by omega) (by first | exact fun _ => hn | (intro h; cases h)) (R.one_le_naive n) fun f i hi => ?_⟩
  have e := RunsV.unique (Dct1Naive.runs_dct1 hn (Dct1Naive.tab n : ℕ → ℝ)) (Dct1Naive.dct1_inst hn) (R.seq f) hi
  rw [show Kind.dct1.specAt n (R.seq f) i = _ from e.symm]
  have hx := R.hx_both (n := n) f
  have h := R.ap_naive (lo := 1) (st := i) (t0 := i) (by omega) (by omega) (R.hop_add (Dct1Naive.ap_tab (n := n) R hn) hx) ((hx 0 (by omega)).mono R.u2_le_term)
  rw [sum_split0 (by omega) (fun j => Spec.halfAt 0 j * Spec.halfAt (n - 1) j * |R.val (f j)|)] at h
  exact h.mono (R.pow_term_le (by omega))

/-! ### Dst1Naive -/

def Dst1Naive.tab (n : ℕ) : ℕ → T := fun i => fromF64 (F64.sin ((F64.pi / F64.nat (n + 1) : F) * F64.nat i))
theorem Dst1Naive.new_tab {n : ℕ}  : (Dst1Naive.new n : Except Err (Dst1Naive T)) = .ok ⟨vec ((n + 1) * 2) (Dst1Naive.tab n)⟩ := by
  rfl
theorem Dst1Naive.ap_tab (R : Rounding T F) {n : ℕ}  : ∀ j < (n + 1) * 2, Ap (R.val (Dst1Naive.tab n j : T)) (Dst1Naive.tab n j : ℝ) 1 (1 + R.tau) := by
  intro j hj
  have hy : (0 : ℝ) < (n + 1 : ℕ) := by exact_mod_cast (by omega : 0 < n + 1)
  exact R.ap_sinT (R.ap_ang hy ((R.ap_pidiv hy (R.f_nat _)).mono (R.ang_mono (by norm_num))) (by exact_mod_cast (by omega : j ≤ 2 * (n + 1))))

theorem Dst1Naive.acc_dst1 (R : Rounding T F) {n : ℕ} (hn : 1 ≤ n) :
    PAcc R .dst1 (Dst1Naive.dst1 (⟨vec ((n + 1) * 2) (Dst1Naive.tab n)⟩ : Dst1Naive T)) n n (R.naive n) := by
  refine ⟨_, Dst1Naive.runs_dst1  _, TransAcc.of_ap (by omega) (by first | exact fun _ => hn | (intro h; cases h)) (R.one_le_naive n) fun f i hi => ?_⟩
  have e := RunsV.unique (Dst1Naive.runs_dst1  (Dst1Naive.tab n : ℕ → ℝ)) (Dst1Naive.dst1_inst ) (R.seq f) hi
  rw [show Kind.dst1.specAt n (R.seq f) i = _ from e.symm]
  have hx := R.hx_id (n := n) f
  have h := R.ap_naive (lo := 0) (st := i + 1) (t0 := i + 1) (by omega) (by omega) (R.hop_add (Dst1Naive.ap_tab (n := n) R ) hx) R.ap_zero
  rw [sum_ico0 (fun j => 1 * |R.val (f j)|)] at h
  exact h.mono (R.pow_term_le (by omega))

theorem Rounding.ap_c0 (R : Rounding T F) (f : ℕ → T) : Ap (R.val (thalf T * f 0)) (thalf ℝ * R.seq f 0) (Spec.halfAt 0 0 * |R.val (f 0)|) R.term := by
  have h2 := R.ap_mul (show Ap (R.val (thalf T)) (1 / 2) (1 / 2) 1 from by rw [R.half]; exact Ap.exact' (by norm_num)) (R.ap_id0 (f 0))
  have h3 := h2.mono (show _ ≤ R.term from by
    refine le_trans ?_ R.u2_le_term
    nlinarith [R.u_nonneg])
  convert h3 using 1
  · simp [Rounding.seq]
  · simp [Spec.halfAt]

/-! ### Type2And3Naive -/

def Type2And3Naive.tab (n : ℕ) : ℕ → Cx T := fun i => singleTwiddle i (n * 4)
theorem Type2And3Naive.new_tab {n : ℕ}  : (Type2And3Naive.new n : Except Err (Type2And3Naive T)) = .ok ⟨vec (n * 4) (Type2And3Naive.tab n)⟩ := by
  rfl
theorem Type2And3Naive.ap_tab (R : Rounding T F) {n : ℕ}  : ∀ j < n * 4, Ap (R.val (Type2And3Naive.tab n j : Cx T).re) (Type2And3Naive.tab n j : Cx ℝ).re 1 (1 + R.tau) ∧ Ap (R.val (Type2And3Naive.tab n j : Cx T).im) (Type2And3Naive.tab n j : Cx ℝ).im 1 (1 + R.tau) := by
  intro j hj
  exact ⟨R.ap_tw_re (by omega) (by omega), R.ap_tw_im (by omega) (by omega)⟩

theorem Type2And3Naive.acc_dct2 (R : Rounding T F) {n : ℕ} (hn : 1 ≤ n) :
    PAcc R .dct2 (Type2And3Naive.dct2 (⟨vec (n * 4) (Type2And3Naive.tab n)⟩ : Type2And3Naive T)) n n (R.naive n) := by
  refine ⟨_, Type2And3Naive.runs_dct2  _, TransAcc.of_ap (by omega) (by first | exact fun _ => hn | (intro h; cases h)) (R.one_le_naive n) fun f i hi => ?_⟩
  have e := RunsV.unique (Type2And3Naive.runs_dct2  (Type2And3Naive.tab n : ℕ → Cx ℝ)) (Type2And3Naive.dct2_inst ) (R.seq f) hi
  rw [show Kind.dct2.specAt n (R.seq f) i = _ from e.symm]
  have hx := R.hx_id (n := n) f
  have h := R.ap_naive (lo := 0) (st := i * 2) (t0 := i) (by omega) (by omega) (R.hop_re ((fun j hj => (Type2And3Naive.ap_tab (n := n) R  j hj).1)) hx) R.ap_zero
  rw [sum_ico0 (fun j => 1 * |R.val (f j)|)] at h
  exact h.mono (R.pow_term_le (by omega))

theorem Type2And3Naive.acc_dst2 (R : Rounding T F) {n : ℕ} (hn : 1 ≤ n) :
    PAcc R .dst2 (Type2And3Naive.dst2 (⟨vec (n * 4) (Type2And3Naive.tab n)⟩ : Type2And3Naive T)) n n (R.naive n) := by
  refine ⟨_, Type2And3Naive.runs_dst2  _, TransAcc.of_ap (by omega) (by first | exact fun _ => hn | (intro h; cases h)) (R.one_le_naive n) fun f i hi => ?_⟩
  have e := RunsV.unique (Type2And3Naive.runs_dst2  (Type2And3Naive.tab n : ℕ → Cx ℝ)) (Type2And3Naive.dst2_inst ) (R.seq f) hi
  rw [show Kind.dst2.specAt n (R.seq f) i = _ from e.symm]
  have hx := R.hx_id (n := n) f
  have h := R.ap_naive (lo := 0) (st := (i + 1) * 2) (t0 := i + 1) (by omega) (by omega) (R.hop_im ((fun j hj => (Type2And3Naive.ap_tab (n := n) R  j hj).2)) hx) R.ap_zero
  rw [sum_ico0 (fun j => 1 * |R.val (f j)|)] at h
  exact h.mono (R.pow_term_le (by omega))

theorem Type2And3Naive.acc_dct3 (R : Rounding T F) {n : ℕ} (hn : 1 ≤ n) :
    PAcc R .dct3 (Type2And3Naive.dct3 (⟨vec (n * 4) (Type2And3Naive.tab n)⟩ : Type2And3Naive T)) n n (R.naive n) := by
  refine ⟨_, Type2And3Naive.runs_dct3 hn _, TransAcc.of_ap (by omega) (by first | exact fun _ => hn | (intro h; cases h)) (R.one_le_naive n) fun f i hi => ?_⟩
  have e := RunsV.unique (Type2And3Naive.runs_dct3 hn (Type2And3Naive.tab n : ℕ → Cx ℝ)) (Type2And3Naive.dct3_inst hn) (R.seq f) hi
  rw [show Kind.dct3.specAt n (R.seq f) i = _ from e.symm]
  have hx := R.hx_id (n := n) f
  have h := R.ap_naive (lo := 1) (st := i * 2 + 1) (t0 := i * 2 + 1) (by omega) (by omega) (R.hop_re ((fun j hj => (Type2And3Naive.ap_tab (n := n) R  j hj).1)) hx) (R.ap_c0 f)
  refine (h.mono (R.pow_term_le (by omega))).monoX (le_of_eq ?_)
  rw [← sum_split0 (by omega) (fun j => Kind.dct3.weight n j * |R.val (f j)|)]
  refine congrArg₂ (· + ·) rfl (sum_congr rfl fun j hj => ?_)
  rw [mem_Ico] at hj
  simp only [Kind.weight, Spec.halfAt]
  rw [if_neg (by omega)]

theorem Type2And3Naive.acc_dst3 (R : Rounding T F) {n : ℕ} (hn : 1 ≤ n) :
    PAcc R .dst3 (Type2And3Naive.dst3 (⟨vec (n * 4) (Type2And3Naive.tab n)⟩ : Type2And3Naive T)) n n (R.naive n) := by
  refine ⟨_, Type2And3Naive.runs_dst3 hn _, TransAcc.of_ap (by omega) (by first | exact fun _ => hn | (intro h; cases h)) (R.one_le_naive n) fun f i hi => ?_⟩
  have e := RunsV.unique (Type2And3Naive.runs_dst3 hn (Type2And3Naive.tab n : ℕ → Cx ℝ)) (Type2And3Naive.dst3_inst hn) (R.seq f) hi
  rw [show Kind.dst3.specAt n (R.seq f) i = _ from e.symm]
  have hx := R.hx_last (n := n) f
  have h := R.ap_naive (lo := 0) (st := i * 2 + 1) (t0 := i * 2 + 1) (by omega) (by omega) (R.hop_im ((fun j hj => (Type2And3Naive.ap_tab (n := n) R  j hj).2)) hx) R.ap_zero
  rw [sum_ico0 (fun j => Spec.halfAt (n - 1) j * |R.val (f j)|)] at h
  exact h.mono (R.pow_term_le (by omega))

/-! ### Type4Naive -/

def Type4Naive.tab (n : ℕ) : ℕ → Cx T := fun i => singleTwiddleHalfoffset i (n * 4)
theorem Type4Naive.new_tab {n : ℕ}  : (Type4Naive.new n : Except Err (Type4Naive T)) = .ok ⟨vec (n * 4) (Type4Naive.tab n)⟩ := by
  rfl
theorem Type4Naive.ap_tab (R : Rounding T F) {n : ℕ}  : ∀ j < n * 4, Ap (R.val (Type4Naive.tab n j : Cx T).re) (Type4Naive.tab n j : Cx ℝ).re 1 (1 + R.tau) ∧ Ap (R.val (Type4Naive.tab n j : Cx T).im) (Type4Naive.tab n j : Cx ℝ).im 1 (1 + R.tau) := by
  intro j hj
  exact ⟨R.ap_twh_re (by omega), R.ap_twh_im (by omega)⟩

theorem Type4Naive.acc_dct4 (R : Rounding T F) {n : ℕ} (hn : 1 ≤ n) :
    PAcc R .dct4 (Type4Naive.dct4 (⟨vec (n * 4) (Type4Naive.tab n)⟩ : Type4Naive T)) n n (R.naive n) := by
  refine ⟨_, Type4Naive.runs_dct4  _, TransAcc.of_ap (by omega) (by first | exact fun _ => hn | (intro h; cases h)) (R.one_le_naive n) fun f i hi => ?_⟩
  have e := RunsV.unique (Type4Naive.runs_dct4  (Type4Naive.tab n : ℕ → Cx ℝ)) (Type4Naive.dct4_inst ) (R.seq f) hi
  rw [show Kind.dct4.specAt n (R.seq f) i = _ from e.symm]
  have hx := R.hx_id (n := n) f
  have h := R.ap_naive (lo := 0) (st := i * 2 + 1) (t0 := i) (by omega) (by omega) (R.hop_re ((fun j hj => (Type4Naive.ap_tab (n := n) R  j hj).1)) hx) R.ap_zero
  rw [sum_ico0 (fun j => 1 * |R.val (f j)|)] at h
  exact h.mono (R.pow_term_le (by omega))

theorem Type4Naive.acc_dst4 (R : Rounding T F) {n : ℕ} (hn : 1 ≤ n) :
    PAcc R .dst4 (Type4Naive.dst4 (⟨vec (n * 4) (Type4Naive.tab n)⟩ : Type4Naive T)) n n (R.naive n) := by
  refine ⟨_, Type4Naive.runs_dst4  _, TransAcc.of_ap (by omega) (by first | exact fun _ => hn | (intro h; cases h)) (R.one_le_naive n) fun f i hi => ?_⟩
  have e := RunsV.unique (Type4Naive.runs_dst4  (Type4Naive.tab n : ℕ → Cx ℝ)) (Type4Naive.dst4_inst ) (R.seq f) hi
  rw [show Kind.dst4.specAt n (R.seq f) i = _ from e.symm]
  have hx := R.hx_id (n := n) f
  have h := R.ap_naive (lo := 0) (st := i * 2 + 1) (t0 := i) (by omega) (by omega) (R.hop_im ((fun j hj => (Type4Naive.ap_tab (n := n) R  j hj).2)) hx) R.ap_zero
  rw [sum_ico0 (fun j => 1 * |R.val (f j)|)] at h
  exact h.mono (R.pow_term_le (by omega))

/-! ### Dct5Naive -/

def Dct5Naive.tab (n : ℕ) : ℕ → T := fun i => fromF64 (F64.cos ((F64.pi / (F64.nat n - F64.half) : F) * F64.nat i))
theorem Dct5Naive.new_tab {n : ℕ} (hn : 1 ≤ n) : (Dct5Naive.new n : Except Err (Dct5Naive T)) = .ok ⟨vec (n * 2 - 1) (Dct5Naive.tab n)⟩ := by
  have h1 : 1 ≤ n * 2 := by omega
  simp only [Dct5Naive.new, csub_ok h1, csub_ok (show 2 ≤ n * 4 by omega), ok_bind]
  rfl
theorem Dct5Naive.ap_tab (R : Rounding T F) {n : ℕ} (hn : 1 ≤ n) : ∀ j < n * 2 - 1, Ap (R.val (Dct5Naive.tab n j : T)) (Dct5Naive.tab n j : ℝ) 1 (1 + R.tau) := by
  intro j hj
  have h1 : (1 : ℝ) ≤ n := by exact_mod_cast hn
  have hy : (0 : ℝ) < n - 1 / 2 := by linarith
  have hj' : (j : ℝ) + 2 ≤ n * 2 := by exact_mod_cast (by omega : j + 2 ≤ n * 2)
  exact R.ap_cosT (R.ap_ang hy (R.ap_pidiv' hy (R.nat_sub_half hn)) (by linarith))

theorem Dct5Naive.acc_dct5 (R : Rounding T F) {n : ℕ} (hn : 1 ≤ n) :
    PAcc R .dct5 (Dct5Naive.dct5 (⟨vec (n * 2 - 1) (Dct5Naive.tab n)⟩ : Dct5Naive T)) n n (R.naive n) := by
  refine ⟨_, Dct5Naive.runs_dct5 hn _, TransAcc.of_ap (by omega) (by first | exact fun _ => hn | (intro h; cases h)) (R.one_le_naive n) fun f i hi => ?_⟩
  have e := RunsV.unique (Dct5Naive.runs_dct5 hn (Dct5Naive.tab n : ℕ → ℝ)) (Dct5Naive.dct5_inst hn) (R.seq f) hi
  rw [show Kind.dct5.specAt n (R.seq f) i = _ from e.symm]
  have hx := R.hx_first (n := n) f
  by_cases h1 : i < 1
  · simp only [if_pos h1]
    exact (R.ap_foldl R.one_le_term fun j hj => (hx j hj).mono R.u2_le_term)
  · simp only [if_neg h1]
    have h := R.ap_naive (lo := 1) (st := i) (t0 := i) (by omega) (by omega) (R.hop_add (Dct5Naive.ap_tab (n := n) R hn) hx) ((hx 0 (by omega)).mono R.u2_le_term)
    rw [sum_split0 (by omega) (fun j => Spec.halfAt 0 j * |R.val (f j)|)] at h
    exact h.mono (R.pow_term_le (by omega))

/-! ### Dst5Naive -/

def Dst5Naive.tab (n : ℕ) : ℕ → T := fun i => fromF64 (F64.sin ((F64.pi / (F64.nat n + F64.half) : F) * F64.nat i))
theorem Dst5Naive.new_tab {n : ℕ}  : (Dst5Naive.new n : Except Err (Dst5Naive T)) = .ok ⟨vec (n * 2 + 1) (Dst5Naive.tab n)⟩ := by
  rfl
theorem Dst5Naive.ap_tab (R : Rounding T F) {n : ℕ}  : ∀ j < n * 2 + 1, Ap (R.val (Dst5Naive.tab n j : T)) (Dst5Naive.tab n j : ℝ) 1 (1 + R.tau) := by
  intro j hj
  have h1 : (0 : ℝ) ≤ n := Nat.cast_nonneg n
  have hy : (0 : ℝ) < n + 1 / 2 := by linarith
  have hj' : (j : ℝ) ≤ n * 2 := by exact_mod_cast (by omega : j ≤ n * 2)
  exact R.ap_sinT (R.ap_ang hy (R.ap_pidiv' hy (R.nat_add_half n)) (by linarith))

theorem Dst5Naive.acc_dst5 (R : Rounding T F) {n : ℕ} (hn : 1 ≤ n) :
    PAcc R .dst5 (Dst5Naive.dst5 (⟨vec (n * 2 + 1) (Dst5Naive.tab n)⟩ : Dst5Naive T)) n n (R.naive n) := by
  refine ⟨_, Dst5Naive.runs_dst5  _, TransAcc.of_ap (by omega) (by first | exact fun _ => hn | (intro h; cases h)) (R.one_le_naive n) fun f i hi => ?_⟩
  have e := RunsV.unique (Dst5Naive.runs_dst5  (Dst5Naive.tab n : ℕ → ℝ)) (Dst5Naive.dst5_inst ) (R.seq f) hi
  rw [show Kind.dst5.specAt n (R.seq f) i = _ from e.symm]
  have hx := R.hx_id (n := n) f
  have h := R.ap_naive (lo := 0) (st := i + 1) (t0 := i + 1) (by omega) (by omega) (R.hop_add (Dst5Naive.ap_tab (n := n) R ) hx) R.ap_zero
  rw [sum_ico0 (fun j => 1 * |R.val (f j)|)] at h
  exact h.mono (R.pow_term_le (by omega))

/-! ### Dct6And7Naive -/

def Dct6And7Naive.tab (n : ℕ) : ℕ → T := fun i => fromF64 (F64.cos ((F64.pi / F64.nat (n * 2 - 1) : F) * F64.nat i))
theorem Dct6And7Naive.new_tab {n : ℕ} (hn : 1 ≤ n) : (Dct6And7Naive.new n : Except Err (Dct6And7Naive T)) = .ok ⟨vec (n * 4 - 2) (Dct6And7Naive.tab n)⟩ := by
  have h1 : 1 ≤ n * 2 := by omega
  simp only [Dct6And7Naive.new, csub_ok h1, csub_ok (show 2 ≤ n * 4 by omega), ok_bind]
  rfl
theorem Dct6And7Naive.ap_tab (R : Rounding T F) {n : ℕ} (hn : 1 ≤ n) : ∀ j < n * 4 - 2, Ap (R.val (Dct6And7Naive.tab n j : T)) (Dct6And7Naive.tab n j : ℝ) 1 (1 + R.tau) := by
  intro j hj
  have hy : (0 : ℝ) < (n * 2 - 1 : ℕ) := by exact_mod_cast (by omega : 0 < n * 2 - 1)
  exact R.ap_cosT (R.ap_ang hy ((R.ap_pidiv hy (R.f_nat _)).mono (R.ang_mono (by norm_num))) (by have := (by exact_mod_cast (by omega : j + 1 ≤ 2 * (n * 2 - 1)) : (j : ℝ) + 1 ≤ 2 * (n * 2 - 1 : ℕ)); linarith))

theorem Dct6And7Naive.acc_dct6 (R : Rounding T F) {n : ℕ} (hn : 1 ≤ n) :
    PAcc R .dct6 (Dct6And7Naive.dct6 (⟨vec (n * 4 - 2) (Dct6And7Naive.tab n)⟩ : Dct6And7Naive T)) n n (R.naive n) := by
  refine ⟨_, Dct6And7Naive.runs_dct6 hn _, TransAcc.of_ap (by omega) (by first | exact fun _ => hn | (intro h; cases h)) (R.one_le_naive n) fun f i hi => ?_⟩
  have e := RunsV.unique (Dct6And7Naive.runs_dct6 hn (Dct6And7Naive.tab n : ℕ → ℝ)) (Dct6And7Naive.dct6_inst hn) (R.seq f) hi
  rw [show Kind.dct6.specAt n (R.seq f) i = _ from e.symm]
  have hx := R.hx_last (n := n) f
  by_cases h1 : i < 1
  · simp only [if_pos h1]
    exact (R.ap_foldl R.one_le_term fun j hj => (hx j hj).mono R.u2_le_term)
  · simp only [if_neg h1]
    have h := R.ap_naive (lo := 0) (st := i * 2) (t0 := i) (by omega) (by omega) (R.hop_add (Dct6And7Naive.ap_tab (n := n) R hn) hx) R.ap_zero
    rw [sum_ico0 (fun j => Spec.halfAt (n - 1) j * |R.val (f j)|)] at h
    exact h.mono (R.pow_term_le (by omega))

theorem Dct6And7Naive.acc_dct7 (R : Rounding T F) {n : ℕ} (hn : 1 ≤ n) :
    PAcc R .dct7 (Dct6And7Naive.dct7 (⟨vec (n * 4 - 2) (Dct6And7Naive.tab n)⟩ : Dct6And7Naive T)) n n (R.naive n) := by
  refine ⟨_, Dct6And7Naive.runs_dct7 hn _, TransAcc.of_ap (by omega) (by first | exact fun _ => hn | (intro h; cases h)) (R.one_le_naive n) fun f i hi => ?_⟩
  have e := RunsV.unique (Dct6And7Naive.runs_dct7 hn (Dct6And7Naive.tab n : ℕ → ℝ)) (Dct6And7Naive.dct7_inst hn) (R.seq f) hi
  rw [show Kind.dct7.specAt n (R.seq f) i = _ from e.symm]
  have hx := R.hx_first (n := n) f
  have h := R.ap_naive (lo := 1) (st := i * 2 + 1) (t0 := i * 2 + 1) (by omega) (by omega) (R.hop_add (Dct6And7Naive.ap_tab (n := n) R hn) hx) ((hx 0 (by omega)).mono R.u2_le_term)
  rw [sum_split0 (by omega) (fun j => Spec.halfAt 0 j * |R.val (f j)|)] at h
  exact h.mono (R.pow_term_le (by omega))

/-! ### Dst6And7Naive -/

def Dst6And7Naive.tab (n : ℕ) : ℕ → T := fun i => fromF64 (F64.sin ((F64.pi / F64.nat (n * 2 + 1) : F) * F64.nat i))
theorem Dst6And7Naive.new_tab {n : ℕ}  : (Dst6And7Naive.new n : Except Err (Dst6And7Naive T)) = .ok ⟨vec (n * 4 + 2) (Dst6And7Naive.tab n)⟩ := by
  rfl
theorem Dst6And7Naive.ap_tab (R : Rounding T F) {n : ℕ}  : ∀ j < n * 4 + 2, Ap (R.val (Dst6And7Naive.tab n j : T)) (Dst6And7Naive.tab n j : ℝ) 1 (1 + R.tau) := by
  intro j hj
  have hy : (0 : ℝ) < (n * 2 + 1 : ℕ) := by exact_mod_cast (by omega : 0 < n * 2 + 1)
  exact R.ap_sinT (R.ap_ang hy ((R.ap_pidiv hy (R.f_nat _)).mono (R.ang_mono (by norm_num))) (by have := (by exact_mod_cast (by omega : j + 1 ≤ 2 * (n * 2 + 1)) : (j : ℝ) + 1 ≤ 2 * (n * 2 + 1 : ℕ)); linarith))

theorem Dst6And7Naive.acc_dst6 (R : Rounding T F) {n : ℕ} (hn : 1 ≤ n) :
    PAcc R .dst6 (Dst6And7Naive.dst6 (⟨vec (n * 4 + 2) (Dst6And7Naive.tab n)⟩ : Dst6And7Naive T)) n n (R.naive n) := by
  refine ⟨_, Dst6And7Naive.runs_dst6  _, TransAcc.of_ap (by omega) (by first | exact fun _ => hn | (intro h; cases h)) (R.one_le_naive n) fun f i hi => ?_⟩
  have e := RunsV.unique (Dst6And7Naive.runs_dst6  (Dst6And7Naive.tab n : ℕ → ℝ)) (Dst6And7Naive.dst6_inst ) (R.seq f) hi
  rw [show Kind.dst6.specAt n (R.seq f) i = _ from e.symm]
  have hx := R.hx_id (n := n) f
  have h := R.ap_naive (lo := 0) (st := (i + 1) * 2) (t0 := i + 1) (by omega) (by omega) (R.hop_add (Dst6And7Naive.ap_tab (n := n) R ) hx) R.ap_zero
  rw [sum_ico0 (fun j => 1 * |R.val (f j)|)] at h
  exact h.mono (R.pow_term_le (by omega))

theorem Dst6And7Naive.acc_dst7 (R : Rounding T F) {n : ℕ} (hn : 1 ≤ n) :
    PAcc R .dst7 (Dst6And7Naive.dst7 (⟨vec (n * 4 + 2) (Dst6And7Naive.tab n)⟩ : Dst6And7Naive T)) n n (R.naive n) := by
  refine ⟨_, Dst6And7Naive.runs_dst7  _, TransAcc.of_ap (by omega) (by first | exact fun _ => hn | (intro h; cases h)) (R.one_le_naive n) fun f i hi => ?_⟩
  have e := RunsV.unique (Dst6And7Naive.runs_dst7  (Dst6And7Naive.tab n : ℕ → ℝ)) (Dst6And7Naive.dst7_inst ) (R.seq f) hi
  rw [show Kind.dst7.specAt n (R.seq f) i = _ from e.symm]
  have hx := R.hx_id (n := n) f
  have h := R.ap_naive (lo := 0) (st := i * 2 + 1) (t0 := i * 2 + 1) (by omega) (by omega) (R.hop_add (Dst6And7Naive.ap_tab (n := n) R ) hx) R.ap_zero
  rw [sum_ico0 (fun j => 1 * |R.val (f j)|)] at h
  exact h.mono (R.pow_term_le (by omega))

/-! ### Dct8Naive -/

def Dct8Naive.tab (n : ℕ) : ℕ → T := fun i => fromF64 (F64.cos ((F64.pi / F64.nat (n * 2 + 1) : F) * (F64.nat i + F64.half)))
theorem Dct8Naive.new_tab {n : ℕ}  : (Dct8Naive.new n : Except Err (Dct8Naive T)) = .ok ⟨vec (n * 4 + 2) (Dct8Naive.tab n)⟩ := by
  rfl
theorem Dct8Naive.ap_tab (R : Rounding T F) {n : ℕ}  : ∀ j < n * 4 + 2, Ap (R.val (Dct8Naive.tab n j : T)) (Dct8Naive.tab n j : ℝ) 1 (1 + R.tau) := by
  intro j hj
  have hy : (0 : ℝ) < (n * 2 + 1 : ℕ) := by exact_mod_cast (by omega : 0 < n * 2 + 1)
  exact R.ap_cosT (R.ap_angh hy (R.ap_pidiv hy (R.f_nat _)) (by have := (by exact_mod_cast (by omega : j + 1 ≤ 2 * (n * 2 + 1)) : (j : ℝ) + 1 ≤ 2 * (n * 2 + 1 : ℕ)); linarith))

theorem Dct8Naive.acc_dct8 (R : Rounding T F) {n : ℕ} (hn : 1 ≤ n) :
    PAcc R .dct8 (Dct8Naive.dct8 (⟨vec (n * 4 + 2) (Dct8Naive.tab n)⟩ : Dct8Naive T)) n n (R.naive n) := by
  refine ⟨_, Dct8Naive.runs_dct8  _, TransAcc.of_ap (by omega) (by first | exact fun _ => hn | (intro h; cases h)) (R.one_le_naive n) fun f i hi => ?_⟩
  have e := RunsV.unique (Dct8Naive.runs_dct8  (Dct8Naive.tab n : ℕ → ℝ)) (Dct8Naive.dct8_inst ) (R.seq f) hi
  rw [show Kind.dct8.specAt n (R.seq f) i = _ from e.symm]
  have hx := R.hx_id (n := n) f
  have h := R.ap_naive (lo := 0) (st := i * 2 + 1) (t0 := i) (by omega) (by omega) (R.hop_add (Dct8Naive.ap_tab (n := n) R ) hx) R.ap_zero
  rw [sum_ico0 (fun j => 1 * |R.val (f j)|)] at h
  exact h.mono (R.pow_term_le (by omega))

/-! ### Dst8Naive -/

def Dst8Naive.tab (n : ℕ) : ℕ → T := fun i => fromF64 (F64.sin ((F64.pi / F64.nat (n * 2 - 1) : F) * (F64.nat i + F64.half)))
theorem Dst8Naive.new_tab {n : ℕ} (hn : 1 ≤ n) : (Dst8Naive.new n : Except Err (Dst8Naive T)) = .ok ⟨vec (n * 4 - 2) (Dst8Naive.tab n)⟩ := by
  have h1 : 1 ≤ n * 2 := by omega
  simp only [Dst8Naive.new, csub_ok h1, csub_ok (show 2 ≤ n * 4 by omega), ok_bind]
  rfl
theorem Dst8Naive.ap_tab (R : Rounding T F) {n : ℕ} (hn : 1 ≤ n) : ∀ j < n * 4 - 2, Ap (R.val (Dst8Naive.tab n j : T)) (Dst8Naive.tab n j : ℝ) 1 (1 + R.tau) := by
  intro j hj
  have hy : (0 : ℝ) < (n * 2 - 1 : ℕ) := by exact_mod_cast (by omega : 0 < n * 2 - 1)
  exact R.ap_sinT (R.ap_angh hy (R.ap_pidiv hy (R.f_nat _)) (by have := (by exact_mod_cast (by omega : j + 1 ≤ 2 * (n * 2 - 1)) : (j : ℝ) + 1 ≤ 2 * (n * 2 - 1 : ℕ)); linarith))

theorem Dst8Naive.acc_dst8 (R : Rounding T F) {n : ℕ} (hn : 1 ≤ n) :
    PAcc R .dst8 (Dst8Naive.dst8 (⟨vec (n * 4 - 2) (Dst8Naive.tab n)⟩ : Dst8Naive T)) n n (R.naive n) := by
  refine ⟨_, Dst8Naive.runs_dst8 hn _, TransAcc.of_ap (by omega) (by first | exact fun _ => hn | (intro h; cases h)) (R.one_le_naive n) fun f i hi => ?_⟩
  have e := RunsV.unique (Dst8Naive.runs_dst8 hn (Dst8Naive.tab n : ℕ → ℝ)) (Dst8Naive.dst8_inst hn) (R.seq f) hi
  rw [show Kind.dst8.specAt n (R.seq f) i = _ from e.symm]
  have hx := R.hx_last (n := n) f
  have h := R.ap_naive (lo := 0) (st := i * 2 + 1) (t0 := i) (by omega) (by omega) (R.hop_add (Dst8Naive.ap_tab (n := n) R hn) hx) R.ap_zero
  rw [sum_ico0 (fun j => Spec.halfAt (n - 1) j * |R.val (f j)|)] at h
  exact h.mono (R.pow_term_le (by omega))

end RustDct
