import Mathlib.LinearAlgebra.Lagrange
import Verif.Chebyshev
import Verif.Props.Laplace
/-!
# C97: Chebyshev interpolation with DCT1, DCT2 and DCT3
-/

set_option linter.all false

namespace RustDct
open Finset Real Polynomial

variable {planFft : ℕ → Fft ℝ} {calls : List (PlanCall ℝ)} {p : Proc ℝ} {n s : ℕ}

theorem chebSeries_vec (n : ℕ) (c : ℕ → ℝ) : chebSeries (vec n c) = ∑ k ∈ range n, C (c k) * Chebyshev.T ℝ k := by
  unfold chebSeries
  rw [length_vec]
  refine sum_congr rfl fun k hk => ?_
  have := mem_range.1 hk
  simp [vec, List.getD_eq_getElem?_getD, this]

theorem chebSeries_degree (n : ℕ) (hn : 1 ≤ n) (c : ℕ → ℝ) : (chebSeries (vec n c)).degree < n := by
  rw [chebSeries_vec]
  refine lt_of_le_of_lt (degree_sum_le _ _) ((Finset.sup_lt_iff (by exact_mod_cast WithBot.bot_lt_coe n)).2 fun k hk => ?_)
  have h1 : (C (c k) * Chebyshev.T ℝ k).degree ≤ (k : ℕ) := by
    refine (degree_mul_le _ _).trans ?_
    have := add_le_add (degree_C_le (a := c k)) (le_of_eq (Chebyshev.degree_T ℝ (k : ℤ)))
    simpa using this
  exact lt_of_le_of_lt h1 (by exact_mod_cast mem_range.1 hk)

theorem chebSeries_eval (n : ℕ) (c : ℕ → ℝ) (θ : ℝ) : (chebSeries (vec n c)).eval (cos θ) = ∑ k ∈ range n, c k * cos (k * θ) := by
  rw [chebSeries_vec, eval_finset_sum]
  refine sum_congr rfl fun k _ => ?_
  rw [eval_mul, eval_C, Chebyshev.T_real_cos]
  simp

theorem interpolates {t : ℕ → ℝ} (ht : Set.InjOn t (range n)) (hn : 1 ≤ n) {x c : ℕ → ℝ} (h : ∀ j, j < n → (chebSeries (vec n c)).eval (t j) = x j) :
    Interpolates n t (vec n x) (chebSeries (vec n c)) := by
  have e : ∀ j, j < n → (vec n x).getD j 0 = x j := fun j hj => by simp [vec, List.getD_eq_getElem?_getD, hj]
  refine ⟨chebSeries_degree n hn c, fun j hj => by rw [h j hj, e j hj], fun g hg hv => ?_⟩
  refine Polynomial.eq_of_degrees_lt_of_eval_index_eq (range n) ht (by simpa using hg) (by simpa using chebSeries_degree n hn c) fun j hj => ?_
  rw [hv j (mem_range.1 hj), e j (mem_range.1 hj), h j (mem_range.1 hj)]

theorem gauss_inj (hn : 1 ≤ n) : Set.InjOn (gaussPoint n) (range n) := fun i hi j hj e => by
  have hi := mem_range.1 (by simpa using hi); have hj := mem_range.1 (by simpa using hj)
  have h0 : (0 : ℝ) < n := by exact_mod_cast hn
  have b : ∀ i : ℕ, i < n → ((i : ℝ) + 1 / 2) * π / n ∈ Set.Icc 0 π := fun i hi => by
    have : (i : ℝ) + 1 ≤ n := by exact_mod_cast hi
    refine ⟨by positivity, ?_⟩
    rw [div_le_iff₀ h0]
    nlinarith [pi_pos]
  have := injOn_cos (b i hi) (b j hj) e
  rw [div_left_inj' h0.ne'] at this
  have := mul_right_cancel₀ pi_pos.ne' this
  exact_mod_cast add_right_cancel this

theorem lobatto_inj (hn : 2 ≤ n) : Set.InjOn (lobattoPoint n) (range n) := fun i hi j hj e => by
  have hi := mem_range.1 (by simpa using hi); have hj := mem_range.1 (by simpa using hj)
  have h2 : (2 : ℝ) ≤ n := by exact_mod_cast hn
  have h0 : (0 : ℝ) < n - 1 := by linarith
  have b : ∀ i : ℕ, i < n → (i : ℝ) * π / (n - 1) ∈ Set.Icc 0 π := fun i hi => by
    have : (i : ℝ) + 1 ≤ n := by exact_mod_cast hi
    refine ⟨by positivity, ?_⟩
    rw [div_le_iff₀ h0]
    nlinarith [pi_pos]
  have := injOn_cos (b i hi) (b j hj) e
  rw [div_left_inj' h0.ne'] at this
  exact_mod_cast mul_right_cancel₀ pi_pos.ne' this

/-- C97: a DCT2 of samples at the Gauss points gives the interpolating polynomial. -/
theorem C97_gauss_made (hp : Method FftContract .dct2 p n s) (hn : 1 ≤ n) {x : List ℝ} (hx : x.length = n) :
    ∃ X, processDefault s p x = .ok X ∧ Interpolates n (gaussPoint n) x (chebSeries (gaussCoeffs X)) := by
  obtain ⟨f, rfl⟩ := exists_vec hx
  refine ⟨_, hp.runs f, ?_⟩
  unfold gaussCoeffs
  rw [mapIdx_vec, length_vec]
  have h0 : (n : ℝ) ≠ 0 := by exact_mod_cast (show n ≠ 0 by omega)
  refine interpolates (gauss_inj hn) hn fun j hj => ?_
  rw [gaussPoint, chebSeries_eval]
  have e := Kind.dct2.inv_spec (n := n) (by simp) f hj
  simp only [Kind.inv, Kind.scale] at e
  have : f j = 2 / n * (n / 2 * f j) := by field_simp
  rw [this, ← e]
  show _ = 2 / (n : ℝ) * Spec.dct3At n _ j
  unfold Spec.dct3At
  rw [mul_sum]
  refine sum_congr rfl fun k _ => ?_
  rw [show (k : ℝ) * ((j + 1 / 2) * π / n) = (j + 1 / 2) * k * π / n by ring]
  ring

/-- C97: a DCT1 of samples at the Lobatto points gives the interpolating polynomial. -/
theorem C97_lobatto_made (hp : Method FftContract .dct1 p n s) {x : List ℝ} (hx : x.length = n) :
    ∃ X, processDefault s p x = .ok X ∧ Interpolates n (lobattoPoint n) x (chebSeries (lobattoCoeffs X)) := by
  have hn := hp.two_le
  obtain ⟨f, rfl⟩ := exists_vec hx
  refine ⟨_, hp.runs f, ?_⟩
  unfold lobattoCoeffs
  rw [mapIdx_vec, length_vec]
  have h2 : (2 : ℝ) ≤ n := by exact_mod_cast hn
  have h0 : (n : ℝ) - 1 ≠ 0 := by linarith
  refine interpolates (lobatto_inj hn) (by omega) fun j hj => ?_
  rw [lobattoPoint, chebSeries_eval]
  have e := Kind.dct1.inv_spec (n := n) (fun _ => hn) f hj
  simp only [Kind.inv, Kind.scale] at e
  have : f j = 2 / (n - 1) * ((n - 1) / 2 * f j) := by field_simp
  rw [this, ← e]
  show _ = 2 / ((n : ℝ) - 1) * Spec.dct1At n _ j
  unfold Spec.dct1At
  rw [mul_sum]
  refine sum_congr rfl fun k _ => ?_
  rw [show (k : ℝ) * (j * π / (n - 1)) = j * k * π / (n - 1) by ring]
  ring

/-- C97: a DCT3 of the coefficients, the first one doubled, evaluates the series at the Gauss points. -/
theorem C97_gauss_eval_made (hp : Method FftContract .dct3 p n s) {c : List ℝ} (hc : c.length = n) :
    processDefault s p (gaussInput c) = .ok ((List.range n).map fun j => (chebSeries c).eval (gaussPoint n j)) := by
  obtain ⟨f, rfl⟩ := exists_vec hc
  unfold gaussInput
  rw [mapIdx_vec, hp.runs]
  congr 1
  refine vec_congr fun j hj => ?_
  rw [gaussPoint, chebSeries_eval]
  show Spec.dct3At n _ j = _
  unfold Spec.dct3At
  refine sum_congr rfl fun k _ => ?_
  rw [show (k : ℝ) * ((j + 1 / 2) * π / n) = (j + 1 / 2) * k * π / n by ring]
  unfold Spec.halfAt
  beta_reduce
  by_cases h : k = 0
  · simp only [if_pos h]; ring
  · simp only [if_neg h]; ring

/-- C97: a DCT1 of the coefficients, the first and the last one doubled, evaluates the series at the Lobatto points. -/
theorem C97_lobatto_eval_made (hp : Method FftContract .dct1 p n s) {c : List ℝ} (hc : c.length = n) :
    processDefault s p (lobattoInput c) = .ok ((List.range n).map fun j => (chebSeries c).eval (lobattoPoint n j)) := by
  have hn := hp.two_le
  obtain ⟨f, rfl⟩ := exists_vec hc
  unfold lobattoInput
  rw [mapIdx_vec, length_vec, hp.runs]
  congr 1
  refine vec_congr fun j hj => ?_
  rw [lobattoPoint, chebSeries_eval]
  show Spec.dct1At n _ j = _
  unfold Spec.dct1At
  refine sum_congr rfl fun k hk => ?_
  have := mem_range.1 hk
  rw [show (k : ℝ) * (j * π / (n - 1)) = j * k * π / (n - 1) by ring]
  unfold Spec.halfAt
  beta_reduce
  by_cases h : k = 0
  · have h' : k ≠ n - 1 := by omega
    simp only [if_pos h, if_neg h', if_pos (Or.inl h : k = 0 ∨ k = n - 1)]; ring
  · by_cases h' : k = n - 1
    · simp only [if_neg h, if_pos h', if_pos (Or.inr h' : k = 0 ∨ k = n - 1)]; ring
    · simp only [if_neg h, if_neg h', if_neg (not_or.2 ⟨h, h'⟩)]; ring

/-- C97 with planned instances. -/
theorem C97_planned (hf : PlanFftContract planFft) :
    (Planned planFft calls .dct2 p n s → 1 ≤ n → ∀ x : List ℝ, x.length = n → ∃ X, processDefault s p x = .ok X ∧ Interpolates n (gaussPoint n) x (chebSeries (gaussCoeffs X))) ∧
    (Planned planFft calls .dct1 p n s → ∀ x : List ℝ, x.length = n → ∃ X, processDefault s p x = .ok X ∧ Interpolates n (lobattoPoint n) x (chebSeries (lobattoCoeffs X))) ∧
    (Planned planFft calls .dct3 p n s → ∀ c : List ℝ, c.length = n → processDefault s p (gaussInput c) = .ok ((List.range n).map fun j => (chebSeries c).eval (gaussPoint n j))) ∧
    (Planned planFft calls .dct1 p n s → ∀ c : List ℝ, c.length = n → processDefault s p (lobattoInput c) = .ok ((List.range n).map fun j => (chebSeries c).eval (lobattoPoint n j))) :=
  ⟨fun h hn x hx => C97_gauss_made (h.made hf) hn hx, fun h x hx => C97_lobatto_made (h.made hf) hx, fun h c hc => C97_gauss_eval_made (h.made hf) hc,
    fun h c hc => C97_lobatto_eval_made (h.made hf) hc⟩

/-- Samples of a polynomial of degree 30 at 64 points give back the polynomial. -/
example (hf : PlanFftContract planFft) (g : ℝ[X]) (hg : g.natDegree = 30) : ∃ p s X, Planned planFft [] .dct2 p 64 s ∧
    processDefault s p ((List.range 64).map fun j => g.eval (gaussPoint 64 j)) = .ok X ∧ chebSeries (gaussCoeffs X) = g := by
  obtain ⟨p, s, h⟩ := planned_exists hf.sane.shape [] .dct2 (n := 64) (by norm_num)
  obtain ⟨X, e, hX⟩ := C97_gauss_made (h.made hf) (by norm_num) (x := (List.range 64).map fun j => g.eval (gaussPoint 64 j)) (by simp)
  refine ⟨p, s, X, h, e, (hX.2.2 g (lt_of_le_of_lt degree_le_natDegree (by rw [hg]; norm_num)) fun j hj => ?_).symm⟩
  simp [List.getD_eq_getElem?_getD, hj]

/-- The same with a DCT1 of 33 samples, and the samples come back from the coefficients with the same instance. -/
example (hf : PlanFftContract planFft) (g : ℝ[X]) (hg : g.natDegree = 30) : ∃ p s X, Planned planFft [] .dct1 p 33 s ∧
    processDefault s p ((List.range 33).map fun j => g.eval (lobattoPoint 33 j)) = .ok X ∧ chebSeries (lobattoCoeffs X) = g ∧
    processDefault s p (lobattoInput (lobattoCoeffs X)) = .ok ((List.range 33).map fun j => g.eval (lobattoPoint 33 j)) := by
  obtain ⟨p, s, h⟩ := planned_exists hf.sane.shape [] .dct1 (n := 33) (by norm_num)
  obtain ⟨X, e, hX⟩ := C97_lobatto_made (h.made hf) (x := (List.range 33).map fun j => g.eval (lobattoPoint 33 j)) (by simp)
  have hl : X.length = 33 := by
    obtain ⟨f, hf'⟩ := exists_vec (n := 33) (l := (List.range 33).map fun j => g.eval (lobattoPoint 33 j)) (by simp)
    rw [hf', (h.made hf).runs] at e
    cases e
    simp [vec]
  have hg' : chebSeries (lobattoCoeffs X) = g :=
    (hX.2.2 g (lt_of_le_of_lt degree_le_natDegree (by rw [hg]; norm_num)) fun j hj => by simp [List.getD_eq_getElem?_getD, hj]).symm
  refine ⟨p, s, X, h, e, hg', ?_⟩
  rw [C97_lobatto_eval_made (h.made hf) (by simp [lobattoCoeffs, hl]), hg']

end RustDct
