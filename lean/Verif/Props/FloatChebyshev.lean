import Verif.Props.Chebyshev
import Verif.Props.FloatFilter
/-!
# C98: Chebyshev interpolation in floating-point arithmetic
-/

set_option linter.all false

namespace RustDct
open Finset Real Polynomial

variable {T F : Type} [F64 F] [DctNum T F]

/-- Client program: transform the samples and multiply output `k` by `c k`. -/
def chebFit {T : Type} [Zero T] [Mul T] (s : ℕ) (p : Proc T) (c : ℕ → T) (x : List T) : Outcome (List T) :=
  match processDefault s p x with
  | .panic e m => .panic e m
  | .ok X => .ok (X.mapIdx fun k v => v * c k)

/-- The factors of a DCT2 of samples at the Gauss points. -/
noncomputable def gaussFactor (n k : ℕ) : ℝ := 2 / n * Spec.halfAt 0 k

/-- The factors of a DCT1 of samples at the Lobatto points. -/
noncomputable def lobattoFactor (n k : ℕ) : ℝ := 2 / (n - 1) * Spec.halfAt 0 k * Spec.halfAt (n - 1) k

/-- The client has computed the factors with relative error `γ`. -/
def FactorsNear (R : Rounding T F) (n : ℕ) (c' : ℕ → T) (c : ℕ → ℝ) (γ : ℝ) : Prop := 0 ≤ γ ∧ ∀ k, k < n → |R.val (c' k) - c k| ≤ γ * |c k|

/-- The program returns the coefficients of a Chebyshev series that differs, everywhere between -1 and 1, from the polynomial through the samples by at most `e` times the norm of the samples. -/
def FitsNear (R : Rounding T F) (n : ℕ) (t : ℕ → ℝ) (e : ℝ) (x : List T) (r : Outcome (List T)) : Prop :=
  ∃ out f, r = .ok out ∧ out.length = n ∧ Interpolates n t (x.map R.val) f ∧
    ∀ z, -1 ≤ z → z ≤ 1 → |(chebSeries (out.map R.val)).eval z - f.eval z| ≤ e * Spec.norm2 (x.map R.val)

variable {R : Rounding T F} {planFft : ℕ → Fft T} {φ : ℕ → ℝ} {ψ : ℝ} {calls : List (PlanCall T)} {k : Kind} {p : Proc T} {n s : ℕ} {ε γ : ℝ}

theorem series_near (n : ℕ) (a b : ℕ → ℝ) {z : ℝ} (h0 : -1 ≤ z) (h1 : z ≤ 1) :
    |(chebSeries (vec n a)).eval z - (chebSeries (vec n b)).eval z| ≤ √n * nrm 1 n fun _ k => a k - b k := by
  obtain ⟨θ, rfl⟩ : ∃ θ, z = cos θ := ⟨arccos z, (cos_arccos h0 h1).symm⟩
  rw [chebSeries_eval, chebSeries_eval, ← sum_sub_distrib, nrm_eq, ← sqrt_mul (by positivity)]
  refine (abs_sum_le_sum_abs _ _).trans (le_sqrt_of_sq_le ?_)
  have : ∀ k ∈ range n, |a k * cos (k * θ) - b k * cos (k * θ)| ≤ |a k - b k| := fun k _ => by
    rw [← sub_mul, abs_mul]
    exact mul_le_of_le_one_right (abs_nonneg _) (abs_cos_le_one _)
  refine (pow_le_pow_left₀ (sum_nonneg fun _ _ => abs_nonneg _) (sum_le_sum this) 2).trans ?_
  have := sq_sum_le_card_mul_sum_sq (s := range n) (f := fun k => |a k - b k|)
  simpa using this

theorem gauss_exact (hn : 1 ≤ n) (f : ℕ → ℝ) : Interpolates n (gaussPoint n) (vec n f) (chebSeries (vec n fun k => Kind.dct2.specAt n f k * gaussFactor n k)) := by
  have h0 : (n : ℝ) ≠ 0 := by exact_mod_cast (show n ≠ 0 by omega)
  refine interpolates (gauss_inj hn) hn fun j hj => ?_
  rw [gaussPoint, chebSeries_eval]
  have e := Kind.dct2.inv_spec (n := n) (by simp) f hj
  simp only [Kind.inv, Kind.scale] at e
  have : f j = 2 / n * (n / 2 * f j) := by field_simp
  rw [this, ← e]
  show _ = 2 / (n : ℝ) * Spec.dct3At n _ j
  unfold Spec.dct3At gaussFactor
  rw [mul_sum]
  refine sum_congr rfl fun k _ => ?_
  rw [show (k : ℝ) * ((j + 1 / 2) * π / n) = (j + 1 / 2) * k * π / n by ring]
  ring

theorem lobatto_exact (hn : 2 ≤ n) (f : ℕ → ℝ) : Interpolates n (lobattoPoint n) (vec n f) (chebSeries (vec n fun k => Kind.dct1.specAt n f k * lobattoFactor n k)) := by
  have h2 : (2 : ℝ) ≤ n := by exact_mod_cast hn
  have h0 : (n : ℝ) - 1 ≠ 0 := by linarith
  refine interpolates (lobatto_inj hn) (by omega) fun j hj => ?_
  rw [lobattoPoint, chebSeries_eval]
  have e := Kind.dct1.inv_spec (n := n) (fun _ => hn) f hj
  simp only [Kind.inv, Kind.scale] at e
  have : f j = 2 / (n - 1) * ((n - 1) / 2 * f j) := by field_simp
  rw [this, ← e]
  show _ = 2 / ((n : ℝ) - 1) * Spec.dct1At n _ j
  unfold Spec.dct1At lobattoFactor
  rw [mul_sum]
  refine sum_congr rfl fun k _ => ?_
  rw [show (k : ℝ) * (j * π / (n - 1)) = j * k * π / (n - 1) by ring]
  ring

theorem halfAt_abs (i k : ℕ) : |Spec.halfAt i k| ≤ 1 := by
  unfold Spec.halfAt
  split_ifs <;> norm_num [abs_le]

theorem fits_near {t : ℕ → ℝ} {c : ℕ → ℝ} {c' : ℕ → T} {C g : ℝ} (A : ApproximatesZeroed R p n s k.spec ε) (hε : 0 ≤ ε) (hn : 1 ≤ n) (h1 : k = .dct1 → 2 ≤ n)
    (C0 : 0 ≤ C) (hC : ∀ u, |c u| ≤ C) (hc : FactorsNear R n c' c γ) (hg : √n * (C * k.gain2 n) ≤ g)
    (ex : ∀ f : ℕ → ℝ, Interpolates n t (vec n f) (chebSeries (vec n fun u => k.specAt n f u * c u))) (f : ℕ → T) :
    FitsNear R n t (((1 + ε) * ((1 + R.u) * (1 + γ)) - 1) * g) (vec n f) (chebFit s p c' (vec n f)) := by
  obtain ⟨o, e, l, hr⟩ := A.2 (vec n f) (by simp)
  rw [map_vec, k.spec_vec] at l hr
  obtain ⟨a, rfl⟩ := exists_vec (show o.length = n by simpa using l)
  have h : nrm 1 n (fun _ i => R.val (a i) - k.specAt n (fun i => R.val (f i)) i) ≤ ε * nrm 1 n fun _ => k.specAt n fun i => R.val (f i) := by
    rw [← n1_nrm, ← n1_nrm]
    simpa only [map_vec, zipWith_vec_same, norm2_vec] using hr
  refine ⟨vec n fun u => a u * c' u, _, ?_, by simp, by rw [map_vec]; exact ex fun i => R.val (f i), fun z z0 z1 => ?_⟩
  · unfold chebFit
    rw [e]; dsimp only
    rw [mapIdx_vec]
  rw [map_vec, map_vec, norm2_vec]
  show _ ≤ _ * n1 n _
  rw [n1_nrm]
  set N := nrm 1 n fun _ i => R.val (f i) with hN
  have N0 : 0 ≤ N := by rw [hN, nrm_eq]; exact sqrt_nonneg _
  have hK := gain_rows (k := k) (h := 1) h1 hn fun _ i => R.val (f i)
  have hm' : MultipliersNearImage R 1 n (fun _ => c') (fun _ => c) C γ := ⟨hc.1, C0, fun _ v _ hv => ⟨hC v, hc.2 v hv⟩⟩
  have cn := coeff_near (a := fun _ => a) (A := fun _ => k.specAt n fun i => R.val (f i)) (G := k.gain2 n * N) hm' hε (h.trans (mul_le_mul_of_nonneg_left hK hε)) hK
  refine (series_near n _ _ z0 z1).trans ((mul_le_mul_of_nonneg_left cn (sqrt_nonneg _)).trans ?_)
  have E0 : 0 ≤ (1 + ε) * ((1 + R.u) * (1 + γ)) - 1 := by
    have := mul_nonneg R.u_nonneg hc.1
    have : 1 ≤ (1 + R.u) * (1 + γ) := by nlinarith [R.u_nonneg, hc.1]
    nlinarith
  have := mul_le_mul_of_nonneg_left (mul_le_mul_of_nonneg_right hg N0) E0
  refine le_trans (le_of_eq ?_) (this.trans (le_of_eq ?_)) <;> ring

theorem gauss_gain (hn : 1 ≤ n) : √(n : ℝ) * (2 / n * Kind.gain2 .dct2 n) ≤ 2 := by
  have h0 : (0 : ℝ) < n := by exact_mod_cast hn
  rw [(C77_gains n).2.2.1]
  have := mul_self_sqrt h0.le
  refine le_of_eq ?_
  rw [show √(n : ℝ) * (2 / n * √n) = 2 / n * (√n * √n) by ring, this]
  field_simp

theorem lobatto_gain (hn : 2 ≤ n) : √(n : ℝ) * (2 / ((n : ℝ) - 1) * Kind.gain2 .dct1 n) ≤ 3 := by
  have h2 : (2 : ℝ) ≤ n := by exact_mod_cast hn
  have h0 : (0 : ℝ) < n - 1 := by linarith
  have e : Kind.gain2 .dct1 n = √((n : ℝ) - 1) := by
    simp only [Kind.gain2, Kind.boundary, Kind.scale]
    rw [← sqrt_mul (by norm_num)]
    congr 1; ring
  rw [e, show √(n : ℝ) * (2 / ((n : ℝ) - 1) * √((n : ℝ) - 1)) = 2 / ((n : ℝ) - 1) * (√n * √((n : ℝ) - 1)) by ring, ← sqrt_mul (by positivity), div_mul_eq_mul_div, div_le_iff₀ h0]
  have : √((n : ℝ) * (n - 1)) ≤ 3 / 2 * (n - 1) := by
    refine sqrt_le_iff.2 ⟨by positivity, ?_⟩
    nlinarith
  linarith

theorem gaussFactor_le (hn : 1 ≤ n) (k : ℕ) : |gaussFactor n k| ≤ 2 / n := by
  unfold gaussFactor
  rw [abs_mul, abs_of_nonneg (by positivity : (0 : ℝ) ≤ 2 / n)]
  exact mul_le_of_le_one_right (by positivity) (halfAt_abs 0 k)

theorem lobattoFactor_le (hn : 2 ≤ n) (k : ℕ) : |lobattoFactor n k| ≤ 2 / (n - 1) := by
  have h2 : (2 : ℝ) ≤ n := by exact_mod_cast hn
  have h0 : (0 : ℝ) ≤ 2 / ((n : ℝ) - 1) := div_nonneg (by norm_num) (by linarith)
  unfold lobattoFactor
  rw [abs_mul, abs_mul, abs_of_nonneg h0, mul_assoc]
  exact mul_le_of_le_one_right h0 (mul_le_one₀ (halfAt_abs 0 k) (abs_nonneg _) (halfAt_abs _ k))

theorem lobatto_C (hn : 2 ≤ n) : (0 : ℝ) ≤ 2 / ((n : ℝ) - 1) := by
  have h2 : (2 : ℝ) ≤ n := by exact_mod_cast hn
  exact div_nonneg (by norm_num) (by linarith)

/-- C98: samples at the Gauss points, planned DCT2. -/
theorem C98_gauss_planned (hf : PlanFftAccurate R planFft φ) (hp : Planned planFft calls .dct2 p n s) (hn : 1 ≤ n) {c : ℕ → T} (hc : FactorsNear R n c (gaussFactor n) γ)
    {x : List T} (hx : x.length = n) :
    FitsNear R n (gaussPoint n) (((1 + √2 * R.err φ .dct2 n) * ((1 + R.u) * (1 + γ)) - 1) * 2) x (chebFit s p c x) := by
  obtain ⟨f, rfl⟩ := exists_vec hx
  exact fits_near (C51_planned_zeroed hf hp hn) (R.err_pair hf .dct2 n) hn (by simp) (by positivity) (gaussFactor_le hn) hc (gauss_gain hn) (gauss_exact hn) f

/-- C98: samples at the Gauss points, a DCT2 built by hand. -/
theorem C98_gauss_made (hψ : 0 ≤ ψ) (hp : Method (fun f => FftAccurate R f ψ) .dct2 p n s) (hn : 1 ≤ n) {c : ℕ → T} (hc : FactorsNear R n c (gaussFactor n) γ)
    {x : List T} (hx : x.length = n) :
    FitsNear R n (gaussPoint n) (((1 + √2 * R.made ψ .dct2 n) * ((1 + R.u) * (1 + γ)) - 1) * 2) x (chebFit s p c x) := by
  obtain ⟨f, rfl⟩ := exists_vec hx
  exact fits_near (C67_constructed hψ hp hn).1 (R.made_pair ψ .dct2 n) hn (by simp) (by positivity) (gaussFactor_le hn) hc (gauss_gain hn) (gauss_exact hn) f

/-- C98: samples at the Lobatto points, planned DCT1. -/
theorem C98_lobatto_planned (hf : PlanFftAccurate R planFft φ) (hp : Planned planFft calls .dct1 p n s) (hn : 2 ≤ n) {c : ℕ → T} (hc : FactorsNear R n c (lobattoFactor n) γ)
    {x : List T} (hx : x.length = n) :
    FitsNear R n (lobattoPoint n) (((1 + √2 * R.err φ .dct1 n) * ((1 + R.u) * (1 + γ)) - 1) * 3) x (chebFit s p c x) := by
  obtain ⟨f, rfl⟩ := exists_vec hx
  exact fits_near (C51_planned_zeroed hf hp (by omega)) (R.err_pair hf .dct1 n) (by omega) (fun _ => hn) (lobatto_C hn) (lobattoFactor_le hn) hc (lobatto_gain hn) (lobatto_exact hn) f

/-- C98: samples at the Lobatto points, a DCT1 built by hand. -/
theorem C98_lobatto_made (hψ : 0 ≤ ψ) (hp : Method (fun f => FftAccurate R f ψ) .dct1 p n s) (hn : 2 ≤ n) {c : ℕ → T} (hc : FactorsNear R n c (lobattoFactor n) γ)
    {x : List T} (hx : x.length = n) :
    FitsNear R n (lobattoPoint n) (((1 + √2 * R.made ψ .dct1 n) * ((1 + R.u) * (1 + γ)) - 1) * 3) x (chebFit s p c x) := by
  obtain ⟨f, rfl⟩ := exists_vec hx
  exact fits_near (C67_constructed hψ hp (by omega)).1 (R.made_pair ψ .dct1 n) (by omega) (fun _ => hn) (lobatto_C hn) (lobattoFactor_le hn) hc (lobatto_gain hn) (lobatto_exact hn) f

/-- Sixty samples in 24-bit arithmetic, at either set of points, with factors rounded to 24 bits. -/
example (calls : List (PlanCall (Flx 24))) (x : List (Flx 24)) (hx : x.length = 60) : ∃ p s q t e d,
    FitsNear (Flx.rounding 24) 60 (gaussPoint 60) e x (chebFit s p (fun k => Flx.rnd 24 (gaussFactor 60 k)) x) ∧
    FitsNear (Flx.rounding 24) 60 (lobattoPoint 60) d x (chebFit t q (fun k => Flx.rnd 24 (lobattoFactor 60 k)) x) := by
  obtain ⟨p, s, h⟩ := planned_exists (sumFft_shape 24) calls .dct2 (n := 60) (by norm_num)
  obtain ⟨q, t, h'⟩ := planned_exists (sumFft_shape 24) calls .dct1 (n := 60) (by norm_num)
  exact ⟨p, s, q, t, _, _, C98_gauss_planned (γ := (1 / 2) ^ 24) (sumFft_plan _) h (by norm_num) ⟨by positivity, fun u _ => Flx.rnd_err 24 _⟩ hx,
    C98_lobatto_planned (γ := (1 / 2) ^ 24) (sumFft_plan _) h' (by norm_num) ⟨by positivity, fun u _ => Flx.rnd_err 24 _⟩ hx⟩

end RustDct
