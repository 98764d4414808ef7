import Verif.Props.Fir
/-!
# C96: filters and solvers in floating-point arithmetic
-/

set_option linter.all false

namespace RustDct
open Finset Real

variable {T F : Type} [F64 F] [DctNum T F]

/-- The client has computed the multipliers `c` (which are at most `C`) with relative error `γ`. -/
def MultipliersNear (R : Rounding T F) (n : ℕ) (c' : ℕ → T) (c : ℕ → ℝ) (C γ : ℝ) : Prop :=
  0 ≤ γ ∧ 0 ≤ C ∧ ∀ u, u < n → |c u| ≤ C ∧ |R.val (c' u) - c u| ≤ γ * |c u|

/-- The same for images. -/
def MultipliersNearImage (R : Rounding T F) (h w : ℕ) (c' : ℕ → ℕ → T) (c : ℕ → ℕ → ℝ) (C γ : ℝ) : Prop :=
  0 ≤ γ ∧ 0 ≤ C ∧ ∀ u v, u < h → v < w → |c u v| ≤ C ∧ |R.val (c' u v) - c u v| ≤ γ * |c u v|

/-- The signal comes out as `y`, up to `e` times the norm of the signal that went in. -/
def SignalNear (R : Rounding T F) (e : ℝ) (x : List T) (y : List ℝ) (r : Outcome (List T)) : Prop :=
  ∃ out, r = .ok out ∧ out.length = y.length ∧ Spec.norm2 (List.zipWith (· - ·) (out.map R.val) y) ≤ e * Spec.norm2 (x.map R.val)

/-- The image comes out as `y`, up to `e` times the norm of the image that went in. -/
def PictureNear (R : Rounding T F) (h w : ℕ) (e : ℝ) (x : List (List T)) (y : List (List ℝ)) (r : Outcome (List (List T))) : Prop :=
  ∃ out, r = .ok out ∧ IsImage h w out ∧ Spec.norm2Image (Spec.subImage (R.image out) y) ≤ e * Spec.norm2Image (R.image x)

variable {R : Rounding T F}
variable {planFft planFft' : ℕ → Fft T} {φ φ' : ℕ → ℝ} {ψ ψ' : ℝ} {calls calls' : List (PlanCall T)} {k l : Kind} {p q p' q' : Proc T} {n w h s t s' t' : ℕ} {ε δ C γ : ℝ}

theorem mul_near {x c' : T} {c : ℝ} (hγ : 0 ≤ γ) (h : |R.val c' - c| ≤ γ * |c|) : |R.val (x * c') - R.val x * c| ≤ ((1 + R.u) * (1 + γ) - 1) * |c| * |R.val x| := by
  have m := R.mul x c'
  have hc : |R.val c'| ≤ (1 + γ) * |c| := by
    have := abs_add_le (R.val c' - c) c
    rw [sub_add_cancel] at this
    linarith
  have e : R.val (x * c') - R.val x * c = (R.val (x * c') - R.val x * R.val c') + R.val x * (R.val c' - c) := by ring
  rw [e]
  refine (abs_add_le _ _).trans ?_
  rw [abs_mul (R.val x)] at *
  have u0 := R.u_nonneg
  have x0 := abs_nonneg (R.val x)
  have := mul_le_mul_of_nonneg_left h x0
  have := mul_le_mul_of_nonneg_left (mul_le_mul_of_nonneg_left hc x0) u0
  linarith

/-- The Euclidean norm of a signal. -/
noncomputable abbrev n1 (n : ℕ) (f : ℕ → ℝ) : ℝ := wn (fun _ => (1 : ℝ)) n f

theorem n1_nrm (n : ℕ) (f : ℕ → ℝ) : n1 n f = nrm 1 n fun _ => f := by
  rw [nrm_eq]; simp [n1, wn]

theorem nrm_le_abs {h w : ℕ} {f g : ℕ → ℕ → ℝ} {c : ℝ} (hc : 0 ≤ c) (H : ∀ i j, i < h → j < w → |f i j| ≤ c * |g i j|) : nrm h w f ≤ c * nrm h w g := by
  refine nrm_le hc fun i hi => ?_
  have : c * wn (fun _ => (1 : ℝ)) w (g i) = √(∑ j ∈ range w, (c * |g i j|) ^ 2) := by
    simp only [mul_pow]
    rw [← mul_sum, sqrt_mul (sq_nonneg c), sqrt_sq hc]; simp [wn]
  rw [this]
  simp only [wn, one_mul, Real.norm_eq_abs]
  exact sqrt_le_sqrt (sum_le_sum fun j hj => pow_le_pow_left₀ (abs_nonneg _) (H i j hi (mem_range.1 hj)) 2)

/-- Multiplying the coefficients: `a` are computed, `A` exact ones, which have norm at most `G`. -/
theorem coeff_near {h w : ℕ} {a c' : ℕ → ℕ → T} {A c : ℕ → ℕ → ℝ} {G : ℝ} (hm : MultipliersNearImage R h w c' c C γ) (hε : 0 ≤ ε)
    (ha : nrm h w (fun i j => R.val (a i j) - A i j) ≤ ε * G) (hA : nrm h w A ≤ G) :
    nrm h w (fun i j => R.val (a i j * c' i j) - A i j * c i j) ≤ ((1 + ε) * ((1 + R.u) * (1 + γ)) - 1) * (C * G) := by
  obtain ⟨g0, C0, hm⟩ := hm
  have ρ0 : 0 ≤ (1 + R.u) * (1 + γ) - 1 := by nlinarith [R.u_nonneg, mul_nonneg R.u_nonneg g0]
  have t1 : nrm h w (fun i j => R.val (a i j * c' i j) - R.val (a i j) * c i j) ≤ (((1 + R.u) * (1 + γ) - 1) * C) * nrm h w fun i j => R.val (a i j) :=
    nrm_le_abs (mul_nonneg ρ0 C0) fun i j hi hj => (mul_near g0 (hm i j hi hj).2).trans
      (mul_le_mul_of_nonneg_right (mul_le_mul_of_nonneg_left (hm i j hi hj).1 ρ0) (abs_nonneg _))
  have t2 : nrm h w (fun i j => (R.val (a i j) - A i j) * c i j) ≤ C * nrm h w fun i j => R.val (a i j) - A i j :=
    nrm_le_abs C0 fun i j hi hj => by
      rw [abs_mul, mul_comm]
      exact mul_le_mul_of_nonneg_right (hm i j hi hj).1 (abs_nonneg _)
  have t3 : nrm h w (fun i j => R.val (a i j)) ≤ nrm h w (fun i j => R.val (a i j) - A i j) + nrm h w A := by
    refine le_trans (le_of_eq (nrm_congr fun i j _ _ => ?_)) (nrm_add_le h w _ _)
    ring
  have t4 : nrm h w (fun i j => R.val (a i j * c' i j) - A i j * c i j) ≤ nrm h w (fun i j => R.val (a i j * c' i j) - R.val (a i j) * c i j) + nrm h w (fun i j => (R.val (a i j) - A i j) * c i j) := by
    refine le_trans (le_of_eq (nrm_congr fun i j _ _ => ?_)) (nrm_add_le h w _ _)
    ring
  have t5 : nrm h w (fun i j => R.val (a i j)) ≤ (1 + ε) * G := by linarith
  have t6 := mul_le_mul_of_nonneg_left t5 (mul_nonneg ρ0 C0)
  have t7 := mul_le_mul_of_nonneg_left ha C0
  refine t4.trans ((add_le_add (t1.trans t6) (t2.trans t7)).trans (le_of_eq ?_))
  ring

theorem nrm_mult {h w : ℕ} {A c : ℕ → ℕ → ℝ} {G : ℝ} (C0 : 0 ≤ C) (hc : ∀ u v, u < h → v < w → |c u v| ≤ C) (hA : nrm h w A ≤ G) : nrm h w (fun i j => A i j * c i j) ≤ C * G := by
  refine (nrm_le_abs C0 fun i j hi hj => ?_).trans (mul_le_mul_of_nonneg_left hA C0)
  rw [abs_mul, mul_comm]
  exact mul_le_mul_of_nonneg_right (hc i j hi hj) (abs_nonneg _)

theorem Kind.gain2_nonneg (k : Kind) (n : ℕ) : 0 ≤ k.gain2 n := mul_nonneg k.boundary_nonneg (sqrt_nonneg _)

theorem Kind.gain2_inv (k : Kind) (hn : 1 ≤ n) : k.gain2 n * k.inv.gain2 n = k.boundary * k.inv.boundary * k.scale n := by
  unfold Kind.gain2
  rw [k.inv_scale]
  have := mul_self_sqrt (k.scale_nonneg hn)
  linear_combination k.boundary * k.inv.boundary * this

/-! ### Signals -/

theorem signal_near (A : ApproximatesZeroed R p n s k.spec ε) (hε : 0 ≤ ε) (B : ApproximatesZeroed R q n t k.inv.spec δ) (hδ : 0 ≤ δ) (hn : 2 ≤ n) {c' : ℕ → T} {c : ℕ → ℝ}
    (hm : MultipliersNear R n c' c C γ) (f : ℕ → T) :
    SignalNear R (((1 + ε) * (1 + δ) * ((1 + R.u) * (1 + γ)) - 1) * (k.boundary * k.inv.boundary * (C * k.scale n))) (vec n f)
      (vec n (k.inv.specAt n fun u => k.specAt n (fun i => R.val (f i)) u * c u)) (filtered s p c' t q (vec n f)) := by
  have row : ∀ {k : Kind} {p : Proc T} {s : ℕ} {ε : ℝ}, ApproximatesZeroed R p n s k.spec ε → ∀ f : ℕ → T, ∃ a : ℕ → T, processDefault s p (vec n f) = .ok (vec n a) ∧
      nrm 1 n (fun _ i => R.val (a i) - k.specAt n (fun i => R.val (f i)) i) ≤ ε * nrm 1 n fun _ => k.specAt n fun i => R.val (f i) := fun {k p s ε} A f => by
    obtain ⟨o, e, l, hr⟩ := A.2 (vec n f) (by simp)
    rw [map_vec, k.spec_vec] at l hr
    obtain ⟨a, rfl⟩ := exists_vec (show o.length = n by simpa using l)
    refine ⟨a, e, ?_⟩
    rw [← n1_nrm, ← n1_nrm]
    simpa only [map_vec, zipWith_vec_same, norm2_vec] using hr
  obtain ⟨a, e₁, h₁⟩ := row A f
  obtain ⟨b, e₂, h₂⟩ := row B fun u => a u * c' u
  refine ⟨vec n b, ?_, by simp, ?_⟩
  · unfold filtered
    rw [e₁]; dsimp only
    rw [mapIdx_vec, e₂]
  rw [map_vec, map_vec, zipWith_vec_same, norm2_vec, norm2_vec]
  show n1 n _ ≤ _ * n1 n _
  rw [n1_nrm, n1_nrm]
  set N := nrm 1 n fun _ i => R.val (f i) with hN
  have g0 := k.gain2_nonneg n
  have g1 := k.inv.gain2_nonneg n
  have hK := gain_rows (k := k) (h := 1) (fun _ => hn) (by omega) fun _ i => R.val (f i)
  have hm' : MultipliersNearImage R 1 n (fun _ => c') (fun _ => c) C γ := ⟨hm.1, hm.2.1, fun _ v _ hv => hm.2.2 v hv⟩
  have cn := coeff_near (a := fun _ => a) (A := fun _ => k.specAt n fun i => R.val (f i)) (G := k.gain2 n * N) hm' hε (h₁.trans (mul_le_mul_of_nonneg_left hK hε)) hK
  have cm := nrm_mult (h := 1) (w := n) (c := fun _ => c) hm.2.1 (fun _ v _ hv => (hm.2.2 v hv).1) hK
  have cb : nrm 1 n (fun _ u => R.val (a u * c' u)) ≤ (1 + ε) * ((1 + R.u) * (1 + γ)) * (C * (k.gain2 n * N)) := by
    have : nrm 1 n (fun _ u => R.val (a u * c' u)) ≤ nrm 1 n (fun _ u => R.val (a u * c' u) - k.specAt n (fun i => R.val (f i)) u * c u) + nrm 1 n (fun _ u => k.specAt n (fun i => R.val (f i)) u * c u) := by
      refine le_trans (le_of_eq (nrm_congr fun i j _ _ => ?_)) (nrm_add_le 1 n _ _)
      ring
    linarith
  have hL := gain_rows (k := k.inv) (h := 1) (fun _ => hn) (by omega) fun _ u => R.val (a u * c' u)
  have hD := gain_rows (k := k.inv) (h := 1) (fun _ => hn) (by omega) fun _ u => R.val (a u * c' u) - k.specAt n (fun i => R.val (f i)) u * c u
  have tri : nrm 1 n (fun _ i => R.val (b i) - k.inv.specAt n (fun u => k.specAt n (fun i => R.val (f i)) u * c u) i) ≤
      nrm 1 n (fun _ i => R.val (b i) - k.inv.specAt n (fun u => R.val (a u * c' u)) i) +
        nrm 1 n (fun _ => k.inv.specAt n fun u => R.val (a u * c' u) - k.specAt n (fun i => R.val (f i)) u * c u) := by
    refine le_trans (le_of_eq (nrm_congr fun i j _ _ => ?_)) (nrm_add_le 1 n _ _)
    rw [k.inv.specAt_eq n (fun u => R.val (a u * c' u) - _), k.inv.specAt_eq, k.inv.specAt_eq]
    simp only [mul_sub, sum_sub_distrib]
    ring
  have x3 := h₂.trans (mul_le_mul_of_nonneg_left (hL.trans (mul_le_mul_of_nonneg_left cb g1)) hδ)
  have x4 := hD.trans (mul_le_mul_of_nonneg_left cn g1)
  refine tri.trans ((add_le_add x3 x4).trans (le_of_eq ?_))
  have ek := k.gain2_inv (n := n) (by omega)
  linear_combination ((1 + ε) * (1 + δ) * ((1 + R.u) * (1 + γ)) - 1) * C * N * ek

/-- The errors of the transforms of a pair. -/
theorem Rounding.err_pair (R : Rounding T F) (hf : PlanFftAccurate R planFft φ) (k : Kind) (n : ℕ) : 0 ≤ k.boundary * R.err φ k n := mul_nonneg k.boundary_nonneg (R.err_nonneg hf.nonneg k n)

theorem Rounding.made_pair (R : Rounding T F) (ψ : ℝ) (k : Kind) (n : ℕ) : 0 ≤ k.boundary * R.made ψ k n := mul_nonneg k.boundary_nonneg (R.made_nonneg ψ k n)

theorem spec_filter (k : Kind) (f : ℕ → T) (c : ℕ → ℝ) :
    k.inv.spec ((k.spec ((vec n f).map R.val)).mapIdx fun u v => v * c u) = vec n (k.inv.specAt n fun u => k.specAt n (fun i => R.val (f i)) u * c u) := by
  rw [map_vec, k.spec_vec, mapIdx_vec, k.inv.spec_vec]

/-- C96: transforming, multiplying and transforming back in floating-point arithmetic, with planned instances. -/
theorem C96_planned (hf : PlanFftAccurate R planFft φ) (hf' : PlanFftAccurate R planFft' φ') (hp : Planned planFft calls k p n s) (hq : Planned planFft' calls' k.inv q n t) (hn : 2 ≤ n)
    {c' : ℕ → T} {c : ℕ → ℝ} (hm : MultipliersNear R n c' c C γ) {x : List T} (hx : x.length = n) :
    SignalNear R (((1 + k.boundary * R.err φ k n) * (1 + k.inv.boundary * R.err φ' k.inv n) * ((1 + R.u) * (1 + γ)) - 1) * (k.boundary * k.inv.boundary * (C * k.scale n))) x
      (k.inv.spec ((k.spec (x.map R.val)).mapIdx fun u v => v * c u)) (filtered s p c' t q x) := by
  obtain ⟨f, rfl⟩ := exists_vec hx
  rw [spec_filter]
  exact signal_near (C51_planned_zeroed hf hp (by omega)) (R.err_pair hf k n) (C51_planned_zeroed hf' hq (by omega)) (R.err_pair hf' k.inv n) hn hm f

/-- C96, with instances built by hand. -/
theorem C96_made (hψ : 0 ≤ ψ) (hψ' : 0 ≤ ψ') (hp : Method (fun f => FftAccurate R f ψ) k p n s) (hq : Method (fun f => FftAccurate R f ψ') k.inv q n t) (hn : 2 ≤ n)
    {c' : ℕ → T} {c : ℕ → ℝ} (hm : MultipliersNear R n c' c C γ) {x : List T} (hx : x.length = n) :
    SignalNear R (((1 + k.boundary * R.made ψ k n) * (1 + k.inv.boundary * R.made ψ' k.inv n) * ((1 + R.u) * (1 + γ)) - 1) * (k.boundary * k.inv.boundary * (C * k.scale n))) x
      (k.inv.spec ((k.spec (x.map R.val)).mapIdx fun u v => v * c u)) (filtered s p c' t q x) := by
  obtain ⟨f, rfl⟩ := exists_vec hx
  rw [spec_filter]
  exact signal_near (C67_constructed hψ hp (by omega)).1 (R.made_pair ψ k n) (C67_constructed hψ' hq (by omega)).1 (R.made_pair ψ' k.inv n) hn hm f

theorem Kind.solver_le (k : Kind) (hn : 2 ≤ n) {r : ℝ} (hr : 0 ≤ r) (u : ℕ) : |k.solver n 1 (-r) u| ≤ 1 / k.scale n := by
  have hs := k.scale_pos hn
  have he := k.eig_nonpos n u
  have : 1 ≤ 1 + -r * k.eig n u := by nlinarith
  unfold Kind.solver
  rw [if_neg (by linarith), abs_of_nonneg (by positivity)]
  refine one_div_le_one_div_of_le hs ?_
  nlinarith

/-- C96: an implicit step of diffusion, with every kind: the result differs from the solution of `y − r Δy = x` by a multiple of the rounding errors times the norm of `x`,
whatever the step `r`. -/
theorem C96_diffusion (hf : PlanFftAccurate R planFft φ) (hf' : PlanFftAccurate R planFft' φ') (hp : Planned planFft calls k p n s) (hq : Planned planFft' calls' k.inv q n t) (hn : 2 ≤ n)
    {r : ℝ} (hr : 0 ≤ r) {c' : ℕ → T} (hγ : 0 ≤ γ) (hm : ∀ u, u < n → |R.val (c' u) - k.solver n 1 (-r) u| ≤ γ * |k.solver n 1 (-r) u|) {x : List T} (hx : x.length = n) :
    ∃ y, Solves k 1 (-r) (x.map R.val) y ∧
      SignalNear R (((1 + k.boundary * R.err φ k n) * (1 + k.inv.boundary * R.err φ' k.inv n) * ((1 + R.u) * (1 + γ)) - 1) * (k.boundary * k.inv.boundary)) x y (filtered s p c' t q x) := by
  obtain ⟨f, rfl⟩ := exists_vec hx
  have hs := k.scale_pos hn
  have := C96_planned (C := 1 / k.scale n) hf hf' hp hq hn ⟨hγ, by positivity, fun u hu => ⟨k.solver_le hn hr u, hm u hu⟩⟩ hx
  rw [one_div_mul_cancel hs.ne', mul_one] at this
  refine ⟨_, ?_, this⟩
  rw [spec_filter, map_vec]
  refine solves_exact hn _ fun u hu h0 => absurd h0 ?_
  nlinarith [k.eig_nonpos n u]

theorem firResponse_le (r : ℕ) (g : ℕ → ℝ) (θ : ℝ) : |firResponse r g θ| ≤ |g 0| + 2 * ∑ d ∈ range r, |g (d + 1)| := by
  unfold firResponse
  refine (abs_add_le _ _).trans (add_le_add le_rfl ((abs_sum_le_sum_abs _ _).trans ?_))
  rw [mul_sum]
  refine sum_le_sum fun d _ => ?_
  rw [abs_mul, abs_mul, abs_two]
  have := abs_cos_le_one ((d + 1 : ℕ) * θ)
  nlinarith [abs_nonneg (g (d + 1))]

/-- C96: a symmetric FIR filter, applied in floating-point arithmetic to a signal continued as kind `k` continues it. -/
theorem C96_fir (hf : PlanFftAccurate R planFft φ) (hf' : PlanFftAccurate R planFft' φ') (hp : Planned planFft calls k p n s) (hq : Planned planFft' calls' k.inv q n t) (hn : 2 ≤ n)
    (r : ℕ) (g : ℕ → ℝ) {c' : ℕ → T} (hγ : 0 ≤ γ) (hm : ∀ u, u < n → |R.val (c' u) - firResponse r g (k.freq n u) / k.scale n| ≤ γ * |firResponse r g (k.freq n u) / k.scale n|)
    {x : List T} (hx : x.length = n) {X : ℤ → ℝ} (hX : k.Continues n X) (hv : x.map R.val = samples n X) :
    SignalNear R (((1 + k.boundary * R.err φ k n) * (1 + k.inv.boundary * R.err φ' k.inv n) * ((1 + R.u) * (1 + γ)) - 1) *
      (k.boundary * k.inv.boundary * (|g 0| + 2 * ∑ d ∈ range r, |g (d + 1)|))) x (samples n (fir r g X)) (filtered s p c' t q x) := by
  have hs := k.scale_pos hn
  have := C96_planned (C := (|g 0| + 2 * ∑ d ∈ range r, |g (d + 1)|) / k.scale n) (c := fun u => firResponse r g (k.freq n u) / k.scale n) hf hf' hp hq hn
    ⟨hγ, by positivity, fun u hu => ⟨by rw [abs_div, abs_of_pos hs]; exact div_le_div_of_nonneg_right (firResponse_le ..) hs.le, hm u hu⟩⟩ hx
  rw [div_mul_cancel₀ _ hs.ne', hv, show samples n X = vec n fun i => X i from rfl, k.spec_vec, mapIdx_vec, k.inv.spec_vec, vec_congr fun i hi => fir_exact hn r g hX hi] at this
  exact this

/-! ### Images -/

theorem picture_near {ε' δ' : ℝ} (A : ApproximatesZeroed R p w s k.spec ε) (hε : 0 ≤ ε) (B : ApproximatesZeroed R q h t l.spec δ) (hδ : 0 ≤ δ)
    (A' : ApproximatesZeroed R p' w s' k.inv.spec ε') (hε' : 0 ≤ ε') (B' : ApproximatesZeroed R q' h t' l.inv.spec δ') (hδ' : 0 ≤ δ') (hw : 2 ≤ w) (hh : 2 ≤ h)
    {c' : ℕ → ℕ → T} {c : ℕ → ℕ → ℝ} (hm : MultipliersNearImage R h w c' c C γ) (f : ℕ → ℕ → T) :
    PictureNear R h w (((1 + ε) * (1 + δ) * ((1 + ε') * (1 + δ')) * ((1 + R.u) * (1 + γ)) - 1) *
        (k.boundary * k.inv.boundary * (l.boundary * l.inv.boundary) * (C * (k.scale w * l.scale h)))) (imageOf h w f)
      (imageOf h w (Spec.planeAt k.inv l.inv h w fun u v => Spec.planeAt k l h w (fun i j => R.val (f i j)) u v * c u v)) (filteredImage w h s p t q c' s' p' t' q' (imageOf h w f)) := by
  obtain ⟨a, e₁, h₁⟩ := image_near A hε B hδ (fun _ => hw) (fun _ => hh) (by omega) (by omega) f
  obtain ⟨b, e₂, h₂⟩ := image_near A' hε' B' hδ' (fun _ => hw) (fun _ => hh) (by omega) (by omega) fun u v => a u v * c' u v
  refine ⟨imageOf h w b, ?_, isImage_imageOf .., ?_⟩
  · unfold filteredImage
    rw [e₁]; dsimp only
    rw [imageOf_eq h w a, mapIdx_vec]
    simp only [mapIdx_vec]
    rw [← imageOf_eq h w fun u v => a u v * c' u v, e₂]
  rw [image_imageOf, image_imageOf, subImage_imageOf, norm2Image_imageOf, norm2Image_imageOf]
  set N := nrm h w fun i j => R.val (f i j) with hN
  have gk := k.gain2_nonneg w
  have gl := l.gain2_nonneg h
  have gk' := k.inv.gain2_nonneg w
  have gl' := l.inv.gain2_nonneg h
  have c0 : 0 ≤ (1 + ε) * (1 + δ) - 1 := by nlinarith [mul_nonneg hε hδ]
  have c0' : 0 ≤ (1 + ε') * (1 + δ') - 1 := by nlinarith [mul_nonneg hε' hδ']
  have hK := gain_plane (k := k) (l := l) (fun _ => hw) (fun _ => hh) (by omega) (by omega) fun i j => R.val (f i j)
  have cn := coeff_near (a := a) (ε := (1 + ε) * (1 + δ) - 1) (G := k.gain2 w * l.gain2 h * N) hm c0 (h₁.trans (le_of_eq (by ring))) hK
  have cm := nrm_mult hm.2.1 (fun u v hu hv => (hm.2.2 u v hu hv).1) hK
  have cb : nrm h w (fun u v => R.val (a u v * c' u v)) ≤ (1 + ((1 + ε) * (1 + δ) - 1)) * ((1 + R.u) * (1 + γ)) * (C * (k.gain2 w * l.gain2 h * N)) := by
    have : nrm h w (fun u v => R.val (a u v * c' u v)) ≤ nrm h w (fun u v => R.val (a u v * c' u v) - Spec.planeAt k l h w (fun i j => R.val (f i j)) u v * c u v) +
        nrm h w (fun u v => Spec.planeAt k l h w (fun i j => R.val (f i j)) u v * c u v) := by
      refine le_trans (le_of_eq (nrm_congr fun i j _ _ => ?_)) (nrm_add_le h w _ _)
      ring
    linarith
  have hD := gain_plane (k := k.inv) (l := l.inv) (fun _ => hw) (fun _ => hh) (by omega) (by omega)
    fun u v => R.val (a u v * c' u v) - Spec.planeAt k l h w (fun i j => R.val (f i j)) u v * c u v
  have tri : nrm h w (fun i j => R.val (b i j) - Spec.planeAt k.inv l.inv h w (fun u v => Spec.planeAt k l h w (fun i j => R.val (f i j)) u v * c u v) i j) ≤
      nrm h w (fun i j => R.val (b i j) - Spec.planeAt k.inv l.inv h w (fun u v => R.val (a u v * c' u v)) i j) +
        nrm h w (Spec.planeAt k.inv l.inv h w fun u v => R.val (a u v * c' u v) - Spec.planeAt k l h w (fun i j => R.val (f i j)) u v * c u v) := by
    refine le_trans (le_of_eq (nrm_congr fun i j _ _ => ?_)) (nrm_add_le h w _ _)
    rw [planeAt_sub]
    ring
  have gg := mul_nonneg gk' gl'
  have x3 := h₂.trans (mul_le_mul_of_nonneg_left cb (mul_nonneg c0' gg))
  have x4 := hD.trans (mul_le_mul_of_nonneg_left cn gg)
  refine tri.trans ((add_le_add x3 x4).trans (le_of_eq ?_))
  have ek := k.gain2_inv (n := w) (by omega)
  have el := l.gain2_inv (n := h) (by omega)
  have : k.gain2 w * l.gain2 h * (k.inv.gain2 w * l.inv.gain2 h) = k.boundary * k.inv.boundary * (l.boundary * l.inv.boundary) * (k.scale w * l.scale h) := by
    rw [show k.gain2 w * l.gain2 h * (k.inv.gain2 w * l.inv.gain2 h) = (k.gain2 w * k.inv.gain2 w) * (l.gain2 h * l.inv.gain2 h) by ring, ek, el]; ring
  linear_combination ((1 + ε) * (1 + δ) * ((1 + ε') * (1 + δ')) * ((1 + R.u) * (1 + γ)) - 1) * C * N * this

/-- C96 on images, with planned instances: `y` is the image that exact arithmetic would give. -/
theorem C96_image (hf : PlanFftAccurate R planFft φ) {calls₂ calls₃ : List (PlanCall T)} (hp : Planned planFft calls k p w s) (hq : Planned planFft calls' l q h t)
    (hp' : Planned planFft calls₂ k.inv p' w s') (hq' : Planned planFft calls₃ l.inv q' h t') (hw : 2 ≤ w) (hh : 2 ≤ h)
    {c' : ℕ → ℕ → T} {c : ℕ → ℕ → ℝ} (hm : MultipliersNearImage R h w c' c C γ) {x : List (List T)} (hx : IsImage h w x) :
    PictureNear R h w
      (((1 + k.boundary * R.err φ k w) * (1 + l.boundary * R.err φ l h) * ((1 + k.inv.boundary * R.err φ k.inv w) * (1 + l.inv.boundary * R.err φ l.inv h)) * ((1 + R.u) * (1 + γ)) - 1) *
        (k.boundary * k.inv.boundary * (l.boundary * l.inv.boundary) * (C * (k.scale w * l.scale h)))) x
      (Spec.plane k.inv l.inv h w ((Spec.plane k l h w (R.image x)).mapIdx fun u row => row.mapIdx fun v y => y * c u v)) (filteredImage w h s p t q c' s' p' t' q' x) := by
  obtain ⟨f, rfl⟩ := hx.exists
  have e : Spec.plane k.inv l.inv h w ((Spec.plane k l h w (R.image (imageOf h w f))).mapIdx fun u row => row.mapIdx fun v y => y * c u v) =
      imageOf h w (Spec.planeAt k.inv l.inv h w fun u v => Spec.planeAt k l h w (fun i j => R.val (f i j)) u v * c u v) := by
    rw [image_imageOf, plane_imageOf, imageOf_eq, mapIdx_vec]
    simp only [mapIdx_vec]
    rw [← imageOf_eq, plane_imageOf]
  rw [e]
  exact picture_near (C51_planned_zeroed hf hp (by omega)) (R.err_pair hf k w) (C51_planned_zeroed hf hq (by omega)) (R.err_pair hf l h) (C51_planned_zeroed hf hp' (by omega)) (R.err_pair hf k.inv w)
    (C51_planned_zeroed hf hq' (by omega)) (R.err_pair hf l.inv h) hw hh hm f

/-! ### Instances -/

/-- Every kind, 60 points, in 24-bit arithmetic: a filter that halves every output, whose multipliers are exact. -/
example (calls : List (PlanCall (Flx 24))) (k : Kind) (x : List (Flx 24)) (hx : x.length = 60) : ∃ p s q t e,
    SignalNear (Flx.rounding 24) e x (k.inv.spec ((k.spec (x.map (Flx.rounding 24).val)).mapIdx fun u v => v * (1 / 2))) (filtered s p (fun _ => thalf (Flx 24)) t q x) := by
  obtain ⟨p, s, h⟩ := planned_exists (sumFft_shape 24) calls k (n := 60) (by norm_num)
  obtain ⟨q, t, h'⟩ := planned_exists (sumFft_shape 24) calls k.inv (n := 60) (by norm_num)
  exact ⟨p, s, q, t, _, C96_planned (C := 1 / 2) (γ := 0) (c := fun _ => 1 / 2) (sumFft_plan _) (sumFft_plan _) h h' (by norm_num)
    ⟨le_rfl, by norm_num, fun u _ => ⟨by norm_num, by rw [(Flx.rounding 24).half]; norm_num⟩⟩ hx⟩

/-- An implicit step of the heat equation with every kind of ends, multipliers rounded to 24 bits. -/
example (calls : List (PlanCall (Flx 24))) (k : Kind) (x : List (Flx 24)) (hx : x.length = 60) : ∃ p s q t y e, Solves k 1 (-3) (x.map Flx.val) y ∧
    SignalNear (Flx.rounding 24) e x y (filtered s p (fun u => Flx.rnd 24 (k.solver 60 1 (-3) u)) t q x) := by
  obtain ⟨p, s, h⟩ := planned_exists (sumFft_shape 24) calls k (n := 60) (by norm_num)
  obtain ⟨q, t, h'⟩ := planned_exists (sumFft_shape 24) calls k.inv (n := 60) (by norm_num)
  obtain ⟨y, hy, hn⟩ := C96_diffusion (r := 3) (γ := (1 / 2) ^ 24) (sumFft_plan (Flx.rounding 24)) (sumFft_plan (Flx.rounding 24)) h h' (by norm_num) (by norm_num) (by positivity)
    (fun u _ => Flx.rnd_err 24 _) hx
  exact ⟨p, s, q, t, y, _, hy, hn⟩

end RustDct
