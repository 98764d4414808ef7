import Verif.Proofs.Laplace
import Verif.Props.Images
/-!
# C94: second differences, and solvers of Poisson, diffusion and Helmholtz equations
-/

set_option linter.all false

namespace RustDct
open Finset Real

variable {planFft planFft' : ℕ → Fft ℝ} {calls calls' : List (PlanCall ℝ)} {k l : Kind} {p q p' q' : Proc ℝ} {n w h s t s' t' : ℕ} {a b c : ℝ}

theorem Kind.laplaceAt_congr {f g : ℕ → ℝ} (hn : 2 ≤ n) (e : ∀ i, i < n → f i = g i) {i : ℕ} (hi : i < n) : k.laplaceAt n f i = k.laplaceAt n g i := by
  unfold Kind.laplaceAt
  rw [e 0 (by omega), e 1 (by omega), e i hi, e (n - 1) (by omega), e (n - 2) (by omega)]
  congr 1
  · split_ifs <;> first | rfl | rw [e (i - 1) (by omega)]
  · split_ifs <;> first | rfl | rw [e (i + 1) (by omega)]

theorem Kind.laplace_vec (hn : 2 ≤ n) (f : ℕ → ℝ) : k.laplace (vec n f) = vec n (k.laplaceAt n f) := by
  unfold Kind.laplace Spec.onList
  rw [length_vec]
  refine vec_congr fun i hi => Kind.laplaceAt_congr hn (fun j hj => ?_) hi
  simp [vec, List.getD_eq_getElem?_getD, hj]

theorem mapIdx_vec {α β : Type} (n : ℕ) (f : ℕ → α) (g : ℕ → α → β) : (vec n f).mapIdx g = vec n fun i => g i (f i) := by
  apply List.ext_getElem <;> simp [vec]

/-- C94: the transform of the second difference is the transform of the signal, every output multiplied by the factor of its frequency. -/
theorem C94_diagonal_made (hp : Method FftContract k p n s) (hn : 2 ≤ n) {x : List ℝ} (hx : x.length = n) :
    ∃ X, processDefault s p x = .ok X ∧ processDefault s p (k.laplace x) = .ok (X.mapIdx fun u v => k.eig n u * v) := by
  obtain ⟨f, rfl⟩ := exists_vec hx
  refine ⟨_, hp.runs f, ?_⟩
  rw [Kind.laplace_vec hn, hp.runs, mapIdx_vec]
  congr 1
  exact vec_congr fun u _ => k.diagonal hn f u

theorem C94_diagonal_planned (hf : PlanFftContract planFft) (hp : Planned planFft calls k p n s) (hn : 2 ≤ n) {x : List ℝ} (hx : x.length = n) :
    ∃ X, processDefault s p x = .ok X ∧ processDefault s p (k.laplace x) = .ok (X.mapIdx fun u v => k.eig n u * v) :=
  C94_diagonal_made (hp.made hf) hn hx

/-! ### Solvers -/

theorem Kind.scale_pos (k : Kind) (hn : 2 ≤ n) : 0 < k.scale n := by
  have : (2 : ℝ) ≤ n := by exact_mod_cast hn
  cases k <;> simp only [Kind.scale] <;> linarith

theorem Kind.spec_inv (k : Kind) (hn : 2 ≤ n) (f : ℕ → ℝ) {r : ℕ} (hr : r < n) : k.specAt n (k.inv.specAt n f) r = k.scale n * f r := by
  have := k.inv.inv_spec (fun _ => hn) f hr
  rwa [k.inv_inv, k.inv_scale] at this

theorem Kind.inj (k : Kind) (hn : 2 ≤ n) {f g : ℕ → ℝ} (e : ∀ u, u < n → k.specAt n f u = k.specAt n g u) {i : ℕ} (hi : i < n) : f i = g i := by
  have h1 := k.inv_spec (fun _ => hn) f hi
  have h2 := k.inv_spec (fun _ => hn) g hi
  rw [k.inv.local n _ _ i e, h2] at h1
  exact (mul_left_cancel₀ (k.scale_pos hn).ne' h1).symm

theorem Kind.specAt_lin (k : Kind) (f g : ℕ → ℝ) (u : ℕ) : k.specAt n (fun i => a * f i + b * g i) u = a * k.specAt n f u + b * k.specAt n g u := by
  simp only [Kind.specAt_eq, mul_sum, ← sum_add_distrib]
  exact sum_congr rfl fun i _ => by ring

theorem solves_vec (hn : 2 ≤ n) (f y : ℕ → ℝ) : Solves k a b (vec n f) (vec n y) ↔ ∀ i, i < n → a * y i + b * k.laplaceAt n y i = f i := by
  unfold Solves
  rw [Kind.laplace_vec hn, zipWith_vec_same]
  simp only [length_vec, true_and]
  exact ⟨fun e => vec_inj e, vec_congr⟩

theorem solves_exact (hn : 2 ≤ n) (f : ℕ → ℝ) (H : ∀ u, u < n → a + b * k.eig n u = 0 → k.specAt n f u = 0) :
    Solves k a b (vec n f) (vec n (k.inv.specAt n fun u => k.specAt n f u * k.solver n a b u)) := by
  rw [solves_vec hn]
  refine fun i hi => k.inj hn (f := fun i => a * _ + b * _) (fun u hu => ?_) hi
  rw [k.specAt_lin, k.diagonal hn, k.spec_inv hn _ hu]
  have hu' := H u hu
  unfold Kind.solver
  split_ifs with h0
  · rw [hu' h0]; ring
  · have := (k.scale_pos hn).ne'
    field_simp

theorem spec_getD (f : ℕ → ℝ) {u : ℕ} (hu : u < n) : (k.spec (vec n f)).getD u 0 = k.specAt n f u := by
  rw [k.spec_vec]
  simp [vec, List.getD_eq_getElem?_getD, hu]

/-- C94: a client that transforms, divides by the factors and transforms back solves the equation. If the operator annihilates a wave, the right-hand side must not contain it. -/
theorem C94_solves_made (hp : Method FftContract k p n s) (hq : Method FftContract k.inv q n t) (hn : 2 ≤ n) {x : List ℝ} (hx : x.length = n)
    (H : ∀ u, u < n → a + b * k.eig n u = 0 → (k.spec x).getD u 0 = 0) :
    ∃ y, filtered s p (k.solver n a b) t q x = .ok y ∧ Solves k a b x y := by
  obtain ⟨f, rfl⟩ := exists_vec hx
  refine ⟨_, ?_, solves_exact hn f fun u hu h0 => (spec_getD f hu).symm.trans (H u hu h0)⟩
  unfold filtered
  rw [hp.runs]
  dsimp only
  rw [mapIdx_vec, hq.runs]

theorem C94_solves_planned (hf : PlanFftContract planFft) (hf' : PlanFftContract planFft') (hp : Planned planFft calls k p n s) (hq : Planned planFft' calls' k.inv q n t) (hn : 2 ≤ n)
    {x : List ℝ} (hx : x.length = n) (H : ∀ u, u < n → a + b * k.eig n u = 0 → (k.spec x).getD u 0 = 0) :
    ∃ y, filtered s p (k.solver n a b) t q x = .ok y ∧ Solves k a b x y :=
  C94_solves_made (hp.made hf) (hq.made hf') hn hx H

/-- C94: if the operator annihilates no wave, there is no other solution. -/
theorem C94_unique (hn : 2 ≤ n) {x y z : List ℝ} (hx : x.length = n) (H : ∀ u, u < n → a + b * k.eig n u ≠ 0) (hy : Solves k a b x y) (hz : Solves k a b x z) : y = z := by
  obtain ⟨f, rfl⟩ := exists_vec hx
  obtain ⟨y, rfl⟩ := exists_vec (hy.1.trans hx)
  obtain ⟨z, rfl⟩ := exists_vec (hz.1.trans hx)
  rw [solves_vec hn] at hy hz
  refine vec_congr fun i hi => k.inj hn (fun u hu => ?_) hi
  have e : k.specAt n (fun i => a * y i + b * k.laplaceAt n y i) u = k.specAt n (fun i => a * z i + b * k.laplaceAt n z i) u :=
    k.local n _ _ u fun i hi => (hy i hi).trans (hz i hi).symm
  rw [k.specAt_lin, k.specAt_lin, k.diagonal hn, k.diagonal hn] at e
  refine mul_left_cancel₀ (H u hu) ?_
  linarith

theorem Kind.eig_nonpos (k : Kind) (n u : ℕ) : k.eig n u ≤ 0 := by
  unfold Kind.eig
  linarith [cos_le_one (k.freq n u)]

/-- Implicit diffusion: `y − r Δy = x` can always be solved. -/
theorem C94_diffusion (hp : Method FftContract k p n s) (hq : Method FftContract k.inv q n t) (hn : 2 ≤ n) {x : List ℝ} (hx : x.length = n) {r : ℝ} (hr : 0 ≤ r) :
    ∃ y, filtered s p (k.solver n 1 (-r)) t q x = .ok y ∧ Solves k 1 (-r) x y ∧ ∀ z, Solves k 1 (-r) x z → z = y := by
  have H : ∀ u, u < n → (1 : ℝ) + -r * k.eig n u ≠ 0 := fun u _ => by nlinarith [k.eig_nonpos n u]
  obtain ⟨y, e, hy⟩ := C94_solves_made (a := 1) (b := -r) hp hq hn hx fun u hu h0 => absurd h0 (H u hu)
  exact ⟨y, e, hy, fun z hz => C94_unique hn hx H hz hy⟩

/-- The kinds one of whose waves is constant. -/
def Kind.hasConstant : Kind → Bool
  | .dct1 | .dct2 | .dct5 | .dct6 => true
  | _ => false

theorem Kind.freq_bounds (k : Kind) (hn : 2 ≤ n) {u : ℕ} (hu : u < n) (h : k.hasConstant = false ∨ 1 ≤ u) : 0 < k.freq n u ∧ k.freq n u < 2 * π := by
  have h2 : (2 : ℝ) ≤ n := by exact_mod_cast hn
  have hu' : (u : ℝ) + 1 ≤ n := by exact_mod_cast hu
  have u0 : (0 : ℝ) ≤ u := Nat.cast_nonneg u
  have hp := pi_pos
  have u1 : k.hasConstant = true → (1 : ℝ) ≤ u := fun e => by
    rcases h with h | h
    · rw [e] at h; cases h
    · exact_mod_cast h
  have key : ∀ {a b : ℝ}, 0 < a → 0 < b → a < 2 * b → 0 < a * π / b ∧ a * π / b < 2 * π := fun {a b} ha hb hab =>
    ⟨by positivity, by rw [div_lt_iff₀ hb]; nlinarith⟩
  cases k <;> simp only [Kind.hasConstant, forall_true_left, Bool.false_eq_true, false_implies] at u1 <;> simp only [Kind.freq] <;> refine key ?_ ?_ ?_ <;> linarith

theorem Kind.eig_neg (k : Kind) (hn : 2 ≤ n) {u : ℕ} (hu : u < n) (h : k.hasConstant = false ∨ 1 ≤ u) : k.eig n u < 0 := by
  obtain ⟨h1, h2⟩ := k.freq_bounds hn hu h
  have : cos (k.freq n u) ≠ 1 := fun e => h1.ne' ((cos_eq_one_iff_of_lt_of_lt (by linarith [pi_pos]) h2).1 e)
  have := lt_of_le_of_ne (cos_le_one (k.freq n u)) this
  unfold Kind.eig
  linarith

/-- Poisson's equation `Δy = x`, for the twelve kinds without a constant wave. -/
theorem C94_poisson (hp : Method FftContract k p n s) (hq : Method FftContract k.inv q n t) (hn : 2 ≤ n) (hk : k.hasConstant = false) {x : List ℝ} (hx : x.length = n) :
    ∃ y, filtered s p (k.solver n 0 1) t q x = .ok y ∧ k.laplace y = x ∧ ∀ z, z.length = n → k.laplace z = x → z = y := by
  have H : ∀ u, u < n → (0 : ℝ) + 1 * k.eig n u ≠ 0 := fun u hu => by rw [zero_add, one_mul]; exact (k.eig_neg hn hu (.inl hk)).ne
  have S : ∀ z : List ℝ, z.length = n → (Solves k 0 1 x z ↔ k.laplace z = x) := fun z hz => by
    obtain ⟨g, rfl⟩ := exists_vec hz
    unfold Solves
    rw [Kind.laplace_vec hn, zipWith_vec_same]
    simp [hx]
  obtain ⟨y, e, hy⟩ := C94_solves_made (a := 0) (b := 1) hp hq hn hx fun u hu h0 => absurd h0 (H u hu)
  exact ⟨y, e, (S y (hy.1.trans hx)).1 hy, fun z hz h => C94_unique hn hx H ((S z hz).2 h) hy⟩

/-- Poisson's equation with reflecting ends (DCT2 and DCT3): solvable by this client when the right-hand side has mean zero. -/
theorem C94_neumann (hp : Method FftContract .dct2 p n s) (hq : Method FftContract .dct3 q n t) (hn : 2 ≤ n) {x : List ℝ} (hx : x.length = n) (h0 : x.sum = 0) :
    ∃ y, filtered s p (Kind.dct2.solver n 0 1) t q x = .ok y ∧ Kind.dct2.laplace y = x := by
  obtain ⟨f, rfl⟩ := exists_vec hx
  obtain ⟨y, e, hy⟩ := C94_solves_made (k := .dct2) (a := 0) (b := 1) hp hq hn hx fun u hu h1 => by
    have : u = 0 := by
      by_contra hne
      have := Kind.dct2.eig_neg hn hu (.inr (by omega))
      linarith
    subst this
    rw [Kind.spec_vec]
    have : (vec n (Kind.dct2.specAt n f)).getD 0 0 = Kind.dct2.specAt n f 0 := by simp [vec, List.getD_eq_getElem?_getD, show 0 < n by omega]
    rw [this]
    simp only [Kind.specAt, Spec.dct2At, Nat.cast_zero, zero_mul, zero_div, cos_zero, mul_one]
    exact h0
  refine ⟨y, e, ?_⟩
  obtain ⟨g, rfl⟩ := exists_vec (hy.1.trans hx)
  have := hy.2
  rw [Kind.laplace_vec hn, zipWith_vec_same] at this
  rw [Kind.laplace_vec hn]
  simpa using this

/-! ### On images -/

theorem planeAt_laplace_row (hw : 2 ≤ w) (f : ℕ → ℕ → ℝ) (u v : ℕ) :
    Spec.planeAt k l h w (fun i j => k.laplaceAt w (fun j => f i j) j) u v = k.eig w v * Spec.planeAt k l h w f u v := by
  simp only [Spec.planeAt]
  have : ∀ i, k.specAt w (fun j => k.laplaceAt w (fun j => f i j) j) v = k.eig w v * k.specAt w (f i) v := fun i => k.diagonal hw (f i) v
  simp only [this]
  simp only [Kind.specAt_eq l, mul_sum]
  exact sum_congr rfl fun i _ => by ring

theorem planeAt_laplace_col (hh : 2 ≤ h) (f : ℕ → ℕ → ℝ) (u v : ℕ) :
    Spec.planeAt k l h w (fun i j => l.laplaceAt h (fun i => f i j) i) u v = l.eig h u * Spec.planeAt k l h w f u v := by
  rw [planeAt_swap, planeAt_swap k]
  exact planeAt_laplace_row hh (fun j i => f i j) v u

theorem planeAt_lin (f g e : ℕ → ℕ → ℝ) (u v : ℕ) : Spec.planeAt k l h w (fun i j => a * f i j + b * g i j + c * e i j) u v =
    a * Spec.planeAt k l h w f u v + b * Spec.planeAt k l h w g u v + c * Spec.planeAt k l h w e u v := by
  simp only [Spec.planeAt, Kind.specAt_eq, mul_sum, ← sum_add_distrib]
  exact sum_congr rfl fun i _ => sum_congr rfl fun j _ => by ring

theorem planeAt_congr {f g : ℕ → ℕ → ℝ} (e : ∀ i j, i < h → j < w → f i j = g i j) (u v : ℕ) : Spec.planeAt k l h w f u v = Spec.planeAt k l h w g u v :=
  l.local h _ _ u fun i hi => k.local w _ _ v fun j hj => e i j hi hj

theorem plane_inj (hw : 2 ≤ w) (hh : 2 ≤ h) {f g : ℕ → ℕ → ℝ} (e : ∀ u v, u < h → v < w → Spec.planeAt k l h w f u v = Spec.planeAt k l h w g u v) {i j : ℕ} (hi : i < h) (hj : j < w) :
    f i j = g i j := by
  have h1 := planeAt_inv (k := k) (l := l) (fun _ => hw) (fun _ => hh) f hi hj
  have h2 := planeAt_inv (k := k) (l := l) (fun _ => hw) (fun _ => hh) g hi hj
  rw [planeAt_congr e, h2] at h1
  exact (mul_left_cancel₀ (mul_pos (k.scale_pos hw) (l.scale_pos hh)).ne' h1).symm

theorem solvesImage_imageOf (hw : 2 ≤ w) (hh : 2 ≤ h) (f y : ℕ → ℕ → ℝ) : SolvesImage k l h w a b c (imageOf h w f) (imageOf h w y) ↔
    ∀ i j, i < h → j < w → a * y i j + b * k.laplaceAt w (fun j => y i j) j + c * l.laplaceAt h (fun i => y i j) i = f i j := by
  unfold SolvesImage
  simp only [isImage_imageOf, true_and]
  refine forall_congr' fun i => forall_congr' fun j => forall_congr' fun hi => forall_congr' fun hj => ?_
  rw [sample_imageOf _ hi hj, sample_imageOf _ hi hj, Kind.laplaceAt_congr hw (fun j hj => sample_imageOf y hi hj) hj, Kind.laplaceAt_congr hh (fun i hi => sample_imageOf y hi hj) hi]

/-- C94 on images: any two kinds, one for the rows and one for the columns. -/
theorem C94_image_made (hp : Method FftContract k p w s) (hq : Method FftContract l q h t) (hp' : Method FftContract k.inv p' w s') (hq' : Method FftContract l.inv q' h t') (hw : 2 ≤ w) (hh : 2 ≤ h)
    {x : List (List ℝ)} (hx : IsImage h w x) (H : ∀ u v, u < h → v < w → a + b * k.eig w v + c * l.eig h u = 0 → sample (Spec.plane k l h w x) u v = 0) :
    ∃ y, filteredImage w h s p t q (solverImage k l h w a b c) s' p' t' q' x = .ok y ∧ SolvesImage k l h w a b c x y := by
  obtain ⟨f, rfl⟩ := hx.exists
  refine ⟨imageOf h w (Spec.planeAt k.inv l.inv h w fun u v => Spec.planeAt k l h w f u v * solverImage k l h w a b c u v), ?_, ?_⟩
  · unfold filteredImage
    rw [transformImage_eq hp hq]
    dsimp only
    rw [imageOf_eq, mapIdx_vec]
    simp only [mapIdx_vec]
    rw [← imageOf_eq, transformImage_eq hp' hq']
  rw [solvesImage_imageOf hw hh]
  set Y := Spec.planeAt k.inv l.inv h w fun u v => Spec.planeAt k l h w f u v * solverImage k l h w a b c u v with hY
  refine fun i j hi hj => plane_inj (k := k) (l := l) hw hh
    (f := fun i j => a * Y i j + b * (fun i j => k.laplaceAt w (fun j => Y i j) j) i j + c * (fun i j => l.laplaceAt h (fun i => Y i j) i) i j) (fun u v hu hv => ?_) hi hj
  rw [planeAt_lin, planeAt_laplace_row hw, planeAt_laplace_col hh]
  have := planeAt_inv (k := k.inv) (l := l.inv) (fun _ => hw) (fun _ => hh) (fun u v => Spec.planeAt k l h w f u v * solverImage k l h w a b c u v) hu hv
  rw [k.inv_inv, l.inv_inv, k.inv_scale, l.inv_scale] at this
  rw [hY, this]
  have hu' := H u v hu hv
  rw [plane_imageOf, sample_imageOf _ hu hv] at hu'
  unfold solverImage
  split_ifs with h0
  · rw [hu' h0]; ring
  · have h1 := (k.scale_pos hw).ne'
    have h2 := (l.scale_pos hh).ne'
    field_simp

theorem C94_image_planned (hf : PlanFftContract planFft) {calls₂ calls₃ : List (PlanCall ℝ)} (hp : Planned planFft calls k p w s) (hq : Planned planFft calls' l q h t)
    (hp' : Planned planFft calls₂ k.inv p' w s') (hq' : Planned planFft calls₃ l.inv q' h t') (hw : 2 ≤ w) (hh : 2 ≤ h)
    {x : List (List ℝ)} (hx : IsImage h w x) (H : ∀ u v, u < h → v < w → a + b * k.eig w v + c * l.eig h u = 0 → sample (Spec.plane k l h w x) u v = 0) :
    ∃ y, filteredImage w h s p t q (solverImage k l h w a b c) s' p' t' q' x = .ok y ∧ SolvesImage k l h w a b c x y :=
  C94_image_made (hp.made hf) (hq.made hf) (hp'.made hf) (hq'.made hf) hw hh hx H

/-- Poisson's equation on a rectangle, unless both kinds have a constant wave. -/
theorem C94_image_poisson (hp : Method FftContract k p w s) (hq : Method FftContract l q h t) (hp' : Method FftContract k.inv p' w s') (hq' : Method FftContract l.inv q' h t') (hw : 2 ≤ w)
    (hh : 2 ≤ h) (hkl : k.hasConstant = false ∨ l.hasConstant = false) {x : List (List ℝ)} (hx : IsImage h w x) :
    ∃ y, filteredImage w h s p t q (solverImage k l h w 0 1 1) s' p' t' q' x = .ok y ∧ SolvesImage k l h w 0 1 1 x y := by
  refine C94_image_made hp hq hp' hq' hw hh hx fun u v hu hv h0 => absurd h0 (ne_of_lt ?_)
  have a := k.eig_nonpos w v
  have b := l.eig_nonpos h u
  rcases hkl with hk | hl
  · linarith [k.eig_neg hw hv (.inl hk)]
  · linarith [l.eig_neg hh hu (.inl hl)]

/-! ### Instances -/

/-- The heat equation on a rod with fixed ends, one implicit step with one planned instance. -/
example {planFft : ℕ → Fft ℝ} (hf : PlanFftContract planFft) (x : List ℝ) (hx : x.length = 100) : ∃ p s, Planned planFft [] .dst1 p 100 s ∧
    ∃ y, filtered s p (Kind.dst1.solver 100 1 (-3)) s p x = .ok y ∧ Solves .dst1 1 (-3) x y := by
  obtain ⟨p, s, h⟩ := planned_exists hf.sane.shape [] .dst1 (n := 100) (by norm_num)
  obtain ⟨y, e, hy, -⟩ := C94_diffusion (k := .dst1) (h.made hf) (h.made hf) (by norm_num) hx (r := 3) (by norm_num)
  exact ⟨p, s, h, y, e, hy⟩

/-- Poisson's equation on a plate of 100 × 60 with two fixed and two insulated edges. -/
example {planFft : ℕ → Fft ℝ} (hf : PlanFftContract planFft) (x : List (List ℝ)) (hx : IsImage 60 100 x) : ∃ p s q t q' t', Planned planFft [] .dst1 p 100 s ∧
    Planned planFft [] .dct2 q 60 t ∧ Planned planFft [] .dct3 q' 60 t' ∧
    ∃ y, filteredImage 100 60 s p t q (solverImage .dst1 .dct2 60 100 0 1 1) s p t' q' x = .ok y ∧ SolvesImage .dst1 .dct2 60 100 0 1 1 x y := by
  obtain ⟨p, s, h⟩ := planned_exists hf.sane.shape [] .dst1 (n := 100) (by norm_num)
  obtain ⟨q, t, h'⟩ := planned_exists hf.sane.shape [] .dct2 (n := 60) (by norm_num)
  obtain ⟨q', t', h''⟩ := planned_exists hf.sane.shape [] .dct3 (n := 60) (by norm_num)
  exact ⟨p, s, q, t, q', t', h, h', h'', C94_image_poisson (k := .dst1) (l := .dct2) (h.made hf) (h'.made hf) (h.made hf) (h''.made hf) (by norm_num) (by norm_num) (.inl rfl) hx⟩

/-- A signal of mean zero. -/
example : ([1, -2, 4, -3] : List ℝ).sum = 0 := by norm_num

/-- Second differences with fixed and with reflecting ends. -/
example : Kind.dst1.laplace [1, 2, 4] = [0, 1, -6] ∧ Kind.dct2.laplace [1, 2, 4] = [1, 1, -2] := by
  constructor <;> simp [Kind.laplace, Spec.onList, Kind.laplaceAt, Kind.left, Kind.right, Side.beyond, List.range_succ] <;> norm_num

end RustDct
