import Verif.Images
import Verif.Props.Agreement
import Verif.Props.Safety
import Verif.Props.Inverse
/-!
# C93: two-dimensional transforms by rows and columns
-/

set_option linter.all false

namespace RustDct
open Finset Real

section
variable {T : Type} [Zero T]

theorem imageOf_eq (h w : ℕ) (f : ℕ → ℕ → T) : imageOf h w f = vec h fun i => vec w (f i) := rfl

theorem vec_cons {α : Type} (n : ℕ) (f : ℕ → α) : vec (n + 1) f = f 0 :: vec n fun i => f (i + 1) := by
  simp [vec, List.range_succ_eq_map, Function.comp_def]

theorem IsImage.exists {h w : ℕ} {img : List (List T)} (H : IsImage h w img) : ∃ f, img = imageOf h w f := by
  refine ⟨sample img, ?_⟩
  obtain ⟨h1, h2⟩ := H
  apply List.ext_getElem
  · simp [imageOf, h1]
  · intro i hi hi'
    simp only [imageOf, List.getElem_map, List.getElem_range]
    apply List.ext_getElem
    · simpa using h2 _ (List.getElem_mem hi)
    · intro j hj hj'
      simp [sample, List.getD_eq_getElem?_getD, List.getElem?_eq_getElem hi, List.getElem?_eq_getElem hj]

theorem isImage_imageOf (h w : ℕ) (f : ℕ → ℕ → T) : IsImage h w (imageOf h w f) := by
  refine ⟨by simp [imageOf], fun r hr => ?_⟩
  simp only [imageOf, List.mem_map] at hr
  obtain ⟨i, -, rfl⟩ := hr
  simp

theorem sample_imageOf {h w : ℕ} (f : ℕ → ℕ → T) {i j : ℕ} (hi : i < h) (hj : j < w) : sample (imageOf h w f) i j = f i j := by
  simp [sample, imageOf, List.getD_eq_getElem?_getD, hi, hj]

theorem imageOf_congr {h w : ℕ} {f g : ℕ → ℕ → T} (e : ∀ i j, i < h → j < w → f i j = g i j) : imageOf h w f = imageOf h w g :=
  vec_congr fun i hi => vec_congr fun j hj => e i j hi hj

theorem transposed_imageOf (h w : ℕ) (f : ℕ → ℕ → T) : transposed w (imageOf h w f) = imageOf w h fun j i => f i j := by
  refine List.map_congr_left fun j hj => ?_
  simp only [imageOf, List.map_map]
  refine List.map_congr_left fun i hi => ?_
  simp [List.getD_eq_getElem?_getD, List.mem_range.1 hj]

theorem eachRow_vec {s : ℕ} {p : Proc T} : ∀ {h : ℕ} {r o : ℕ → List T}, (∀ i, i < h → processDefault s p (r i) = .ok (o i)) → eachRow s p (vec h r) = .ok (vec h o)
  | 0, _, _, _ => rfl
  | h + 1, r, o, H => by
    rw [vec_cons, vec_cons, eachRow, H 0 (by omega)]
    dsimp only
    rw [eachRow_vec (o := fun i => o (i + 1)) fun i hi => H (i + 1) (by omega)]

/-- Rows that each come out as an approximation of something. -/
theorem eachRow_exists {s w h : ℕ} {p : Proc T} {f : ℕ → ℕ → T} {P : ℕ → List T → Prop}
    (H : ∀ i, i < h → ∃ o, processDefault s p (vec w (f i)) = .ok o ∧ o.length = w ∧ P i o) :
    ∃ g : ℕ → ℕ → T, eachRow s p (imageOf h w f) = .ok (imageOf h w g) ∧ ∀ i, i < h → P i (vec w (g i)) := by
  have H' : ∀ i, ∃ g : ℕ → T, i < h → processDefault s p (vec w (f i)) = .ok (vec w g) ∧ P i (vec w g) := fun i => by
    by_cases hi : i < h
    · obtain ⟨o, e, l, hp⟩ := H i hi
      obtain ⟨g, rfl⟩ := exists_vec l
      exact ⟨g, fun _ => ⟨e, hp⟩⟩
    · exact ⟨fun _ => 0, fun hi' => absurd hi' hi⟩
  choose g hg using H'
  exact ⟨g, eachRow_vec fun i hi => (hg i hi).1, fun i hi => (hg i hi).2⟩

end

/-! ### Exact arithmetic -/

section
variable {planFft planFft' : ℕ → Fft ℝ} {calls calls' : List (PlanCall ℝ)} {k l : Kind} {p q p' q' : Proc ℝ} {w h s t s' t' : ℕ} {img : List (List ℝ)}

theorem transformImage_eq (hp : Method FftContract k p w s) (hq : Method FftContract l q h t) (f : ℕ → ℕ → ℝ) :
    transformImage w h s p t q (imageOf h w f) = .ok (imageOf h w (Spec.planeAt k l h w f)) := by
  unfold transformImage
  rw [imageOf_eq h w f, eachRow_vec (o := fun i => vec w (k.specAt w (f i))) fun i _ => hp.runs (f i)]
  dsimp only
  rw [← imageOf_eq h w fun i => k.specAt w (f i), transposed_imageOf, imageOf_eq, eachRow_vec (o := fun j => vec h (l.specAt h fun i => k.specAt w (f i) j)) fun j _ => hq.runs _]
  dsimp only
  rw [← imageOf_eq w h fun j => l.specAt h fun i => k.specAt w (f i) j, transposed_imageOf]
  rfl

theorem plane_imageOf (f : ℕ → ℕ → ℝ) : Spec.plane k l h w (imageOf h w f) = imageOf h w (Spec.planeAt k l h w f) := by
  refine imageOf_congr fun u v hu hv => l.local h _ _ _ fun i hi => k.local w _ _ _ fun j hj => sample_imageOf f hi hj

/-- C93: whatever instances the client uses, the result is the two-dimensional transform. -/
theorem C93_made (hp : Method FftContract k p w s) (hq : Method FftContract l q h t) (H : IsImage h w img) :
    transformImage w h s p t q img = .ok (Spec.plane k l h w img) := by
  obtain ⟨f, rfl⟩ := H.exists
  rw [transformImage_eq hp hq, plane_imageOf]

/-- C93, with planned instances. -/
theorem C93_planned (hf : PlanFftContract planFft) (hf' : PlanFftContract planFft') (hp : Planned planFft calls k p w s) (hq : Planned planFft' calls' l q h t) (H : IsImage h w img) :
    transformImage w h s p t q img = .ok (Spec.plane k l h w img) :=
  C93_made (hp.made hf) (hq.made hf') H

/-- C93 for the transform of JPEG, with the double sum written out. -/
theorem C93_jpeg (hp : Method FftContract .dct2 p w s) (hq : Method FftContract .dct2 q h t) (H : IsImage h w img) :
    transformImage w h s p t q img = .ok (imageOf h w (Spec.jpegAt h w (sample img))) := by
  rw [C93_made hp hq H]
  congr 1
  refine imageOf_congr fun u v _ _ => ?_
  simp only [Spec.planeAt, Kind.specAt, Spec.dct2At, Spec.jpegAt]
  refine sum_congr rfl fun i _ => ?_
  rw [sum_mul]
  exact sum_congr rfl fun j _ => by ring

theorem planeAt_swap (k l : Kind) (h w : ℕ) (f : ℕ → ℕ → ℝ) (u v : ℕ) : Spec.planeAt k l h w f u v = Spec.planeAt l k w h (fun j i => f i j) v u := by
  simp only [Spec.planeAt, Kind.specAt_eq, mul_sum]
  rw [sum_comm]
  exact sum_congr rfl fun j _ => sum_congr rfl fun i _ => by ring

/-- C93: columns first, then rows, gives the same. -/
theorem C93_order (hp : Method FftContract k p w s) (hq : Method FftContract l q h t) (H : IsImage h w img) :
    ∃ out, transformImage w h s p t q img = .ok out ∧ transformImage h w t q s p (transposed w img) = .ok (transposed w out) := by
  obtain ⟨f, rfl⟩ := H.exists
  refine ⟨_, transformImage_eq hp hq f, ?_⟩
  rw [transposed_imageOf, transformImage_eq hq hp, transposed_imageOf]
  congr 1
  exact imageOf_congr fun v u _ _ => planeAt_swap ..

theorem planeAt_inv (hk : k = .dct1 → 2 ≤ w) (hl : l = .dct1 → 2 ≤ h) (f : ℕ → ℕ → ℝ) {u v : ℕ} (hu : u < h) (hv : v < w) :
    Spec.planeAt k.inv l.inv h w (Spec.planeAt k l h w f) u v = k.scale w * l.scale h * f u v := by
  have e : ∀ i, i < h → k.inv.specAt w (Spec.planeAt k l h w f i) v = l.specAt h (fun i => k.scale w * f i v) i := fun i _ => by
    have : ∀ i, k.inv.specAt w (k.specAt w (f i)) v = k.scale w * f i v := fun i => k.inv_spec hk (f i) hv
    simp only [← this]
    simp only [Spec.planeAt, Kind.specAt_eq l, Kind.specAt_eq k.inv, mul_sum]
    rw [sum_comm]
    exact sum_congr rfl fun j _ => sum_congr rfl fun i _ => by ring
  rw [show Spec.planeAt k.inv l.inv h w (Spec.planeAt k l h w f) u v = l.inv.specAt h (fun i => k.inv.specAt w (Spec.planeAt k l h w f i) v) u from rfl,
    l.inv.local h _ _ u e, l.inv_spec hl _ hu]
  ring

/-- C93: with the inverse kinds the image comes back, times the product of the two factors of C17–C20 and C39. -/
theorem C93_inverse (hp : Method FftContract k p w s) (hq : Method FftContract l q h t) (hp' : Method FftContract k.inv p' w s') (hq' : Method FftContract l.inv q' h t')
    (H : IsImage h w img) :
    ∃ mid, transformImage w h s p t q img = .ok mid ∧ transformImage w h s' p' t' q' mid = .ok (img.map fun row => row.map (k.scale w * l.scale h * ·)) := by
  obtain ⟨f, rfl⟩ := H.exists
  refine ⟨_, transformImage_eq hp hq f, ?_⟩
  rw [transformImage_eq hp' hq']
  congr 1
  simp only [imageOf, List.map_map]
  refine List.map_congr_left fun u hu => ?_
  simp only [Function.comp, List.map_map]
  refine List.map_congr_left fun v hv => ?_
  exact planeAt_inv (fun e => by subst e; exact hp.two_le) (fun e => by subst e; exact hq.two_le) f (List.mem_range.1 hu) (List.mem_range.1 hv)

end

/-! ### One scratch for all rows and columns -/

section
variable {T F : Type} [F64 F] [DctNum T F]
variable {planFft planFft' : ℕ → Fft T} {calls calls' : List (PlanCall T)} {k l : Kind} {p q : Proc T} {w h s t : ℕ} {img : List (List T)}

theorem eachRowWith_clean (hp : ∃ C, RunsV p w s C) : ∀ (rows : List (List T)) (scr : List T), (∀ r ∈ rows, r.length = w) → s ≤ scr.length →
    ∃ outs scr', eachRowWith p rows scr = .ok (outs, scr') ∧ eachRow s p rows = .ok outs ∧ scr'.length = scr.length ∧ IsImage rows.length w outs := by
  obtain ⟨C, hC⟩ := hp
  intro rows
  induction rows with
  | nil => exact fun scr _ _ => ⟨[], scr, rfl, rfl, rfl, rfl, by simp⟩
  | cons r rest ih =>
    intro scr hr hs
    obtain ⟨f, rfl⟩ := exists_vec (hr r (by simp))
    obtain ⟨a, e, hl, -⟩ := hC f scr hs
    obtain ⟨b, e', -⟩ := hC f (List.replicate s 0) (by simp)
    obtain ⟨outs, scr', h1, h2, h3, h4, h5⟩ := ih a (fun r hr' => hr r (by simp [hr'])) (by omega)
    refine ⟨vec w (C f) :: outs, scr', ?_, ?_, by omega, by simp [h4], ?_⟩
    · unfold eachRowWith; rw [e]; dsimp only; rw [h1]
    · unfold eachRow processDefault; rw [e']; dsimp only; rw [h2]
    · intro o ho
      rcases List.mem_cons.1 ho with rfl | ho
      · simp
      · exact h5 o ho

theorem isImage_transposed {h w : ℕ} {img : List (List T)} (H : IsImage h w img) : IsImage w h (transposed w img) := by
  obtain ⟨f, rfl⟩ := H.exists
  rw [transposed_imageOf]
  exact isImage_imageOf ..

theorem shared (hp : ∃ C, RunsV p w s C) (hq : ∃ C, RunsV q h t C) (H : IsImage h w img) {scr : List T} (hs : s ≤ scr.length) (ht : t ≤ scr.length) :
    ∃ out scr', transformImageWith w h p q img scr = .ok (out, scr') ∧ transformImage w h s p t q img = .ok out := by
  obtain ⟨a, scr₁, e₁, e₁', l₁, i₁⟩ := eachRowWith_clean hp img scr H.2 hs
  rw [H.1] at i₁
  have i := isImage_transposed i₁
  obtain ⟨b, scr₂, e₂, e₂', -, -⟩ := eachRowWith_clean hq (transposed w a) scr₁ i.2 (by omega)
  refine ⟨transposed h b, scr₂, ?_, ?_⟩
  · unfold transformImageWith; rw [e₁]; dsimp only; rw [e₂]
  · unfold transformImage; rw [e₁']; dsimp only; rw [e₂']

/-- C93: a scratch shared by all calls, whatever it contains, gives what the default methods give (in every arithmetic). -/
theorem C93_shared_made (hp : Method FftSane k p w s) (hk : ¬ k.leaky) (hq : Method FftSane l q h t) (hl : ¬ l.leaky) (H : IsImage h w img) {scr : List T}
    (hs : s ≤ scr.length) (ht : t ≤ scr.length) :
    ∃ out scr', transformImageWith w h p q img scr = .ok (out, scr') ∧ transformImage w h s p t q img = .ok out :=
  shared (hp.clean hk) (hq.clean hl) H hs ht

/-- C93, planned instances on a shared scratch. -/
theorem C93_shared_planned (hf : PlanFftSane planFft) (hf' : PlanFftSane planFft') (hp : Planned planFft calls k p w s) (hk : ¬ k.leakyAt w) (hq : Planned planFft' calls' l q h t)
    (hl : ¬ l.leakyAt h) (H : IsImage h w img) {scr : List T} (hs : s ≤ scr.length) (ht : t ≤ scr.length) :
    ∃ out scr', transformImageWith w h p q img scr = .ok (out, scr') ∧ transformImage w h s p t q img = .ok out :=
  shared (planned_clean hf hp hk) (planned_clean hf' hq hl) H hs ht

end

/-! ### Floating-point arithmetic -/

section

/-- The Euclidean norm of a table. -/
noncomputable def nrm (h w : ℕ) (f : ℕ → ℕ → ℝ) : ℝ := wn (fun _ => (1 : ℝ)) h fun i => wn (fun _ => (1 : ℝ)) w (f i)

theorem nrm_eq (h w : ℕ) (f : ℕ → ℕ → ℝ) : nrm h w f = √(∑ i ∈ range h, ∑ j ∈ range w, f i j ^ 2) := by
  simp only [nrm, wn, one_mul, Real.norm_eq_abs, sq_abs]
  congr 1
  exact sum_congr rfl fun i _ => sq_sqrt (sum_nonneg fun j _ => sq_nonneg _)

theorem nrm_swap (h w : ℕ) (f : ℕ → ℕ → ℝ) : nrm h w f = nrm w h fun j i => f i j := by
  rw [nrm_eq, nrm_eq, sum_comm]

theorem nrm_nonneg (h w : ℕ) (f : ℕ → ℕ → ℝ) : 0 ≤ nrm h w f := wn_nonneg

theorem nrm_congr {h w : ℕ} {f g : ℕ → ℕ → ℝ} (e : ∀ i j, i < h → j < w → f i j = g i j) : nrm h w f = nrm h w g :=
  wn_congr fun i hi => wn_congr fun j hj => e i j hi hj

/-- Row by row. -/
theorem nrm_le {h w : ℕ} {f g : ℕ → ℕ → ℝ} {c : ℝ} (hc : 0 ≤ c) (H : ∀ i, i < h → wn (fun _ => (1 : ℝ)) w (f i) ≤ c * wn (fun _ => (1 : ℝ)) w (g i)) : nrm h w f ≤ c * nrm h w g := by
  have : c * nrm h w g = √(c ^ 2 * ∑ i ∈ range h, ‖wn (fun _ => (1 : ℝ)) w (g i)‖ ^ 2) := by
    rw [sqrt_mul (sq_nonneg c), sqrt_sq hc]; simp only [nrm, wn, one_mul]
  rw [this]
  simp only [nrm]
  rw [wn]
  apply sqrt_le_sqrt
  rw [mul_sum]
  refine sum_le_sum fun i hi => ?_
  rw [one_mul, ← mul_pow]
  refine pow_le_pow_left₀ (norm_nonneg _) ?_ 2
  rw [Real.norm_of_nonneg wn_nonneg, Real.norm_of_nonneg wn_nonneg]
  exact H i (mem_range.1 hi)

theorem nrm_add_le (h w : ℕ) (f g : ℕ → ℕ → ℝ) : nrm h w (fun i j => f i j + g i j) ≤ nrm h w f + nrm h w g := by
  refine le_trans ?_ (wn_add_le (x := fun i => wn (fun _ => (1 : ℝ)) w (f i)) (y := fun i => wn (fun _ => (1 : ℝ)) w (g i)) fun _ => zero_le_one)
  unfold nrm
  rw [wn, wn]
  apply sqrt_le_sqrt
  refine sum_le_sum fun i hi => mul_le_mul_of_nonneg_left (pow_le_pow_left₀ (norm_nonneg _) ?_ 2) zero_le_one
  rw [Real.norm_of_nonneg wn_nonneg, Real.norm_of_nonneg (add_nonneg wn_nonneg wn_nonneg)]
  exact wn_add_le fun _ => zero_le_one

theorem norm2Image_imageOf (h w : ℕ) (f : ℕ → ℕ → ℝ) : Spec.norm2Image (imageOf h w f) = nrm h w f := by
  rw [nrm_eq, Spec.norm2Image, Spec.norm2]
  congr 1
  rw [List.map_flatten, List.sum_flatten]
  simp only [imageOf, List.map_map, Function.comp_def]
  rfl

theorem subImage_imageOf (h w : ℕ) (f g : ℕ → ℕ → ℝ) : Spec.subImage (imageOf h w f) (imageOf h w g) = imageOf h w fun i j => f i j - g i j := by
  simp only [Spec.subImage, imageOf_eq, zipWith_vec_same]

variable {T F : Type} [F64 F] [DctNum T F] {R : Rounding T F}
variable {planFft planFft' : ℕ → Fft T} {φ φ' : ℕ → ℝ} {ψ ψ' : ℝ} {calls calls' : List (PlanCall T)} {k l : Kind} {p q p' q' : Proc T} {w h s t s' t' : ℕ} {ε δ : ℝ}

theorem image_imageOf (f : ℕ → ℕ → T) : R.image (imageOf h w f) = imageOf h w fun i j => R.val (f i j) := by
  simp only [Rounding.image, imageOf_eq, map_vec]

/-- Each row is near its transform. -/
theorem rows_near (A : ApproximatesZeroed R p w s k.spec ε) (hε : 0 ≤ ε) (f : ℕ → ℕ → T) :
    ∃ g : ℕ → ℕ → T, eachRow s p (imageOf h w f) = .ok (imageOf h w g) ∧
      nrm h w (fun i j => R.val (g i j) - k.specAt w (fun j => R.val (f i j)) j) ≤ ε * nrm h w fun i => k.specAt w fun j => R.val (f i j) := by
  obtain ⟨g, e, H⟩ := eachRow_exists (s := s) (p := p) (h := h) (w := w) (f := f)
    (P := fun i o => Spec.norm2 (List.zipWith (· - ·) (o.map R.val) (k.spec ((vec w (f i)).map R.val))) ≤ ε * Spec.norm2 (k.spec ((vec w (f i)).map R.val))) fun i _ => by
      obtain ⟨o, e, l, hr⟩ := A.2 (vec w (f i)) (by simp)
      refine ⟨o, e, ?_, hr⟩
      rw [map_vec, k.spec_vec] at l
      simpa using l
  refine ⟨g, e, nrm_le hε fun i hi => ?_⟩
  have := H i hi
  simpa only [map_vec, k.spec_vec, zipWith_vec_same, norm2_vec] using this

theorem gain_rows (h1 : k = .dct1 → 2 ≤ w) (hw : 1 ≤ w) (f : ℕ → ℕ → ℝ) : nrm h w (fun i => k.specAt w (f i)) ≤ k.gain2 w * nrm h w f := by
  refine nrm_le (mul_nonneg (by cases k <;> simp [Kind.boundary]) (sqrt_nonneg _)) fun i _ => ?_
  have := C77_gain (k := k) h1 hw (vec w (f i)) (by simp)
  simpa only [k.spec_vec, norm2_vec] using this

theorem image_near (A : ApproximatesZeroed R p w s k.spec ε) (hε : 0 ≤ ε) (B : ApproximatesZeroed R q h t l.spec δ) (hδ : 0 ≤ δ) (hk : k = .dct1 → 2 ≤ w) (hl : l = .dct1 → 2 ≤ h)
    (hw : 1 ≤ w) (hh : 1 ≤ h) (f : ℕ → ℕ → T) :
    ∃ g : ℕ → ℕ → T, transformImage w h s p t q (imageOf h w f) = .ok (imageOf h w g) ∧
      nrm h w (fun i j => R.val (g i j) - Spec.planeAt k l h w (fun i j => R.val (f i j)) i j) ≤
        ((1 + ε) * (1 + δ) - 1) * (k.gain2 w * l.gain2 h) * nrm h w fun i j => R.val (f i j) := by
  obtain ⟨a, e₁, h₁⟩ := rows_near (h := h) A hε f
  obtain ⟨b, e₂, h₂⟩ := rows_near (h := w) B hδ fun j i => a i j
  refine ⟨fun i j => b j i, ?_, ?_⟩
  · unfold transformImage
    rw [e₁]; dsimp only
    rw [transposed_imageOf, e₂]; dsimp only
    rw [transposed_imageOf]
  have g0 : 0 ≤ k.gain2 w := mul_nonneg (by cases k <;> simp [Kind.boundary]) (sqrt_nonneg _)
  have g1 : 0 ≤ l.gain2 h := mul_nonneg (by cases l <;> simp [Kind.boundary]) (sqrt_nonneg _)
  have n0 := nrm_nonneg h w fun i j => R.val (f i j)
  have hK := gain_rows (h := h) hk hw fun i j => R.val (f i j)
  have hL := gain_rows (h := w) hl hh fun j i => R.val (a i j)
  have hD := gain_rows (h := w) hl hh fun j i => R.val (a i j) - k.specAt w (fun j => R.val (f i j)) j
  have hA : nrm h w (fun i j => R.val (a i j)) ≤ nrm h w (fun i j => R.val (a i j) - k.specAt w (fun j => R.val (f i j)) j) + nrm h w fun i => k.specAt w fun j => R.val (f i j) := by
    refine le_trans (le_of_eq (nrm_congr fun i j _ _ => ?_)) (nrm_add_le h w _ _)
    ring
  rw [← nrm_swap h w fun i j => R.val (a i j)] at hL
  rw [← nrm_swap h w fun i j => R.val (a i j) - k.specAt w (fun j => R.val (f i j)) j] at hD
  have tri : nrm w h (fun j i => R.val (b j i) - Spec.planeAt k l h w (fun i j => R.val (f i j)) i j) ≤
      nrm w h (fun j i => R.val (b j i) - l.specAt h (fun i => R.val (a i j)) i) +
        nrm w h (fun j => l.specAt h fun i => R.val (a i j) - k.specAt w (fun j => R.val (f i j)) j) := by
    refine le_trans (le_of_eq (nrm_congr fun j i _ _ => ?_)) (nrm_add_le w h _ _)
    have : l.specAt h (fun i => R.val (a i j) - k.specAt w (fun j => R.val (f i j)) j) i =
        l.specAt h (fun i => R.val (a i j)) i - l.specAt h (fun i => k.specAt w (fun j => R.val (f i j)) j) i := by
      rw [l.specAt_eq, l.specAt_eq, l.specAt_eq, ← sum_sub_distrib]
      exact sum_congr rfl fun m _ => by ring
    rw [this]
    simp only [Spec.planeAt]
    ring
  rw [nrm_swap h w]
  have x1 : nrm h w (fun i j => R.val (a i j) - k.specAt w (fun j => R.val (f i j)) j) ≤ ε * (k.gain2 w * nrm h w fun i j => R.val (f i j)) := h₁.trans (mul_le_mul_of_nonneg_left hK hε)
  have x2 : nrm h w (fun i j => R.val (a i j)) ≤ (1 + ε) * (k.gain2 w * nrm h w fun i j => R.val (f i j)) := by linarith
  have x3 := h₂.trans (mul_le_mul_of_nonneg_left (hL.trans (mul_le_mul_of_nonneg_left x2 g1)) hδ)
  have x4 := hD.trans (mul_le_mul_of_nonneg_left x1 g1)
  refine tri.trans ((add_le_add x3 x4).trans (le_of_eq ?_))
  ring

/-- The image comes out as the two-dimensional transform, up to `c` times the norm of the image and the gain of the transform. -/
def ImageNear (R : Rounding T F) (k l : Kind) (h w : ℕ) (c : ℝ) (img : List (List T)) (r : Outcome (List (List T))) : Prop :=
  ∃ out, r = .ok out ∧ IsImage h w out ∧
    Spec.norm2Image (Spec.subImage (R.image out) (Spec.plane k l h w (R.image img))) ≤ c * (k.gain2 w * l.gain2 h) * Spec.norm2Image (R.image img)

theorem imageNear (A : ApproximatesZeroed R p w s k.spec ε) (hε : 0 ≤ ε) (B : ApproximatesZeroed R q h t l.spec δ) (hδ : 0 ≤ δ) (hk : k = .dct1 → 2 ≤ w) (hl : l = .dct1 → 2 ≤ h)
    (hw : 1 ≤ w) (hh : 1 ≤ h) {img : List (List T)} (H : IsImage h w img) :
    ImageNear R k l h w ((1 + ε) * (1 + δ) - 1) img (transformImage w h s p t q img) := by
  obtain ⟨f, rfl⟩ := H.exists
  obtain ⟨g, e, hg⟩ := image_near A hε B hδ hk hl hw hh f
  refine ⟨_, e, isImage_imageOf .., ?_⟩
  rwa [image_imageOf, image_imageOf, plane_imageOf, subImage_imageOf, norm2Image_imageOf, norm2Image_imageOf]

theorem Kind.boundary_nonneg (k : Kind) : 0 ≤ k.boundary := by cases k <;> simp [Kind.boundary]

/-- C93 in floating-point arithmetic, with planned instances. -/
theorem C93_planned_float (hf : PlanFftAccurate R planFft φ) (hf' : PlanFftAccurate R planFft' φ') (hp : Planned planFft calls k p w s) (hq : Planned planFft' calls' l q h t)
    (hw : 1 ≤ w) (hh : 1 ≤ h) {img : List (List T)} (H : IsImage h w img) :
    ImageNear R k l h w ((1 + k.boundary * R.err φ k w) * (1 + l.boundary * R.err φ' l h) - 1) img (transformImage w h s p t q img) :=
  imageNear (C51_planned_zeroed hf hp hw) (mul_nonneg k.boundary_nonneg (R.err_nonneg hf.nonneg k w)) (C51_planned_zeroed hf' hq hh)
    (mul_nonneg l.boundary_nonneg (R.err_nonneg hf'.nonneg l h)) (hp.two_le hf.shape) (hq.two_le hf'.shape) hw hh H

/-- C93 in floating-point arithmetic, with instances built by hand. -/
theorem C93_made_float (hψ : 0 ≤ ψ) (hψ' : 0 ≤ ψ') (hp : Method (fun f => FftAccurate R f ψ) k p w s) (hq : Method (fun f => FftAccurate R f ψ') l q h t)
    (hw : 1 ≤ w) (hh : 1 ≤ h) {img : List (List T)} (H : IsImage h w img) :
    ImageNear R k l h w ((1 + k.boundary * R.made ψ k w) * (1 + l.boundary * R.made ψ' l h) - 1) img (transformImage w h s p t q img) :=
  imageNear (C67_constructed hψ hp hw).1 (mul_nonneg k.boundary_nonneg (R.made_nonneg ψ k w)) (C67_constructed hψ' hq hh).1
    (mul_nonneg l.boundary_nonneg (R.made_nonneg ψ' l h)) hp.two_le_dct1 hq.two_le_dct1 hw hh H

theorem Kind.inv_dct1 {k : Kind} (h : k.inv = .dct1) : k = .dct1 := by revert h; cases k <;> simp [Kind.inv]

theorem Kind.inv_scale (k : Kind) (n : ℕ) : k.inv.scale n = k.scale n := by cases k <;> rfl

/-- The two-dimensional transform enlarges no image by more than the product of the gains. -/
theorem gain_plane (hk : k = .dct1 → 2 ≤ w) (hl : l = .dct1 → 2 ≤ h) (hw : 1 ≤ w) (hh : 1 ≤ h) (f : ℕ → ℕ → ℝ) :
    nrm h w (Spec.planeAt k l h w f) ≤ k.gain2 w * l.gain2 h * nrm h w f := by
  have a := gain_rows (h := w) hl hh fun j i => k.specAt w (f i) j
  have b := gain_rows (h := h) hk hw f
  have g1 : 0 ≤ l.gain2 h := mul_nonneg l.boundary_nonneg (sqrt_nonneg _)
  rw [nrm_swap h w]
  rw [← nrm_swap h w fun i j => k.specAt w (f i) j] at a
  refine a.trans ((mul_le_mul_of_nonneg_left b g1).trans (le_of_eq ?_))
  ring

theorem planeAt_sub (f g : ℕ → ℕ → ℝ) (u v : ℕ) : Spec.planeAt k l h w (fun i j => f i j - g i j) u v = Spec.planeAt k l h w f u v - Spec.planeAt k l h w g u v := by
  simp only [Spec.planeAt, Kind.specAt_eq, ← sum_sub_distrib, ← mul_sub]

/-- Transformed with `p` and `q` and back with `p'` and `q'`, the image comes back times `g`, up to `c` times its norm. -/
def ImageReturns (R : Rounding T F) (w h s : ℕ) (p : Proc T) (t : ℕ) (q : Proc T) (s' : ℕ) (p' : Proc T) (t' : ℕ) (q' : Proc T) (g c : ℝ) (img : List (List T)) : Prop :=
  ∃ mid out, transformImage w h s p t q img = .ok mid ∧ transformImage w h s' p' t' q' mid = .ok out ∧ IsImage h w out ∧
    Spec.norm2Image (Spec.subImage (R.image out) ((R.image img).map fun row => row.map (g * ·))) ≤ c * Spec.norm2Image (R.image img)

theorem imageReturns {ε' δ' : ℝ} (A : ApproximatesZeroed R p w s k.spec ε) (hε : 0 ≤ ε) (B : ApproximatesZeroed R q h t l.spec δ) (hδ : 0 ≤ δ)
    (A' : ApproximatesZeroed R p' w s' k.inv.spec ε') (hε' : 0 ≤ ε') (B' : ApproximatesZeroed R q' h t' l.inv.spec δ') (hδ' : 0 ≤ δ') (hk : k = .dct1 → 2 ≤ w) (hl : l = .dct1 → 2 ≤ h)
    (hw : 1 ≤ w) (hh : 1 ≤ h) {img : List (List T)} (H : IsImage h w img) :
    ImageReturns R w h s p t q s' p' t' q' (k.scale w * l.scale h)
      (((1 + ε) * (1 + δ) * ((1 + ε') * (1 + δ')) - 1) * (k.boundary * k.inv.boundary * (l.boundary * l.inv.boundary)) * (k.scale w * l.scale h)) img := by
  obtain ⟨f, rfl⟩ := H.exists
  have hk' : k.inv = .dct1 → 2 ≤ w := fun e => hk (Kind.inv_dct1 e)
  have hl' : l.inv = .dct1 → 2 ≤ h := fun e => hl (Kind.inv_dct1 e)
  obtain ⟨a, e₁, h₁⟩ := image_near A hε B hδ hk hl hw hh f
  obtain ⟨b, e₂, h₂⟩ := image_near A' hε' B' hδ' hk' hl' hw hh a
  refine ⟨_, _, e₁, e₂, isImage_imageOf .., ?_⟩
  have es : (R.image (imageOf h w f)).map (fun row => row.map (k.scale w * l.scale h * ·)) = imageOf h w fun i j => k.scale w * l.scale h * R.val (f i j) := by
    rw [image_imageOf]; simp only [imageOf_eq, map_vec]
  rw [es, image_imageOf, image_imageOf, subImage_imageOf, norm2Image_imageOf, norm2Image_imageOf]
  have n0 := nrm_nonneg h w fun i j => R.val (f i j)
  have hG := gain_plane hk hl hw hh fun i j => R.val (f i j)
  have hD := gain_plane hk' hl' hw hh fun i j => R.val (a i j) - Spec.planeAt k l h w (fun i j => R.val (f i j)) i j
  have hA : nrm h w (fun i j => R.val (a i j)) ≤ nrm h w (fun i j => R.val (a i j) - Spec.planeAt k l h w (fun i j => R.val (f i j)) i j) +
      nrm h w (Spec.planeAt k l h w fun i j => R.val (f i j)) := by
    refine le_trans (le_of_eq (nrm_congr fun i j _ _ => ?_)) (nrm_add_le h w _ _)
    ring
  have tri : nrm h w (fun i j => R.val (b i j) - k.scale w * l.scale h * R.val (f i j)) ≤
      nrm h w (fun i j => R.val (b i j) - Spec.planeAt k.inv l.inv h w (fun i j => R.val (a i j)) i j) +
        nrm h w (Spec.planeAt k.inv l.inv h w fun i j => R.val (a i j) - Spec.planeAt k l h w (fun i j => R.val (f i j)) i j) := by
    refine le_trans (le_of_eq (nrm_congr fun i j hi hj => ?_)) (nrm_add_le h w _ _)
    rw [planeAt_sub, planeAt_inv hk hl _ hi hj]
    ring
  have g0 : ∀ (k : Kind) n, 0 ≤ k.gain2 n := fun k n => mul_nonneg k.boundary_nonneg (sqrt_nonneg _)
  have gg := mul_nonneg (g0 k.inv w) (g0 l.inv h)
  have c0 : 0 ≤ (1 + ε') * (1 + δ') - 1 := by nlinarith [mul_nonneg hε' hδ']
  have x2 : nrm h w (fun i j => R.val (a i j)) ≤ (1 + ε) * (1 + δ) * (k.gain2 w * l.gain2 h) * nrm h w fun i j => R.val (f i j) := by linarith
  have x3 := h₂.trans (mul_le_mul_of_nonneg_left x2 (mul_nonneg c0 gg))
  have x4 := hD.trans (mul_le_mul_of_nonneg_left h₁ gg)
  refine tri.trans ((add_le_add x3 x4).trans (le_of_eq ?_))
  have ek : k.gain2 w * k.inv.gain2 w = k.boundary * k.inv.boundary * k.scale w := by
    unfold Kind.gain2
    rw [k.inv_scale]
    have := mul_self_sqrt (k.scale_nonneg hw)
    linear_combination k.boundary * k.inv.boundary * this
  have el : l.gain2 h * l.inv.gain2 h = l.boundary * l.inv.boundary * l.scale h := by
    unfold Kind.gain2
    rw [l.inv_scale]
    have := mul_self_sqrt (l.scale_nonneg hh)
    linear_combination l.boundary * l.inv.boundary * this
  have : k.gain2 w * l.gain2 h * (k.inv.gain2 w * l.inv.gain2 h) = k.boundary * k.inv.boundary * (l.boundary * l.inv.boundary) * (k.scale w * l.scale h) := by
    rw [show k.gain2 w * l.gain2 h * (k.inv.gain2 w * l.inv.gain2 h) = (k.gain2 w * k.inv.gain2 w) * (l.gain2 h * l.inv.gain2 h) by ring, ek, el]; ring
  linear_combination ((1 + ε) * (1 + δ) * ((1 + ε') * (1 + δ')) - 1) * (nrm h w fun i j => R.val (f i j)) * this

/-- C93: the round trip in floating-point arithmetic, with planned instances. -/
theorem C93_returns_planned (hf : PlanFftAccurate R planFft φ) {calls₂ calls₃ : List (PlanCall T)} (hp : Planned planFft calls k p w s) (hq : Planned planFft calls' l q h t)
    (hp' : Planned planFft calls₂ k.inv p' w s') (hq' : Planned planFft calls₃ l.inv q' h t') (hw : 1 ≤ w) (hh : 1 ≤ h) {img : List (List T)} (H : IsImage h w img) :
    ImageReturns R w h s p t q s' p' t' q' (k.scale w * l.scale h)
      (((1 + k.boundary * R.err φ k w) * (1 + l.boundary * R.err φ l h) * ((1 + k.inv.boundary * R.err φ k.inv w) * (1 + l.inv.boundary * R.err φ l.inv h)) - 1) *
        (k.boundary * k.inv.boundary * (l.boundary * l.inv.boundary)) * (k.scale w * l.scale h)) img :=
  have e0 (k : Kind) n : 0 ≤ k.boundary * R.err φ k n := mul_nonneg k.boundary_nonneg (R.err_nonneg hf.nonneg k n)
  imageReturns (C51_planned_zeroed hf hp hw) (e0 k w) (C51_planned_zeroed hf hq hh) (e0 l h) (C51_planned_zeroed hf hp' hw) (e0 k.inv w) (C51_planned_zeroed hf hq' hh) (e0 l.inv h)
    (hp.two_le hf.shape) (hq.two_le hf.shape) hw hh H

/-- C93: the round trip in floating-point arithmetic, with instances built by hand. -/
theorem C93_returns_made (hψ : 0 ≤ ψ) (hp : Method (fun f => FftAccurate R f ψ) k p w s) (hq : Method (fun f => FftAccurate R f ψ) l q h t)
    (hp' : Method (fun f => FftAccurate R f ψ) k.inv p' w s') (hq' : Method (fun f => FftAccurate R f ψ) l.inv q' h t') (hw : 1 ≤ w) (hh : 1 ≤ h) {img : List (List T)} (H : IsImage h w img) :
    ImageReturns R w h s p t q s' p' t' q' (k.scale w * l.scale h)
      (((1 + k.boundary * R.made ψ k w) * (1 + l.boundary * R.made ψ l h) * ((1 + k.inv.boundary * R.made ψ k.inv w) * (1 + l.inv.boundary * R.made ψ l.inv h)) - 1) *
        (k.boundary * k.inv.boundary * (l.boundary * l.inv.boundary)) * (k.scale w * l.scale h)) img :=
  have e0 (k : Kind) n : 0 ≤ k.boundary * R.made ψ k n := mul_nonneg k.boundary_nonneg (R.made_nonneg ψ k n)
  imageReturns (C67_constructed hψ hp hw).1 (e0 k w) (C67_constructed hψ hq hh).1 (e0 l h) (C67_constructed hψ hp' hw).1 (e0 k.inv w) (C67_constructed hψ hq' hh).1 (e0 l.inv h)
    hp.two_le_dct1 hq.two_le_dct1 hw hh H

end

/-! ### Instances -/

/-- JPEG: the two passes over an 8 × 8 block with one planned DCT2 and one scratch of 8 samples, in exact arithmetic. -/
example {planFft : ℕ → Fft ℝ} (hf : PlanFftContract planFft) (block : List (List ℝ)) (H : IsImage 8 8 block) :
    ∃ (p : Proc ℝ) (s : ℕ), Planned planFft [] .dct2 p 8 s ∧ transformImage 8 8 s p s p block = .ok (imageOf 8 8 (Spec.jpegAt 8 8 (sample block))) ∧
      ∀ scr : List ℝ, s ≤ scr.length → ∃ scr', transformImageWith 8 8 p p block scr = .ok (imageOf 8 8 (Spec.jpegAt 8 8 (sample block)), scr') := by
  obtain ⟨p, s, h⟩ := planned_exists hf.sane.shape [] .dct2 (n := 8) (by norm_num)
  have e := C93_jpeg (h.made hf) (h.made hf) H
  refine ⟨p, s, h, e, fun scr hs => ?_⟩
  obtain ⟨out, scr', e₁, e₂⟩ := C93_shared_planned hf.sane hf.sane h (by simp [Kind.leakyAt]) h (by simp [Kind.leakyAt]) H hs hs
  rw [e] at e₂
  cases e₂
  exact ⟨scr', e₁⟩

/-- All pairs of kinds on images of 60 × 200 samples, in 24-bit arithmetic, there and back. -/
example (calls : List (PlanCall (Flx 24))) (k l : Kind) (img : List (List (Flx 24))) (H : IsImage 60 200 img) : ∃ p s q t p' s' q' t' c,
    ImageReturns (Flx.rounding 24) 200 60 s p t q s' p' t' q' (k.scale 200 * l.scale 60) c img := by
  obtain ⟨p, s, h⟩ := planned_exists (sumFft_shape 24) calls k (n := 200) (by norm_num)
  obtain ⟨q, t, h'⟩ := planned_exists (sumFft_shape 24) calls l (n := 60) (by norm_num)
  obtain ⟨p₁, s₁, h₁⟩ := planned_exists (sumFft_shape 24) calls k.inv (n := 200) (by norm_num)
  obtain ⟨q₁, t₁, h₁'⟩ := planned_exists (sumFft_shape 24) calls l.inv (n := 60) (by norm_num)
  exact ⟨p, s, q, t, p₁, s₁, q₁, t₁, _, C93_returns_planned (sumFft_plan _) h h' h₁ h₁' (by norm_num) (by norm_num) H⟩

example : IsImage 2 3 [[1, 2, 3], [4, 5, (6 : ℝ)]] := ⟨rfl, by simp⟩

end RustDct
