import Verif.Fir
import Verif.Props.Laplace
/-!
# C95: zero-phase FIR filters by multiplication of coefficients
-/

set_option linter.all false

namespace RustDct
open Finset Real

variable {planFft planFft' : ℕ → Fft ℝ} {calls calls' : List (PlanCall ℝ)} {k : Kind} {p q : Proc ℝ} {n s t : ℕ}

/-- The sum of the two samples at distance `d`. -/
noncomputable def pairAt (d : ℕ) (X : ℤ → ℝ) (i : ℤ) : ℝ := X (i - d) + X (i + d)

theorem Kind.Continues.pairAt {X : ℤ → ℝ} (h : k.Continues n X) (d : ℕ) : k.Continues n (pairAt d X) := by
  refine ⟨fun m => ?_, fun m => ?_⟩ <;> unfold RustDct.pairAt
  · have a := h.left (m + d)
    have b := h.left (m - d)
    rw [show -k.left.axis - m - d = -k.left.axis - (m + d) by ring, show -k.left.axis - m + d = -k.left.axis - (m - d) by ring, a, b]
    ring
  · have a := h.right (m + d)
    have b := h.right (m - d)
    rw [show 2 * ((n : ℤ) - 1) + k.right.axis - m - d = 2 * (n - 1) + k.right.axis - (m + d) by ring,
      show 2 * ((n : ℤ) - 1) + k.right.axis - m + d = 2 * (n - 1) + k.right.axis - (m - d) by ring, a, b]
    ring

theorem Kind.Continues.laplace {X : ℤ → ℝ} (h : k.Continues n X) (hn : 2 ≤ n) {i : ℕ} (hi : i < n) : k.laplaceAt n (fun i => X i) i = X (i - 1) - 2 * X i + X (i + 1) := by
  unfold Kind.laplaceAt
  have l : k.left.beyond (X (0 : ℕ)) (X (1 : ℕ)) = X (-1) := by
    have h := h.left
    cases hk : k.left <;> simp only [hk, Side.beyond, Side.axis, Side.sign, one_mul, neg_mul] at h ⊢
    · have := h 1; simpa using this.symm
    · have := h 0; simpa using this.symm
    · have := h (-1)
      norm_num at this
      linarith
    · have := h 0; simpa using this.symm
  have r : k.right.beyond (X (n - 1 : ℕ)) (X (n - 2 : ℕ)) = X n := by
    have h := h.right
    have c1 : ((n - 1 : ℕ) : ℤ) = n - 1 := by omega
    have c2 : ((n - 2 : ℕ) : ℤ) = n - 2 := by omega
    rw [c1, c2]
    cases hk : k.right <;> simp only [hk, Side.beyond, Side.axis, Side.sign, one_mul, neg_mul] at h ⊢
    · have := h (n - 2); rw [← this]; congr 1; ring
    · have := h (n - 1); rw [← this]; congr 1; ring
    · have := h n
      rw [show 2 * ((n : ℤ) - 1) + 2 - n = n by ring] at this
      linarith
    · have := h (n - 1); rw [← this]; congr 1; ring
  congr 1
  · congr 1
    split_ifs with h0
    · subst h0; simpa using l
    · show X ((i - 1 : ℕ) : ℤ) = X (i - 1)
      congr 1; omega
  · split_ifs with h0
    · rw [r]; congr 1; omega
    · congr 1

theorem spec_pair_one {X : ℤ → ℝ} (h : k.Continues n X) (hn : 2 ≤ n) (u : ℕ) :
    k.specAt n (fun i => pairAt 1 X i) u = 2 * cos (k.freq n u) * k.specAt n (fun i => X i) u := by
  have e := k.diagonal hn (fun i => X i) u
  rw [k.local n _ (fun i => 1 * pairAt 1 X i + (-2) * X i) u fun i hi => by rw [h.laplace hn hi, pairAt]; push_cast; ring, k.specAt_lin] at e
  unfold Kind.eig at e
  linarith

theorem spec_pair {X : ℤ → ℝ} (h : k.Continues n X) (hn : 2 ≤ n) (u : ℕ) :
    ∀ d : ℕ, k.specAt n (fun i => pairAt d X i) u = 2 * cos (d * k.freq n u) * k.specAt n (fun i => X i) u ∧
      k.specAt n (fun i => pairAt (d + 1) X i) u = 2 * cos ((d + 1 : ℕ) * k.freq n u) * k.specAt n (fun i => X i) u
  | 0 => by
    refine ⟨?_, by simpa using spec_pair_one h hn u⟩
    have := k.specAt_lin (n := n) (a := 2) (b := 0) (fun i => X i) (fun i => X i) u
    simp only [zero_mul, add_zero] at this
    simp only [pairAt, Nat.cast_zero, sub_zero, add_zero, zero_mul, cos_zero, mul_one, ← two_mul]
    exact this
  | d + 1 => by
    obtain ⟨h0, h1⟩ := spec_pair h hn u d
    refine ⟨h1, ?_⟩
    have e := spec_pair_one (h.pairAt (d + 1)) hn u
    rw [k.local n _ (fun i => 1 * pairAt (d + 1 + 1) X i + 1 * pairAt d X i) u fun i _ => by
      simp only [pairAt]
      rw [show (i : ℤ) - (1 : ℕ) - (d + 1 : ℕ) = i - (d + 1 + 1 : ℕ) by push_cast; ring, show (i : ℤ) - (1 : ℕ) + (d + 1 : ℕ) = i + d by push_cast; ring,
        show (i : ℤ) + (1 : ℕ) - (d + 1 : ℕ) = i - d by push_cast; ring, show (i : ℤ) + (1 : ℕ) + (d + 1 : ℕ) = i + (d + 1 + 1 : ℕ) by push_cast; ring]
      ring, k.specAt_lin, h0, h1] at e
    have c : cos ((d + 1 + 1 : ℕ) * k.freq n u) = 2 * cos (k.freq n u) * cos ((d + 1 : ℕ) * k.freq n u) - cos (d * k.freq n u) := by
      rw [show ((d + 1 + 1 : ℕ) : ℝ) * k.freq n u = (d + 1 : ℕ) * k.freq n u + k.freq n u by push_cast; ring,
        show (d : ℝ) * k.freq n u = (d + 1 : ℕ) * k.freq n u - k.freq n u by push_cast; ring, cos_add, cos_sub]
      ring
    rw [c]
    linarith

/-- The transform of the filtered signal is the transform of the signal times the frequency response. -/
theorem spec_fir {X : ℤ → ℝ} (h : k.Continues n X) (hn : 2 ≤ n) (r : ℕ) (g : ℕ → ℝ) (u : ℕ) :
    k.specAt n (fun i => fir r g X i) u = firResponse r g (k.freq n u) * k.specAt n (fun i => X i) u := by
  unfold fir firResponse
  induction r with
  | zero =>
    have := k.specAt_lin (n := n) (a := g 0) (b := 0) (fun i => X i) (fun i => X i) u
    simp only [zero_mul, add_zero] at this
    simpa using this
  | succ r ih =>
    have := k.specAt_lin (n := n) (a := 1) (b := g (r + 1)) (fun i => g 0 * X i + ∑ d ∈ range r, g (d + 1) * (X (i - (d + 1 : ℕ)) + X (i + (d + 1 : ℕ)))) (fun i => pairAt (r + 1) X i) u
    rw [(spec_pair h hn u r).2, ih] at this
    simp only [sum_range_succ, pairAt, one_mul, ← add_assoc] at this ⊢
    rw [this]
    ring

/-! ### Every signal can be continued -/

theorem Kind.freq_swap (k : Kind) (n u i : ℕ) : k.inv.trig (k.inv.freq n i * ((u + 1 : ℕ) + k.inv.shift)) = k.trig (k.freq n u * ((i + 1 : ℕ) + k.shift)) := by
  cases k <;> simp only [Kind.inv, Kind.trig, Kind.freq, Kind.shift] <;> congr 1 <;> push_cast <;> ring

/-- A wave of kind `k` over all integers. -/
noncomputable def Kind.waveZ (k : Kind) (n u : ℕ) (m : ℤ) : ℝ := k.trig (k.freq n u * (m + 1 + k.shift))

theorem Kind.waveZ_continues (k : Kind) (hn : 2 ≤ n) (u : ℕ) : k.Continues n (k.waveZ n u) := by
  have h2 : (2 : ℝ) ≤ n := by exact_mod_cast hn
  have h0 : (n : ℝ) ≠ 0 := by linarith
  have h1 : (n : ℝ) - 1 ≠ 0 := by linarith
  have h3 : (n : ℝ) - 1 / 2 ≠ 0 := by linarith
  have h4 : (n : ℝ) + 1 / 2 ≠ 0 := by linarith
  have h5 : (n : ℝ) + 1 ≠ 0 := by linarith
  refine ⟨fun m => ?_, fun m => ?_⟩ <;> unfold Kind.waveZ
  · cases k <;> simp only [Kind.trig, Kind.left, Side.axis, Side.sign, Kind.freq, Kind.shift, one_mul, neg_one_mul] <;>
      first
      | (refine cos_mirror 0 ?_; push_cast; ring)
      | (refine sin_mirror 0 ?_; push_cast; ring)
  · have key : ∀ {a b c d e : ℝ}, d ≠ 0 → a * (b + c) = e * d → a / d * b + a / d * c = e := fun {a b c d e} hd h => by
      rw [← mul_add, div_mul_eq_mul_div, div_eq_iff hd, h]
    cases k <;> simp only [Kind.trig, Kind.right, Side.axis, Side.sign, Kind.freq, Kind.shift, one_mul, neg_one_mul]
    · exact cos_mirror u (key h1 (by push_cast; ring))
    · exact cos_mirror u (key h0 (by push_cast; ring))
    · exact cos_mirror_odd u (key h0 (by push_cast; ring))
    · exact cos_mirror_odd u (key h0 (by push_cast; ring))
    · exact cos_mirror u (key h3 (by push_cast; ring))
    · exact cos_mirror u (key h3 (by push_cast; ring))
    · exact cos_mirror_odd u (key h3 (by push_cast; ring))
    · exact cos_mirror_odd u (key h4 (by push_cast; ring))
    · exact sin_mirror (u + 1) (key h5 (by push_cast; ring))
    · exact sin_mirror (u + 1) (key h0 (by push_cast; ring))
    · exact sin_mirror_odd u (key h0 (by push_cast; ring))
    · exact sin_mirror_odd u (key h0 (by push_cast; ring))
    · exact sin_mirror (u + 1) (key h4 (by push_cast; ring))
    · exact sin_mirror (u + 1) (key h4 (by push_cast; ring))
    · exact sin_mirror_odd u (key h4 (by push_cast; ring))
    · exact sin_mirror_odd u (key h3 (by push_cast; ring))

/-- C95: every signal can be continued. -/
theorem C95_exists (k : Kind) (hn : 2 ≤ n) (x : ℕ → ℝ) : ∃ X, k.Continues n X ∧ ∀ i : ℕ, i < n → X i = x i := by
  refine ⟨fun m => ∑ u ∈ range n, 1 / k.scale n * (k.inv.weight n u * k.specAt n x u) * k.waveZ n u m, ⟨fun m => ?_, fun m => ?_⟩, fun i hi => ?_⟩
  · beta_reduce
    rw [mul_sum]
    exact sum_congr rfl fun u _ => by rw [(k.waveZ_continues hn u).left]; ring
  · beta_reduce
    rw [mul_sum]
    exact sum_congr rfl fun u _ => by rw [(k.waveZ_continues hn u).right]; ring
  · have e := k.inv_spec (fun _ => hn) x hi
    rw [k.inv.specAt_eq] at e
    have : x i = 1 / k.scale n * (k.scale n * x i) := by have := (k.scale_pos hn).ne'; field_simp
    rw [this, ← e, mul_sum]
    refine sum_congr rfl fun u _ => ?_
    rw [k.inv.kernel_eq, k.freq_swap]
    unfold Kind.waveZ
    push_cast
    ring

/-- C95: and only in one way. -/
theorem C95_unique (k : Kind) (hn : 2 ≤ n) {X Y : ℤ → ℝ} (hX : k.Continues n X) (hY : k.Continues n Y) (h : ∀ i : ℕ, i < n → X i = Y i) : X = Y := by
  have s0 : k.left.sign * k.left.sign = 1 := by cases k.left <;> simp [Side.sign]
  have a0 : 0 ≤ k.left.axis ∧ k.left.axis ≤ 2 := by cases k.left <;> simp [Side.axis]
  have b0 : 0 ≤ k.right.axis ∧ k.right.axis ≤ 2 := by cases k.right <;> simp [Side.axis]
  have z1 : k.left.axis = 2 → ∀ Z : ℤ → ℝ, k.Continues n Z → Z (-1) = 0 := fun e Z hZ => by
    have := hZ.left (-1)
    cases hk : k.left <;> simp only [hk, Side.axis, Side.sign] at this e <;> first | omega | skip
    norm_num at this
    linarith
  have z2 : k.right.axis = 2 → ∀ Z : ℤ → ℝ, k.Continues n Z → Z n = 0 := fun e Z hZ => by
    have := hZ.right n
    cases hk : k.right <;> simp only [hk, Side.axis, Side.sign] at this e <;> first | omega | skip
    rw [show 2 * ((n : ℤ) - 1) + 2 - n = n by ring] at this
    linarith
  have H : ∀ N : ℕ, ∀ m : ℤ, -(N : ℤ) ≤ m → m < n + N → X m = Y m := by
    intro N
    induction N with
    | zero =>
      intro m h1 h2
      obtain ⟨i, rfl⟩ : ∃ i : ℕ, m = i := ⟨m.toNat, by omega⟩
      exact h i (by omega)
    | succ N ih =>
      intro m h1 h2
      by_cases c1 : m < -N
      · by_cases e : k.left.axis = 2 ∧ m = -1
        · rw [e.2, z1 e.1 X hX, z1 e.1 Y hY]
        · have a := hX.left (-k.left.axis - m)
          have b := hY.left (-k.left.axis - m)
          rw [show -k.left.axis - (-k.left.axis - m) = m by ring] at a b
          rw [a, b, ih _ (by omega) (by omega)]
      · by_cases c2 : (n : ℤ) + N ≤ m
        · by_cases e : k.right.axis = 2 ∧ m = n
          · rw [e.2, z2 e.1 X hX, z2 e.1 Y hY]
          · have a := hX.right (2 * (n - 1) + k.right.axis - m)
            have b := hY.right (2 * (n - 1) + k.right.axis - m)
            rw [show 2 * ((n : ℤ) - 1) + k.right.axis - (2 * (n - 1) + k.right.axis - m) = m by ring] at a b
            rw [a, b, ih _ (by omega) (by omega)]
        · exact ih m (by omega) (by omega)
  funext m
  exact H m.natAbs m (by omega) (by omega)

/-! ### Filters -/

theorem fir_exact (hn : 2 ≤ n) (r : ℕ) (g : ℕ → ℝ) {X : ℤ → ℝ} (hX : k.Continues n X) {i : ℕ} (hi : i < n) :
    k.inv.specAt n (fun u => k.specAt n (fun i => X i) u * (firResponse r g (k.freq n u) / k.scale n)) i = fir r g X i := by
  have e : ∀ u, u < n → k.specAt n (fun i => X i) u * (firResponse r g (k.freq n u) / k.scale n) = k.specAt n (fun i => 1 / k.scale n * fir r g X i + 0 * X i) u := fun u _ => by
    rw [k.specAt_lin, spec_fir hX hn]; ring
  rw [k.inv.local n _ _ i e, k.inv_spec (fun _ => hn) _ hi]
  have := (k.scale_pos hn).ne'
  field_simp
  ring

/-- C95: a client that transforms, multiplies output `u` by the frequency response, divides by the factor of the pair of transforms and transforms back has filtered the signal,
continued as the transform continues it. -/
theorem C95_filters_made (hp : Method FftContract k p n s) (hq : Method FftContract k.inv q n t) (hn : 2 ≤ n) (r : ℕ) (g : ℕ → ℝ) {X : ℤ → ℝ} (hX : k.Continues n X) :
    filtered s p (fun u => firResponse r g (k.freq n u) / k.scale n) t q (samples n X) = .ok (samples n (fir r g X)) := by
  unfold filtered
  rw [show samples n X = vec n fun i => X i from rfl, hp.runs]
  dsimp only
  rw [mapIdx_vec, hq.runs]
  congr 1
  exact vec_congr fun i hi => fir_exact hn r g hX hi

theorem C95_filters_planned (hf : PlanFftContract planFft) (hf' : PlanFftContract planFft') (hp : Planned planFft calls k p n s) (hq : Planned planFft' calls' k.inv q n t) (hn : 2 ≤ n)
    (r : ℕ) (g : ℕ → ℝ) {X : ℤ → ℝ} (hX : k.Continues n X) :
    filtered s p (fun u => firResponse r g (k.freq n u) / k.scale n) t q (samples n X) = .ok (samples n (fir r g X)) :=
  C95_filters_made (hp.made hf) (hq.made hf') hn r g hX

/-- Smoothing with the filter ¼, ½, ¼ with reflecting ends. -/
example {planFft : ℕ → Fft ℝ} (hf : PlanFftContract planFft) (x : ℕ → ℝ) : ∃ p s q t X, Planned planFft [] .dct2 p 100 s ∧ Planned planFft [] .dct3 q 100 t ∧
    Kind.dct2.Continues 100 X ∧ (∀ i : ℕ, i < 100 → X i = x i) ∧
    filtered s p (fun u => firResponse 1 (fun d => if d = 0 then 1 / 2 else 1 / 4) (Kind.dct2.freq 100 u) / Kind.dct2.scale 100) t q (samples 100 X) =
      .ok (samples 100 (fir 1 (fun d => if d = 0 then 1 / 2 else 1 / 4) X)) := by
  obtain ⟨p, s, h⟩ := planned_exists hf.sane.shape [] .dct2 (n := 100) (by norm_num)
  obtain ⟨q, t, h'⟩ := planned_exists hf.sane.shape [] .dct3 (n := 100) (by norm_num)
  obtain ⟨X, hX, e⟩ := C95_exists .dct2 (n := 100) (by norm_num) x
  exact ⟨p, s, q, t, X, h, h', hX, e, C95_filters_planned (k := .dct2) hf hf h h' (by norm_num) 1 _ hX⟩

end RustDct
