import Verif.Props.Constructed
/-!
# C77: different instances agree, and small changes of the input stay small

In the rounding model of `Verif/Rounding.lean`.  C51 and C67 compare one instance with the textbook; here two instances are compared with each other, on the same
input and on different inputs.
-/

set_option linter.all false

namespace RustDct
open Finset Real

/-- By how much the transform of kind `k` and length `n` can enlarge the Euclidean norm of a signal. -/
noncomputable def Kind.gain2 (k : Kind) (n : ℕ) : ℝ := k.boundary * √(k.scale n)

section
variable {T F : Type} [F64 F] [DctNum T F]

/-- Run on `x` and on `y` (both of length `n`), the two methods return, and their results differ by at most `c`. -/
def Apart (R : Rounding T F) (p : Proc T) (s : ℕ) (x : List T) (q : Proc T) (t : ℕ) (y : List T) (c : ℝ) : Prop :=
  ∃ a b, processDefault s p x = .ok a ∧ processDefault t q y = .ok b ∧ a.length = x.length ∧ b.length = y.length ∧
    Spec.norm2 (List.zipWith (· - ·) (a.map R.val) (b.map R.val)) ≤ c

end

section
variable {T F : Type} [F64 F] [DctNum T F] {R : Rounding T F}
variable {planFft planFft' : ℕ → Fft T} {φ φ' : ℕ → ℝ} {ψ ψ' : ℝ} {calls calls' : List (PlanCall T)} {k : Kind} {p q : Proc T} {n s t : ℕ}

theorem norm2_nonneg (l : List ℝ) : 0 ≤ Spec.norm2 l := sqrt_nonneg _

/-- The gain bounds the textbook transform. -/
theorem C77_gain (h1 : k = .dct1 → 2 ≤ n) (hn : 1 ≤ n) (x : List ℝ) (hx : x.length = n) : Spec.norm2 (k.spec x) ≤ k.gain2 n * Spec.norm2 x := by
  obtain ⟨f, rfl⟩ := exists_vec hx
  rw [k.spec_vec, norm2_vec, norm2_vec]
  have hp := k.parseval h1 f
  have e : (k.inv.nm n).of (k.specAt n f) = √(k.scale n) * (k.nm n).of f := by
    simp only [Kind.nm, Nm.w, wn, Real.norm_eq_abs, sq_abs]
    rw [← sqrt_mul (k.scale_nonneg hn)]
    congr 1
    simpa [pow_two] using hp
  have b : (k.nm n).of f ≤ wn (fun _ => 1) n f := by
    simp only [Kind.nm, Nm.w, wn]
    exact sqrt_le_sqrt (sum_le_sum fun i _ => mul_le_mul_of_nonneg_right (k.weight_le_one n i) (sq_nonneg _))
  have a : wn (fun _ => 1) n (k.specAt n f) ≤ k.boundary * (k.inv.nm n).of (k.specAt n f) := by
    by_cases hk : ∀ i, k.inv.weight n i = 1
    · have hb : (1 : ℝ) ≤ k.boundary := by
        cases k <;> simp only [Kind.boundary] <;> first | exact le_refl _ | exact Real.one_le_sqrt.2 (by norm_num)
      simp only [Kind.nm, Nm.w, show k.inv.weight n = fun _ => 1 from funext hk]
      exact le_mul_of_one_le_left wn_nonneg hb
    · have hb : k.boundary = √2 := by
        cases k <;> first | rfl | exact absurd (fun i => rfl) hk
      rw [hb]
      simp only [Kind.nm, Nm.w, wn]
      rw [← sqrt_mul (by norm_num)]
      apply sqrt_le_sqrt
      rw [mul_sum]
      refine sum_le_sum fun i _ => ?_
      have := k.inv.half_le_weight (n := n) (fun e => h1 (by revert e; cases k <;> simp [Kind.inv])) i
      nlinarith [sq_nonneg ‖k.specAt n f i‖]
  unfold Kind.gain2
  rw [mul_assoc]
  refine a.trans (mul_le_mul_of_nonneg_left ?_ (by cases k <;> simp [Kind.boundary]))
  rw [e]
  exact mul_le_mul_of_nonneg_left b (sqrt_nonneg _)

theorem apart {ε δ : ℝ} (A : ApproximatesZeroed R p n s k.spec ε) (B : ApproximatesZeroed R q n t k.spec δ) (h1 : k = .dct1 → 2 ≤ n) (hn : 1 ≤ n) {x y : List T} (hx : x.length = n)
    (hy : y.length = n) :
    Apart R p s x q t y (ε * Spec.norm2 (k.spec (x.map R.val)) + δ * Spec.norm2 (k.spec (y.map R.val)) +
      k.gain2 n * Spec.norm2 (List.zipWith (· - ·) (x.map R.val) (y.map R.val))) := by
  obtain ⟨a, ea, la, ha⟩ := A.2 x hx
  obtain ⟨b, eb, lb, hb⟩ := B.2 y hy
  obtain ⟨f, rfl⟩ := exists_vec hx
  obtain ⟨g, rfl⟩ := exists_vec hy
  rw [map_vec, k.spec_vec] at la ha lb hb
  have la' : a.length = n := by simpa using la
  have lb' : b.length = n := by simpa using lb
  refine ⟨a, b, ea, eb, by simpa using la', by simpa using lb', ?_⟩
  obtain ⟨a, rfl⟩ := exists_vec la'
  obtain ⟨b, rfl⟩ := exists_vec lb'
  have hG := C77_gain h1 hn (vec n fun i => R.val (f i) - R.val (g i)) (by simp)
  simp only [map_vec, k.spec_vec, zipWith_vec_same, norm2_vec] at *
  have tri : wn (fun _ => (1 : ℝ)) n (fun i => R.val (a i) - R.val (b i)) ≤
      wn (fun _ => 1) n (fun i => R.val (a i) - k.specAt n (fun i => R.val (f i)) i) + wn (fun _ => 1) n (fun i => R.val (b i) - k.specAt n (fun i => R.val (g i)) i) +
        wn (fun _ => 1) n (k.specAt n fun i => R.val (f i) - R.val (g i)) := by
    have lin : ∀ i, k.specAt n (fun i => R.val (f i) - R.val (g i)) i = k.specAt n (fun i => R.val (f i)) i - k.specAt n (fun i => R.val (g i)) i := fun i => by
      rw [k.specAt_eq, k.specAt_eq, k.specAt_eq, ← sum_sub_distrib]
      exact sum_congr rfl fun j _ => by ring
    have e : wn (fun _ => (1 : ℝ)) n (fun i => R.val (a i) - R.val (b i)) = wn (fun _ => 1) n (fun i => (R.val (a i) - k.specAt n (fun i => R.val (f i)) i) +
        ((k.specAt n (fun i => R.val (g i)) i - R.val (b i)) + k.specAt n (fun i => R.val (f i) - R.val (g i)) i)) :=
      wn_congr fun i _ => by rw [lin]; ring
    have e' : wn (fun _ => (1 : ℝ)) n (fun i => k.specAt n (fun i => R.val (g i)) i - R.val (b i)) = wn (fun _ => 1) n (fun i => R.val (b i) - k.specAt n (fun i => R.val (g i)) i) := by
      simp only [wn]; congr 1; exact sum_congr rfl fun i _ => by rw [norm_sub_rev]
    rw [e, ← e', add_assoc]
    exact (wn_add_le fun _ => zero_le_one).trans (add_le_add le_rfl (wn_add_le fun _ => zero_le_one))
  linarith

theorem apart_same {ε δ : ℝ} (A : ApproximatesZeroed R p n s k.spec ε) (B : ApproximatesZeroed R q n t k.spec δ) (h1 : k = .dct1 → 2 ≤ n) (hn : 1 ≤ n) {x : List T} (hx : x.length = n) :
    Apart R p s x q t x ((ε + δ) * Spec.norm2 (k.spec (x.map R.val))) := by
  obtain ⟨a, b, ea, eb, la, lb, h⟩ := apart A B h1 hn hx hx
  refine ⟨a, b, ea, eb, la, lb, h.trans (le_of_eq ?_)⟩
  obtain ⟨f, rfl⟩ := exists_vec hx
  rw [map_vec, zipWith_vec_same, norm2_vec (f := fun i => R.val (f i) - R.val (f i))]
  have : wn (fun _ => (1 : ℝ)) n (fun i => R.val (f i) - R.val (f i)) = 0 := by simp [wn]
  rw [this]
  ring

/-- C77: planned by different planners, with different FFT libraries and after different histories. -/
theorem C77_planned (hf : PlanFftAccurate R planFft φ) (hf' : PlanFftAccurate R planFft' φ') (h : Planned planFft calls k p n s) (h' : Planned planFft' calls' k q n t) (hn : 1 ≤ n)
    {x : List T} (hx : x.length = n) :
    Apart R p s x q t x ((k.boundary * R.err φ k n + k.boundary * R.err φ' k n) * Spec.norm2 (k.spec (x.map R.val))) :=
  apart_same (C51_planned_zeroed hf h hn) (C51_planned_zeroed hf' h' hn) (h.two_le hf.shape) hn hx

/-- C77: a planned instance and one built by hand in whatever way, a naive one for example. -/
theorem C77_planned_constructed (hf : PlanFftAccurate R planFft φ) (hψ : 0 ≤ ψ) (h : Planned planFft calls k p n s) (h' : Method (fun f => FftAccurate R f ψ) k q n t) (hn : 1 ≤ n)
    {x : List T} (hx : x.length = n) :
    Apart R p s x q t x ((k.boundary * R.err φ k n + k.boundary * R.made ψ k n) * Spec.norm2 (k.spec (x.map R.val))) :=
  apart_same (C51_planned_zeroed hf h hn) (C67_constructed hψ h' hn).1 (h.two_le hf.shape) hn hx

/-- C77: two instances built by hand. -/
theorem C77_constructed (hψ : 0 ≤ ψ) (hψ' : 0 ≤ ψ') (h : Method (fun f => FftAccurate R f ψ) k p n s) (h' : Method (fun f => FftAccurate R f ψ') k q n t) (hn : 1 ≤ n)
    {x : List T} (hx : x.length = n) :
    Apart R p s x q t x ((k.boundary * R.made ψ k n + k.boundary * R.made ψ' k n) * Spec.norm2 (k.spec (x.map R.val))) :=
  apart_same (C67_constructed hψ h hn).1 (C67_constructed hψ' h' hn).1 h.two_le_dct1 hn hx

/-- C77, stability: inputs that differ by little give outputs that differ by at most the gain times as much, and rounding errors. -/
theorem C77_stable (hf : PlanFftAccurate R planFft φ) (h : Planned planFft calls k p n s) (hn : 1 ≤ n) {x y : List T} (hx : x.length = n) (hy : y.length = n) :
    Apart R p s x p s y (k.gain2 n * (Spec.norm2 (List.zipWith (· - ·) (x.map R.val) (y.map R.val)) +
      k.boundary * R.err φ k n * (Spec.norm2 (x.map R.val) + Spec.norm2 (y.map R.val)))) := by
  obtain ⟨a, b, ea, eb, la, lb, H⟩ := apart (C51_planned_zeroed hf h hn) (C51_planned_zeroed hf h hn) (h.two_le hf.shape) hn hx hy
  refine ⟨a, b, ea, eb, la, lb, H.trans ?_⟩
  have h0 : 0 ≤ k.boundary * R.err φ k n := mul_nonneg (by cases k <;> simp [Kind.boundary]) (R.err_nonneg hf.nonneg k n)
  have gx := mul_le_mul_of_nonneg_left (C77_gain (h.two_le hf.shape) hn (x.map R.val) (by simpa using hx)) h0
  have gy := mul_le_mul_of_nonneg_left (C77_gain (h.two_le hf.shape) hn (y.map R.val) (by simpa using hy)) h0
  linarith

/-- C77, stability of instances built by hand. -/
theorem C77_stable_constructed (hψ : 0 ≤ ψ) (h : Method (fun f => FftAccurate R f ψ) k p n s) (hn : 1 ≤ n) {x y : List T} (hx : x.length = n) (hy : y.length = n) :
    Apart R p s x p s y (k.gain2 n * (Spec.norm2 (List.zipWith (· - ·) (x.map R.val) (y.map R.val)) +
      k.boundary * R.made ψ k n * (Spec.norm2 (x.map R.val) + Spec.norm2 (y.map R.val)))) := by
  obtain ⟨a, b, ea, eb, la, lb, H⟩ := apart (C67_constructed hψ h hn).1 (C67_constructed hψ h hn).1 h.two_le_dct1 hn hx hy
  refine ⟨a, b, ea, eb, la, lb, H.trans ?_⟩
  have h0 : 0 ≤ k.boundary * R.made ψ k n := mul_nonneg (by cases k <;> simp [Kind.boundary]) (R.made_nonneg ψ k n)
  have gx := mul_le_mul_of_nonneg_left (C77_gain h.two_le_dct1 hn (x.map R.val) (by simpa using hx)) h0
  have gy := mul_le_mul_of_nonneg_left (C77_gain h.two_le_dct1 hn (y.map R.val) (by simpa using hy)) h0
  linarith

/-! ### MDCT and IMDCT -/

theorem norm2_tri {x y z : List ℝ} (hx : x.length = z.length) (hy : y.length = z.length) :
    Spec.norm2 (List.zipWith (· - ·) x y) ≤ Spec.norm2 (List.zipWith (· - ·) x z) + Spec.norm2 (List.zipWith (· - ·) y z) := by
  obtain ⟨a, rfl⟩ := exists_vec hx
  obtain ⟨b, rfl⟩ := exists_vec hy
  obtain ⟨c, hc⟩ := exists_vec (l := z) rfl
  generalize z.length = n at *
  subst hc
  rw [zipWith_vec_same, zipWith_vec_same, zipWith_vec_same, norm2_vec, norm2_vec, norm2_vec]
  have e : wn (fun _ => (1 : ℝ)) n (fun i => a i - b i) = wn (fun _ => 1) n (fun i => (a i - c i) + (c i - b i)) := wn_congr fun i _ => by ring
  have e' : wn (fun _ => (1 : ℝ)) n (fun i => c i - b i) = wn (fun _ => 1) n (fun i => b i - c i) := by
    simp only [wn]; congr 1; exact sum_congr rfl fun i _ => by rw [norm_sub_rev]
  rw [e, ← e']
  exact wn_add_le fun _ => zero_le_one

variable {w : ℕ → List T} {win : List T} {o o' : MdctObj T} {v : List ℝ} {M γ γ' : ℝ}

/-- C77 for the MDCT: a planned instance and one built by hand, `MdctNaive` for example, whose windows are close to the window `v`. -/
theorem C77_mdct (hf : PlanFftAccurate R planFft φ) (hψ : 0 ≤ ψ) (h : PlannedMdct planFft calls n w o) (h' : MadeMdct (fun f => FftAccurate R f ψ) win o') (hl : o'.len = n) (hn : 1 ≤ n)
    (hw : WindowNear R (effectiveWindow n calls w (2 * n)) v M γ) (hw' : WindowNear R win v M γ') {a b : List T} {m m' : Mem T} (hm : ValidMdct n o.scratchLen a b m)
    (hm' : ValidMdct n o'.scratchLen a b m') :
    ∃ r r', o.mdct a b m = .ok r ∧ o'.mdct a b m' = .ok r' ∧ r.buf.length = n ∧ r'.buf.length = n ∧
      Spec.norm2 (List.zipWith (· - ·) (r.buf.map R.val) (r'.buf.map R.val)) ≤
        √n * M * (R.lap γ (R.err φ .dct4 n) + R.madeLap ψ γ' n) * Spec.norm2 ((a ++ b).map R.val) := by
  subst hl
  obtain ⟨r, e, l, H⟩ := (C54_planned hf h hn hw).2 a b m hm
  obtain ⟨r', e', l', H'⟩ := (C67_mdct_constructed (c := 1) hψ h' hn hw').1 a b m' hm'
  refine ⟨r, r', e, e', l, l', ?_⟩
  have tri := norm2_tri (x := r.buf.map R.val) (y := r'.buf.map R.val) (z := Spec.mdct o'.len v (a.map R.val ++ b.map R.val)) (by simp [Spec.mdct, l]) (by simp [Spec.mdct, l'])
  linarith

/-- C77 for the IMDCT: the two instances add to the same output buffers. -/
theorem C77_imdct (hf : PlanFftAccurate R planFft φ) (hψ : 0 ≤ ψ) (h : PlannedMdct planFft calls n w o) (h' : MadeMdct (fun f => FftAccurate R f ψ) win o') (hl : o'.len = n) (hn : 1 ≤ n)
    (hw : WindowNear R (effectiveWindow n calls w (2 * n)) v M γ) (hw' : WindowNear R win v M γ') {x : List T} {m m' : IMem T} (hm : ValidImdct n o.scratchLen x m)
    (hm' : ValidImdct n o'.scratchLen x m') (hA : m'.outA = m.outA) (hB : m'.outB = m.outB) :
    ∃ r r', o.imdct x m = .ok r ∧ o'.imdct x m' = .ok r' ∧ r.outA.length = n ∧ r.outB.length = n ∧ r'.outA.length = n ∧ r'.outB.length = n ∧
      Spec.norm2 (List.zipWith (· - ·) ((r.outA ++ r.outB).map R.val) ((r'.outA ++ r'.outB).map R.val)) ≤
        2 * R.u * Spec.norm2 ((m.outA ++ m.outB).map R.val) + √n * M * (R.lap γ (R.err φ .dct4 n) + R.madeLap ψ γ' n) * Spec.norm2 (x.map R.val) := by
  subst hl
  obtain ⟨r, e, l, l2, H⟩ := (C55_planned hf h hn hw).2 x m hm
  obtain ⟨r', e', l', l2', H'⟩ := (C67_mdct_constructed (c := 1) hψ h' hn hw').2.1 x m' hm'
  refine ⟨r, r', e, e', l, l2, l', l2', ?_⟩
  rw [hA, hB] at H'
  have tri := norm2_tri (x := (r.outA ++ r.outB).map R.val) (y := (r'.outA ++ r'.outB).map R.val)
    (z := List.zipWith (· + ·) ((m.outA ++ m.outB).map R.val) (Spec.imdct o'.len v (x.map R.val))) (by
      obtain ⟨-, a, b, -⟩ := hm; simp [Spec.imdct, l, l2, a, b]; omega) (by obtain ⟨-, a, b, -⟩ := hm; simp [Spec.imdct, l', l2', a, b]; omega)
  linarith

end

/-- The gains. -/
theorem C77_gains (n : ℕ) : Kind.gain2 .dct4 n = √(n / 2) ∧ Kind.gain2 .dct3 n = √(n / 2) ∧ Kind.gain2 .dct2 n = √n ∧ Kind.gain2 .dst1 n = √((n + 1) / 2) := by
  refine ⟨?_, ?_, ?_, ?_⟩ <;> simp only [Kind.gain2, Kind.boundary, Kind.scale, one_mul]
  rw [← sqrt_mul (by norm_num)]
  congr 1
  ring

/-! ### Instances of the hypotheses -/

theorem naive_exists (n : ℕ) : ∃ y : Type2And3Naive (Flx 24), Type2And3Naive.new n = .ok y ∧ y.toObj.len = n :=
  ⟨_, Type2And3Naive.new_tab, by change (vec _ _).length / 4 = n; simp⟩

/-- A planned DCT2 of 32 points and the naive one, in `f32`. -/
example (calls : List (PlanCall (Flx 24))) : ∃ p s, ∃ y : Type2And3Naive (Flx 24), Planned (fun n => (sumFft n : Fft (Flx 24))) calls .dct2 p 32 s ∧ Type2And3Naive.new 32 = .ok y ∧
    ∀ x : List (Flx 24), x.length = 32 → Apart (Flx.rounding 24) p s x y.dct2 y.toObj.scratchLen x
      ((√2 * (Flx.rounding 24).err (Flx.rounding 24).sumErr .dct2 32 + √2 * (Flx.rounding 24).made 0 .dct2 32) * Spec.norm2 (Spec.dct2 (x.map Flx.val))) := by
  obtain ⟨p, s, h⟩ := planned_exists (sumFft_shape 24) calls .dct2 (n := 32) (by norm_num)
  obtain ⟨y, hy, hl⟩ : ∃ y : Type2And3Naive (Flx 24), Type2And3Naive.new 32 = .ok y ∧ y.toObj.len = 32 := naive_exists 32
  have m : Method (fun f => FftAccurate (Flx.rounding 24) f 0) .dct2 y.toObj.dct2 y.toObj.len y.toObj.scratchLen := .dct2 (.naive hy)
  rw [hl] at m
  exact ⟨p, s, y, h, hy, fun x hx => C77_planned_constructed (sumFft_plan (Flx.rounding 24)) le_rfl h m (by norm_num) hx⟩

/-- All sixteen transforms of 60 points are stable. -/
example (calls : List (PlanCall (Flx 24))) (k : Kind) : ∃ p s, Planned (fun n => (sumFft n : Fft (Flx 24))) calls k p 60 s ∧
    ∀ x y : List (Flx 24), x.length = 60 → y.length = 60 → Apart (Flx.rounding 24) p s x p s y (k.gain2 60 * (Spec.norm2 (List.zipWith (· - ·) (x.map Flx.val) (y.map Flx.val)) +
      k.boundary * (Flx.rounding 24).err (Flx.rounding 24).sumErr k 60 * (Spec.norm2 (x.map Flx.val) + Spec.norm2 (y.map Flx.val)))) :=
  let ⟨p, s, h⟩ := planned_exists (sumFft_shape 24) calls k (n := 60) (by norm_num)
  ⟨p, s, h, fun _ _ hx hy => C77_stable (sumFft_plan _) h (by norm_num) hx hy⟩

end RustDct
