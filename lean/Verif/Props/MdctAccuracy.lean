import Verif.Float.Window
import Verif.Props.Accuracy
import Verif.Props.Mdct
/-!
# C54–C57: floating-point accuracy of planned MDCTs

In the rounding model of `Verif/Rounding.lean`.  `v` is the window meant and `M` its size; the window function passed to the planner
returns values that differ from it by at most `γ M` (C56 has `M` and `γ` of the built-in windows).
-/

set_option linter.all false

namespace RustDct
open Finset Real

section
variable {T F : Type} [F64 F] [DctNum T F] {R : Rounding T F}
variable {planFft : ℕ → Fft T} {φ : ℕ → ℝ} {calls : List (PlanCall T)} {n : ℕ} {w : ℕ → List T} {o : MdctObj T} {v : List ℝ} {M γ : ℝ}

theorem vec_getD (l : List ℝ) : vec l.length (fun i => l.getD i 0) = l := by
  obtain ⟨f, hf⟩ := exists_vec (l := l) rfl
  rw [hf, length_vec]
  exact vec_congr fun i hi => getD_vec hi

theorem Rounding.lap_nonneg (R : Rounding T F) {γ ε : ℝ} (hγ : 0 ≤ γ) (hε : 0 ≤ ε) : 0 ≤ R.lap γ ε := by
  unfold Rounding.lap
  have h1 := one_le_pow₀ (n := 2) R.one_le_u
  have h2 := one_le_mul_of_one_le_of_one_le (one_le_mul_of_one_le_of_one_le h1 (show 1 ≤ 1 + γ by linarith)) (show 1 ≤ 1 + ε by linarith)
  linarith

theorem PlannedMdct.acc (hf : PlanFftAccurate R planFft φ) (h : PlannedMdct planFft calls n w o) (hn : 1 ≤ n)
    (hw : WindowNear R (effectiveWindow n calls w (2 * n)) v M γ) :
    o.len = n ∧ n % 2 = 0 ∧ v.length = 2 * n ∧ Nonempty (MdctAcc R o n (fun i => v.getD i 0) (√n * M) (R.lap γ (R.err φ .dct4 n))) := by
  have hc := h.canon hf.shape
  generalize effectiveWindow n calls w = W at hw hc
  by_cases hd : n % 2 = 0 ∧ (W (2 * n)).length = 2 * n
  swap
  · rw [canonMdct_err hf.shape hd] at hc; cases hc
  obtain ⟨g, rfl⟩ : ∃ g, n = 2 * g := ⟨n / 2, by omega⟩
  obtain ⟨o', ho', -, hl⟩ := canonMdct_ok hf.shape hd.1 hd.2
  rw [hc] at ho'; injection ho' with ho'; subst ho'
  have hv : v.length = 2 * (2 * g) := by rw [← hw.1]; exact hd.2
  refine ⟨hl, hd.1, hv, ?_⟩
  obtain ⟨i, h1, h2, h3⟩ := canon4_made hf.shape (2 * g)
  have a := (canon4_acc hf hn h1).1
  unfold canonMdct at hc
  rw [h1] at hc
  have hc' : (MdctViaDct4.new i W).map MdctViaDct4.toObj = .ok o := hc
  have hW : W (2 * g * 2) = vec (4 * g) (fun j => (W (2 * (2 * g))).getD j 0) := by
    rw [show 2 * g * 2 = 2 * (2 * g) by ring]
    have e : (W (2 * (2 * g))).length = 4 * g := by rw [hd.2]; ring
    obtain ⟨f, hf⟩ := exists_vec e
    rw [hf]
    exact vec_congr fun j hj => (getD_vec hj).symm
  rw [MdctViaDct4.new_eq h3 hW] at hc'
  injection hc' with hc'
  subst hc'
  refine MdctViaDct4.acc (by omega) hw.2.2.1 ?_ hw.2.1 (fun j hj => hw.ap (by omega)) h3 a.weak
  exact R.err_nonneg hf.nonneg .dct4 (2 * g)

/-! ### C54, C55: MDCT and IMDCT -/

theorem C54_planned (hf : PlanFftAccurate R planFft φ) (h : PlannedMdct planFft calls n w o) (hn : 1 ≤ n)
    (hw : WindowNear R (effectiveWindow n calls w (2 * n)) v M γ) :
    o.len = n ∧ ApproximatesMdct R o.mdct n o.scratchLen (fun a b => Spec.mdct n v (a ++ b)) (√n * M * R.lap γ (R.err φ .dct4 n)) := by
  obtain ⟨hl, -, hv, ⟨a⟩⟩ := h.acc hf hn hw
  have := a.mdct
  rw [← hv, vec_getD] at this
  exact ⟨hl, this⟩

theorem C55_planned (hf : PlanFftAccurate R planFft φ) (h : PlannedMdct planFft calls n w o) (hn : 1 ≤ n)
    (hw : WindowNear R (effectiveWindow n calls w (2 * n)) v M γ) :
    o.len = n ∧ ApproximatesImdct R o.imdct n o.scratchLen (Spec.imdct n v) (√n * M * R.lap γ (R.err φ .dct4 n)) := by
  obtain ⟨hl, -, hv, ⟨a⟩⟩ := h.acc hf hn hw
  have := a.imdct
  rw [← hv, vec_getD] at this
  exact ⟨hl, this⟩

/-! ### C56: the built-in windows -/

theorem map_range_map {A B : Type} (f : ℕ → A) (g : A → B) (n : ℕ) : ((List.range n).map f).map g = (List.range n).map fun i => g (f i) := by
  rw [List.map_map]; rfl

theorem C56_windows (R : Rounding T F) {len : ℕ} (hl : 1 ≤ len) :
    WindowNear R (WindowFn.mp3 len) (Spec.sineWindow len) 1 R.tau ∧
    WindowNear R (WindowFn.mp3Invertible len) ((Spec.sineWindow len).map (√(4 / len) * ·)) √(4 / len) ((1 + R.tau) * R.root - 1) ∧
    WindowNear R (WindowFn.vorbis len) (Spec.vorbisWindow len) 1 ((1 + R.u) * R.vorb - 1) ∧
    WindowNear R (WindowFn.vorbisInvertible len) ((Spec.vorbisWindow len).map (√(4 / len) * ·)) √(4 / len) ((1 + R.u) * (1 + R.v) * R.vorb * R.root - 1) ∧
    WindowNear R (WindowFn.one len) (Spec.flatWindow len) 1 0 ∧
    WindowNear R (WindowFn.invertible len) ((Spec.flatWindow len).map (√(2 / len) * ·)) √(2 / len) ((1 + R.u) * R.root - 1) := by
  have ht := R.tau_nonneg
  have hu := R.one_le_u
  have hv := R.one_le_v
  have hr := R.one_le_root
  have hb := R.one_le_vorb
  have mul1 : ∀ {a b : ℝ}, 1 ≤ a → 1 ≤ b → 1 ≤ a * b := one_le_mul_of_one_le_of_one_le
  refine ⟨?_, ?_, ?_, ?_, ?_, ?_⟩
  · have := windowNear_of R (win := fun i => fromF64 (F64.sin ((F64.pi / F64.nat len : F) * (F64.nat i + F64.half)))) (v := fun (i : ℕ) => sin (π / len * (i + 1 / 2))) (len := len)
      zero_le_one (show 1 ≤ 1 + R.tau by linarith) fun i hi => R.conv_tau (R.ap_sine hi)
    rwa [add_sub_cancel_left] at this
  · have h := fun i (hi : i < len) => R.ap_scaled (R.ap_sine (T := T) hi) (a := 4) (b := len) (by norm_num) hl
    have e : (1 + R.u) * (1 + R.v) * (1 + (R.t + 2 * π * ((1 + R.v) ^ 7 / (1 - R.v) - 1))) * R.root ≤ (1 + R.tau) * R.root := by
      refine mul_le_mul_of_nonneg_right ?_ (by linarith)
      have h0 := (R.ap_sine (T := T) (len := 1) (i := 0) (by norm_num)).one_le
      have h1 : 0 ≤ (1 + R.u) * (1 + R.v) * (1 + (R.t + 2 * π * ((1 + R.v) ^ 7 / (1 - R.v) - 1))) :=
        mul_nonneg (mul_nonneg (by linarith) (by linarith)) (by linarith)
      have h2 := mul_le_mul_of_nonneg_left hv h1
      rw [mul_one] at h2
      refine h2.trans (le_of_eq ?_)
      unfold Rounding.tau; ring
    have := windowNear_of R (win := fun i => fromF64 (F64.sin ((F64.pi / F64.nat len : F) * (F64.nat i + F64.half)) * F64.sqrt (F64.nat 4 / F64.nat len : F)))
      (v := fun (i : ℕ) => √(4 / len) * sin (π / len * (i + 1 / 2))) (len := len) (sqrt_nonneg (4 / (len : ℝ)))
      (mul1 (show 1 ≤ 1 + R.tau by linarith) hr) fun i hi => by have := (h i hi).mono e; rwa [Nat.cast_ofNat] at this
    rw [Spec.sineWindow, map_range_map]
    exact this
  · have := windowNear_of R (win := fun i => let s := F64.sin ((F64.pi / F64.nat len : F) * (F64.nat i + F64.half)); fromF64 (F64.sin (F64.pi * F64.half * s * s)))
      (v := fun (i : ℕ) => sin (π / 2 * sin (π / len * (i + 1 / 2)) ^ 2)) (len := len)
      zero_le_one (mul1 hu hb) fun i hi => (R.ap_vorbis hi).round R.u_nonneg (R.from_f64 _)
    exact this
  · have := windowNear_of R (win := fun i => let s := F64.sin ((F64.pi / F64.nat len : F) * (F64.nat i + F64.half)); fromF64 (F64.sin (F64.pi * F64.half * s * s) * F64.sqrt (F64.nat 4 / F64.nat len : F)))
      (v := fun (i : ℕ) => √(4 / len) * sin (π / 2 * sin (π / len * (i + 1 / 2)) ^ 2)) (len := len) (sqrt_nonneg (4 / (len : ℝ)))
      (mul1 (mul1 (mul1 hu hv) hb) hr) fun i hi => by
        have := R.ap_scaled (R.ap_vorbis (T := T) hi) (a := 4) (b := len) (by norm_num) hl
        rwa [Nat.cast_ofNat] at this
    rw [Spec.vorbisWindow, map_range_map]
    exact this
  · have := windowNear_of R (win := fun _ => (1 : T)) (v := fun _ => (1 : ℝ)) (len := len) zero_le_one (le_refl (1 : ℝ)) fun i hi => by rw [R.one]; exact Ap.exact' (by norm_num)
    rw [sub_self] at this
    rw [Spec.flatWindow]
    have e : List.replicate len (1 : ℝ) = (List.range len).map fun _ => 1 := by simp [List.map_const']
    rw [e]
    exact this
  · have := windowNear_of R (win := fun _ => fromF64 (F64.sqrt (F64.nat 2 / F64.nat len : F))) (v := fun (_ : ℕ) => √(2 / (len : ℝ)) * 1) (len := len) (sqrt_nonneg (2 / (len : ℝ)))
      (mul1 hu hr) fun i hi => by
        have := (R.ap_root (T := T) (a := 2) (b := len) (by norm_num) hl).round R.u_nonneg (R.from_f64 _)
        rw [mul_one]
        rwa [Nat.cast_ofNat] at this
    have e : (Spec.flatWindow len).map (√(2 / (len : ℝ)) * ·) = (List.range len).map fun _ => √(2 / (len : ℝ)) * 1 := by
      simp [Spec.flatWindow, List.map_const']
    rw [e]
    exact this

/-! ### C57: overlapping -/

/-- If the window meant is symmetric and satisfies the Princen-Bradley condition, the signal is reconstructed up to rounding. -/
theorem C57_planned {c : ℝ} (hf : PlanFftAccurate R planFft φ) (h : PlannedMdct planFft calls n w o) (hn : 1 ≤ n)
    (hw : WindowNear R (effectiveWindow n calls w (2 * n)) v M γ) (hs : Spec.Symmetric n v) (hc : Spec.PrincenBradley n c v) :
    ReconstructsNearly R o n (c * n / 2) (n * M ^ 2 * R.overlap (R.lap γ (R.err φ .dct4 n))) := by
  obtain ⟨hl, he, hv, ⟨a⟩⟩ := h.acc hf hn hw
  have hM := hw.2.2.1
  have hε := R.err_nonneg hf.nonneg .dct4 n
  have hK : (√(n : ℝ) * M) ^ 2 = n * M ^ 2 := by rw [mul_pow, sq_sqrt (Nat.cast_nonneg n)]
  obtain ⟨g, rfl⟩ : ∃ g, n = 2 * g := ⟨n / 2, by omega⟩
  have hm : ∀ i, i < 4 * g → |v.getD i 0| ≤ M := fun i hi => (hw.ap (by omega)).mag
  have := a.reconstructs hl hn (mul_nonneg (sqrt_nonneg _) hM) (R.lap_nonneg hw.2.1 hε)
    (fun a b => by rw [nm_glue]; exact mdct_bound (by omega) hM hm a b)
    (fun X => by rw [show 2 * (2 * g) = 4 * g by ring]; exact imdct_bound (by omega) hM hm X) hs.2 hc.2
  rwa [hK] at this

/-- With the built-in windows; the planner must not have been asked for another window for this length (C36). -/
theorem C57_builtin (hf : PlanFftAccurate R planFft φ) (h : PlannedMdct planFft calls n w o) (hn : 1 ≤ n) (hw : ∀ u, .mdct n u ∈ calls → u = w) :
    (w = WindowFn.mp3 → ReconstructsNearly R o n (n / 2) (n * R.overlap (R.lap R.tau (R.err φ .dct4 n)))) ∧
    (w = WindowFn.mp3Invertible → ReconstructsNearly R o n 1 (2 * R.overlap (R.lap ((1 + R.tau) * R.root - 1) (R.err φ .dct4 n)))) ∧
    (w = WindowFn.vorbis → ReconstructsNearly R o n (n / 2) (n * R.overlap (R.lap ((1 + R.u) * R.vorb - 1) (R.err φ .dct4 n)))) ∧
    (w = WindowFn.vorbisInvertible → ReconstructsNearly R o n 1 (2 * R.overlap (R.lap ((1 + R.u) * (1 + R.v) * R.vorb * R.root - 1) (R.err φ .dct4 n)))) ∧
    (w = WindowFn.one → ReconstructsNearly R o n n (n * R.overlap (R.lap 0 (R.err φ .dct4 n)))) ∧
    (w = WindowFn.invertible → ReconstructsNearly R o n 1 (R.overlap (R.lap ((1 + R.u) * R.root - 1) (R.err φ .dct4 n)))) := by
  have e : effectiveWindow n calls w = w := by
    rcases effectiveWindow_cases n calls w with ⟨-, h2⟩ | ⟨pre, v, post, rfl, -, -, h3⟩
    · exact h2
    · rw [h3]; exact hw v (by simp)
  obtain ⟨w1, w2, w3, w4, w5, w6⟩ := C24_windows hn
  obtain ⟨v1, v2, v3, v4, v5, v6⟩ := C24_values (2 * n)
  obtain ⟨a1, a2, a3, a4, a5, a6⟩ := C56_windows R (len := 2 * n) (by omega)
  rw [v1] at w1; rw [v2] at w4; rw [v3] at w2; rw [v4] at w5; rw [v5] at w3; rw [v6] at w6
  have hz : (n : ℝ) ≠ 0 := Nat.cast_ne_zero.2 (by omega)
  have g1 : 2 / (n : ℝ) * n / 2 = 1 := by field_simp
  have m1 : (n : ℝ) * √(4 / (2 * n : ℕ)) ^ 2 = 2 := by
    rw [sq_sqrt (by positivity)]; push_cast; field_simp; norm_num
  have m2 : (n : ℝ) * √(2 / (2 * n : ℕ)) ^ 2 = 1 := by
    rw [sq_sqrt (by positivity)]; push_cast; field_simp
  refine ⟨?_, ?_, ?_, ?_, ?_, ?_⟩ <;> rintro rfl
  · have := C57_planned hf h hn (by rw [e]; exact a1) w1.1 w1.2
    simpa using this
  · have := C57_planned hf h hn (by rw [e]; exact a2) w4.1 w4.2
    rwa [g1, m1] at this
  · have := C57_planned hf h hn (by rw [e]; exact a3) w2.1 w2.2
    simpa using this
  · have := C57_planned hf h hn (by rw [e]; exact a4) w5.1 w5.2
    rwa [g1, m1] at this
  · have := C57_planned hf h hn (by rw [e]; exact a5) w3.1 w3.2
    rwa [one_pow, mul_one, show (2 : ℝ) * n / 2 = n by ring] at this
  · have := C57_planned hf h hn (by rw [e]; exact a6) w6.1 w6.2
    rwa [g1, m2, one_mul] at this

end

/-! The hypotheses can be met: `f32` with the defining sum as FFT, an MDCT of 64 points with the Vorbis window. -/

example : ∃ o, PlannedMdct (fun n => (sumFft n : Fft (Flx 24))) [.dct4 64, .mdct 32 WindowFn.one] 64 WindowFn.vorbis o ∧
    ApproximatesMdct (Flx.rounding 24) o.mdct 64 o.scratchLen (fun a b => Spec.mdct 64 (Spec.vorbisWindow 128) (a ++ b))
      (√(64 : ℕ) * 1 * (Flx.rounding 24).lap ((1 + (Flx.rounding 24).u) * (Flx.rounding 24).vorb - 1) ((Flx.rounding 24).err (Flx.rounding 24).sumErr .dct4 64)) ∧
    ReconstructsNearly (Flx.rounding 24) o 64 ((64 : ℕ) / 2)
      ((64 : ℕ) * (Flx.rounding 24).overlap ((Flx.rounding 24).lap ((1 + (Flx.rounding 24).u) * (Flx.rounding 24).vorb - 1) ((Flx.rounding 24).err (Flx.rounding 24).sumErr .dct4 64))) := by
  obtain ⟨o, ho⟩ := plannedMdct_exists (sumFft_shape 24) [.dct4 64, .mdct 32 WindowFn.one] (n := 64) rfl (w := WindowFn.vorbis) (by simp [WindowFn.vorbis])
  refine ⟨o, ho, (C54_planned (sumFft_plan (Flx.rounding 24)) ho (by norm_num) (C56_windows (Flx.rounding 24) (by norm_num)).2.2.1).2, ?_⟩
  exact (C57_builtin (sumFft_plan (Flx.rounding 24)) ho (by norm_num) (by simp)).2.2.1 rfl

end RustDct
