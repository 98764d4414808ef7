import Verif.Proofs.Tdac
import Verif.Props.Planner
import Verif.Props.Transforms
/-!
# C21–C25, C36: the MDCT

C21/C22 the values of MDCT and IMDCT, C36 which window a planned instance applies, C23 alias cancellation, C24 the built-in
windows, C25 the gain of the overlapped transform with the built-in windows.  Over the reals.  Lengths are at least 2: length
0 is degenerate (see `Verif/Props/Findings.lean`) and odd lengths are rejected.
-/

set_option linter.all false

namespace RustDct
open Real

section
variable {planFft : ℕ → Fft ℝ} {calls : List (PlanCall ℝ)} {n : ℕ} {w : ℕ → List ℝ} {o : MdctObj ℝ}

/-! ### C21, C22: MDCT and IMDCT compute their definitions

`win` is the value at `2 * len()` of the window function passed to the constructor. -/

theorem C21_made {win : List ℝ} (h : MadeMdct FftContract win o) (hn : 1 ≤ o.len) :
    ComputesMdct o.mdct o.len o.scratchLen (fun a b => Spec.mdct o.len win (a ++ b)) := by
  obtain ⟨v, rfl, hM, -⟩ := h.real hn
  exact hM.computes

theorem C22_made {win : List ℝ} (h : MadeMdct FftContract win o) (hn : 1 ≤ o.len) :
    AccumulatesImdct o.imdct o.len o.scratchLen (Spec.imdct o.len win) := by
  obtain ⟨v, rfl, -, hI⟩ := h.real hn
  exact hI.accumulates

/-! ### C36: the window of a planned instance -/

/-- The window function that `plan_mdct(n, w)` uses after the history `calls`: that of the first earlier call for the same length
whose window function returned the right number of values, if there is one, and else `w`. -/
def effectiveWindow {T : Type} (n : ℕ) : List (PlanCall T) → (ℕ → List T) → ℕ → List T
  | [], w => w
  | .mdct m v :: calls, w => if m = n ∧ (v (2 * n)).length = 2 * n then v else effectiveWindow n calls w
  | _ :: calls, w => effectiveWindow n calls w

theorem effectiveWindow_cases {T : Type} (n : ℕ) (calls : List (PlanCall T)) (w : ℕ → List T) :
    ((∀ v, .mdct n v ∈ calls → ¬ (v (2 * n)).length = 2 * n) ∧ effectiveWindow n calls w = w) ∨
    ∃ pre v post, calls = pre ++ .mdct n v :: post ∧ (∀ u, .mdct n u ∈ pre → ¬ (u (2 * n)).length = 2 * n) ∧
      (v (2 * n)).length = 2 * n ∧ effectiveWindow n calls w = v := by
  induction calls with
  | nil => exact .inl ⟨by simp, rfl⟩
  | cons c calls ih =>
    have other : (∀ v, c = .mdct n v → ¬ (v (2 * n)).length = 2 * n) → effectiveWindow n (c :: calls) w = effectiveWindow n calls w →
        ((∀ v, .mdct n v ∈ c :: calls → ¬ (v (2 * n)).length = 2 * n) ∧ effectiveWindow n (c :: calls) w = w) ∨
        ∃ pre v post, c :: calls = pre ++ .mdct n v :: post ∧ (∀ u, .mdct n u ∈ pre → ¬ (u (2 * n)).length = 2 * n) ∧
          (v (2 * n)).length = 2 * n ∧ effectiveWindow n (c :: calls) w = v := by
      intro hc he
      rw [he]
      rcases ih with ⟨h1, h2⟩ | ⟨pre, v, post, rfl, h1, h2, h3⟩
      · refine .inl ⟨fun v hv => ?_, h2⟩
        rcases List.mem_cons.1 hv with hv | hv
        · exact hc v hv.symm
        · exact h1 v hv
      · refine .inr ⟨c :: pre, v, post, rfl, fun u hu => ?_, h2, h3⟩
        rcases List.mem_cons.1 hu with hu | hu
        · exact hc u hu.symm
        · exact h1 u hu
    cases c with
    | mdct m v =>
      by_cases hd : m = n ∧ (v (2 * n)).length = 2 * n
      · obtain ⟨rfl, hd⟩ := hd
        exact .inr ⟨[], v, calls, rfl, by simp, hd, by simp [effectiveWindow, hd]⟩
      · refine other (fun u hu => ?_) (by rw [effectiveWindow, if_neg hd])
        injection hu with h1 h2
        subst h1 h2
        exact fun h => hd ⟨rfl, h⟩
    | _ => exact other (fun v hv => by cases hv) rfl

/-- What a planned MDCT is: what planning its length with the effective window, without a cache, gives. -/
theorem PlannedMdct.canon {T : Type} {F : Type} [F64 F] [DctNum T F] {planFft : ℕ → Fft T} {calls : List (PlanCall T)} {n : ℕ}
    {w : ℕ → List T} {o : MdctObj T} (hf : PlanFftShape planFft) (h : PlannedMdct planFft calls n w o) :
    canonMdct planFft n (effectiveWindow n calls w) = .ok o := by
  have fresh : ∀ {calls : List (PlanCall T)} {w : ℕ → List T} {a s'}, (∀ v, .mdct n v ∈ calls → ¬ (v (2 * n)).length = 2 * n) →
      planMdct planFft n w (plannerAfter planFft calls) = .ok a s' → canonMdct planFft n w = .ok a.val := by
    intro calls w a s' hc e
    have hI : Inv planFft (fun m v => (m = n ∧ v = w) ∨ UsedWindow calls m v) (plannerAfter planFft calls) := (after_inv calls).mono fun _ _ h => .inr h
    have hr := planMdct_run n (W := fun m v => (m = n ∧ v = w) ∨ UsedWindow calls m v) (.inl ⟨rfl, rfl⟩) _ hI
    rw [e] at hr
    exact hr.2.2.2.2 (by
      by_contra hne
      obtain ⟨v, hv, -, hl⟩ := (mdct_cached_iff hf calls n).1 hne
      exact hc v hv hl)
  obtain ⟨a, s', e, rfl⟩ := h
  rcases effectiveWindow_cases n calls w with ⟨h1, h2⟩ | ⟨pre, v, post, rfl, h1, h2, h3⟩
  · rw [h2]; exact fresh h1 e
  · rw [h3]
    have hn : n % 2 = 0 := ((C33_mdct_domain hf _ n w).1 ⟨a, s', e⟩).1
    obtain ⟨b, s₁, eb⟩ := (C33_mdct_domain hf pre n v).2 ⟨hn, .inl h2⟩
    have := C35_mdct n v w pre post b s₁ eb
    rw [e] at this
    injection this with this
    rw [this]
    exact fresh h1 eb

/-- The instance a planned MDCT is, in terms of the public constructors. -/
theorem PlannedMdct.made_window {T : Type} {F : Type} [F64 F] [DctNum T F] {planFft : ℕ → Fft T} {calls : List (PlanCall T)} {n : ℕ}
    {w : ℕ → List T} {o : MdctObj T} (hf : PlanFftShape planFft) (h : PlannedMdct planFft calls n w o) :
    o.len = n ∧ MadeMdct (FromPlan planFft) (effectiveWindow n calls w (2 * n)) o := by
  have hc := h.canon hf
  by_cases hd : n % 2 = 0 ∧ (effectiveWindow n calls w (2 * n)).length = 2 * n
  · obtain ⟨o', ho, hm, hl⟩ := canonMdct_ok hf hd.1 hd.2
    rw [ho] at hc; injection hc with hc; subst hc
    exact ⟨hl, hm⟩
  · rw [canonMdct_err hf hd] at hc; cases hc

theorem C21_planned (hf : PlanFftContract planFft) (h : PlannedMdct planFft calls n w o) (hn : 1 ≤ n) :
    o.len = n ∧ ComputesMdct o.mdct n o.scratchLen (fun a b => Spec.mdct n (effectiveWindow n calls w (2 * n)) (a ++ b)) := by
  obtain ⟨rfl, hm⟩ := h.made_window hf.shape
  exact ⟨rfl, C21_made (hm.mono (FromPlan.contract hf)) hn⟩

theorem C22_planned (hf : PlanFftContract planFft) (h : PlannedMdct planFft calls n w o) (hn : 1 ≤ n) :
    o.len = n ∧ AccumulatesImdct o.imdct n o.scratchLen (Spec.imdct n (effectiveWindow n calls w (2 * n))) := by
  obtain ⟨rfl, hm⟩ := h.made_window hf.shape
  exact ⟨rfl, C22_made (hm.mono (FromPlan.contract hf)) hn⟩

/-- The full claim of C36: a planned instance applies the window passed to the plan call. -/
def C36_statement (planFft : ℕ → Fft ℝ) : Prop :=
  ∀ (calls : List (PlanCall ℝ)) (n : ℕ) (w : ℕ → List ℝ) (o : MdctObj ℝ), 1 ≤ n → PlannedMdct planFft calls n w o →
    ComputesMdct o.mdct n o.scratchLen (fun a b => Spec.mdct n (w (2 * n)) (a ++ b)) ∧
    AccumulatesImdct o.imdct n o.scratchLen (Spec.imdct n (w (2 * n)))

/-- It holds as long as the planner has not been asked for another window for the same length.  Missing from C36: histories in
which it has been; there the claim is false, see `C36_false`. -/
theorem C36_partial (hf : PlanFftContract planFft) (h : PlannedMdct planFft calls n w o) (hn : 1 ≤ n)
    (hw : ∀ v, .mdct n v ∈ calls → v (2 * n) = w (2 * n)) :
    ComputesMdct o.mdct n o.scratchLen (fun a b => Spec.mdct n (w (2 * n)) (a ++ b)) ∧
    AccumulatesImdct o.imdct n o.scratchLen (Spec.imdct n (w (2 * n))) := by
  have e : effectiveWindow n calls w (2 * n) = w (2 * n) := by
    rcases effectiveWindow_cases n calls w with ⟨-, h2⟩ | ⟨pre, v, post, rfl, -, -, h3⟩
    · rw [h2]
    · rw [h3]; exact hw v (by simp)
  rw [← e]
  exact ⟨(C21_planned hf h hn).2, (C22_planned hf h hn).2⟩

/-- The planner ignores the window when it looks up its cache: the second of two plan calls for one length gets the window of
the first. -/
theorem C36_false (hf : PlanFftContract planFft) : ¬ C36_statement planFft := by
  intro H
  obtain ⟨o, ho⟩ := plannedMdct_exists hf.shape [.mdct 2 fun k => List.replicate k 1] (n := 2) rfl (w := fun k => List.replicate k 2) (by simp)
  obtain ⟨hl, hc⟩ := C21_planned hf ho (by norm_num)
  have e : effectiveWindow 2 [PlanCall.mdct 2 fun k => List.replicate k (1 : ℝ)] (fun k => List.replicate k 2) = fun k => List.replicate k 1 := by
    simp [effectiveWindow]
  rw [e] at hc
  have hv : ValidMdct 2 o.scratchLen [1, 0] [0, 0] (⟨[0, 0], List.replicate o.scratchLen 0⟩ : Mem ℝ) := by simp [ValidMdct]
  obtain ⟨s₁, e₁⟩ := hc _ _ _ hv
  obtain ⟨s₂, e₂⟩ := (H _ 2 _ o (by norm_num) ho).1 _ _ _ hv
  rw [e₁] at e₂
  injection e₂ with e₂
  injection e₂ with e₂ _
  have e₃ := congrArg (fun l => l.getD 0 0) e₂
  have hcos : 0 < cos (π / 2 * (1 / 2 + 1) * (1 / 2)) := cos_pos_of_mem_Ioo ⟨by linarith [pi_pos], by linarith [pi_pos]⟩
  simp [Spec.mdct, Spec.mdctAt, List.range_succ, Finset.sum_range_succ, List.replicate] at e₃
  norm_num at e₃ hcos
  linarith

/-! ### C23: overlapped MDCT/IMDCT reconstructs the signal -/

theorem C23_made {win : List ℝ} {c : ℝ} (h : MadeMdct FftContract win o) (hn : 1 ≤ o.len) (hs : Spec.Symmetric o.len win)
    (hc : Spec.PrincenBradley o.len c win) : Reconstructs o o.len (c * o.len / 2) := by
  obtain ⟨v, rfl, hM, hI⟩ := h.real hn
  have hs' : ∀ i, i < o.len → v (2 * o.len - 1 - i) = v i := fun i hi => by
    have := hs.2 i hi
    rwa [getD_vec (by omega), getD_vec (by omega)] at this
  have hc' : ∀ i, i < o.len → v i ^ 2 + v (i + o.len) ^ 2 = c := fun i hi => by
    have := hc.2 i hi
    rwa [getD_vec (by omega), getD_vec (by omega)] at this
  rintro a rest acc ⟨y, scr⟩ hb ha hy hscr
  obtain ⟨f, rfl⟩ := exists_vec (hb a (by simp))
  obtain ⟨acc, rfl⟩ := exists_vec ha
  obtain ⟨y', hy'⟩ := exists_vec hy
  change y = vec _ y' at hy'
  subst hy'
  obtain ⟨outs, e, l, -, ht⟩ := lapped_run hn hM hI hs' hc' rest f acc y' scr (fun b hb' => hb b (by simp [hb'])) hscr
  refine ⟨outs, e, by simpa using l, fun t h0 ht' => ?_⟩
  obtain ⟨t, rfl⟩ : ∃ u, t = u + 1 := ⟨t - 1, by omega⟩
  rw [List.getElem?_cons_succ]
  exact ht t (by simpa using ht')

theorem C23_planned {c : ℝ} (hf : PlanFftContract planFft) (h : PlannedMdct planFft calls n w o) (hn : 1 ≤ n)
    (hs : Spec.Symmetric n (effectiveWindow n calls w (2 * n))) (hc : Spec.PrincenBradley n c (effectiveWindow n calls w (2 * n))) :
    Reconstructs o n (c * n / 2) := by
  obtain ⟨rfl, hm⟩ := h.made_window hf.shape
  exact C23_made (hm.mono (FromPlan.contract hf)) hn hs hc

/-! ### C24: the built-in windows -/

theorem pb_of {n : ℕ} {c : ℝ} {v : ℕ → ℝ} (hs : ∀ i, i < n → v (2 * n - 1 - i) = v i) (hc : ∀ i, i < n → v i ^ 2 + v (i + n) ^ 2 = c) :
    Spec.Symmetric n ((List.range (2 * n)).map v) ∧ Spec.PrincenBradley n c ((List.range (2 * n)).map v) := by
  rw [map_range_eq_vec]
  exact ⟨⟨by simp, fun i hi => by rw [getD_vec (by omega), getD_vec (by omega), hs i hi]⟩,
    ⟨by simp, fun i hi => by rw [getD_vec (by omega), getD_vec (by omega), hc i hi]⟩⟩

theorem sin_sym {n i : ℕ} (hi : i < n) :
    sin (π / (2 * n : ℕ) * ((2 * n - 1 - i : ℕ) + 1 / 2)) = sin (π / (2 * n : ℕ) * (i + 1 / 2)) := by
  have hz : (n : ℝ) ≠ 0 := Nat.cast_ne_zero.2 (by omega)
  rw [← sin_pi_sub]
  congr 1
  rw [Nat.cast_sub (by omega), Nat.cast_sub (by omega)]
  push_cast
  field_simp
  ring

theorem sin_quarter {n i : ℕ} (hi : i < n) : sin (π / (2 * n : ℕ) * ((i + n : ℕ) + 1 / 2)) = cos (π / (2 * n : ℕ) * (i + 1 / 2)) := by
  have hz : (n : ℝ) ≠ 0 := Nat.cast_ne_zero.2 (by omega)
  rw [← cos_pi_div_two_sub, ← cos_neg]
  congr 1
  push_cast
  field_simp
  ring

theorem sq_scale {n : ℕ} (hn : 1 ≤ n) (a : ℝ) : √(4 / ((2 * n : ℕ) : ℝ)) ^ 2 = 2 / n := by
  have hz : (n : ℝ) ≠ 0 := Nat.cast_ne_zero.2 (by omega)
  rw [sq_sqrt (by positivity)]
  push_cast
  field_simp
  norm_num

theorem vorbis_pb {n i : ℕ} (hi : i < n) :
    sin (π * (1 / 2) * sin (π / (2 * n : ℕ) * (i + 1 / 2)) * sin (π / (2 * n : ℕ) * (i + 1 / 2))) ^ 2 +
      sin (π * (1 / 2) * sin (π / (2 * n : ℕ) * ((i + n : ℕ) + 1 / 2)) * sin (π / (2 * n : ℕ) * ((i + n : ℕ) + 1 / 2))) ^ 2 = 1 := by
  rw [sin_quarter hi]
  have h := sin_sq_add_cos_sq (π / (2 * n : ℕ) * (i + 1 / 2))
  set s := sin (π / (2 * n : ℕ) * (i + 1 / 2))
  set c := cos (π / (2 * n : ℕ) * (i + 1 / 2))
  have : π * (1 / 2) * c * c = π / 2 - π * (1 / 2) * s * s := by linear_combination (π / 2) * h
  rw [this, sin_pi_div_two_sub, sin_sq_add_cos_sq]

/-- C24: for window length `2n`, each built-in window is symmetric and satisfies the Princen-Bradley condition. -/
theorem C24_windows (hn : 1 ≤ n) :
    (Spec.Symmetric n (WindowFn.mp3 (2 * n)) ∧ Spec.PrincenBradley n 1 (WindowFn.mp3 (2 * n))) ∧
    (Spec.Symmetric n (WindowFn.vorbis (2 * n)) ∧ Spec.PrincenBradley n 1 (WindowFn.vorbis (2 * n))) ∧
    (Spec.Symmetric n (WindowFn.one (2 * n)) ∧ Spec.PrincenBradley n 2 (WindowFn.one (2 * n))) ∧
    (Spec.Symmetric n (WindowFn.mp3Invertible (2 * n)) ∧ Spec.PrincenBradley n (2 / n) (WindowFn.mp3Invertible (2 * n))) ∧
    (Spec.Symmetric n (WindowFn.vorbisInvertible (2 * n)) ∧ Spec.PrincenBradley n (2 / n) (WindowFn.vorbisInvertible (2 * n))) ∧
    (Spec.Symmetric n (WindowFn.invertible (2 * n)) ∧ Spec.PrincenBradley n (2 / n) (WindowFn.invertible (2 * n))) := by
  refine ⟨pb_of ?_ ?_, pb_of ?_ ?_, pb_of ?_ ?_, pb_of ?_ ?_, pb_of ?_ ?_, pb_of ?_ ?_⟩ <;> intro i hi <;>
    try simp only [f64_nat, f64_half, f64_pi, f64_sin, f64_sqrt, fromF64_real, sin_sym hi]
  · rw [sin_quarter hi, sin_sq_add_cos_sq]
  · exact vorbis_pb hi
  · norm_num
  · rw [sin_quarter hi, mul_pow, mul_pow, ← add_mul, sin_sq_add_cos_sq, Nat.cast_ofNat, sq_scale hn 0, one_mul]
  · rw [mul_pow, mul_pow, ← add_mul, vorbis_pb hi, Nat.cast_ofNat, sq_scale hn 0, one_mul]
  · have hz : (n : ℝ) ≠ 0 := Nat.cast_ne_zero.2 (by omega)
    rw [sq_sqrt (by positivity)]
    push_cast
    field_simp
    norm_num

/-- C24: the values of the built-in windows. -/
theorem C24_values (len : ℕ) :
    (WindowFn.mp3 len : List ℝ) = Spec.sineWindow len ∧
    (WindowFn.mp3Invertible len : List ℝ) = (Spec.sineWindow len).map (√(4 / len) * ·) ∧
    (WindowFn.vorbis len : List ℝ) = Spec.vorbisWindow len ∧
    (WindowFn.vorbisInvertible len : List ℝ) = (Spec.vorbisWindow len).map (√(4 / len) * ·) ∧
    (WindowFn.one len : List ℝ) = Spec.flatWindow len ∧
    (WindowFn.invertible len : List ℝ) = (Spec.flatWindow len).map (√(2 / len) * ·) := by
  refine ⟨?_, ?_, ?_, ?_, ?_, ?_⟩
  · simp only [WindowFn.mp3, Spec.sineWindow, f64_nat, f64_half, f64_pi, f64_sin, fromF64_real]
  · simp only [WindowFn.mp3Invertible, Spec.sineWindow, f64_nat, f64_half, f64_pi, f64_sin, f64_sqrt, fromF64_real, List.map_map, Function.comp_def]
    exact List.map_congr_left fun i _ => by rw [mul_comm]; norm_num
  · simp only [WindowFn.vorbis, Spec.vorbisWindow, f64_nat, f64_half, f64_pi, f64_sin, fromF64_real]
    exact List.map_congr_left fun i _ => by congr 1; ring
  · simp only [WindowFn.vorbisInvertible, Spec.vorbisWindow, f64_nat, f64_half, f64_pi, f64_sin, f64_sqrt, fromF64_real, List.map_map, Function.comp_def]
    refine List.map_congr_left fun i _ => ?_
    rw [mul_comm]
    congr 2
    ring
  · simp [WindowFn.one, Spec.flatWindow, List.map_const']
  · simp [WindowFn.invertible, Spec.flatWindow, List.map_const', f64_nat, f64_sqrt, fromF64_real]

/-! ### C25: the gain with the built-in windows -/

theorem C25_made (h : MadeMdct FftContract win o) (hn : 1 ≤ o.len) :
    (win = WindowFn.invertible (2 * o.len) ∨ win = WindowFn.mp3Invertible (2 * o.len) ∨ win = WindowFn.vorbisInvertible (2 * o.len) →
      Reconstructs o o.len 1) ∧
    (win = WindowFn.one (2 * o.len) → Reconstructs o o.len o.len) ∧
    (win = WindowFn.mp3 (2 * o.len) ∨ win = WindowFn.vorbis (2 * o.len) → Reconstructs o o.len (o.len / 2)) := by
  obtain ⟨w1, w2, w3, w4, w5, w6⟩ := C24_windows hn
  have hz : (o.len : ℝ) ≠ 0 := Nat.cast_ne_zero.2 (by omega)
  have e1 : (2 / (o.len : ℝ)) * o.len / 2 = 1 := by field_simp
  refine ⟨?_, ?_, ?_⟩
  · rintro (rfl | rfl | rfl)
    · exact e1 ▸ C23_made h hn w6.1 w6.2
    · exact e1 ▸ C23_made h hn w4.1 w4.2
    · exact e1 ▸ C23_made h hn w5.1 w5.2
  · rintro rfl
    have := C23_made h hn w3.1 w3.2
    rwa [show (2 : ℝ) * o.len / 2 = o.len by ring] at this
  · rintro (rfl | rfl)
    · have := C23_made h hn w1.1 w1.2
      rwa [one_mul] at this
    · have := C23_made h hn w2.1 w2.2
      rwa [one_mul] at this

/-- C25 for planned instances.  Because of C36 the planner must not have been asked for another window for this length. -/
theorem C25_planned (hf : PlanFftContract planFft) (h : PlannedMdct planFft calls n w o) (hn : 1 ≤ n)
    (hw : ∀ v, .mdct n v ∈ calls → v = w) :
    (w = WindowFn.invertible ∨ w = WindowFn.mp3Invertible ∨ w = WindowFn.vorbisInvertible → Reconstructs o n 1) ∧
    (w = WindowFn.one → Reconstructs o n n) ∧
    (w = WindowFn.mp3 ∨ w = WindowFn.vorbis → Reconstructs o n (n / 2)) := by
  have e : effectiveWindow n calls w = w := by
    rcases effectiveWindow_cases n calls w with ⟨-, h2⟩ | ⟨pre, v, post, rfl, -, -, h3⟩
    · exact h2
    · rw [h3]; exact hw v (by simp)
  obtain ⟨rfl, hm⟩ := h.made_window hf.shape
  rw [e] at hm
  obtain ⟨h1, h2, h3⟩ := C25_made (hm.mono (FromPlan.contract hf)) hn
  refine ⟨?_, ?_, ?_⟩
  · rintro (rfl | rfl | rfl)
    · exact h1 (.inl rfl)
    · exact h1 (.inr (.inl rfl))
    · exact h1 (.inr (.inr rfl))
  · rintro rfl
    exact h2 rfl
  · rintro (rfl | rfl)
    · exact h3 (.inl rfl)
    · exact h3 (.inr rfl)

/-! The hypotheses are met: an MDCT of length 64 with the Vorbis window, planned after other calls. -/

example : ∃ o, PlannedMdct (fun n => (dftFft n : Fft ℝ)) [.dct4 64, .mdct 32 WindowFn.one, .mdct 64 WindowFn.vorbisInvertible] 64 WindowFn.vorbisInvertible o ∧
    Reconstructs o 64 1 := by
  obtain ⟨o, ho⟩ := plannedMdct_exists dftFft_plan.shape [.dct4 64, .mdct 32 WindowFn.one, .mdct 64 WindowFn.vorbisInvertible]
    (n := 64) rfl (w := WindowFn.vorbisInvertible) (C24_windows (by norm_num)).2.2.2.2.1.1.1
  exact ⟨o, ho, (C25_planned dftFft_plan ho (by norm_num) (by simp)).1 (.inr (.inr rfl))⟩

end
end RustDct
