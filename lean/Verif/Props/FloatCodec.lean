import Verif.Float.Codec
import Verif.Props.Constructed
import Verif.Props.Switching
/-!
# C92: a codec in floating-point arithmetic
-/

set_option linter.all false

namespace RustDct
open Finset Real

variable {T F : Type} [F64 F] [DctNum T F] {R : Rounding T F} {n : ℕ} {M N γ φ : ℝ} {w v : ℕ → List ℝ}

/-- The lengths of a step fit, there is enough scratch, and the change keeps the number of coefficients. -/
def CodecStep.Fits (n scr : ℕ) (s : CodecStep T) : Prop :=
  s.analysis.len = n ∧ s.synthesis.len = n ∧ s.analysis.scratchLen ≤ scr ∧ s.synthesis.scratchLen ≤ scr ∧ s.block.length = n ∧
    ∀ X, X.length = n → (s.change X).length = n

/-- The instances of all steps are made by the constructors over accurate FFTs, with windows close to `w t` (at most `M`) and `v t` (at most `N`). -/
def CodecMade (R : Rounding T F) (φ γ M N : ℝ) (n scr : ℕ) (w v : ℕ → List ℝ) (steps : List (CodecStep T)) : Prop :=
  ∀ (t : ℕ) (s : CodecStep T), steps[t]? = some s → s.Fits n scr ∧
    (∃ win, MadeMdct (fun f => FftAccurate R f φ) win s.analysis ∧ WindowNear R win (w t) M γ) ∧
    ∃ win, MadeMdct (fun f => FftAccurate R f φ) win s.synthesis ∧ WindowNear R win (v t) N γ

/-- The instances of all steps come from planners, each after some history of its own. -/
def CodecPlanned (R : Rounding T F) (planFft : ℕ → Fft T) (γ M N : ℝ) (n scr : ℕ) (w v : ℕ → List ℝ) (steps : List (CodecStep T)) : Prop :=
  ∀ (t : ℕ) (s : CodecStep T), steps[t]? = some s → s.Fits n scr ∧
    (∃ calls win, PlannedMdct planFft calls n win s.analysis ∧ WindowNear R (effectiveWindow n calls win (2 * n)) (w t) M γ) ∧
    ∃ calls win, PlannedMdct planFft calls n win s.synthesis ∧ WindowNear R (effectiveWindow n calls win (2 * n)) (v t) N γ

theorem Rounding.madeLap_nonneg (R : Rounding T F) (n : ℕ) (hγ : 0 ≤ γ) : 0 ≤ R.madeLap φ γ n := (R.lapNaive_nonneg n hγ).trans (le_max_left _ _)

theorem MadeMdct.mdctAcc {win : List T} {o : MdctObj T} {v : List ℝ} (hφ : 0 ≤ φ) (h : MadeMdct (fun f => FftAccurate R f φ) win o) (hl : o.len = n) (hn : 1 ≤ n)
    (hw : WindowNear R win v M γ) : n % 2 = 0 ∧ v.length = 2 * n ∧ Nonempty (MdctAcc R o n (fun i => v.getD i 0) (√n * M) (R.madeLap φ γ n)) := by
  subst hl
  have hM := hw.2.2.1
  have hK : 0 ≤ √(o.len : ℝ) * M := mul_nonneg (sqrt_nonneg _) hM
  cases h with
  | @naive n w x h =>
    obtain ⟨he, hlen, rfl⟩ := MdctNaive.new_tab h
    have hl : (MdctNaive.toObj (⟨vec (4 * n) (MdctNaive.tab n), w (2 * n)⟩ : MdctNaive T)).len = n := by
      change (vec (4 * n) (MdctNaive.tab n : ℕ → T)).length / 4 = n
      rw [length_vec]; omega
    rw [hl] at hn hK ⊢
    rw [Nat.mul_comm n 2] at hw
    have hv : v.length = 2 * n := by rw [← hw.1]; exact hlen
    have hW := vec_getD' (0 : T) hlen
    have a : Nonempty (MdctAcc R (MdctNaive.toObj ⟨vec (4 * n) (MdctNaive.tab n), w (2 * n)⟩) n (fun i => v.getD i 0) (√n * M) (R.lapNaive n γ)) := by
      rw [hW]
      exact MdctNaive.acc he hn hw.2.2.1 hw.2.1 fun j hj => hw.ap (by omega)
    obtain ⟨a⟩ := a
    exact ⟨he, hv, a.mono hK (le_max_left _ _)⟩
  | @viaDct4 inner w x hi h =>
    obtain ⟨he, hlen, rfl⟩ := MdctViaDct4.new_shape h
    have hn' : 1 ≤ inner.len := hn
    rw [Nat.mul_comm inner.len 2] at hw hlen ⊢
    have hv : v.length = 2 * inner.len := by rw [← hw.1]; exact hlen
    obtain ⟨g, hg⟩ : ∃ g, inner.len = 2 * g := ⟨inner.len / 2, by omega⟩
    have hlen' : (w (2 * inner.len)).length = 4 * g := by rw [hlen, hg]; ring
    have hW := vec_getD' (0 : T) hlen'
    have h4 := ((hi.acc hφ hn').1.weak.accurateAs hn' (by simp)).accW hn' (by simp)
    have a : Nonempty (MdctAcc R (MdctViaDct4.toObj ⟨inner, w (2 * inner.len), inner.len + inner.scratchLen⟩) inner.len (fun i => v.getD i 0) (√inner.len * M)
        (R.lap γ (R.made φ .dct4 inner.len))) := by
      rw [hW]
      have := MdctViaDct4.acc (g := g) (w := fun i => (w (2 * inner.len)).getD i 0) (v := fun i => v.getD i 0) (dct := inner) (by omega) hw.2.2.1
        (R.made_nonneg φ .dct4 inner.len) hw.2.1 (fun j hj => hw.ap (by omega)) hg (hg ▸ h4)
      rw [← hg] at this
      exact this
    obtain ⟨a⟩ := a
    exact ⟨he, hv, a.mono hK (le_max_right _ _)⟩

theorem StepAcc.of {s : CodecStep T} {scr : ℕ} {η : ℝ} {win win' : List T} {w v : List ℝ} (hf : s.Fits n scr) (he : n % 2 = 0) (hn : 1 ≤ n) (lw : w.length = 2 * n) (lv : v.length = 2 * n)
    (hw : WindowNear R win w M γ) (hv : WindowNear R win' v N γ) (a : Nonempty (MdctAcc R s.analysis n (fun i => w.getD i 0) (√n * M) η))
    (b : Nonempty (MdctAcc R s.synthesis n (fun i => v.getD i 0) (√n * N) η)) :
    StepAcc R n scr (√n * M) (√n * N) η (fun i => w.getD i 0) (fun i => v.getD i 0) s := by
  obtain ⟨-, h2, h3, h4, h5, h6⟩ := hf
  obtain ⟨g, rfl⟩ : ∃ g, n = 2 * g := ⟨n / 2, by omega⟩
  refine ⟨h5, h2, h3, h4, h6, a, b, fun a b => ?_, fun X => ?_⟩
  · rw [nm_glue]; exact mdct_bound (by omega) hw.2.2.1 (fun i hi => (hw.ap (by omega)).mag) a b
  · rw [show 2 * (2 * g) = 4 * g by ring]; exact imdct_bound (by omega) hv.2.2.1 (fun i hi => (hv.ap (by omega)).mag) X

/-- From sequences to lists. -/
theorem codec_near {K L η : ℝ} {steps : List (CodecStep T)} {a acc : List T} {m : Mem T} (hn : 1 ≤ n) (hK : 0 ≤ K) (hL : 0 ≤ L) (hη : 0 ≤ η) (ha : a.length = n)
    (hacc : acc.length = n) (hm : m.buf.length = n)
    (h : ∀ t s, steps[t]? = some s → (w t).length = 2 * n ∧ (v t).length = 2 * n ∧
      StepAcc R n m.scr.length K L η (fun i => (w t).getD i 0) (fun i => (v t).getD i 0) s) :
    ∃ Xs outs, codec a steps acc m = .ok (Xs, outs) ∧ CodecNearly R n K L η w v a steps Xs outs := by
  obtain ⟨y, scr⟩ := m
  obtain ⟨f, rfl⟩ := exists_vec ha
  obtain ⟨acc, rfl⟩ := exists_vec hacc
  obtain ⟨y', hy'⟩ := exists_vec hm
  change y = vec _ y' at hy'
  subst hy'
  obtain ⟨Xs, outs, e, l1, l2, c1, -, c3⟩ := codec_run hK hL hη steps (fun t i => (w t).getD i 0) (fun t i => (v t).getD i 0) f acc y' scr (fun t s hs => (h t s hs).2.2)
  have gl : ∀ x g : ℕ → T, Spec.norm2 ((vec n x ++ vec n g).map R.val) = R.pair n x g := fun x g => by
    rw [glue_vec, map_vec, norm2_vec, Rounding.pair, ← seq_glue]; rfl
  have vw : ∀ t s, steps[t]? = some s → w t = vec (2 * n) fun i => (w t).getD i 0 := fun t s hs => by
    have := vec_getD (w t); rw [(h t s hs).1] at this; exact this.symm
  have vv : ∀ t s, steps[t]? = some s → v t = vec (2 * n) fun i => (v t).getD i 0 := fun t s hs => by
    have := vec_getD (v t); rw [(h t s hs).2.1] at this; exact this.symm
  refine ⟨Xs, outs, e, l1, l2, ?_, ?_⟩
  · intro t x s X hx hs hX
    obtain ⟨x', g, X', q1, q2, q3, q4⟩ := c1 t s hs
    rw [hx] at q1; rw [hX] at q3
    injection q1 with q1; injection q3 with q3
    subst q1 q3
    refine ⟨length_vec _ _, ?_⟩
    rw [q2, gl, List.map_append, map_vec, map_vec, map_vec, vw t s hs, spec_mdct_vec, zipWith_vec_same, norm2_vec]
    exact q4
  · intro t x s s' X X' out hx hs hs' hX hX' ho
    obtain ⟨x', g, h', X₁, Y₁, X₂, Y₂, A, q1, q2, q3, q4, q5, q6, q7, q8, q9⟩ := c3 t s s' hs hs'
    rw [hx] at q1; rw [hX] at q4; rw [hX'] at q6; rw [ho] at q8
    injection q1 with q1; injection q4 with q4; injection q6 with q6; injection q8 with q8
    subst q1 q4 q6 q8
    refine ⟨length_vec _ _, ?_⟩
    have ch : ∀ (s : CodecStep T) (X Y : ℕ → T), s.change (vec n X) = vec n Y → R.changed s (vec n X) = (nm1 n).of (R.seq Y - R.seq X) := fun s X Y h => by
      rw [Rounding.changed, h, map_vec, map_vec, zipWith_vec_same, norm2_vec]; rfl
    rw [ch s X₁ Y₁ q5, ch s' X₂ Y₂ q7, q2, q3, gl, gl, map_vec, map_vec, vw t s hs, vv t s hs, vw (t + 1) s' hs', vv (t + 1) s' hs',
      ← seamOutput_vec hn (f := R.seq x') (h := R.seq h'), zipWith_vec_same, norm2_vec]
    exact q9

theorem codec_nil {K L η : ℝ} {a acc : List T} {m : Mem T} : ∃ Xs outs, codec a [] acc m = .ok (Xs, outs) ∧ CodecNearly R n K L η w v a [] Xs outs :=
  ⟨[], [acc], rfl, rfl, rfl, fun t x s X _ h => by simp at h, fun t x s s' X X' out _ h => by simp at h⟩

/-- Instances made by the constructors. -/
theorem C92_made {steps : List (CodecStep T)} {a acc : List T} {m : Mem T} (hφ : 0 ≤ φ) (hn : 1 ≤ n) (h : CodecMade R φ γ M N n m.scr.length w v steps)
    (ha : a.length = n) (hacc : acc.length = n) (hm : m.buf.length = n) :
    ∃ Xs outs, codec a steps acc m = .ok (Xs, outs) ∧ CodecNearly R n (√n * M) (√n * N) (R.madeLap φ γ n) w v a steps Xs outs := by
  cases steps with
  | nil => exact codec_nil
  | cons s₀ rest =>
    obtain ⟨-, ⟨_, -, h1⟩, ⟨_, -, h2⟩⟩ := h 0 s₀ rfl
    refine codec_near hn (mul_nonneg (sqrt_nonneg _) h1.2.2.1) (mul_nonneg (sqrt_nonneg _) h2.2.2.1) (R.madeLap_nonneg n h1.2.1) ha hacc hm fun t s hs => ?_
    obtain ⟨hf, ⟨win, m1, w1⟩, ⟨win', m2, w2⟩⟩ := h t s hs
    obtain ⟨he, l1, a1⟩ := m1.mdctAcc hφ hf.1 hn w1
    obtain ⟨-, l2, a2⟩ := m2.mdctAcc hφ hf.2.1 hn w2
    exact ⟨l1, l2, StepAcc.of hf he hn l1 l2 w1 w2 a1 a2⟩

/-- Instances made by planners. -/
theorem C92_planned {planFft : ℕ → Fft T} {φ : ℕ → ℝ} {steps : List (CodecStep T)} {a acc : List T} {m : Mem T} (hf : PlanFftAccurate R planFft φ) (hn : 1 ≤ n)
    (h : CodecPlanned R planFft γ M N n m.scr.length w v steps) (ha : a.length = n) (hacc : acc.length = n) (hm : m.buf.length = n) :
    ∃ Xs outs, codec a steps acc m = .ok (Xs, outs) ∧ CodecNearly R n (√n * M) (√n * N) (R.lap γ (R.err φ .dct4 n)) w v a steps Xs outs := by
  cases steps with
  | nil => exact codec_nil
  | cons s₀ rest =>
    obtain ⟨-, ⟨_, _, -, h1⟩, ⟨_, _, -, h2⟩⟩ := h 0 s₀ rfl
    refine codec_near hn (mul_nonneg (sqrt_nonneg _) h1.2.2.1) (mul_nonneg (sqrt_nonneg _) h2.2.2.1) (R.lap_nonneg h1.2.1 (R.err_nonneg hf.nonneg .dct4 n)) ha hacc hm fun t s hs => ?_
    obtain ⟨hF, ⟨c1, win, m1, w1⟩, ⟨c2, win', m2, w2⟩⟩ := h t s hs
    obtain ⟨-, he, l1, a1⟩ := m1.acc hf hn w1
    obtain ⟨-, -, l2, a2⟩ := m2.acc hf hn w2
    exact ⟨l1, l2, StepAcc.of hF he hn l1 l2 w1 w2 a1 a2⟩

/-- Where the windows fit together, the block comes out multiplied by `c n / 2`. -/
theorem C92_reconstructs {K L η c : ℝ} {steps : List (CodecStep T)} {a : List T} {Xs outs : List (List T)} (hn : 1 ≤ n) (he : n % 2 = 0) (h : CodecNearly R n K L η w v a steps Xs outs)
    {t : ℕ} {x X X' out : List T} {s s' : CodecStep T} (hw : Spec.Seam n c (w t) (v t) (w (t + 1)) (v (t + 1))) (hb : s.block.length = n)
    (hx : (a :: steps.map (·.block))[t]? = some x) (hs : steps[t]? = some s) (hs' : steps[t + 1]? = some s') (hX : Xs[t]? = some X) (hX' : Xs[t + 1]? = some X') (ho : outs[t + 1]? = some out) :
    out.length = n ∧ Spec.norm2 (List.zipWith (· - ·) (out.map R.val) (s.block.map fun b => c * n / 2 * R.val b)) ≤
      K * L * R.overlap η * (Spec.norm2 ((x ++ s.block).map R.val) + Spec.norm2 ((s.block ++ s'.block).map R.val)) +
      L * (1 + η) * (1 + R.u) * (R.changed s X + R.changed s' X') := by
  have := h.2.2.2 t x s s' X X' out hx hs hs' hX hX' ho
  rw [(C86_seam hn he c _ _ _ _).2 hw _ (by rw [List.length_map, hb]), List.map_map] at this
  exact this

/-- A quantiser that changes every coefficient by at most `q`. -/
theorem C92_quantiser {s : CodecStep T} {X : List T} {q : ℝ} (hX : X.length = n) (hY : (s.change X).length = n)
    (h : ∀ p ∈ List.zip (s.change X) X, |R.val p.1 - R.val p.2| ≤ q) : R.changed s X ≤ √n * q := by
  obtain ⟨f, rfl⟩ := exists_vec hX
  obtain ⟨g, hg⟩ := exists_vec hY
  rw [hg] at h
  have hq : ∀ i, i < n → |R.val (g i) - R.val (f i)| ≤ q := fun i hi => by
    refine h (g i, f i) ?_
    rw [List.mem_iff_getElem]
    exact ⟨i, by simp [hi], by simp [vec]⟩
  rw [Rounding.changed, hg, map_vec, map_vec, zipWith_vec_same]
  unfold Spec.norm2
  rw [map_vec, sum_vec_real]
  rcases Nat.eq_zero_or_pos n with rfl | h0
  · simp
  · have q0 : 0 ≤ q := (abs_nonneg _).trans (hq 0 h0)
    calc √(∑ i ∈ range n, (R.val (g i) - R.val (f i)) ^ 2) ≤ √(∑ i ∈ range n, q ^ 2) :=
          sqrt_le_sqrt (sum_le_sum fun i hi => by rw [← sq_abs]; exact pow_le_pow_left₀ (abs_nonneg _) (hq i (mem_range.1 hi)) 2)
      _ = _ := by rw [sum_const, card_range, nsmul_eq_mul, sqrt_mul (Nat.cast_nonneg n), sqrt_sq q0]

/-- Without a change this is the program of C86. -/
theorem C92_unchanged (steps : List (LapStep T)) : ∀ (a acc : List T) (m : Mem T) (Xs outs : List (List T)),
    codec a (steps.map fun s => ⟨s, id⟩) acc m = .ok (Xs, outs) → lappedSwitching a steps acc m = .ok outs := by
  induction steps with
  | nil =>
    intro a acc m Xs outs h
    simp only [List.map_nil, codec, Outcome.ok.injEq, Prod.mk.injEq] at h
    rw [lappedSwitching, h.2]
  | cons s rest ih =>
    intro a acc m Xs outs h
    rw [List.map_cons, codec] at h
    rw [lappedSwitching]
    dsimp only [id] at h
    cases h1 : s.analysis.mdct a s.block m with
    | panic e z => rw [h1] at h; simp at h
    | ok m₁ =>
      rw [h1] at h
      dsimp only at h ⊢
      cases h2 : s.synthesis.imdct m₁.buf ⟨acc, List.replicate s.synthesis.len 0, m₁.scr⟩ with
      | panic e z => rw [h2] at h; simp at h
      | ok m₂ =>
        rw [h2] at h
        dsimp only at h ⊢
        cases h3 : codec s.block (rest.map fun s => (⟨s, id⟩ : CodecStep T)) m₂.outB ⟨m₁.buf, m₂.scr⟩ with
        | panic e z => rw [h3] at h; simp at h
        | ok r =>
          obtain ⟨Xs', outs'⟩ := r
          rw [h3] at h
          simp only [Outcome.ok.injEq, Prod.mk.injEq] at h
          rw [ih _ _ _ _ _ h3, ← h.2]

/-- No change is no change. -/
theorem C92_lossless (s : LapStep T) (X : List T) : R.changed (⟨s, id⟩ : CodecStep T) X = 0 := by
  have e : X = vec X.length fun i => X.getD i 0 := (vec_getD' (0 : T) rfl)
  rw [Rounding.changed]
  dsimp only [id]
  rw [e, map_vec, zipWith_vec_same]
  unfold Spec.norm2
  rw [map_vec, sum_vec_real]
  simp

/-! ### A concrete case: from the window of MP3 to that of Vorbis, dropping the upper half of the coefficients, in `f32` -/

theorem WindowNear.mono {win : List T} {v : List ℝ} {γ' : ℝ} (h : WindowNear R win v M γ) (hγ : γ ≤ γ') : WindowNear R win v M γ' :=
  ⟨h.1, h.2.1.trans hγ, h.2.2.1, fun p hp => ⟨(h.2.2.2 p hp).1, (h.2.2.2 p hp).2.trans (mul_le_mul_of_nonneg_right hγ h.2.2.1)⟩⟩

theorem WindowNear.hybrid {win win' : List T} {v v' : List ℝ} (k : ℕ) (h : WindowNear R win v M γ) (h' : WindowNear R win' v' M γ) :
    WindowNear R (win.take k ++ win'.drop k) (RustDct.hybrid k v v') M γ := by
  have l1 := h.1
  have l2 := h'.1
  refine ⟨by simp [RustDct.hybrid, l1, l2], h.2.1, h.2.2.1, fun p hp => ?_⟩
  rw [RustDct.hybrid, List.zip_append (by simp [l1])] at hp
  rcases List.mem_append.1 hp with hp | hp
  · refine h.2.2.2 p ?_
    rw [List.zip, ← List.take_zipWith] at hp
    exact List.mem_of_mem_take hp
  · refine h'.2.2.2 p ?_
    rw [List.zip, ← List.drop_zipWith] at hp
    exact List.mem_of_mem_drop hp

theorem naiveFlx_exists (win : List (Flx 24)) (h : win.length = 24) : ∃ o : MdctObj (Flx 24), MadeMdct (fun f => FftAccurate (Flx.rounding 24) f 0) win o ∧ o.len = 12 := by
  obtain ⟨x, hx⟩ : ∃ x : MdctNaive (Flx 24), MdctNaive.new 12 (fun _ => win) = .ok x :=
    ((C37_mdct 12 (⟨12, 0, fun m => .ok m, fun m => .ok m⟩ : Obj4 (Flx 24)) (fun _ => win)).1).1 ⟨by decide, h⟩
  refine ⟨_, .naive hx, ?_⟩
  obtain ⟨-, -, rfl⟩ := MdctNaive.new_tab hx
  change (vec _ _).length / 4 = 12
  rw [length_vec]

/-- Four blocks of length 12; in the second step (window: half sine, half Vorbis) the upper six coefficients are dropped. The two interior blocks come out multiplied by 6, up to roundings and
the dropped coefficients. -/
example (a b c d : List (Flx 24)) (ha : a.length = 12) (hb : b.length = 12) (hc : c.length = 12) (hd : d.length = 12) :
    ∃ (o₁ o₂ o₃ : MdctObj (Flx 24)) (γ : ℝ) (m : Mem (Flx 24)) (X₁ X₂ X₃ y₀ y₁ y₂ y₃ : List (Flx 24)),
      codec a [⟨⟨o₁, o₁, b⟩, id⟩, ⟨⟨o₂, o₂, c⟩, fun X => X.take 6 ++ List.replicate 6 0⟩, ⟨⟨o₃, o₃, d⟩, id⟩] (List.replicate 12 0) m = .ok ([X₁, X₂, X₃], [y₀, y₁, y₂, y₃]) ∧
      MadeMdct (fun f => FftAccurate (Flx.rounding 24) f 0) (WindowFn.mp3 24) o₁ ∧ MadeMdct (fun f => FftAccurate (Flx.rounding 24) f 0) (WindowFn.vorbis 24) o₃ ∧
      Spec.norm2 (List.zipWith (· - ·) (y₁.map (Flx.rounding 24).val) (b.map fun x => 1 * (12 : ℕ) / 2 * (Flx.rounding 24).val x)) ≤
        √(12 : ℕ) * 1 * (√(12 : ℕ) * 1) * (Flx.rounding 24).overlap ((Flx.rounding 24).madeLap 0 γ 12) *
          (Spec.norm2 ((a ++ b).map (Flx.rounding 24).val) + Spec.norm2 ((b ++ c).map (Flx.rounding 24).val)) +
        √(12 : ℕ) * 1 * (1 + (Flx.rounding 24).madeLap 0 γ 12) * (1 + (Flx.rounding 24).u) *
          (0 + Spec.norm2 (List.zipWith (· - ·) ((X₂.take 6 ++ List.replicate 6 0).map (Flx.rounding 24).val) (X₂.map (Flx.rounding 24).val))) := by
  obtain ⟨p, -, q, -⟩ := C56_windows (Flx.rounding 24) (len := 24) (by norm_num)
  set γ := max (Flx.rounding 24).tau ((1 + (Flx.rounding 24).u) * (Flx.rounding 24).vorb - 1)
  replace p := p.mono (le_max_left _ ((1 + (Flx.rounding 24).u) * (Flx.rounding 24).vorb - 1))
  replace q := q.mono (le_max_right (Flx.rounding 24).tau _)
  have pq := p.hybrid 12 q
  obtain ⟨⟨p1, p2⟩, ⟨q1, q2⟩, -⟩ := C24_windows (n := 12) (by norm_num)
  obtain ⟨s1, s2, -⟩ := hybrid_seams 12 (by norm_num)
  rw [(C24_values (2 * 12)).1] at p1 p2 s1 s2
  rw [(C24_values (2 * 12)).2.2.1] at q1 q2 s1 s2
  have lp : (WindowFn.mp3 24 : List (Flx 24)).length = 24 := by rw [p.1]; exact p1.1
  have lq : (WindowFn.vorbis 24 : List (Flx 24)).length = 24 := by rw [q.1]; exact q1.1
  obtain ⟨o₁, m₁, l₁⟩ := naiveFlx_exists _ lp
  obtain ⟨o₂, m₂, l₂⟩ := naiveFlx_exists ((WindowFn.mp3 24 : List (Flx 24)).take 12 ++ (WindowFn.vorbis 24).drop 12) (by simp [lp, lq])
  obtain ⟨o₃, m₃, l₃⟩ := naiveFlx_exists _ lq
  let w : ℕ → List ℝ := fun t => if t = 0 then Spec.sineWindow 24 else if t = 1 then hybrid 12 (Spec.sineWindow 24) (Spec.vorbisWindow 24) else Spec.vorbisWindow 24
  let S := o₁.scratchLen + o₂.scratchLen + o₃.scratchLen
  have hC : CodecMade (Flx.rounding 24) 0 γ 1 1 12 (List.replicate S (0 : Flx 24)).length w w
      [⟨⟨o₁, o₁, b⟩, id⟩, ⟨⟨o₂, o₂, c⟩, fun X => X.take 6 ++ List.replicate 6 0⟩, ⟨⟨o₃, o₃, d⟩, id⟩] := by
    intro t s hs
    rw [List.length_replicate]
    match t, hs with
    | 0, hs =>
      injection hs with hs; subst hs
      exact ⟨⟨l₁, l₁, by dsimp only [S]; omega, by dsimp only [S]; omega, hb, fun X h => h⟩, ⟨_, m₁, p⟩, ⟨_, m₁, p⟩⟩
    | 1, hs =>
      injection hs with hs; subst hs
      exact ⟨⟨l₂, l₂, by dsimp only [S]; omega, by dsimp only [S]; omega, hc, fun X h => by simp [h]⟩, ⟨_, m₂, pq⟩, ⟨_, m₂, pq⟩⟩
    | 2, hs =>
      injection hs with hs; subst hs
      exact ⟨⟨l₃, l₃, by dsimp only [S]; omega, by dsimp only [S]; omega, hd, fun X h => h⟩, ⟨_, m₃, q⟩, ⟨_, m₃, q⟩⟩
    | t + 3, hs => simp at hs
  obtain ⟨Xs, outs, e, h⟩ := C92_made (a := a) (acc := List.replicate 12 0) (m := ⟨List.replicate 12 0, List.replicate S 0⟩) (le_refl 0) (by norm_num) hC ha (by simp) (by simp)
  have k1 := h.1
  have k2 := h.2.1
  obtain ⟨X₁, X₂, X₃, rfl⟩ : ∃ X₁ X₂ X₃, Xs = [X₁, X₂, X₃] := List.length_eq_three.1 k1
  obtain ⟨y₀, y₁, y₂, y₃, rfl⟩ : ∃ y₀ y₁ y₂ y₃, outs = [y₀, y₁, y₂, y₃] := by
    match outs, k2 with
    | [_, _, _, _], _ => exact ⟨_, _, _, _, rfl⟩
  have r := (C92_reconstructs (t := 0) (c := 1) (by norm_num) rfl h s1 hb rfl rfl rfl rfl rfl rfl).2
  rw [C92_lossless] at r
  exact ⟨o₁, o₂, o₃, γ, _, X₁, X₂, X₃, y₀, y₁, y₂, y₃, e, m₁, m₃, r⟩

end RustDct
