import Verif.FloatCodec
import Verif.Float.Mdct
/-!
# Rounding errors of the codec of `Verif/FloatCodec.lean`
-/

set_option linter.all false

namespace RustDct
open Finset Real

variable {T F : Type} [F64 F] [DctNum T F] {R : Rounding T F} {n : ℕ} {K L η : ℝ}

theorem MdctAcc.mono {o : MdctObj T} {v : ℕ → ℝ} {K η η' : ℝ} (h : MdctAcc R o n v K η) (hK : 0 ≤ K) (hη : η ≤ η') : Nonempty (MdctAcc R o n v K η') :=
  have e : K * η ≤ K * η' := mul_le_mul_of_nonneg_left hη hK
  ⟨⟨h.C, h.A, h.B, h.runM, h.runI, fun a b => (h.accM a b).trans (mul_le_mul_of_nonneg_right e wn_nonneg),
    fun x oa ob => (h.accI x oa ob).trans (add_le_add_right (mul_le_mul_of_nonneg_right e wn_nonneg) _)⟩⟩

/-- What a step needs, for the windows `w` and `v`. -/
structure StepAcc (R : Rounding T F) (n scr : ℕ) (K L η : ℝ) (w v : ℕ → ℝ) (s : CodecStep T) : Prop where
  block : s.block.length = n
  len : s.synthesis.len = n
  scrA : s.analysis.scratchLen ≤ scr
  scrS : s.synthesis.scratchLen ≤ scr
  change : ∀ X, X.length = n → (s.change X).length = n
  accA : Nonempty (MdctAcc R s.analysis n w K η)
  accS : Nonempty (MdctAcc R s.synthesis n v L η)
  boundA : ∀ a b, (nm1 n).of (Spec.mdctAt n w (cat n a b)) ≤ K * (nm1 (2 * n)).of (glue n a b)
  boundS : ∀ X, (nm1 (2 * n)).of (Spec.imdctAt n v X) ≤ L * (nm1 n).of X

/-- The norm of two blocks. -/
noncomputable def Rounding.pair (R : Rounding T F) (n : ℕ) (a b : ℕ → T) : ℝ := (nm1 (2 * n)).of (glue n (R.seq a) (R.seq b))

/-- One step. -/
theorem StepAcc.step {scr : ℕ} {w v : ℕ → ℝ} {s : CodecStep T} (h : StepAcc R n scr K L η w v s) (hK : 0 ≤ K) (hL : 0 ≤ L) (hη : 0 ≤ η) (f acc y : ℕ → T) (scr₀ : List T)
    (hs : scr₀.length = scr) :
    ∃ (g X Y A B : ℕ → T) (scr₁ scr₂ : List T), s.block = vec n g ∧ s.change (vec n X) = vec n Y ∧ scr₂.length = scr ∧
      s.analysis.mdct (vec n f) (vec n g) ⟨vec n y, scr₀⟩ = .ok ⟨vec n X, scr₁⟩ ∧
      s.synthesis.imdct (vec n Y) ⟨vec n acc, vec n fun _ => 0, scr₁⟩ = .ok ⟨vec n A, vec n B, scr₂⟩ ∧
      (nm1 n).of (R.seq X - Spec.mdctAt n w (cat n (R.seq f) (R.seq g))) ≤ K * η * R.pair n f g ∧
      (nm1 n).of (R.seq A - (R.seq acc + Spec.imdctAt n v (Spec.mdctAt n w (cat n (R.seq f) (R.seq g))))) ≤
        R.u * (nm1 n).of (R.seq acc) + (K * L * ((1 + η) ^ 2 - 1) * R.pair n f g + L * (1 + η) * (nm1 n).of (R.seq Y - R.seq X)) ∧
      (nm1 n).of (R.seq B - fun i => Spec.imdctAt n v (Spec.mdctAt n w (cat n (R.seq f) (R.seq g))) (n + i)) ≤
        K * L * ((1 + η) ^ 2 - 1) * R.pair n f g + L * (1 + η) * (nm1 n).of (R.seq Y - R.seq X) ∧
      (nm1 n).of (fun i => Spec.imdctAt n v (Spec.mdctAt n w (cat n (R.seq f) (R.seq g))) (n + i)) ≤ K * L * R.pair n f g := by
  obtain ⟨a⟩ := h.accA
  obtain ⟨b⟩ := h.accS
  obtain ⟨g, hg⟩ := exists_vec h.block
  obtain ⟨scr₁, e1, l1, -⟩ := a.runM f g y scr₀ (by rw [hs]; exact h.scrA)
  obtain ⟨Y, hY⟩ := exists_vec (h.change (vec n (a.C f g)) (length_vec _ _))
  obtain ⟨scr₂, e2, l2, -⟩ := b.runI Y acc (fun _ => 0) scr₁ (by rw [l1, hs]; exact h.scrS)
  set M := Spec.mdctAt n w (cat n (R.seq f) (R.seq g)) with hM
  set P := R.pair n f g with hP
  have hP0 : 0 ≤ P := wn_nonneg
  have hM' : (nm1 n).of M ≤ K * P := h.boundA _ _
  have d : (nm1 n).of (R.seq (a.C f g) - M) ≤ K * η * P := a.accM f g
  set δ := (nm1 n).of (R.seq Y - R.seq (a.C f g)) with hδ
  have hδ0 : 0 ≤ δ := wn_nonneg
  have dY : (nm1 n).of (R.seq Y - M) ≤ δ + K * η * P := by
    have := nm1_add_le n (R.seq Y - R.seq (a.C f g)) (R.seq (a.C f g) - M)
    rw [sub_add_sub_cancel] at this
    linarith
  have sY : (nm1 n).of (R.seq Y) ≤ δ + K * (1 + η) * P := by
    have := nm1_add_le n (R.seq Y - M) M
    rw [sub_add_cancel] at this
    linarith
  have iY : (nm1 (2 * n)).of (Spec.imdctAt n v (R.seq Y) - Spec.imdctAt n v M) ≤ L * (δ + K * η * P) := by
    rw [← imdctAt_sub]
    exact (h.boundS _).trans (mul_le_mul_of_nonneg_left dY hL)
  have fin : L * η * (nm1 n).of (R.seq Y) + L * (δ + K * η * P) ≤ K * L * ((1 + η) ^ 2 - 1) * P + L * (1 + η) * δ := by
    have := mul_le_mul_of_nonneg_left sY (mul_nonneg hL hη)
    calc _ ≤ L * η * (δ + K * (1 + η) * P) + L * (δ + K * η * P) := by linarith
      _ = _ := by ring
  refine ⟨g, a.C f g, Y, _, _, scr₁, scr₂, hg, hY, by rw [l2, l1, hs], e1, e2, d, ?_, ?_, ?_⟩
  · have i1 := b.accI Y acc (fun _ => 0)
    rw [seq_zero, nm_glue_zero_right] at i1
    have i2 := (nm_fst n _).trans i1
    have i3 : (nm1 n).of (R.seq (b.A Y acc) - (R.seq acc + Spec.imdctAt n v (R.seq Y))) ≤ R.u * (nm1 n).of (R.seq acc) + L * η * (nm1 n).of (R.seq Y) := by
      refine le_trans (le_of_eq (wn_congr fun i hi => ?_)) i2
      simp only [Pi.sub_apply, Pi.add_apply, glue_fst n hi]
    have i4 := nm1_add_le n (R.seq (b.A Y acc) - (R.seq acc + Spec.imdctAt n v (R.seq Y))) (Spec.imdctAt n v (R.seq Y) - Spec.imdctAt n v M)
    have i5 := (nm_fst n _).trans iY
    have e : R.seq (b.A Y acc) - (R.seq acc + Spec.imdctAt n v (R.seq Y)) + (Spec.imdctAt n v (R.seq Y) - Spec.imdctAt n v M) = R.seq (b.A Y acc) - (R.seq acc + Spec.imdctAt n v M) := by abel
    rw [e] at i4
    linarith
  · have i1 := b.accI Y (fun _ => 0) (fun _ => 0)
    rw [seq_zero, nm_glue_zero_right, nm1_zero, mul_zero, zero_add] at i1
    have i2 := (nm_snd n _).trans i1
    have i3 : (nm1 n).of (R.seq (b.B Y fun _ => 0) - fun i => Spec.imdctAt n v (R.seq Y) (n + i)) ≤ L * η * (nm1 n).of (R.seq Y) := by
      refine le_trans (le_of_eq (wn_congr fun i hi => ?_)) i2
      simp only [Pi.sub_apply, Pi.add_apply, glue_snd, Pi.zero_apply, zero_add]
    have i5 := (nm_snd n _).trans iY
    have i4 := nm1_add_le n (R.seq (b.B Y fun _ => 0) - fun i => Spec.imdctAt n v (R.seq Y) (n + i)) (fun i => (Spec.imdctAt n v (R.seq Y) - Spec.imdctAt n v M) (n + i))
    have e : (R.seq (b.B Y fun _ => 0) - fun i => Spec.imdctAt n v (R.seq Y) (n + i)) + (fun i => (Spec.imdctAt n v (R.seq Y) - Spec.imdctAt n v M) (n + i)) =
        R.seq (b.B Y fun _ => 0) - fun i => Spec.imdctAt n v M (n + i) := by
      funext i; simp only [Pi.sub_apply, Pi.add_apply]; ring
    rw [e] at i4
    linarith
  · refine (nm_snd n _).trans ((h.boundS _).trans ?_)
    calc L * (nm1 n).of M ≤ L * (K * P) := mul_le_mul_of_nonneg_left hM' hL
      _ = _ := by ring

/-- The program. -/
theorem codec_run (hK : 0 ≤ K) (hL : 0 ≤ L) (hη : 0 ≤ η) (steps : List (CodecStep T)) :
    ∀ (w v : ℕ → ℕ → ℝ) (f acc y : ℕ → T) (scr : List T), (∀ t s, steps[t]? = some s → StepAcc R n scr.length K L η (w t) (v t) s) →
      ∃ Xs outs, codec (vec n f) steps (vec n acc) ⟨vec n y, scr⟩ = .ok (Xs, outs) ∧ Xs.length = steps.length ∧ outs.length = steps.length + 1 ∧
        (∀ t s, steps[t]? = some s → ∃ x g X, (vec n f :: steps.map (·.block))[t]? = some (vec n x) ∧ s.block = vec n g ∧ Xs[t]? = some (vec n X) ∧
          (nm1 n).of (R.seq X - Spec.mdctAt n (w t) (cat n (R.seq x) (R.seq g))) ≤ K * η * R.pair n x g) ∧
        (∀ s, steps[0]? = some s → ∃ g X Y A, s.block = vec n g ∧ Xs[0]? = some (vec n X) ∧ s.change (vec n X) = vec n Y ∧ outs[0]? = some (vec n A) ∧
          (nm1 n).of (R.seq A - (R.seq acc + Spec.imdctAt n (v 0) (Spec.mdctAt n (w 0) (cat n (R.seq f) (R.seq g))))) ≤
            R.u * (nm1 n).of (R.seq acc) + (K * L * ((1 + η) ^ 2 - 1) * R.pair n f g + L * (1 + η) * (nm1 n).of (R.seq Y - R.seq X))) ∧
        ∀ t s s', steps[t]? = some s → steps[t + 1]? = some s' → ∃ x g h X Y X' Y' A, (vec n f :: steps.map (·.block))[t]? = some (vec n x) ∧ s.block = vec n g ∧
          s'.block = vec n h ∧ Xs[t]? = some (vec n X) ∧ s.change (vec n X) = vec n Y ∧ Xs[t + 1]? = some (vec n X') ∧ s'.change (vec n X') = vec n Y' ∧ outs[t + 1]? = some (vec n A) ∧
          (nm1 n).of (R.seq A - fun i => Spec.imdctAt n (v t) (Spec.mdctAt n (w t) (cat n (R.seq x) (R.seq g))) (n + i) +
              Spec.imdctAt n (v (t + 1)) (Spec.mdctAt n (w (t + 1)) (cat n (R.seq g) (R.seq h))) i) ≤
            K * L * R.overlap η * (R.pair n x g + R.pair n g h) + L * (1 + η) * (1 + R.u) * ((nm1 n).of (R.seq Y - R.seq X) + (nm1 n).of (R.seq Y' - R.seq X')) := by
  induction steps with
  | nil =>
    intro w v f acc y scr _
    exact ⟨_, _, rfl, rfl, rfl, fun t s h => by simp at h, fun s h => by simp at h, fun t s s' h => by simp at h⟩
  | cons s rest ih =>
    intro w v f acc y scr hm
    have hs := hm 0 s rfl
    obtain ⟨g, X, Y, A, B, scr₁, scr₂, hg, hY, l2, e1, e2, dX, dA, dB, sB⟩ := hs.step hK hL hη f acc y scr rfl
    obtain ⟨Xs, outs, e3, k1, k2, c1, c2, c3⟩ := ih (fun t => w (t + 1)) (fun t => v (t + 1)) g B X scr₂ (fun t s' h => by rw [l2]; exact hm (t + 1) s' (by simpa using h))
    refine ⟨vec n X :: Xs, vec n A :: outs, ?_, by simp [k1], by simp [k2], ?_, ?_, ?_⟩
    · rw [codec, hg, e1]; dsimp only
      rw [hY, hs.len, replicate_eq_vec, e2]; dsimp only
      rw [e3]
    · intro t s' h
      cases t with
      | zero =>
        simp only [List.getElem?_cons_zero, Option.some.injEq] at h
        subst h
        exact ⟨f, g, X, rfl, hg, rfl, dX⟩
      | succ t =>
        obtain ⟨x, g', X', q1, q2, q3, q4⟩ := c1 t s' (by simpa using h)
        refine ⟨x, g', X', ?_, q2, by simpa using q3, q4⟩
        rw [List.getElem?_cons_succ, List.map_cons, hg]
        exact q1
    · intro s' h
      simp only [List.getElem?_cons_zero, Option.some.injEq] at h
      subst h
      exact ⟨g, X, Y, A, hg, rfl, hY, rfl, dA⟩
    · intro t s₁ s₂ h1 h2
      cases t with
      | succ t =>
        obtain ⟨x, g', h', X₁, Y₁, X₂, Y₂, A', q1, q2, q3, q4, q5, q6, q7, q8, q9⟩ := c3 t s₁ s₂ (by simpa using h1) (by simpa using h2)
        refine ⟨x, g', h', X₁, Y₁, X₂, Y₂, A', ?_, q2, q3, by simpa using q4, q5, by simpa using q6, q7, by simpa using q8, q9⟩
        rw [List.getElem?_cons_succ, List.map_cons, hg]
        exact q1
      | zero =>
        simp only [List.getElem?_cons_zero, Option.some.injEq] at h1
        subst h1
        obtain ⟨h', X', Y', A', q2, q3, q4, q5, q6⟩ := c2 s₂ (by simpa using h2)
        refine ⟨f, g, h', X, Y, X', Y', A', rfl, hg, q2, rfl, hY, by simpa using q3, q4, by simpa using q5, ?_⟩
        simp only [zero_add] at q6 ⊢
        set P := R.pair n f g
        set Q := R.pair n g h'
        have hP0 : 0 ≤ P := wn_nonneg
        have hQ0 : 0 ≤ Q := wn_nonneg
        set δ := (nm1 n).of (R.seq Y - R.seq X)
        set δ' := (nm1 n).of (R.seq Y' - R.seq X')
        have hδ : 0 ≤ δ := wn_nonneg
        have hδ' : 0 ≤ δ' := wn_nonneg
        have hu := R.u_nonneg
        set E := fun i => Spec.imdctAt n (v 0) (Spec.mdctAt n (w 0) (cat n (R.seq f) (R.seq g))) (n + i) with hE
        have nB : (nm1 n).of (R.seq B) ≤ K * L * (1 + η) ^ 2 * P + L * (1 + η) * δ := by
          have := nm1_add_le n (R.seq B - E) E
          rw [sub_add_cancel] at this
          linarith
        have key := nm1_add_le n (R.seq A' - (R.seq B + Spec.imdctAt n (v 1) (Spec.mdctAt n (w 1) (cat n (R.seq g) (R.seq h'))))) (R.seq B - E)
        have e : R.seq A' - (R.seq B + Spec.imdctAt n (v 1) (Spec.mdctAt n (w 1) (cat n (R.seq g) (R.seq h')))) + (R.seq B - E) =
            R.seq A' - fun i => E i + Spec.imdctAt n (v 1) (Spec.mdctAt n (w 1) (cat n (R.seq g) (R.seq h'))) i := by
          funext i; simp only [Pi.sub_apply, Pi.add_apply]; ring
        rw [e] at key
        have f1 := mul_le_mul_of_nonneg_left nB hu
        have f3 : 0 ≤ R.u * (K * L * (1 + η) ^ 2 * Q) := by positivity
        have f4 : 0 ≤ R.u * (L * (1 + η) * δ') := by positivity
        calc _ ≤ _ := key
          _ ≤ (R.u * (K * L * (1 + η) ^ 2 * P + L * (1 + η) * δ) + (K * L * ((1 + η) ^ 2 - 1) * Q + L * (1 + η) * δ')) +
              (K * L * ((1 + η) ^ 2 - 1) * P + L * (1 + η) * δ) + R.u * (K * L * (1 + η) ^ 2 * Q) + R.u * (L * (1 + η) * δ') := by linarith
          _ = _ := by unfold Rounding.overlap; ring

end RustDct
