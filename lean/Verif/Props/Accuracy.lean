import Mathlib.Analysis.Real.Pi.Bounds
import Verif.Float.DftFft
import Verif.Props.Safety
/-!
# C51–C53: floating-point accuracy of what the planner returns

In the rounding model of `Verif/Rounding.lean` (every operation returns the exact result up to a relative error; no overflow or
underflow).  The bounds are for the Euclidean norm of the whole output and hold for every input.  `Verif/Float/Flx.lean` has number formats
for which the hypotheses hold: `Flx 24` is `f32` and `Flx 53` is `f64`, each with unbounded exponents.
-/

set_option linter.all false

namespace RustDct
open Finset Real

section
variable {T F : Type} [F64 F] [DctNum T F] {R : Rounding T F}
variable {planFft planFft' : ℕ → Fft T} {φ φ' : ℕ → ℝ} {calls calls' : List (PlanCall T)} {k : Kind} {p q : Proc T} {n s t : ℕ}

/-! ### C51: every planned transform is accurate if the FFTs are -/

theorem Planned.two_le (hf : PlanFftShape planFft) (h : Planned planFft calls k p n s) : k = .dct1 → 2 ≤ n := by
  rintro rfl
  have := h.method hf
  cases this
  assumption

/-- The instances that do not read scratch: any scratch will do. -/
theorem C51_planned (hf : PlanFftAccurate R planFft φ) (h : Planned planFft calls k p n s) (hn : 1 ≤ n) (hk : ¬ k.leakyAt n) :
    Approximates R p n s k.spec (k.boundary * R.err φ k n) :=
  ((h.acc hf hn).2 hk).approximates (R.err_nonneg hf.nonneg k n) hn (h.two_le hf.shape)

/-- All instances, on zeroed scratch. -/
theorem C51_planned_zeroed (hf : PlanFftAccurate R planFft φ) (h : Planned planFft calls k p n s) (hn : 1 ≤ n) :
    ApproximatesZeroed R p n s k.spec (k.boundary * R.err φ k n) :=
  (h.acc hf hn).1.approximates (R.err_nonneg hf.nonneg k n) hn (h.two_le hf.shape)

/-- In particular silence stays silence: a buffer of zeros comes back as a buffer of zeros. -/
theorem C51_silence (hf : PlanFftAccurate R planFft φ) (h : Planned planFft calls k p n s) (hn : 1 ≤ n) {buf : List T} (hb : buf.length = n)
    (h0 : ∀ x ∈ buf, R.val x = 0) : ∃ out, processDefault s p buf = .ok out ∧ ∀ x ∈ out, R.val x = 0 := by
  obtain ⟨out, e, hl, hr⟩ := (C51_planned_zeroed hf h hn).2 buf hb
  refine ⟨out, e, ?_⟩
  obtain ⟨f, rfl⟩ := exists_vec hb
  have hz : k.spec ((vec n f).map R.val) = vec n fun _ => 0 := by
    rw [map_vec, k.spec_vec]
    refine vec_congr fun i hi => ?_
    rw [k.specAt_eq]
    refine sum_eq_zero fun j hj => ?_
    rw [h0 (f j) (by simp only [vec, List.mem_map]; exact ⟨j, List.mem_range.2 (mem_range.1 hj), rfl⟩), mul_zero]
  rw [hz] at hl hr
  have hlen : out.length = n := by simpa using hl
  obtain ⟨g, rfl⟩ := exists_vec hlen
  rw [map_vec, zipWith_vec_same, norm2_vec, norm2_vec] at hr
  have hw : wn (fun _ => 1) n (fun _ : ℕ => (0 : ℝ)) = 0 := by simp [wn]
  rw [hw, mul_zero] at hr
  have h1 : ∑ i ∈ range n, R.val (g i) ^ 2 ≤ 0 := by
    have h2 := wn_one_sq (n := n) (x := fun i => R.val (g i) - 0)
    have h3 : wn (fun _ => 1) n (fun i => R.val (g i) - 0) = 0 := le_antisymm hr wn_nonneg
    rw [h3] at h2
    simp only [sub_zero] at h2
    rw [← h2]; norm_num
  intro x hx
  simp only [vec, List.mem_map] at hx
  obtain ⟨i, hi, rfl⟩ := hx
  have h4 := single_le_sum (f := fun i => R.val (g i) ^ 2) (fun i _ => sq_nonneg _) (mem_range.2 (List.mem_range.1 hi))
  exact pow_eq_zero_iff (two_ne_zero) |>.1 (le_antisymm (h4.trans h1) (sq_nonneg _))

/-! ### C52: for powers of two the error grows like the logarithm of the length, whatever the FFT library does -/

theorem Rounding.one_le_rot_sq (R : Rounding T F) : 1 ≤ R.rot ^ 2 := one_le_pow₀ R.one_le_rot

theorem Rounding.even4_step (R : Rounding T F) (j : ℕ) : R.even4 (R.step ^ j - 1) ≤ R.step ^ (j + 1) - 1 := by
  unfold Rounding.even4
  have h1 : (1 + R.u) * R.rot ^ 2 ≤ R.step := by
    unfold Rounding.step
    refine mul_le_mul_of_nonneg_left ?_ (by linarith [R.one_le_u])
    exact pow_le_pow_left₀ (by linarith [R.one_le_rot]) (le_mul_of_one_le_right (by linarith [R.one_le_rot]) R.one_le_u) 2
  have h2 : 0 ≤ R.step ^ j := by linarith [one_le_pow₀ (n := j) R.one_le_step]
  have := mul_le_mul_of_nonneg_right h1 h2
  calc (1 + R.u) * (1 + (R.step ^ j - 1)) * R.rot ^ 2 - 1 = (1 + R.u) * R.rot ^ 2 * R.step ^ j - 1 := by ring
    _ ≤ R.step * R.step ^ j - 1 := by linarith
    _ = R.step ^ (j + 1) - 1 := by ring

/-- The transforms whose planned instances for powers of two are made of butterflies and split radix steps only. -/
def Kind.dyadic : Kind → ℕ → Prop
  | .dct2, j | .dct3, j | .dst2, j | .dst3, j => 1 ≤ j
  | .dct4, j | .dst4, j => 3 ≤ j
  | _, _ => False

theorem Planned.acc_dyadic (R : Rounding T F) {j : ℕ} (hf : PlanFftShape planFft) (h : Planned planFft calls k p (2 ^ j) s) (hk : k.dyadic j) :
    PAcc R k p (2 ^ j) s (R.step ^ j - 1) := by
  generalize hN : 2 ^ j = N at h
  have C23 : ∀ {o : Obj23 T}, canon23 planFft N = .ok o → 1 ≤ j → Acc23 R N o (R.step ^ j - 1) := by
    intro o ho hj
    obtain ⟨i, rfl⟩ : ∃ i, j = i + 1 := ⟨j - 1, by omega⟩
    obtain ⟨o', ho', ha⟩ := canon23_pow2_acc R hf i
    rw [hN, ho] at ho'
    injection ho' with ho'
    subst ho'
    rwa [hN] at ha
  have C4 : ∀ {o : Obj4 T}, canon4 planFft N = .ok o → 3 ≤ j → PAcc R .dct4 o.dct4 N o.scratchLen (R.step ^ j - 1) ∧ PAcc R .dst4 o.dst4 N o.scratchLen (R.step ^ j - 1) := by
    intro o ho hj
    obtain ⟨i, rfl⟩ : ∃ i, j = i + 1 + 1 := ⟨j - 2, by omega⟩
    have h8 : 2 ^ 3 ≤ 2 ^ (i + 1 + 1) := Nat.pow_le_pow_right (by norm_num) hj
    have e2 : N = 2 * 2 ^ (i + 1) := by rw [← hN, pow_succ]; ring
    obtain ⟨x, hx, ha⟩ := canon23_pow2_acc R hf i
    unfold canon4 at ho
    rw [if_pos (by omega), if_neg (by omega), show N / 2 = 2 ^ (i + 1) by omega, hx] at ho
    have ho' : (Type4ConvertToType3Even.new x).map Type4ConvertToType3Even.toObj = .ok o := ho
    have hl : x.len = 2 ^ (i + 1) := by
      obtain ⟨x', hx', -, hl⟩ := canon23_made hf (2 ^ (i + 1))
      rw [hx] at hx'
      injection hx' with hx'
      rw [hx', hl]
    rw [Type4ConvertToType3Even.new_eq hl] at ho'
    injection ho' with ho'
    subst ho'
    have hε : 0 ≤ R.step ^ (i + 1) - 1 := by linarith [one_le_pow₀ (n := i + 1) R.one_le_step]
    have a := Type4ConvertToType3Even.acc_dct4 Nat.one_le_two_pow hε ha.dct3.weak ha.dst3.weak
    have b := Type4ConvertToType3Even.acc_dst4 Nat.one_le_two_pow hε ha.dct3.weak ha.dst3.weak
    rw [← e2] at a b
    exact ⟨a.mono (R.even4_step _), b.mono (R.even4_step _)⟩
  cases h with
  | @dct2 n a s' h => exact (C23 (Yields.canon (fun W => planDct2_yields _) h) hk).dct2
  | @dct3 n a s' h _ => exact (C23 (Yields.canon (fun W => planDct2_yields _) h) hk).dct3
  | @dst2 n a s' h => exact (C23 (Yields.canon (fun W => planDct2_yields _) h) hk).dst2
  | @dst3 n a s' h _ => exact (C23 (Yields.canon (fun W => planDct2_yields _) h) hk).dst3
  | @dct4 n a s' h _ => exact (C4 (Yields.canon (fun W => planDct4_yields _) h) hk).1
  | @dst4 n a s' h _ => exact (C4 (Yields.canon (fun W => planDct4_yields _) h) hk).2
  | _ => exact absurd hk id

theorem Kind.boundary_le (k : Kind) : k.boundary ≤ √2 := by
  cases k <;> simp only [Kind.boundary] <;> first | exact le_refl _ | exact Real.one_le_sqrt.2 (by norm_num)

theorem Approximates.mono {F : List ℝ → List ℝ} {ε ε' : ℝ} (h : Approximates R p n s F ε) (he : ε ≤ ε') : Approximates R p n s F ε' := by
  have hn : ∀ l, 0 ≤ Spec.norm2 l := fun l => sqrt_nonneg _
  refine ⟨fun m hm => ?_, fun buf hb => ?_⟩
  · obtain ⟨m', h1, h2, h3⟩ := h.1 m hm
    exact ⟨m', h1, h2, h3.trans (mul_le_mul_of_nonneg_right he (hn _))⟩
  · obtain ⟨out, h1, h2, h3⟩ := h.2 buf hb
    exact ⟨out, h1, h2, h3.trans (mul_le_mul_of_nonneg_right he (hn _))⟩

/-- Types 2 and 3 of length `2^j`, and type 4 of length `2^j ≥ 8`: one factor `step` for each doubling of the length. -/
theorem C52_planned (R : Rounding T F) (hf : PlanFftShape planFft) {j : ℕ} (h : Planned planFft calls k p (2 ^ j) s) (hk : k.dyadic j) :
    Approximates R p (2 ^ j) s k.spec (√2 * (R.step ^ j - 1)) := by
  have hε : 0 ≤ R.step ^ j - 1 := by linarith [one_le_pow₀ (n := j) R.one_le_step]
  exact ((h.acc_dyadic R hf hk).approximates hε Nat.one_le_two_pow (h.two_le hf)).mono (mul_le_mul_of_nonneg_right k.boundary_le hε)

/-- Explicitly: `2^j` points cost an error of at most `j` times `20 u + 6 τ`. -/
theorem C52_linear (R : Rounding T F) (hf : PlanFftShape planFft) {j : ℕ} (h : Planned planFft calls k p (2 ^ j) s) (hk : k.dyadic j)
    (hj : j * (7 * R.u + 2 * R.tau) ≤ 1) : Approximates R p (2 ^ j) s k.spec (j * (20 * R.u + 6 * R.tau)) := by
  refine (C52_planned R hf h hk).mono ?_
  have hu := R.u_nonneg
  have ht := R.tau_nonneg
  have h1 : R.step ≤ exp (7 * R.u + 2 * R.tau) := by
    have a := add_one_le_exp R.u
    have b := add_one_le_exp R.tau
    have e : exp (7 * R.u + 2 * R.tau) = exp R.u ^ 7 * exp R.tau ^ 2 := by
      rw [← exp_nat_mul, ← exp_nat_mul, ← exp_add]; norm_num
    rw [e]
    unfold Rounding.step Rounding.rot
    have c := pow_le_pow_left₀ (by linarith) (show 1 + R.u ≤ exp R.u by linarith) 7
    have d := pow_le_pow_left₀ (by linarith) (show 1 + R.tau ≤ exp R.tau by linarith) 2
    calc (1 + R.u) * ((1 + R.u) ^ 2 * (1 + R.tau) * (1 + R.u)) ^ 2 = (1 + R.u) ^ 7 * (1 + R.tau) ^ 2 := by ring
      _ ≤ _ := mul_le_mul c d (by positivity) (by positivity)
  have h2 : R.step ^ j ≤ exp (j * (7 * R.u + 2 * R.tau)) := by
    rw [exp_nat_mul]
    exact pow_le_pow_left₀ (by linarith [R.one_le_step]) h1 j
  have hx : 0 ≤ (j : ℝ) * (7 * R.u + 2 * R.tau) := by positivity
  have h3 := abs_exp_sub_one_le (x := (j : ℝ) * (7 * R.u + 2 * R.tau)) (by rwa [abs_of_nonneg hx])
  rw [abs_of_nonneg hx] at h3
  have h4 := (le_abs_self _).trans h3
  have h5 : √2 ≤ 1415 / 1000 := by rw [Real.sqrt_le_left (by norm_num)]; norm_num
  calc √2 * (R.step ^ j - 1) ≤ √2 * (2 * (j * (7 * R.u + 2 * R.tau))) := mul_le_mul_of_nonneg_left (by linarith) (sqrt_nonneg _)
    _ ≤ 1415 / 1000 * (2 * (j * (7 * R.u + 2 * R.tau))) := mul_le_mul_of_nonneg_right h5 (by linarith)
    _ = j * (19.81 * R.u + 5.66 * R.tau) := by ring
    _ ≤ j * (20 * R.u + 6 * R.tau) := mul_le_mul_of_nonneg_left (by linarith) (Nat.cast_nonneg j)

/-! ### C53: transforming forth and back -/

theorem Kind.inv_inv (k : Kind) : k.inv.inv = k := by cases k <;> rfl
theorem Kind.scale_inv (k : Kind) (n : ℕ) : k.inv.scale n = k.scale n := by cases k <;> rfl

theorem PAccZ.roundTrip {ε ε' : ℝ} (h : PAccZ R k p n s ε) (h' : PAccZ R k.inv q n t ε') (hε : 0 ≤ ε) (hε' : 0 ≤ ε') (hn : 1 ≤ n) (h1 : k = .dct1 → 2 ≤ n) (h1' : k.inv = .dct1 → 2 ≤ n)
    {buf : List T} (hb : buf.length = n) :
    ∃ mid out, processDefault s p buf = .ok mid ∧ processDefault t q mid = .ok out ∧
      Spec.RelErr (k.inv.boundary * ((1 + ε) * (1 + ε') - 1)) (out.map R.val) (buf.map fun x => k.scale n * R.val x) := by
  obtain ⟨C, hC, a⟩ := h
  obtain ⟨C', hC', a'⟩ := h'
  obtain ⟨f, rfl⟩ := exists_vec hb
  obtain ⟨s1, e1, -⟩ := hC f []
  obtain ⟨s2, e2, -⟩ := hC' (C f) []
  rw [List.append_nil] at e1 e2
  refine ⟨vec n (C f), vec n (C' (C f)), by unfold processDefault; rw [e1], by unfold processDefault; rw [e2], by simp, ?_⟩
  have hs := k.scale_nonneg hn
  have c := Acc.comp hε' (k.bounded hn h1) (k.inv.bounded hn h1') a a' f
  have hE : 0 ≤ (1 + ε) * (1 + ε') - 1 := by
    linarith [one_le_mul_of_one_le_of_one_le (show 1 ≤ 1 + ε by linarith) (show 1 ≤ 1 + ε' by linarith)]
  rw [k.scale_inv, Real.mul_self_sqrt hs] at c
  have c2 : (k.inv.inv.nm n).of (R.seq (C' (C f)) - fun i => k.scale n * R.seq f i) ≤
      ((1 + ε) * (1 + ε') - 1) * (k.inv.inv.nm n).of (fun i => k.scale n * R.seq f i) := by
    refine le_trans (le_of_eq ?_) (c.trans (le_of_eq ?_))
    · exact wn_congr fun i hi => by simp only [Pi.sub_apply]; rw [k.inv_spec h1 _ hi]
    · congr 1
      rw [k.inv_inv]
      simp only [Kind.nm, Nm.w, wn]
      conv_lhs => rw [← Real.sqrt_sq hs]
      rw [← Real.sqrt_mul (sq_nonneg _), mul_sum]
      congr 1
      refine sum_congr rfl fun i _ => ?_
      rw [norm_mul, mul_pow, Real.norm_eq_abs (k.scale n), sq_abs]; ring
  have d := k.inv.norm_le h1' hE c2
  rw [map_vec, map_vec, zipWith_vec_same, norm2_vec, norm2_vec]
  exact d

/-- A transform followed by its inverse returns the input, times the constant of C17–C20, up to the two errors.  The two instances may come from different
planners. -/
theorem C53_planned (hf : PlanFftAccurate R planFft φ) (hf' : PlanFftAccurate R planFft' φ') (h : Planned planFft calls k p n s)
    (h' : Planned planFft' calls' k.inv q n t) (hn : 1 ≤ n) {buf : List T} (hb : buf.length = n) :
    ∃ mid out, processDefault s p buf = .ok mid ∧ processDefault t q mid = .ok out ∧
      Spec.RelErr (k.inv.boundary * ((1 + R.err φ k n) * (1 + R.err φ' k.inv n) - 1)) (out.map R.val) (buf.map fun x => k.scale n * R.val x) :=
  (h.acc hf hn).1.roundTrip (h'.acc hf' hn).1 (R.err_nonneg hf.nonneg k n) (R.err_nonneg hf'.nonneg k.inv n) hn (h.two_le hf.shape) (h'.two_le hf'.shape) hb

end

/-! ### Concrete number formats -/

/-- `f32` (`Flx 24`): the twiddle factors are accurate to two units of roundoff. -/
theorem tau_f32 : (Flx.rounding 24).tau ≤ 2 * (1 / 2) ^ 24 := by
  have hp : π ≤ 3.15 := pi_lt_d2.le
  have hp0 := pi_pos
  have hA : (1 + (1 / 2 : ℝ) ^ 53) ^ 7 / (1 - (1 / 2) ^ 53) - 1 ≤ 9 * (1 / 2) ^ 53 := by norm_num
  have hA0 : 0 ≤ (1 + (1 / 2 : ℝ) ^ 53) ^ 7 / (1 - (1 / 2) ^ 53) - 1 := by norm_num
  have h1 : 2 * π * ((1 + (1 / 2 : ℝ) ^ 53) ^ 7 / (1 - (1 / 2) ^ 53) - 1) ≤ 2 * 3.15 * (9 * (1 / 2) ^ 53) :=
    mul_le_mul (by linarith) hA hA0 (by norm_num)
  show (1 + (1 / 2 : ℝ) ^ 24) * ((1 + (1 / 2) ^ 53) ^ 2 * (1 + ((1 / 2) ^ 53 + 2 * π * ((1 + (1 / 2) ^ 53) ^ 7 / (1 - (1 / 2) ^ 53) - 1)))) - 1 ≤ 2 * (1 / 2) ^ 24
  generalize 2 * π * ((1 + (1 / 2 : ℝ) ^ 53) ^ 7 / (1 - (1 / 2) ^ 53) - 1) = a at h1
  norm_num at h1 ⊢
  linarith

/-- `f64` (`Flx 53`): to 64 units. -/
theorem tau_f64 : (Flx.rounding 53).tau ≤ 64 * (1 / 2) ^ 53 := by
  have hp : π ≤ 3.15 := pi_lt_d2.le
  have hp0 := pi_pos
  have hA : (1 + (1 / 2 : ℝ) ^ 53) ^ 7 / (1 - (1 / 2) ^ 53) - 1 ≤ 9 * (1 / 2) ^ 53 := by norm_num
  have hA0 : 0 ≤ (1 + (1 / 2 : ℝ) ^ 53) ^ 7 / (1 - (1 / 2) ^ 53) - 1 := by norm_num
  have h1 : 2 * π * ((1 + (1 / 2 : ℝ) ^ 53) ^ 7 / (1 - (1 / 2) ^ 53) - 1) ≤ 2 * 3.15 * (9 * (1 / 2) ^ 53) :=
    mul_le_mul (by linarith) hA hA0 (by norm_num)
  show (1 + (1 / 2 : ℝ) ^ 53) * ((1 + (1 / 2) ^ 53) ^ 2 * (1 + ((1 / 2) ^ 53 + 2 * π * ((1 + (1 / 2) ^ 53) ^ 7 / (1 - (1 / 2) ^ 53) - 1)))) - 1 ≤ 64 * (1 / 2) ^ 53
  generalize 2 * π * ((1 + (1 / 2 : ℝ) ^ 53) ^ 7 / (1 - (1 / 2) ^ 53) - 1) = a at h1
  norm_num at h1 ⊢
  linarith

section
variable {k : Kind} {s j : ℕ}

/-- In `f32`, as long as nothing overflows or underflows, a planned type 2, 3 or 4 transform of `2^j` points has relative error at most `j · 2⁻¹⁹`. -/
theorem C52_f32 {planFft : ℕ → Fft (Flx 24)} {calls : List (PlanCall (Flx 24))} {p : Proc (Flx 24)} (hf : PlanFftShape planFft)
    (h : Planned planFft calls k p (2 ^ j) s) (hk : k.dyadic j) (hj : j ≤ 1000) : Approximates (Flx.rounding 24) p (2 ^ j) s k.spec (j * (1 / 2) ^ 19) := by
  have hj' : (j : ℝ) ≤ 1000 := by exact_mod_cast hj
  have hu : (Flx.rounding 24).u = (1 / 2) ^ 24 := rfl
  have ht := tau_f32
  have ht0 := (Flx.rounding 24).tau_nonneg
  have hb : 7 * (Flx.rounding 24).u + 2 * (Flx.rounding 24).tau ≤ 11 * (1 / 2) ^ 24 := by rw [hu]; linarith
  have hb0 : 0 ≤ 7 * (Flx.rounding 24).u + 2 * (Flx.rounding 24).tau := by rw [hu]; positivity
  refine (C52_linear (Flx.rounding 24) hf h hk ?_).mono (mul_le_mul_of_nonneg_left ?_ (Nat.cast_nonneg j))
  · refine (mul_le_mul hj' hb hb0 (by norm_num)).trans ?_
    norm_num
  · rw [hu]
    calc 20 * (1 / 2 : ℝ) ^ 24 + 6 * (Flx.rounding 24).tau ≤ 20 * (1 / 2) ^ 24 + 6 * (2 * (1 / 2) ^ 24) := by linarith
      _ ≤ (1 / 2) ^ 19 := by norm_num

/-- In `f64`, at most `j · 2⁻⁴⁴`. -/
theorem C52_f64 {planFft : ℕ → Fft (Flx 53)} {calls : List (PlanCall (Flx 53))} {p : Proc (Flx 53)} (hf : PlanFftShape planFft)
    (h : Planned planFft calls k p (2 ^ j) s) (hk : k.dyadic j) (hj : j ≤ 1000) : Approximates (Flx.rounding 53) p (2 ^ j) s k.spec (j * (1 / 2) ^ 44) := by
  have hj' : (j : ℝ) ≤ 1000 := by exact_mod_cast hj
  have hu : (Flx.rounding 53).u = (1 / 2) ^ 53 := rfl
  have ht := tau_f64
  have ht0 := (Flx.rounding 53).tau_nonneg
  have hb : 7 * (Flx.rounding 53).u + 2 * (Flx.rounding 53).tau ≤ 135 * (1 / 2) ^ 53 := by rw [hu]; linarith
  have hb0 : 0 ≤ 7 * (Flx.rounding 53).u + 2 * (Flx.rounding 53).tau := by rw [hu]; positivity
  refine (C52_linear (Flx.rounding 53) hf h hk ?_).mono (mul_le_mul_of_nonneg_left ?_ (Nat.cast_nonneg j))
  · refine (mul_le_mul hj' hb hb0 (by norm_num)).trans ?_
    norm_num
  · rw [hu]
    calc 20 * (1 / 2 : ℝ) ^ 53 + 6 * (Flx.rounding 53).tau ≤ 20 * (1 / 2) ^ 53 + 6 * (64 * (1 / 2) ^ 53) := by linarith
      _ ≤ (1 / 2) ^ 44 := by norm_num

end

/-! The hypotheses can be met: `f32` with the defining sum as FFT. -/

theorem sumFft_shape (p : ℕ) : PlanFftShape (fun n => (sumFft n : Fft (Flx p))) := (sumFft_plan (Flx.rounding p)).shape

/-- All sixteen transforms of 60 points. -/
example (calls : List (PlanCall (Flx 24))) (k : Kind) : ∃ p s, Planned (fun n => (sumFft n : Fft (Flx 24))) calls k p 60 s ∧
    ApproximatesZeroed (Flx.rounding 24) p 60 s k.spec (k.boundary * (Flx.rounding 24).err (Flx.rounding 24).sumErr k 60) :=
  let ⟨p, s, h⟩ := planned_exists (sumFft_shape 24) calls k (n := 60) (by norm_num)
  ⟨p, s, h, C51_planned_zeroed (sumFft_plan _) h (by norm_num)⟩

/-- A DCT4 of 17 points on any scratch. -/
example (calls : List (PlanCall (Flx 24))) : ∃ p s, Planned (fun n => (sumFft n : Fft (Flx 24))) calls .dct4 p 17 s ∧
    Approximates (Flx.rounding 24) p 17 s Spec.dct4 (1 * (Flx.rounding 24).fft4 ((Flx.rounding 24).sumErr 17)) :=
  let ⟨p, s, h⟩ := planned_exists (sumFft_shape 24) calls .dct4 (n := 17) (by norm_num)
  ⟨p, s, h, by
    have := C51_planned (sumFft_plan (Flx.rounding 24)) h (by norm_num) id
    simpa [Kind.spec, Kind.boundary, Rounding.err, Rounding.type4] using this⟩

/-- A DCT2 of 1024 points in `f32`: relative error below 0.00002. -/
example (calls : List (PlanCall (Flx 24))) : ∃ p s, Planned (fun n => (sumFft n : Fft (Flx 24))) calls .dct2 p 1024 s ∧
    Approximates (Flx.rounding 24) p 1024 s Spec.dct2 0.00002 :=
  let ⟨p, s, h⟩ := planned_exists (sumFft_shape 24) calls .dct2 (n := 2 ^ 10) (by norm_num)
  ⟨p, s, h, (C52_f32 (sumFft_shape 24) h (by norm_num [Kind.dyadic]) (by norm_num)).mono (by norm_num)⟩

/-- DCT2 and DCT3 of 96 points. -/
example (calls : List (PlanCall (Flx 24))) : ∃ p s q t, Planned (fun n => (sumFft n : Fft (Flx 24))) calls .dct2 p 96 s ∧
    Planned (fun n => (sumFft n : Fft (Flx 24))) [] .dct3 q 96 t ∧ ∀ buf : List (Flx 24), buf.length = 96 →
    ∃ mid out, processDefault s p buf = .ok mid ∧ processDefault t q mid = .ok out ∧
      Spec.RelErr (1 * ((1 + (Flx.rounding 24).err (Flx.rounding 24).sumErr .dct2 96) * (1 + (Flx.rounding 24).err (Flx.rounding 24).sumErr .dct3 96) - 1))
        (out.map Flx.val) (buf.map fun x => ((96 : ℕ) : ℝ) / 2 * x.val) := by
  obtain ⟨p, s, h⟩ := planned_exists (sumFft_shape 24) calls .dct2 (n := 96) (by norm_num)
  obtain ⟨q, t, h'⟩ := planned_exists (sumFft_shape 24) [] .dct3 (n := 96) (by norm_num)
  exact ⟨p, s, q, t, h, h', fun buf hb => C53_planned (sumFft_plan (Flx.rounding 24)) (sumFft_plan (Flx.rounding 24)) h h' (by norm_num) hb⟩

end RustDct
