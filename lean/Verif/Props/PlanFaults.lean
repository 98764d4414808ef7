import Verif.Proofs.PlanFaults
import Verif.Props.FftEffects
/-!
# C84: panics at arbitrary points of the planner

`faults` decides, with a state of its own, at which points the planner panics.  `FftOk planFft G`: all FFTs that the FFT planner ever returns
satisfy `G`.  `AllFfts G pf`: so do all FFTs of the stateless planner `pf`.
-/

set_option linter.all false

namespace RustDct

variable {T F S : Type} [F64 F] [DctNum T F] {faults : FaultFn S} {planFft : FftFn S T} {G : ℕ → Fft T → Prop} {H : List (FxCall S T)} {s : S} {k : Kind}
  {p : Proc T} {n sc : ℕ}

/-! ### The model -/

theorem faultless_bind {α β : Type} (m : PlanSt S T α) (k : α → PlanSt S T β) : faultless (m >>= k) = faultless m >>= fun a => faultless (k a) := by
  funext s
  rw [bindC_run]
  unfold faultless
  rw [bindS_run]
  cases m s <;> rfl

theorem faultless_map {α β : Type} (f : α → β) (m : PlanSt S T α) : faultless (f <$> m) = f <$> faultless m := by
  funext s
  simp only [Functor.map, EStateM.map, faultless]
  cases m s <;> rfl

theorem arcNewCr_no {α : Type} (len : ℕ) (x : Except Err α) : (arcNewCr noFaults len x : PlanCr S T (Arc α)) = faultless (arcNewSt x) := by
  funext s
  unfold arcNewCr
  rw [bindC_run]
  rfl

theorem arcNewMdctCr_no (len : ℕ) (i : Obj4 T) (w : WindowFn S T) : (arcNewMdctCr noFaults len i w : PlanCr S T _) = faultless (arcNewMdctSt i w) := by
  funext s
  unfold arcNewMdctCr
  rw [bindC_run]
  rfl

theorem cacheCr_no {α : Type} (len : ℕ) (look : Planner T → Option (Arc α)) (store : Planner T → Arc α → Planner T) (mk : PlanSt S T (Arc α)) :
    cacheCr noFaults len look store (faultless mk) = faultless (cacheSt look store mk) := by
  funext s
  rw [cacheCr_run]
  unfold faultless
  rw [cacheSt_run]
  cases look s.1 with
  | some a => rfl
  | none => cases mk s <;> rfl

theorem planDct5_no (len : ℕ) : (planDct5Cr noFaults len : PlanCr S T _) = faultless (keepState (planDct5 len)) := by
  rw [planDct5Cr_eq, arcNewCr_no, cacheCr_no, planDct5_eq, keepState_cachePlan]; rfl

theorem planDct6_no (len : ℕ) : (planDct6Cr noFaults len : PlanCr S T _) = faultless (keepState (planDct6 len)) := by
  rw [planDct6Cr_eq, arcNewCr_no, cacheCr_no, planDct6_eq, keepState_cachePlan]; rfl

theorem planDct8_no (len : ℕ) : (planDct8Cr noFaults len : PlanCr S T _) = faultless (keepState (planDct8 len)) := by
  rw [planDct8Cr_eq, arcNewCr_no, cacheCr_no, planDct8_eq, keepState_cachePlan]; rfl

theorem planDst5_no (len : ℕ) : (planDst5Cr noFaults len : PlanCr S T _) = faultless (keepState (planDst5 len)) := by
  rw [planDst5Cr_eq, arcNewCr_no, cacheCr_no, planDst5_eq, keepState_cachePlan]; rfl

theorem planDst8_no (len : ℕ) : (planDst8Cr noFaults len : PlanCr S T _) = faultless (keepState (planDst8 len)) := by
  rw [planDst8Cr_eq, arcNewCr_no, cacheCr_no, planDst8_eq, keepState_cachePlan]; rfl

theorem planDct1_no (len : ℕ) : planDct1Cr noFaults planFft len = faultless (planDct1St planFft len) := by
  rw [planDct1Cr_eq, planDct1St_eq, ← cacheCr_no len]
  congr 1
  unfold planNewDct1Cr planNewDct1St
  split
  · exact arcNewCr_no _ _
  · simp only [arcNewCr_no, faultless_bind]; rfl

theorem planDst1_no (len : ℕ) : planDst1Cr noFaults planFft len = faultless (planDst1St planFft len) := by
  rw [planDst1Cr_eq, planDst1St_eq, ← cacheCr_no len]
  congr 1
  unfold planNewDst1Cr planNewDst1St
  split
  · exact arcNewCr_no _ _
  · simp only [arcNewCr_no, faultless_bind]; rfl

theorem planDst6_no (len : ℕ) : planDst6Cr noFaults planFft len = faultless (planDst6St planFft len) := by
  rw [planDst6Cr_eq, planDst6St_eq, ← cacheCr_no len]
  congr 1
  unfold planNewDst6Cr planNewDst6St
  split
  · exact arcNewCr_no _ _
  · simp only [arcNewCr_no, faultless_bind]; rfl

theorem planDct2_no (len : ℕ) : planDct2Cr noFaults planFft len = faultless (planDct2St planFft len) := by
  induction len using Nat.strongRecOn with
  | ind len ih =>
    rw [planDct2Cr_eq, planDct2St_eq, ← cacheCr_no len]
    congr 1
    rw [planNewDct2Cr, planNewDct2St]
    split
    · unfold planDct2ButterflyCr planDct2Butterfly
      simp only [arcNewCr_no]
      split
      · rw [keepState_arcNew]
      split
      · rw [keepState_arcNew]
      split
      · rw [keepState_arcNew]
      split
      · rw [keepState_arcNew]
      split
      · rw [keepState_arcNew]
      · rfl
    · split
      · rename_i h
        rw [ih (len / 2) (by omega), ih (len / 4) (by omega)]
        simp only [arcNewCr_no, faultless_bind]
      · simp only [arcNewCr_no, faultless_bind]; rfl

theorem planDct4_no (len : ℕ) : planDct4Cr noFaults planFft len = faultless (planDct4St planFft len) := by
  rw [planDct4Cr_eq, planDct4St_eq, ← cacheCr_no len]
  congr 1
  unfold planNewDct4Cr planNewDct4St planDct3Cr planDct3St
  rw [planDct2_no]
  split
  · split
    · exact arcNewCr_no _ _
    · simp only [arcNewCr_no, faultless_bind]
  · split
    · exact arcNewCr_no _ _
    · simp only [arcNewCr_no, faultless_bind]; rfl

/-- Without faults the planner is the one of `Verif/Model/FftEffects.lean`. -/
theorem C84_same (k : Kind) (n : ℕ) : k.planCr noFaults planFft n = faultless (k.planSt planFft n) := by
  cases k <;>
    simp only [Kind.planCr, Kind.planSt, planDct3Cr, planDct3St, faultless_map, planDct1_no, planDct2_no, planDct4_no, planDct5_no, planDct6_no, planDct8_no, planDst1_no, planDst5_no,
      planDst6_no, planDst8_no]

theorem C84_same_mdct (n : ℕ) (w : WindowFn S T) : planMdctCr noFaults planFft n w = faultless (planMdctSt planFft n w) := by
  rw [planMdctCr_eq, planMdctSt_eq, ← cacheCr_no n]
  congr 1
  unfold planNewMdctCr planNewMdctSt
  simp only [planDct4_no, arcNewMdctCr_no, faultless_bind]

/-! ### Instances -/

/-- Whatever panics the planner has been through: an instance that it returns could have been planned by a new planner, without any panic, with a
stateless FFT planner whose FFTs have the same properties.  So every theorem about planned instances holds for it. -/
theorem C84_planned (hf : FftOk planFft G) (h : PlannedCr faults planFft H s k p n sc) (hn : 1 ≤ n) : ∃ pf, AllFfts G pf ∧ Planned pf [] k p n sc := by
  obtain ⟨i, s', e, hm⟩ := h
  have := planCr_spec (faults := faults) hf k n _ (after_invC (faults := faults) hf H s)
  rw [e] at this
  obtain ⟨-, -, -, p', sc', h1, h2⟩ := this
  rw [hm] at h1
  injection h1 with h1
  injection h1 with h1 h1'
  subst h1 h1'
  exact h2 hn

/-- For instance: it is safe to use. -/
theorem C84_safe (hf : ∀ m t f t', planFft m t = (some f, t') → f.len = m ∧ f.direction = .forward ∧ FftSane f)
    (h : PlannedCr faults planFft H s k p n sc) (hn : 1 ≤ n) : Safe p n sc ∧ Panics p n sc := by
  obtain ⟨pf, h1, h2⟩ := C84_planned (G := fun m f => f.len = m ∧ f.direction = .forward ∧ FftSane f)
    ⟨hf, fun m => ⟨dftFft m, dftFft_planSane m⟩, fun m f h => ⟨h.1, h.2.1⟩⟩ h hn
  exact ⟨C26_planned h1 h2, C27_planned h1 h2⟩

/-- For instance: it computes its transform. -/
theorem C84_computes {planFft : FftFn S ℝ} {H : List (FxCall S ℝ)} {p : Proc ℝ} (hf : ∀ m t f t', planFft m t = (some f, t') → f.len = m ∧ FftContract f)
    (h : PlannedCr faults planFft H s k p n sc) (hn : 1 ≤ n) (buf : List ℝ) (hb : buf.length = n) : processDefault sc p buf = .ok (Spec.onList k.specAt buf) := by
  obtain ⟨pf, h1, h2⟩ := C84_planned (G := fun m f => f.len = m ∧ FftContract f)
    ⟨hf, fun m => ⟨dftFft m, dftFft_plan m⟩, fun m f h => ⟨h.1, h.2.1⟩⟩ h hn
  exact (h2.made h1).performs.2 buf hb

/-! ### Requests -/

/-- A request for a length from 2 on returns an instance of the requested kind, unless the FFT planner panics or there is a fault during this request:
earlier panics do no harm. -/
theorem C84_total (hf : FftOk planFft G) (H : List (FxCall S T)) (s : S) (k : Kind) (hn : 2 ≤ n) :
    match k.planCr faults planFft n (plannerAfterCr faults planFft H s) with
    | .ok i _ => ∃ p sc, i.method k = some (p, sc)
    | .error x st' => PanicCause faults planFft (k.fftLen n) st'.2 x := by
  have := planCr_spec (faults := faults) hf k n _ (after_invC (faults := faults) hf H s)
  cases e : k.planCr faults planFft n (plannerAfterCr faults planFft H s) with
  | ok i st' =>
    rw [e] at this
    obtain ⟨-, -, -, p, sc, h, -⟩ := this
    exact ⟨p, sc, h⟩
  | error x st' =>
    rw [e] at this
    obtain ⟨-, -, ⟨er, pf, rfl, hp, h⟩ | h⟩ := this
    · obtain ⟨p, sc, h'⟩ := planned_exists (hp.shape hf) [] k hn
      exact absurd h' (h p sc)
    · exact h

/-- An instance that was returned is returned again for ever, by every later request for the same length and a transform of the same instance, whatever
panics there are in between; nothing is constructed or stored, so such a request cannot panic. -/
theorem C84_remembered (hf : FftOk planFft G) {i : Inst T} {st : Planner T × S} (h : k.planCr faults planFft n (plannerAfterCr faults planFft H s) = .ok i st)
    (H' : List (FxCall S T)) {k' : Kind} (hk : k.sameInstance k') :
    k'.planCr faults planFft n (afterCr faults planFft H' st) = .ok i (afterCr faults planFft H' st) := by
  have := planCr_spec (faults := faults) hf k n _ (after_invC (faults := faults) hf H s)
  rw [h] at this
  obtain ⟨h1, -, h2, -⟩ := this
  refine planCr_hit ?_
  have h3 := (afterCr_grows (faults := faults) hf H' (h1.mono fun _ _ _ => trivial)).lookSt h2
  rw [← h3]
  rcases hk with rfl | ⟨a, b⟩ | ⟨a, b⟩ | ⟨a, b⟩ | ⟨a, b⟩
  · rfl
  all_goals
    simp only [List.mem_cons, List.not_mem_nil, or_false] at a b
  · rcases a with rfl | rfl | rfl | rfl <;> rcases b with rfl | rfl | rfl | rfl <;> rfl
  all_goals rcases a with rfl | rfl <;> rcases b with rfl | rfl <;> rfl

/-! ### The MDCT -/

/-- A planned MDCT instance has the window of this call or of an earlier call of the same length that returned: windows of calls that panicked, even after
their window function had returned, are never used. -/
theorem C84_mdct (hf : FftOk planFft G) {w : WindowFn S T} {a : Arc (MdctObj T)} {st : Planner T × S}
    (h : planMdctCr faults planFft n w (plannerAfterCr faults planFft H s) = .ok a st) :
    ∃ pf v u t t', AllFfts G pf ∧ (u = w ∨ ReturnedMdctCr faults planFft H s n u) ∧ u (2 * n) t = (some v, t') ∧ v.length = 2 * n ∧
      PlannedMdct pf [] n (fun _ => v) a.val := by
  have h0 := after_invC (faults := faults) hf H s
  have h1 := planMdctC (faults := faults) hf n w (plannerAfterCr faults planFft H s)
    (V := fun m v => m = n ∧ (∃ t t', w (2 * n) t = (some v, t')) ∨ WindowsC faults planFft H s m v)
    (fun a st' e t v t' hv => .inl ⟨rfl, t, t', hv⟩) (h0.mono fun _ _ h => .inr h)
  rw [h] at h1
  obtain ⟨pf, v, hp, hv, hl, hc⟩ := h1.2.1.mdct n a h1.2.2.2
  rcases hv with ⟨-, t, t', hw⟩ | ⟨u, t, t', hr, hu⟩
  · exact ⟨pf, v, w, t, t', hp, .inl rfl, hw, hl, planned_of_canonMdct hc⟩
  · exact ⟨pf, v, u, t, t', hp, .inr hr, hu, hl, planned_of_canonMdct hc⟩

/-- A call of `plan_mdct` with a length for which no earlier call returned: it returns an instance with the window that its own window function returned, or
panics for a reason that lies in this call. -/
theorem C84_mdct_fresh (hf : FftOk planFft G) (hH : ∀ w, ¬ ReturnedMdctCr faults planFft H s n w) (w : WindowFn S T) :
    match planMdctCr faults planFft n w (plannerAfterCr faults planFft H s) with
    | .ok a _ => ∃ t v t' pf, n % 2 = 0 ∧ w (2 * n) t = (some v, t') ∧ v.length = 2 * n ∧ AllFfts G pf ∧ PlannedMdct pf [] n (fun _ => v) a.val
    | .error x st => MdctCause faults planFft n w st.2 x := by
  have h0 := after_invC (faults := faults) hf H s
  have hnone : (plannerAfterCr faults planFft H s).1.mdctCache n = none := by
    cases e : (plannerAfterCr faults planFft H s).1.mdctCache n with
    | none => rfl
    | some a =>
      obtain ⟨pf, v, -, ⟨u, t, t', hr, -⟩, -⟩ := h0.mdct n a e
      exact absurd hr (hH u)
  have h1 := (planMdctC (faults := faults) hf n w (plannerAfterCr faults planFft H s) (V := fun _ _ => True) (fun _ _ _ _ _ _ _ => trivial) (h0.mono fun _ _ _ => trivial)).1 hnone
  cases e : planMdctCr faults planFft n w (plannerAfterCr faults planFft H s) with
  | ok a st =>
    rw [e] at h1
    obtain ⟨t, v, t', pf, i1, i2, i3, i4, i5⟩ := h1
    exact ⟨t, v, t', pf, i1, i2, i3, i4, planned_of_canonMdct i5⟩
  | error x st => rw [e] at h1; exact h1

/-- A returned MDCT instance is returned again for ever; the window function is not called. -/
theorem C84_mdct_remembered (hf : FftOk planFft G) {w : WindowFn S T} {a : Arc (MdctObj T)} {st : Planner T × S}
    (h : planMdctCr faults planFft n w (plannerAfterCr faults planFft H s) = .ok a st) (H' : List (FxCall S T)) (w' : WindowFn S T) :
    planMdctCr faults planFft n w' (afterCr faults planFft H' st) = .ok a (afterCr faults planFft H' st) := by
  have h0 := after_invC (faults := faults) hf H s
  have h1 := (planMdctC (faults := faults) hf n w (plannerAfterCr faults planFft H s) (V := fun _ _ => True) (fun _ _ _ _ _ _ _ => trivial) (h0.mono fun _ _ _ => trivial)).2
  rw [h] at h1
  exact planMdctCr_hit ((afterCr_grows hf H' h1.1).mdct n a h1.2.2) w'

/-! ### A concrete case -/

/-- Everything outside counts the points; there is one fault, at the `i`th. -/
def faultAt (i : ℕ) : FaultFn ℕ := fun _ c => (c == i, c + 1)

/-- An FFT planner that works. -/
noncomputable def steadyFft : FftFn S ℝ := fun m s => (some (dftFft m), s)

theorem steadyFft_ok : FftOk (steadyFft : FftFn S ℝ) fun m f => f.len = m ∧ FftContract f := by
  refine ⟨?_, fun m => ⟨dftFft m, dftFft_plan m⟩, fun m f h => ⟨h.1, h.2.1⟩⟩
  intro m t f t' e
  injection e with e e'
  injection e with e
  subst e
  exact dftFft_plan m

/-- A window function that returns the constant window `x`. -/
def constWindow (x : ℝ) : WindowFn S ℝ := fun m s => (some (List.replicate m x), s)

/-- The first request panics when it is about to store its instance, the second one returns an instance, which computes the transform. -/
example : (∃ st, Kind.dct6.planCr (faultAt 1) steadyFft 5 (plannerAfterCr (faultAt 1) (steadyFft : FftFn ℕ ℝ) [] 0) = .error .fault st) ∧
    ∃ p sc, PlannedCr (faultAt 1) (steadyFft : FftFn ℕ ℝ) [.transform .dct6 5] 0 .dct6 p 5 sc ∧
      ∀ buf : List ℝ, buf.length = 5 → processDefault sc p buf = .ok (Spec.onList Kind.dct6.specAt buf) := by
  refine ⟨⟨_, rfl⟩, ?_⟩
  have h : ∃ p sc, PlannedCr (faultAt 1) (steadyFft : FftFn ℕ ℝ) [.transform .dct6 5] 0 .dct6 p 5 sc := ⟨_, _, _, _, rfl, rfl⟩
  obtain ⟨p, sc, h⟩ := h
  exact ⟨p, sc, h, C84_computes steadyFft_ok.gives h (by norm_num)⟩

/-- The first call of `plan_mdct` panics after its window function has returned; the second one, with another window function, uses its own. -/
example : (∃ st, planMdctCr (faultAt 3) (steadyFft : FftFn ℕ ℝ) 2 (constWindow 7) (plannerAfterCr (faultAt 3) (steadyFft : FftFn ℕ ℝ) [] 0) = .error .fault st) ∧
    ∃ a st, planMdctCr (faultAt 3) (steadyFft : FftFn ℕ ℝ) 2 (constWindow 3) (plannerAfterCr (faultAt 3) (steadyFft : FftFn ℕ ℝ) [.mdct 2 (constWindow 7)] 0) = .ok a st ∧
      ∃ pf, AllFfts (fun m f => f.len = m ∧ FftContract f) pf ∧ PlannedMdct pf [] 2 (fun _ => [3, 3, 3, 3]) a.val := by
  refine ⟨⟨_, rfl⟩, ?_⟩
  have h : ∃ a st, planMdctCr (faultAt 3) (steadyFft : FftFn ℕ ℝ) 2 (constWindow 3) (plannerAfterCr (faultAt 3) (steadyFft : FftFn ℕ ℝ) [.mdct 2 (constWindow 7)] 0) = .ok a st :=
    ⟨_, _, rfl⟩
  obtain ⟨a, st, h⟩ := h
  refine ⟨a, st, h, ?_⟩
  have hH : ∀ w, ¬ ReturnedMdctCr (faultAt 3) (steadyFft : FftFn ℕ ℝ) [.mdct 2 (constWindow 7)] 0 2 w := by
    rintro w ⟨pre, post, b, s', e, hr⟩
    have : pre = [] := by
      cases pre with
      | nil => rfl
      | cons c pre =>
        simp only [List.cons_append, List.cons.injEq] at e
        exact absurd e.2.symm (by simp)
    subst this
    simp only [List.nil_append, List.cons.injEq, FxCall.mdct.injEq, true_and] at e
    rw [← e.1] at hr
    cases hr
  have := C84_mdct_fresh steadyFft_ok hH (constWindow 3)
  rw [h] at this
  obtain ⟨t, v, t', pf, -, i2, -, i4, i5⟩ := this
  injection i2 with i2
  injection i2 with i2
  subst i2
  exact ⟨pf, i4, i5⟩

end RustDct
