import Verif.Proofs.FftEffects
import Verif.Props.Inverse
import Verif.Props.Safety
/-!
# C82: FFT planners with state

`FftOk planFft G`: all FFTs that the FFT planner ever returns satisfy `G`.  `AllFfts G pf`: so do all FFTs of the stateless planner `pf`.
-/

set_option linter.all false

namespace RustDct

variable {T F S : Type} [F64 F] [DctNum T F] {planFft : FftFn S T} {G : ℕ → Fft T → Prop} {H : List (FxCall S T)} {s : S} {k : Kind} {p : Proc T} {n sc : ℕ}

/-! ### Instances -/

/-- An instance planned with an FFT planner that has state could have been planned with a stateless one whose FFTs have the same properties.
So every theorem about planned instances holds for it. -/
theorem C82_planned (hf : FftOk planFft G) (h : PlannedSt planFft H s k p n sc) (hn : 1 ≤ n) : ∃ pf, AllFfts G pf ∧ Planned pf [] k p n sc := by
  obtain ⟨i, s', e, hm⟩ := h
  have := planSt_spec hf k n _ (after_invS hf H s)
  rw [e] at this
  obtain ⟨-, -, -, -, p', sc', h1, h2⟩ := this
  rw [hm] at h1
  injection h1 with h1
  injection h1 with h1 h1'
  subst h1 h1'
  exact h2 hn

/-- For instance: it is safe to use. -/
theorem C82_safe (hf : ∀ m t f t', planFft m t = (some f, t') → f.len = m ∧ f.direction = .forward ∧ FftSane f)
    (h : PlannedSt planFft H s k p n sc) (hn : 1 ≤ n) : Safe p n sc ∧ Panics p n sc := by
  obtain ⟨pf, h1, h2⟩ := C82_planned (G := fun m f => f.len = m ∧ f.direction = .forward ∧ FftSane f)
    ⟨hf, fun m => ⟨dftFft m, dftFft_planSane m⟩, fun m f h => ⟨h.1, h.2.1⟩⟩ h hn
  exact ⟨C26_planned h1 h2, C27_planned h1 h2⟩

/-- For instance: it computes its transform. -/
theorem C82_computes {planFft : FftFn S ℝ} {H : List (FxCall S ℝ)} {p : Proc ℝ} (hf : ∀ m t f t', planFft m t = (some f, t') → f.len = m ∧ FftContract f)
    (h : PlannedSt planFft H s k p n sc) (hn : 1 ≤ n) (buf : List ℝ) (hb : buf.length = n) : processDefault sc p buf = .ok (Spec.onList k.specAt buf) := by
  obtain ⟨pf, h1, h2⟩ := C82_planned (G := fun m f => f.len = m ∧ FftContract f)
    ⟨hf, fun m => ⟨dftFft m, dftFft_plan m⟩, fun m f h => ⟨h.1, h.2.1⟩⟩ h hn
  exact (h2.made h1).performs.2 buf hb

/-! ### Requests -/

/-- A request for a length from 2 on returns an instance of the requested kind, unless the FFT planner panics: then that panic is passed on. -/
theorem C82_total (hf : FftOk planFft G) (H : List (FxCall S T)) (s : S) (k : Kind) (hn : 2 ≤ n) :
    (∃ p sc, PlannedSt planFft H s k p n sc) ∨
    ∃ m st', k.fftLen n = some m ∧ planFft m (plannerAfterSt planFft H s).2 = (none, st'.2) ∧ k.planSt planFft n (plannerAfterSt planFft H s) = .error .fft st' := by
  have := planSt_spec hf k n _ (after_invS hf H s)
  cases e : k.planSt planFft n (plannerAfterSt planFft H s) with
  | ok i st' =>
    rw [e] at this
    obtain ⟨-, -, -, -, p, sc, h, -⟩ := this
    exact .inl ⟨p, sc, i, st', e, h⟩
  | error x st' =>
    rw [e] at this
    cases x with
    | fft => obtain ⟨-, -, m, h1, h2⟩ := this; exact .inr ⟨m, st', h1, h2, rfl⟩
    | own x =>
      obtain ⟨-, -, -, er, pf, -, hp, h⟩ := this
      obtain ⟨p, sc, h'⟩ := planned_exists (hp.shape hf) [] k hn
      exact absurd h' (h p sc)

/-- A request asks the FFT planner for at most one FFT, and only for one of the length that C65 names: whatever the request returns, the
state of the FFT planner is the old one or the one after that question. -/
theorem C82_asks (hf : FftOk planFft G) (H : List (FxCall S T)) (s : S) (k : Kind) (n : ℕ) :
    match k.planSt planFft n (plannerAfterSt planFft H s) with
    | .ok _ st' | .error _ st' => AskedFor planFft (k.fftLen n) (plannerAfterSt planFft H s).2 st'.2 := by
  have := planSt_spec hf k n _ (after_invS hf H s)
  cases e : k.planSt planFft n (plannerAfterSt planFft H s) with
  | ok i st' => rw [e] at this; exact this.2.2.1
  | error x st' =>
    rw [e] at this
    cases x with
    | fft => obtain ⟨-, -, m, h1, h2⟩ := this; exact .inr ⟨m, h1, by rw [h2]⟩
    | own x => exact this.2.2.1

/-- The transforms whose requests share instances. -/
def Kind.sameInstance (k k' : Kind) : Prop :=
  k = k' ∨ k ∈ [Kind.dct2, .dct3, .dst2, .dst3] ∧ k' ∈ [Kind.dct2, .dct3, .dst2, .dst3] ∨ k ∈ [Kind.dct4, .dst4] ∧ k' ∈ [Kind.dct4, .dst4] ∨
  k ∈ [Kind.dct6, .dct7] ∧ k' ∈ [Kind.dct6, .dct7] ∨ k ∈ [Kind.dst6, .dst7] ∧ k' ∈ [Kind.dst6, .dst7]

/-- An instance that was returned is returned again for ever, by every later request for the same length and a transform of the same instance,
whatever happened in between, without asking the FFT planner: nothing changes at all. -/
theorem C82_remembered (hf : FftOk planFft G) {i : Inst T} {st : Planner T × S} (h : k.planSt planFft n (plannerAfterSt planFft H s) = .ok i st)
    (H' : List (FxCall S T)) {k' : Kind} (hk : k.sameInstance k') : k'.planSt planFft n (afterSt planFft H' st) = .ok i (afterSt planFft H' st) := by
  have := planSt_spec hf k n _ (after_invS hf H s)
  rw [h] at this
  obtain ⟨h1, -, -, h2, -⟩ := this
  refine planSt_hit ?_
  have h3 := (afterSt_grows hf H' (h1.mono fun _ _ _ => trivial)).lookSt h2
  rw [← h3]
  rcases hk with rfl | ⟨a, b⟩ | ⟨a, b⟩ | ⟨a, b⟩ | ⟨a, b⟩
  · rfl
  all_goals
    simp only [List.mem_cons, List.not_mem_nil, or_false] at a b
  · rcases a with rfl | rfl | rfl | rfl <;> rcases b with rfl | rfl | rfl | rfl <;> rfl
  all_goals rcases a with rfl | rfl <;> rcases b with rfl | rfl <;> rfl

/-! ### The MDCT -/

theorem planned_of_canonMdct {pf : ℕ → Fft T} {v : List T} {o : MdctObj T} (h : canonMdct pf n (fun _ => v) = .ok o) : PlannedMdct pf [] n (fun _ => v) o := by
  have := planMdct_run (planFft := pf) (W := fun _ _ => True) n (w := fun _ => v) trivial (plannerAfter pf []) (Inv.new 0)
  cases e : planMdct pf n (fun _ => v) (plannerAfter pf []) with
  | ok a s' =>
    rw [e] at this
    have h' := this.2.2.2.2 rfl
    rw [h] at h'
    injection h' with h'
    exact ⟨a, s', e, h'.symm⟩
  | error x s' => rw [e] at this; rw [h] at this; cases this.1

/-- A planned MDCT instance could have been planned with a stateless FFT planner and a window function without effects: one that returns what
the window function of this call or of an earlier call of the same length that returned has returned. -/
theorem C82_mdct (hf : FftOk planFft G) {w : WindowFn S T} {a : Arc (MdctObj T)} {st : Planner T × S}
    (h : planMdctSt planFft n w (plannerAfterSt planFft H s) = .ok a st) :
    ∃ pf v u t t', AllFfts G pf ∧ (u = w ∨ ReturnedMdctSt planFft H s n u) ∧ u (2 * n) t = (some v, t') ∧ v.length = 2 * n ∧ PlannedMdct pf [] n (fun _ => v) a.val := by
  have h0 := after_invS hf H s
  have h1 := planMdctS hf n w (plannerAfterSt planFft H s) (V := fun m v => m = n ∧ (∃ t t', w (2 * n) t = (some v, t')) ∨ Windows planFft H s m v)
    (fun a st' e t v t' hv => .inl ⟨rfl, t, t', hv⟩) (h0.mono fun _ _ h => .inr h)
  rw [h] at h1
  obtain ⟨pf, v, hp, hv, hl, hc⟩ := h1.2.1.mdct n a h1.2.2.2
  rcases hv with ⟨-, t, t', hw⟩ | ⟨u, t, t', hr, hu⟩
  · exact ⟨pf, v, w, t, t', hp, .inl rfl, hw, hl, planned_of_canonMdct hc⟩
  · exact ⟨pf, v, u, t, t', hp, .inr hr, hu, hl, planned_of_canonMdct hc⟩

/-- A call of `plan_mdct` with a length for which no earlier call returned.  The FFT planner is asked first, at most once; if it panics, that
panic is passed on.  An odd length is then rejected without calling the window function.  For an even length the window function is called
once, with `2 n`: if it panics, so does the call; if it returns a vector of another length, the call panics; otherwise it returns an instance
with this window.  Nothing else happens. -/
theorem C82_mdct_fresh (hf : FftOk planFft G) (hH : ∀ w, ¬ ReturnedMdctSt planFft H s n w) (w : WindowFn S T) :
    match planMdctSt planFft n w (plannerAfterSt planFft H s) with
    | .ok a st => ∃ s1 v pf, AskedFor planFft (Kind.dct4.fftLen n) (plannerAfterSt planFft H s).2 s1 ∧ n % 2 = 0 ∧ w (2 * n) s1 = (some v, st.2) ∧
        v.length = 2 * n ∧ AllFfts G pf ∧ PlannedMdct pf [] n (fun _ => v) a.val
    | .error (.own p) st => ∃ s1, AskedFor planFft (Kind.dct4.fftLen n) (plannerAfterSt planFft H s).2 s1 ∧
        (n % 2 = 1 ∧ p = .crate .assertion ∧ st.2 = s1 ∨
         n % 2 = 0 ∧ p = .window ∧ w (2 * n) s1 = (none, st.2) ∨
         n % 2 = 0 ∧ p = .crate .assertion ∧ ∃ v, w (2 * n) s1 = (some v, st.2) ∧ v.length ≠ 2 * n)
    | .error .fft st => ∃ m, Kind.dct4.fftLen n = some m ∧ planFft m (plannerAfterSt planFft H s).2 = (none, st.2) := by
  have h0 := after_invS hf H s
  have hnone : (plannerAfterSt planFft H s).1.mdctCache n = none := by
    cases e : (plannerAfterSt planFft H s).1.mdctCache n with
    | none => rfl
    | some a =>
      obtain ⟨pf, v, -, ⟨u, t, t', hr, -⟩, -⟩ := h0.mdct n a e
      exact absurd hr (hH u)
  have h1 := (planMdctS hf n w (plannerAfterSt planFft H s) (V := fun _ _ => True) (fun _ _ _ _ _ _ _ => trivial) (h0.mono fun _ _ _ => trivial)).1 hnone
  cases e : planMdctSt planFft n w (plannerAfterSt planFft H s) with
  | ok a st =>
    rw [e] at h1
    obtain ⟨s1, v, pf, i1, i2, i3, i4, i5, i6⟩ := h1
    exact ⟨s1, v, pf, i1, i2, i3, i4, i5, planned_of_canonMdct i6⟩
  | error x st =>
    rw [e] at h1
    cases x <;> exact h1

/-- A returned MDCT instance is returned again for ever; neither the FFT planner nor the window function is called. -/
theorem C82_mdct_remembered (hf : FftOk planFft G) {w : WindowFn S T} {a : Arc (MdctObj T)} {st : Planner T × S}
    (h : planMdctSt planFft n w (plannerAfterSt planFft H s) = .ok a st) (H' : List (FxCall S T)) (w' : WindowFn S T) :
    planMdctSt planFft n w' (afterSt planFft H' st) = .ok a (afterSt planFft H' st) := by
  have h0 := after_invS hf H s
  have h1 := (planMdctS hf n w (plannerAfterSt planFft H s) (V := fun _ _ => True) (fun _ _ _ _ _ _ _ => trivial) (h0.mono fun _ _ _ => trivial)).2
  rw [h] at h1
  exact planMdctSt_hit ((afterSt_grows hf H' h1.1).mdct n a h1.2.2) w'

/-! ### A case: an FFT planner that counts, never returns the same FFT twice, and panics every third time -/

def moodyFft : FftFn ℕ T := fun m c => (if c % 3 = 2 then none else some (dftFft m c), c + 1)

theorem moodyFft_ok : FftOk (moodyFft : FftFn ℕ ℝ) (fun m f => f.len = m ∧ FftContract f) where
  gives := by
    intro m c f c' h
    unfold moodyFft at h
    injection h with h _
    split at h
    · cases h
    · injection h with h
      subst h
      exact ⟨rfl, dftFft_contract m c⟩
  some := fun m => ⟨dftFft m, dftFft_plan m⟩
  shape := fun m f h => ⟨h.1, h.2.1⟩

theorem moody_dct2 {m c : ℕ} {q : Planner ℝ} (h1 : dct2Butterflies.contains m = false) (h2 : isPowerOfTwo m = false) (h3 : q.dct23Cache m = none) :
    (c % 3 = 2 → Kind.dct2.planSt moodyFft m (q, c) = .error .fft (q, c + 1)) ∧
    (c % 3 ≠ 2 → ∃ i q', Kind.dct2.planSt moodyFft m (q, c) = .ok i (q', c + 1) ∧ (∃ p sc, i.method .dct2 = some (p, sc)) ∧
      ∀ j, j ≠ m → q'.dct23Cache j = q.dct23Cache j) := by
  have e : planNewDct2St (moodyFft : FftFn ℕ ℝ) m (q, c) = if c % 3 = 2 then .error .fft (q, c + 1)
      else .ok ⟨q.nextId, (Type2And3ConvertToFft.inst (dftFft m c : Fft ℝ)).toObj⟩ ({ q with nextId := q.nextId + 1 }, c + 1) := by
    rw [planNewDct2St, h1, if_neg (by simp), dif_neg (by rw [h2]; simp), bindS_run]
    unfold callFft moodyFft
    by_cases hc : c % 3 = 2
    · simp only [if_pos hc]
    · simp only [if_neg hc]
      rw [Type2And3ConvertToFft.new_eq rfl]
      rfl
  simp only [Kind.planSt, Functor.map, EStateM.map, planDct2St_eq, cacheSt_run, h3, e]
  constructor
  · intro hc; rw [if_pos hc]
  · intro hc
    rw [if_neg hc]
    exact ⟨_, _, rfl, ⟨_, _, rfl⟩, fun j hj => insertCache_ne _ _ hj⟩

/-- Of three DCT-II requests that need an FFT the third panics; the second works and computes the DCT-II. -/
example : ∃ p sc st, PlannedSt (moodyFft : FftFn ℕ ℝ) [.transform .dct2 5] 0 .dct2 p 6 sc ∧
    (∀ buf : List ℝ, buf.length = 6 → processDefault sc p buf = .ok (Spec.onList Kind.dct2.specAt buf)) ∧
    Kind.dct2.planSt (moodyFft : FftFn ℕ ℝ) 7 (plannerAfterSt moodyFft [.transform .dct2 5, .transform .dct2 6] 0) = .error .fft st := by
  obtain ⟨i5, q5, e5, -, c5⟩ := (moody_dct2 (m := 5) (c := 0) (q := Planner.new 0) rfl rfl rfl).2 (by norm_num)
  have s5 : plannerAfterSt (moodyFft : FftFn ℕ ℝ) [.transform .dct2 5] 0 = (q5, 1) := by
    show FxCall.runSt moodyFft (.transform .dct2 5) (Planner.new 0, 0) = _
    unfold FxCall.runSt
    dsimp only
    rw [e5]
  obtain ⟨i6, q6, e6, ⟨p, sc, m6⟩, c6⟩ := (moody_dct2 (m := 6) (c := 1) (q := q5) rfl rfl (by rw [c5 6 (by norm_num)]; rfl)).2 (by norm_num)
  have s6 : plannerAfterSt (moodyFft : FftFn ℕ ℝ) [.transform .dct2 5, .transform .dct2 6] 0 = (q6, 2) := by
    show FxCall.runSt moodyFft (.transform .dct2 6) (plannerAfterSt (moodyFft : FftFn ℕ ℝ) [.transform .dct2 5] 0) = _
    rw [s5]
    unfold FxCall.runSt
    dsimp only
    rw [e6]
  have e7 := (moody_dct2 (m := 7) (c := 2) (q := q6) rfl rfl (by rw [c6 7 (by norm_num), c5 7 (by norm_num)]; rfl)).1 rfl
  have h6 : PlannedSt (moodyFft : FftFn ℕ ℝ) [.transform .dct2 5] 0 .dct2 p 6 sc := ⟨i6, (q6, 2), by rw [s5]; exact e6, m6⟩
  exact ⟨p, sc, (q6, 3), h6, fun buf hb => C82_computes moodyFft_ok.gives h6 (by norm_num) buf hb, by rw [s6]; exact e7⟩

end RustDct
