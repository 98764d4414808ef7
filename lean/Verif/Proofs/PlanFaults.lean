import Verif.FaultHistory
import Verif.Proofs.FftEffects
/-!
# Proofs for C84: the planner with panics at arbitrary points
-/

set_option linter.all false

namespace RustDct

variable {T F S : Type} [F64 F] [DctNum T F]
variable {faults : FaultFn S} {planFft : FftFn S T} {G : ℕ → Fft T → Prop} {V : ℕ → List T → Prop}

/-- What a planner method does. -/
def GivesC (faults : FaultFn S) (planFft : FftFn S T) (G : ℕ → Fft T → Prop) (V : ℕ → List T → Prop) {α : Type} (L : Option ℕ) (m : PlanCr S T (Arc α))
    (r : (ℕ → Fft T) → Except Err α) (look : Planner T → Arc α → Prop) : Prop :=
  ∀ st, InvS G V st.1 →
    match m st with
    | .ok a st' => (∃ pf, AllFfts G pf ∧ r pf = .ok a.val) ∧ InvS G V st'.1 ∧ Grows st.1 st'.1 ∧ look st'.1 a
    | .error p st' => InvS G V st'.1 ∧ Grows st.1 st'.1 ∧
        ((∃ pf e, AllFfts G pf ∧ p = .plan (.own (.crate e)) ∧ r pf = .error e) ∨ PanicCause faults planFft L st'.2 p)

theorem bindC_run {α β : Type} (m : PlanCr S T α) (k : α → PlanCr S T β) (s : Planner T × S) :
    (m >>= k) s = match m s with
      | .ok a s' => k a s'
      | .error e s' => .error e s' := by
  simp only [bind, EStateM.bind]
  cases m s <;> rfl

/-- The common end of all constructions. -/
theorem arcNewC_of {α : Type} {L : Option ℕ} {r : (ℕ → Fft T) → Except Err α} {x : Except Err α} {pf : ℕ → Fft T} (hp : AllFfts G pf) (hr : r pf = x) (len : ℕ)
    {st0 st : Planner T × S} (hs : InvS G V st.1) (hg : Grows st0.1 st.1) :
    match arcNewCr faults len x st with
    | .ok a st' => (∃ pf, AllFfts G pf ∧ r pf = .ok a.val) ∧ InvS G V st'.1 ∧ Grows st0.1 st'.1 ∧ True
    | .error p st' => InvS G V st'.1 ∧ Grows st0.1 st'.1 ∧
        ((∃ pf e, AllFfts G pf ∧ p = .plan (.own (.crate e)) ∧ r pf = .error e) ∨ PanicCause faults planFft L st'.2 p) := by
  unfold arcNewCr
  rw [bindC_run]
  unfold checkpoint
  rcases e : faults (.make len) st.2 with ⟨_ | _, s'⟩
  · dsimp only [faultless, arcNewSt]
    cases x with
    | ok v => exact ⟨⟨pf, hp, hr⟩, hs.nextId _, hg.trans { Grows.refl st.1 with nextId := Nat.le_succ _ }, trivial⟩
    | error er => exact ⟨hs, hg, .inl ⟨pf, er, hp, rfl, hr⟩⟩
  · exact ⟨hs, hg, .inr ⟨_, _, e⟩⟩

theorem arcNewC {α : Type} (hf : FftOk planFft G) (L : Option ℕ) (len : ℕ) (x : Except Err α) :
    GivesC faults planFft G V L (arcNewCr faults len x) (fun _ => x) (fun _ _ => True) := by
  intro st hs
  obtain ⟨pf, hp⟩ := hf.good
  exact arcNewC_of (r := fun _ => x) hp rfl len hs (Grows.refl _)

theorem callFftC {α : Type} (hf : FftOk planFft G) (n len : ℕ) (q : Fft T → Except Err α) :
    GivesC faults planFft G V (some n) (callFftCr planFft n >>= fun f => arcNewCr faults len (q f)) (fun pf => q (pf n)) (fun _ _ => True) := by
  intro st hs
  obtain ⟨pf, hp⟩ := hf.good
  rw [bindC_run]
  unfold callFftCr faultless callFft
  rcases e : planFft n st.2 with ⟨_ | f, s'⟩
  · exact ⟨hs, Grows.refl _, .inr ⟨n, _, rfl, e⟩⟩
  · dsimp only
    have hp' : AllFfts G (Function.update pf n f) := by
      intro m
      by_cases hm : m = n
      · subst hm; rw [Function.update_self]; exact hf.gives _ _ _ _ e
      · rw [Function.update_of_ne hm]; exact hp m
    have hq : q (Function.update pf n f n) = q f := by simp
    exact arcNewC_of (st := (st.1, s')) (r := fun pf => q (pf n)) hp' hq len hs (Grows.refl _)

theorem bindC {α β : Type} {L : Option ℕ} {m : PlanCr S T (Arc α)} {r : (ℕ → Fft T) → Except Err α} {look : Planner T → Arc α → Prop}
    (h : GivesC faults planFft G V L m r look) (len : ℕ) (q : α → Except Err β) :
    GivesC faults planFft G V L (m >>= fun a => arcNewCr faults len (q a.val)) (fun pf => r pf >>= q) (fun _ _ => True) := by
  intro st hs
  rw [bindC_run]
  have h1 := h st hs
  cases hm : m st with
  | error e st' =>
    rw [hm] at h1
    obtain ⟨h2, h3, ⟨pf, e, hp, rfl, hr⟩ | h4⟩ := h1
    · exact ⟨h2, h3, .inl ⟨pf, e, hp, rfl, by dsimp only; rw [hr]; rfl⟩⟩
    · exact ⟨h2, h3, .inr h4⟩
  | ok a st' =>
    rw [hm] at h1
    obtain ⟨⟨pf, hp, hr⟩, h2, h3, -⟩ := h1
    exact arcNewC_of (r := fun pf => r pf >>= q) hp (by rw [hr]; rfl) len h2 h3

theorem PanicCause.weaken {s' : S} {p : CrashPanic} (h : PanicCause faults planFft none s' p) (L : Option ℕ) : PanicCause faults planFft L s' p := by
  cases p with
  | fault => exact h
  | plan p =>
    cases p with
    | own x => exact h
    | fft => obtain ⟨m, s, h, -⟩ := h; cases h

theorem bind2C {α β γ : Type} {m1 : PlanCr S T (Arc α)} {r1 : (ℕ → Fft T) → Except Err α} {m2 : PlanCr S T (Arc β)} {r2 : (ℕ → Fft T) → Except Err β}
    {l1 : Planner T → Arc α → Prop} {l2 : Planner T → Arc β → Prop}
    (h1 : GivesC faults planFft G V none m1 r1 l1) (h2 : GivesC faults planFft G V none m2 r2 l2)
    (c2 : ∀ pf pf', r2 pf = r2 pf') (len : ℕ) (q : α → β → Except Err γ) (L : Option ℕ) :
    GivesC faults planFft G V L (m1 >>= fun a => m2 >>= fun b => arcNewCr faults len (q a.val b.val)) (fun pf => r1 pf >>= fun a => r2 pf >>= fun b => q a b) (fun _ _ => True) := by
  intro st hs
  rw [bindC_run]
  have k1 := h1 st hs
  cases hm1 : m1 st with
  | error e st' =>
    rw [hm1] at k1
    obtain ⟨k2, k3, ⟨pf, e, hp, rfl, hr⟩ | k4⟩ := k1
    · exact ⟨k2, k3, .inl ⟨pf, e, hp, rfl, by dsimp only; rw [hr]; rfl⟩⟩
    · exact ⟨k2, k3, .inr (k4.weaken L)⟩
  | ok a st' =>
    rw [hm1] at k1
    obtain ⟨⟨pf, hp, hr⟩, k2, k3, -⟩ := k1
    dsimp only
    have j := bindC h2 len (q a.val) st' k2
    cases hm2 : (m2 >>= fun b => arcNewCr faults len (q a.val b.val)) st' with
    | error e st2 =>
      rw [hm2] at j
      obtain ⟨j2, j3, ⟨pf', e, hp', rfl, hr'⟩ | j4⟩ := j
      · refine ⟨j2, k3.trans j3, .inl ⟨pf, e, hp, rfl, ?_⟩⟩
        dsimp only at hr' ⊢
        rw [hr, c2 pf pf']
        exact hr'
      · exact ⟨j2, k3.trans j3, .inr (j4.weaken L)⟩
    | ok b st2 =>
      rw [hm2] at j
      obtain ⟨⟨pf', hp', hr'⟩, j2, j3, -⟩ := j
      refine ⟨⟨pf, hp, ?_⟩, j2, k3.trans j3, trivial⟩
      dsimp only at hr' ⊢
      rw [hr, c2 pf pf']
      exact hr'

/-! ### Caches -/

/-- The cache-or-build pattern. -/
def cacheCr {α : Type} (faults : FaultFn S) (len : ℕ) (look : Planner T → Option (Arc α)) (store : Planner T → Arc α → Planner T) (mk : PlanCr S T (Arc α)) :
    PlanCr S T (Arc α) := do
  match look (← get).1 with
  | some a => return a
  | none =>
    let result ← mk
    storeCr faults len fun s => store s result
    return result

theorem cacheCr_run {α : Type} (len : ℕ) (look : Planner T → Option (Arc α)) (store : Planner T → Arc α → Planner T) (mk : PlanCr S T (Arc α)) (s : Planner T × S) :
    cacheCr faults len look store mk s = match look s.1 with
      | some a => .ok a s
      | none => match mk s with
        | .ok r s' => match faults (.store len) s'.2 with
          | (false, t) => .ok r (store s'.1 r, t)
          | (true, t) => .error .fault (s'.1, t)
        | .error e s' => .error e s' := by
  unfold cacheCr
  simp only [bind, EStateM.bind, get, getThe, MonadStateOf.get, EStateM.get]
  cases h : look s.1 with
  | some a => rfl
  | none =>
    simp only [h, bind, EStateM.bind, storeCr, checkpoint]
    cases mk s with
    | error e s' => rfl
    | ok r s' =>
      dsimp only
      rcases faults (.store len) s'.2 with ⟨_ | _, t⟩ <;> rfl

theorem cachedC {α : Type} {look : Planner T → Option (Arc α)} {store : Planner T → Arc α → Planner T} {mk : PlanCr S T (Arc α)} {L : Option ℕ} {len : ℕ}
    {r : (ℕ → Fft T) → Except Err α} {lk : Planner T → Arc α → Prop} (h : GivesC faults planFft G V L mk r lk)
    (hlook : ∀ s a, InvS G V s → look s = some a → ∃ pf, AllFfts G pf ∧ r pf = .ok a.val)
    (hstore : ∀ s0 s a, look s0 = none → Grows s0 s → InvS G V s → (∃ pf, AllFfts G pf ∧ r pf = .ok a.val) →
      InvS G V (store s a) ∧ Grows s0 (store s a) ∧ look (store s a) = some a) :
    GivesC faults planFft G V L (cacheCr faults len look store mk) r (fun s a => look s = some a) := by
  intro st hs
  rw [cacheCr_run]
  cases hl : look st.1 with
  | some a => exact ⟨hlook _ _ hs hl, hs, Grows.refl _, hl⟩
  | none =>
    have := h st hs
    dsimp only
    cases hm : mk st with
    | error e s' => rw [hm] at this; exact this
    | ok a s' =>
      rw [hm] at this
      obtain ⟨h1, h2, h3, -⟩ := this
      dsimp only
      rcases e : faults (.store len) s'.2 with ⟨_ | _, t⟩
      · obtain ⟨h5, h6, h7⟩ := hstore st.1 s'.1 a hl h3 h2 h1
        exact ⟨h1, h5, h6, h7⟩
      · exact ⟨h2, h3, .inr ⟨_, _, e⟩⟩

macro "plan_cachedC" n:ident : tactic => `(tactic| (
  unfold $n cacheCr
  congr 1
  funext s
  dsimp only
  split <;> (rename_i h; rw [h])))

/-! ### The individual methods -/

theorem planDct1Cr_eq (len : ℕ) : planDct1Cr faults planFft len = cacheCr faults len (fun s => s.dct1Cache len)
    (fun s a => { s with dct1Cache := insertCache s.dct1Cache len a }) (planNewDct1Cr faults planFft len) := by
  plan_cachedC planDct1Cr

theorem planDct1C (hf : FftOk planFft G) (len : ℕ) :
    GivesC faults planFft G V (Kind.dct1.fftLen len) (planDct1Cr faults planFft len) (fun pf => canonDct1 pf len) (fun s a => s.dct1Cache len = some a) := by
  rw [planDct1Cr_eq]
  refine cachedC (lk := fun _ _ => True) ?_ (fun s a hs e => hs.dct1 len a e) ?_
  · unfold planNewDct1Cr canonDct1
    simp only [Kind.fftLen]
    by_cases hn : len < 10
    · simp only [if_pos hn]; exact arcNewC hf _ _ _
    · simp only [if_neg hn]
      rw [show 2 * (len - 1) = (len - 1) * 2 by omega]
      exact callFftC hf _ _ fun f => (Dct1ConvertToFft.new f).map Dct1ConvertToFft.toObj
  · intro s0 s a hl hg hi hr
    exact ⟨{ hi with dct1 := insertCache_inv (P := fun n o => ∃ pf, AllFfts G pf ∧ canonDct1 pf n = .ok o) hi.dct1 hr }, { hg with dct1 := insertCache_grows hl hg.dct1 }, insertCache_self _ _ _⟩

theorem planDst1Cr_eq (len : ℕ) : planDst1Cr faults planFft len = cacheCr faults len (fun s => s.dst1Cache len)
    (fun s a => { s with dst1Cache := insertCache s.dst1Cache len a }) (planNewDst1Cr faults planFft len) := by
  plan_cachedC planDst1Cr

theorem planDst1C (hf : FftOk planFft G) (len : ℕ) :
    GivesC faults planFft G V (Kind.dst1.fftLen len) (planDst1Cr faults planFft len) (fun pf => canonDst1 pf len) (fun s a => s.dst1Cache len = some a) := by
  rw [planDst1Cr_eq]
  refine cachedC (lk := fun _ _ => True) ?_ (fun s a hs e => hs.dst1 len a e) ?_
  · unfold planNewDst1Cr canonDst1
    simp only [Kind.fftLen]
    by_cases hn : len < 25
    · simp only [if_pos hn]; exact arcNewC hf _ _ _
    · simp only [if_neg hn]
      rw [show 2 * (len + 1) = (len + 1) * 2 by omega]
      exact callFftC hf _ _ fun f => (Dst1ConvertToFft.new f).map Dst1ConvertToFft.toObj
  · intro s0 s a hl hg hi hr
    exact ⟨{ hi with dst1 := insertCache_inv (P := fun n o => ∃ pf, AllFfts G pf ∧ canonDst1 pf n = .ok o) hi.dst1 hr }, { hg with dst1 := insertCache_grows hl hg.dst1 }, insertCache_self _ _ _⟩

theorem planDst6Cr_eq (len : ℕ) : planDst6Cr faults planFft len = cacheCr faults len (fun s => s.dst6Cache len)
    (fun s a => { s with dst6Cache := insertCache s.dst6Cache len a }) (planNewDst6Cr faults planFft len) := by
  plan_cachedC planDst6Cr

theorem planDst6C (hf : FftOk planFft G) (len : ℕ) :
    GivesC faults planFft G V (Kind.dst6.fftLen len) (planDst6Cr faults planFft len) (fun pf => canonDst6 pf len) (fun s a => s.dst6Cache len = some a) := by
  rw [planDst6Cr_eq]
  refine cachedC (lk := fun _ _ => True) ?_ (fun s a hs e => hs.dst6 len a e) ?_
  · unfold planNewDst6Cr canonDst6
    simp only [Kind.fftLen]
    by_cases hn : len < 45
    · simp only [if_pos hn]; exact arcNewC hf _ _ _
    · simp only [if_neg hn]
      rw [show 2 * len + 1 = len * 2 + 1 by omega]
      exact callFftC hf _ _ fun f => (Dst6And7ConvertToFft.new f).map Dst6And7ConvertToFft.toObj
  · intro s0 s a hl hg hi hr
    exact ⟨{ hi with dst6 := insertCache_inv (P := fun n o => ∃ pf, AllFfts G pf ∧ canonDst6 pf n = .ok o) hi.dst6 hr }, { hg with dst6 := insertCache_grows hl hg.dst6 }, insertCache_self _ _ _⟩

theorem planDct5Cr_eq (len : ℕ) : (planDct5Cr (S := S) (T := T)) faults len = cacheCr faults len (fun s => s.dct5Cache len)
    (fun s a => { s with dct5Cache := insertCache s.dct5Cache len a }) (arcNewCr faults len (canonDct5 len)) := by
  unfold canonDct5
  plan_cachedC planDct5Cr

theorem planDct5C (hf : FftOk planFft G) (len : ℕ) :
    GivesC faults planFft G V none (planDct5Cr faults len) (fun _ => canonDct5 len) (fun s a => s.dct5Cache len = some a) := by
  rw [planDct5Cr_eq]
  refine cachedC (arcNewC hf _ _ _) (fun s a hs e => hs.dct5 len a e) ?_
  intro s0 s a hl hg hi hr
  exact ⟨{ hi with dct5 := insertCache_inv (P := fun n o => ∃ pf, AllFfts G pf ∧ canonDct5 n = .ok o) hi.dct5 hr }, { hg with dct5 := insertCache_grows hl hg.dct5 }, insertCache_self _ _ _⟩

theorem planDst5Cr_eq (len : ℕ) : (planDst5Cr (S := S) (T := T)) faults len = cacheCr faults len (fun s => s.dst5Cache len)
    (fun s a => { s with dst5Cache := insertCache s.dst5Cache len a }) (arcNewCr faults len (canonDst5 len)) := by
  unfold canonDst5
  plan_cachedC planDst5Cr

theorem planDst5C (hf : FftOk planFft G) (len : ℕ) :
    GivesC faults planFft G V none (planDst5Cr faults len) (fun _ => canonDst5 len) (fun s a => s.dst5Cache len = some a) := by
  rw [planDst5Cr_eq]
  refine cachedC (arcNewC hf _ _ _) (fun s a hs e => hs.dst5 len a e) ?_
  intro s0 s a hl hg hi hr
  exact ⟨{ hi with dst5 := insertCache_inv (P := fun n o => ∃ pf, AllFfts G pf ∧ canonDst5 n = .ok o) hi.dst5 hr }, { hg with dst5 := insertCache_grows hl hg.dst5 }, insertCache_self _ _ _⟩

theorem planDct6Cr_eq (len : ℕ) : (planDct6Cr (S := S) (T := T)) faults len = cacheCr faults len (fun s => s.dct6Cache len)
    (fun s a => { s with dct6Cache := insertCache s.dct6Cache len a }) (arcNewCr faults len (canonDct6 len)) := by
  unfold canonDct6
  plan_cachedC planDct6Cr

theorem planDct6C (hf : FftOk planFft G) (len : ℕ) :
    GivesC faults planFft G V none (planDct6Cr faults len) (fun _ => canonDct6 len) (fun s a => s.dct6Cache len = some a) := by
  rw [planDct6Cr_eq]
  refine cachedC (arcNewC hf _ _ _) (fun s a hs e => hs.dct6 len a e) ?_
  intro s0 s a hl hg hi hr
  exact ⟨{ hi with dct6 := insertCache_inv (P := fun n o => ∃ pf, AllFfts G pf ∧ canonDct6 n = .ok o) hi.dct6 hr }, { hg with dct6 := insertCache_grows hl hg.dct6 }, insertCache_self _ _ _⟩

theorem planDct8Cr_eq (len : ℕ) : (planDct8Cr (S := S) (T := T)) faults len = cacheCr faults len (fun s => s.dct8Cache len)
    (fun s a => { s with dct8Cache := insertCache s.dct8Cache len a }) (arcNewCr faults len (canonDct8 len)) := by
  unfold canonDct8
  plan_cachedC planDct8Cr

theorem planDct8C (hf : FftOk planFft G) (len : ℕ) :
    GivesC faults planFft G V none (planDct8Cr faults len) (fun _ => canonDct8 len) (fun s a => s.dct8Cache len = some a) := by
  rw [planDct8Cr_eq]
  refine cachedC (arcNewC hf _ _ _) (fun s a hs e => hs.dct8 len a e) ?_
  intro s0 s a hl hg hi hr
  exact ⟨{ hi with dct8 := insertCache_inv (P := fun n o => ∃ pf, AllFfts G pf ∧ canonDct8 n = .ok o) hi.dct8 hr }, { hg with dct8 := insertCache_grows hl hg.dct8 }, insertCache_self _ _ _⟩

theorem planDst8Cr_eq (len : ℕ) : (planDst8Cr (S := S) (T := T)) faults len = cacheCr faults len (fun s => s.dst8Cache len)
    (fun s a => { s with dst8Cache := insertCache s.dst8Cache len a }) (arcNewCr faults len (canonDst8 len)) := by
  unfold canonDst8
  plan_cachedC planDst8Cr

theorem planDst8C (hf : FftOk planFft G) (len : ℕ) :
    GivesC faults planFft G V none (planDst8Cr faults len) (fun _ => canonDst8 len) (fun s a => s.dst8Cache len = some a) := by
  rw [planDst8Cr_eq]
  refine cachedC (arcNewC hf _ _ _) (fun s a hs e => hs.dst8 len a e) ?_
  intro s0 s a hl hg hi hr
  exact ⟨{ hi with dst8 := insertCache_inv (P := fun n o => ∃ pf, AllFfts G pf ∧ canonDst8 n = .ok o) hi.dst8 hr }, { hg with dst8 := insertCache_grows hl hg.dst8 }, insertCache_self _ _ _⟩

/-! ### Types 2, 3 and 4 -/

theorem planDct2Cr_eq (len : ℕ) : planDct2Cr faults planFft len = cacheCr faults len (fun s => s.dct23Cache len)
    (fun s a => { s with dct23Cache := insertCache s.dct23Cache len a }) (planNewDct2Cr faults planFft len) := by
  rw [planDct2Cr]
  unfold cacheCr
  congr 1
  funext s
  dsimp only
  split <;> (rename_i h; rw [h])

theorem bflyC (hf : FftOk planFft G) {len : ℕ} (h : dct2Butterflies.contains len = true) (L : Option ℕ) :
    GivesC faults planFft G V L (planDct2ButterflyCr faults len) (fun _ => canonBfly len) (fun _ _ => True) := by
  have e : (planDct2ButterflyCr faults len : PlanCr S T _) = arcNewCr faults len (canonBfly len) := by
    simp only [dct2Butterflies, List.contains_eq_mem, decide_eq_true_eq, List.mem_cons, List.not_mem_nil, or_false] at h
    rcases h with rfl | rfl | rfl | rfl | rfl <;> simp [planDct2ButterflyCr, canonBfly]
  rw [e]
  exact arcNewC hf _ _ _

theorem planDct2_of_newC {len : ℕ} (h : GivesC faults planFft G V (fftLen23 len) (planNewDct2Cr faults planFft len) (fun pf => canon23 pf len) (fun _ _ => True)) :
    GivesC faults planFft G V (fftLen23 len) (planDct2Cr faults planFft len) (fun pf => canon23 pf len) (fun s a => s.dct23Cache len = some a) := by
  rw [planDct2Cr_eq]
  refine cachedC h (fun s a hs e => hs.dct23 len a e) ?_
  intro s0 s a hl hg hi hr
  exact ⟨{ hi with dct23 := insertCache_inv (P := fun n o => ∃ pf, AllFfts G pf ∧ canon23 pf n = .ok o) hi.dct23 hr }, { hg with dct23 := insertCache_grows hl hg.dct23 }, insertCache_self _ _ _⟩

theorem planNewDct2C (hf : FftOk planFft G) (len : ℕ) :
    GivesC faults planFft G V (fftLen23 len) (planNewDct2Cr faults planFft len) (fun pf => canon23 pf len) (fun _ _ => True) := by
  induction len using Nat.strongRecOn with
  | ind len ih =>
    have hc : ∀ pf : ℕ → Fft T, canon23 pf len = _ := fun pf => canon23.eq_def pf len
    simp only [hc]
    rw [planNewDct2Cr]
    by_cases h1 : dct2Butterflies.contains len = true
    · simp only [if_pos h1]; exact bflyC hf h1 _
    · simp only [if_neg h1]
      by_cases h2 : isPowerOfTwo len = true ∧ len > 2
      · simp only [dif_pos h2]
        obtain ⟨q, rfl, h8, hq1, hq2⟩ := pow2_shape (by simpa using h1) h2.1 h2.2
        have e1 : 4 * q / 2 = 2 * q := by omega
        have e2 : 4 * q / 4 = q := by omega
        rw [e1, e2]
        have a := planDct2_of_newC (ih (2 * q) (by omega))
        have b := planDct2_of_newC (ih q (by omega))
        rw [Param.fftLen23_pow2 hq2 (by omega)] at a
        rw [Param.fftLen23_pow2 hq1 (by omega)] at b
        exact bind2C a b (canon23_const (Param.fftLen23_pow2 hq1 (by omega))) _ (fun x y => (Type2And3SplitRadix.new x y).map Type2And3SplitRadix.toObj) _
      · simp only [dif_neg h2]
        rw [Param.fftLen23_of h1 h2]
        exact callFftC hf _ _ fun f => (Type2And3ConvertToFft.new f).map Type2And3ConvertToFft.toObj

theorem planDct2C (hf : FftOk planFft G) (len : ℕ) :
    GivesC faults planFft G V (fftLen23 len) (planDct2Cr faults planFft len) (fun pf => canon23 pf len) (fun s a => s.dct23Cache len = some a) :=
  planDct2_of_newC (planNewDct2C hf len)

theorem planDct4Cr_eq (len : ℕ) : planDct4Cr faults planFft len = cacheCr faults len (fun s => s.dct4Cache len)
    (fun s a => { s with dct4Cache := insertCache s.dct4Cache len a }) (planNewDct4Cr faults planFft len) := by
  plan_cachedC planDct4Cr

theorem planDct4C (hf : FftOk planFft G) (len : ℕ) :
    GivesC faults planFft G V (Kind.dct4.fftLen len) (planDct4Cr faults planFft len) (fun pf => canon4 pf len) (fun s a => s.dct4Cache len = some a) := by
  rw [planDct4Cr_eq]
  refine cachedC (lk := fun _ _ => True) ?_ (fun s a hs e => hs.dct4 len a e) ?_
  · unfold planNewDct4Cr canon4 planDct3Cr
    simp only [Kind.fftLen]
    by_cases h2 : len % 2 = 0
    · simp only [if_pos h2]
      by_cases hn : len < 6
      · simp only [if_pos hn]; exact arcNewC hf _ _ _
      · simp only [if_neg hn]
        exact bindC (planDct2C hf _) _ fun x => (Type4ConvertToType3Even.new x).map Type4ConvertToType3Even.toObj
    · simp only [if_neg h2]
      by_cases hn : len < 7
      · simp only [if_pos hn]; exact arcNewC hf _ _ _
      · simp only [if_neg hn]
        exact callFftC hf _ _ fun f => (Type4ConvertToFftOdd.new f).map Type4ConvertToFftOdd.toObj
  · intro s0 s a hl hg hi hr
    exact ⟨{ hi with dct4 := insertCache_inv (P := fun n o => ∃ pf, AllFfts G pf ∧ canon4 pf n = .ok o) hi.dct4 hr }, { hg with dct4 := insertCache_grows hl hg.dct4 }, insertCache_self _ _ _⟩

/-! ### The MDCT -/

theorem planMdctCr_eq (len : ℕ) (w : WindowFn S T) : planMdctCr faults planFft len w = cacheCr faults len (fun s => s.mdctCache len)
    (fun s a => { s with mdctCache := insertCache s.mdctCache len a }) (planNewMdctCr faults planFft len w) := by
  plan_cachedC planMdctCr

theorem planMdctCr_hit {st : Planner T × S} {n : ℕ} {a : Arc (MdctObj T)} (h : st.1.mdctCache n = some a) (w : WindowFn S T) :
    planMdctCr faults planFft n w st = .ok a st := by
  rw [planMdctCr_eq, cacheCr_run]
  simp only [h]

/-- What `plan_mdct` does when nothing is cached for the length. -/
def FreshMdctC (faults : FaultFn S) (planFft : FftFn S T) (G : ℕ → Fft T → Prop) (n : ℕ) (w : WindowFn S T)
    (r : EStateM.Result CrashPanic (Planner T × S) (Arc (MdctObj T))) : Prop :=
  match r with
  | .ok a _ => ∃ t v t' pf, n % 2 = 0 ∧ w (2 * n) t = (some v, t') ∧ v.length = 2 * n ∧ AllFfts G pf ∧ canonMdct pf n (fun _ => v) = .ok a.val
  | .error p st => MdctCause faults planFft n w st.2 p

theorem planNewMdctC (hf : FftOk planFft G) (n : ℕ) (w : WindowFn S T) (st : Planner T × S) (hs : InvS G V st.1) :
    FreshMdctC faults planFft G n w (planNewMdctCr faults planFft n w st) ∧
    match planNewMdctCr faults planFft n w st with
    | .ok _ st' | .error _ st' => InvS G V st'.1 ∧ Grows st.1 st'.1 := by
  unfold planNewMdctCr
  rw [bindC_run]
  have h4 := planDct4C (faults := faults) hf n st hs
  cases e4 : planDct4Cr faults planFft n st with
  | error e st1 =>
    rw [e4] at h4
    obtain ⟨h5, h6, ⟨pf, e, hp, rfl, hr⟩ | h7⟩ := h4
    · dsimp only at hr
      obtain ⟨o, ho, -⟩ := canon4_made (hp.shape hf) n
      rw [ho] at hr
      cases hr
    · exact ⟨.inr h7, h5, h6⟩
  | ok i st1 =>
    rw [e4] at h4
    obtain ⟨⟨pf, hp, hr⟩, h5, h6, -⟩ := h4
    dsimp only at hr
    have hl : i.val.len = n := by
      obtain ⟨o, ho, -, h⟩ := canon4_made (hp.shape hf) n
      rw [ho] at hr
      injection hr with hr
      rw [← hr]; exact h
    dsimp only
    unfold arcNewMdctCr
    rw [bindC_run]
    unfold checkpoint
    rcases ef : faults (.make n) st1.2 with ⟨_ | _, s2⟩
    swap
    · exact ⟨.inr ⟨_, _, ef⟩, h5, h6⟩
    dsimp only [faultless, arcNewMdctSt]
    obtain ⟨k1, k2⟩ := C71_viaDct4 i.val w s2
    rw [hl] at k1 k2
    rcases Nat.mod_two_eq_zero_or_one n with hn | hn
    · have k2 := k2 hn
      rcases hw : w (2 * n) s2 with ⟨_ | v, s'⟩
      · rw [hw] at k2
        dsimp only at k2
        rw [k2]
        exact ⟨.inl (.inr (.inl ⟨hn, rfl, s2, hw⟩)), h5, h6⟩
      · rw [hw] at k2
        dsimp only at k2
        by_cases hv : v.length = 2 * n
        · have hx : MdctViaDct4.new i.val (fun _ => v) = .ok ⟨i.val, v, n + i.val.scratchLen⟩ := by
            unfold MdctViaDct4.new
            simp only [hl, hn, hv, not_true_eq_false, if_false, mul_comm n 2, ne_eq]
          rw [hx] at k2
          dsimp only at k2
          rw [k2]
          refine ⟨⟨s2, v, s', pf, hn, hw, hv, hp, ?_⟩, h5.nextId _, h6.trans { Grows.refl st1.1 with nextId := Nat.le_succ _ }⟩
          unfold canonMdct
          rw [hr]
          show (MdctViaDct4.new i.val (fun _ => v)).map MdctViaDct4.toObj = _
          rw [hx]; rfl
        · have hx : MdctViaDct4.new i.val (fun _ => v) = .error .assertion := by
            unfold MdctViaDct4.new
            simp only [hl, hn, hv, not_true_eq_false, if_false, mul_comm n 2, ne_eq, not_false_eq_true, if_true]
          rw [hx] at k2
          dsimp only at k2
          rw [k2]
          exact ⟨.inl (.inr (.inr ⟨hn, rfl, s2, v, hw, hv⟩)), h5, h6⟩
    · rw [k1 hn]
      exact ⟨.inl (.inl ⟨hn, rfl⟩), h5, h6⟩

theorem planMdctC (hf : FftOk planFft G) (n : ℕ) (w : WindowFn S T) (st : Planner T × S)
    (hw : ∀ a st', planMdctCr faults planFft n w st = .ok a st' → ∀ s v s', w (2 * n) s = (some v, s') → V n v) (hs : InvS G V st.1) :
    (st.1.mdctCache n = none → FreshMdctC faults planFft G n w (planMdctCr faults planFft n w st)) ∧
    match planMdctCr faults planFft n w st with
    | .ok a st' => InvS G V st'.1 ∧ Grows st.1 st'.1 ∧ st'.1.mdctCache n = some a
    | .error _ st' => InvS G V st'.1 ∧ Grows st.1 st'.1 := by
  rw [planMdctCr_eq, cacheCr_run] at hw ⊢
  cases hl : st.1.mdctCache n with
  | some a => exact ⟨fun h => (by cases h), hs, Grows.refl _, hl⟩
  | none =>
    obtain ⟨h1, h2⟩ := planNewMdctC (faults := faults) hf n w st hs
    rw [hl] at hw
    dsimp only at hw ⊢
    cases e : planNewMdctCr faults planFft n w st with
    | error p st' =>
      rw [e] at h1 h2
      exact ⟨fun _ => h1, h2⟩
    | ok a st' =>
      rw [e] at h1 h2
      rw [e] at hw
      dsimp only at hw ⊢
      rcases ef : faults (.store n) st'.2 with ⟨_ | _, t⟩
      · rw [ef] at hw
        obtain ⟨s1, v, t', pf, i1, i2, i3, i4, i5⟩ := h1
        refine ⟨fun _ => ⟨s1, v, t', pf, i1, i2, i3, i4, i5⟩, { h2.1 with mdct := ?_ }, { h2.2 with mdct := insertCache_grows hl h2.2.mdct }, insertCache_self _ _ _⟩
        exact insertCache_inv (P := fun n o => ∃ pf v, AllFfts G pf ∧ V n v ∧ v.length = 2 * n ∧ canonMdct pf n (fun _ => v) = .ok o) h2.1.mdct
          ⟨pf, v, i4, hw _ _ rfl _ _ _ i2, i3, i5⟩
      · exact ⟨fun _ => .inr ⟨_, _, ef⟩, h2⟩

/-! ### All transforms -/

/-- What a request does. -/
def KindSpecC (faults : FaultFn S) (planFft : FftFn S T) (G : ℕ → Fft T → Prop) (V : ℕ → List T → Prop) (k : Kind) (n : ℕ) (st : Planner T × S)
    (r : EStateM.Result CrashPanic (Planner T × S) (Inst T)) : Prop :=
  match r with
  | .ok i st' => InvS G V st'.1 ∧ Grows st.1 st'.1 ∧ k.lookSt n st'.1 = some i ∧
      ∃ p sc, i.method k = some (p, sc) ∧ (1 ≤ n → ∃ pf, AllFfts G pf ∧ Planned pf [] k p n sc)
  | .error x st' => InvS G V st'.1 ∧ Grows st.1 st'.1 ∧
      ((∃ e pf, x = .plan (.own (.crate e)) ∧ AllFfts G pf ∧ ∀ p sc, ¬ Planned pf [] k p n sc) ∨ PanicCause faults planFft (k.fftLen n) st'.2 x)

theorem liftKindC {α : Type} {k : Kind} {n : ℕ} {m : PlanCr S T (Arc α)} {r : (ℕ → Fft T) → Except Err α} {look : Planner T → Arc α → Prop}
    (h : GivesC faults planFft G V (k.fftLen n) m r look) (c : Arc α → Inst T) (hl : ∀ s a, look s a → k.lookSt n s = some (c a))
    (hok : ∀ pf a, r pf = .ok a.val → ∃ p sc, (c a).method k = some (p, sc) ∧ (1 ≤ n → Planned pf [] k p n sc))
    (herr : ∀ pf e, r pf = .error e → ∀ p sc, ¬ Planned pf [] k p n sc) (st : Planner T × S) (hs : InvS G V st.1) :
    KindSpecC faults planFft G V k n st ((c <$> m) st) := by
  have h1 := h st hs
  simp only [Functor.map, EStateM.map]
  cases e : m st with
  | ok a st' =>
    rw [e] at h1
    obtain ⟨⟨pf, hp, hr⟩, h2, h3, h5⟩ := h1
    obtain ⟨p, sc, h6, h7⟩ := hok pf a hr
    exact ⟨h2, h3, hl _ _ h5, p, sc, h6, fun hn => ⟨pf, hp, h7 hn⟩⟩
  | error x st' =>
    rw [e] at h1
    obtain ⟨h2, h3, ⟨pf, er, hp, rfl, hr⟩ | h4⟩ := h1
    · exact ⟨h2, h3, .inl ⟨er, pf, rfl, hp, herr pf er hr⟩⟩
    · exact ⟨h2, h3, .inr h4⟩

theorem planCr_spec (hf : FftOk planFft G) (k : Kind) (n : ℕ) (st : Planner T × S) (hs : InvS G V st.1) : KindSpecC faults planFft G V k n st (k.planCr faults planFft n st) := by
  cases k
  · refine liftKindC (k := .dct1) (planDct1C hf n) Inst.single (fun s a h => by simp only [Kind.lookSt]; rw [h]; rfl) (fun pf a hr => ?_) (fun pf e hr p sc hp => ?_) st hs
    · obtain ⟨a', s', h, e⟩ := ok_of_canon (planDct1_yields n) hr
      exact ⟨_, _, rfl, fun _ => e ▸ .dct1 h⟩
    · cases hp with | dct1 h => exact err_of_canon (planDct1_yields n) hr h
  · refine liftKindC (k := .dct2) (planDct2C hf n) Inst.t23 (fun s a h => by simp only [Kind.lookSt]; rw [h]; rfl) (fun pf a hr => ?_) (fun pf e hr p sc hp => ?_) st hs
    · obtain ⟨a', s', h, e⟩ := ok_of_canon (planDct2_yields n) hr
      exact ⟨_, _, rfl, fun _ => e ▸ .dct2 h⟩
    · cases hp with | dct2 h => exact err_of_canon (planDct2_yields n) hr h
  · refine liftKindC (k := .dct3) (planDct2C hf n) Inst.t23 (fun s a h => by simp only [Kind.lookSt]; rw [h]; rfl) (fun pf a hr => ?_) (fun pf e hr p sc hp => ?_) st hs
    · obtain ⟨a', s', h, e⟩ := ok_of_canon (planDct2_yields n) hr
      exact ⟨_, _, rfl, fun hn => e ▸ .dct3 h hn⟩
    · cases hp with | dct3 h => exact err_of_canon (planDct2_yields n) hr h
  · refine liftKindC (k := .dct4) (planDct4C hf n) Inst.t4 (fun s a h => by simp only [Kind.lookSt]; rw [h]; rfl) (fun pf a hr => ?_) (fun pf e hr p sc hp => ?_) st hs
    · obtain ⟨a', s', h, e⟩ := ok_of_canon (planDct4_yields n) hr
      exact ⟨_, _, rfl, fun hn => e ▸ .dct4 h hn⟩
    · cases hp with | dct4 h => exact err_of_canon (planDct4_yields n) hr h
  · refine liftKindC (k := .dct5) (planDct5C hf n) Inst.single (fun s a h => by simp only [Kind.lookSt]; rw [h]; rfl) (fun pf a hr => ?_) (fun pf e hr p sc hp => ?_) st hs
    · obtain ⟨a', s', h, e⟩ := ok_of_canon (pf := pf) (planDct5_yields n) hr
      exact ⟨_, _, rfl, fun _ => e ▸ .dct5 h⟩
    · cases hp with | dct5 h => exact err_of_canon (planDct5_yields n) hr h
  · refine liftKindC (k := .dct6) (planDct6C hf n) Inst.t67 (fun s a h => by simp only [Kind.lookSt]; rw [h]; rfl) (fun pf a hr => ?_) (fun pf e hr p sc hp => ?_) st hs
    · obtain ⟨a', s', h, e⟩ := ok_of_canon (pf := pf) (planDct6_yields n) hr
      exact ⟨_, _, rfl, fun _ => e ▸ .dct6 h⟩
    · cases hp with | dct6 h => exact err_of_canon (planDct6_yields n) hr h
  · refine liftKindC (k := .dct7) (planDct6C hf n) Inst.t67 (fun s a h => by simp only [Kind.lookSt]; rw [h]; rfl) (fun pf a hr => ?_) (fun pf e hr p sc hp => ?_) st hs
    · obtain ⟨a', s', h, e⟩ := ok_of_canon (pf := pf) (planDct6_yields n) hr
      exact ⟨_, _, rfl, fun _ => e ▸ .dct7 h⟩
    · cases hp with | dct7 h => exact err_of_canon (planDct6_yields n) hr h
  · refine liftKindC (k := .dct8) (planDct8C hf n) Inst.single (fun s a h => by simp only [Kind.lookSt]; rw [h]; rfl) (fun pf a hr => ?_) (fun pf e hr p sc hp => ?_) st hs
    · obtain ⟨a', s', h, e⟩ := ok_of_canon (pf := pf) (planDct8_yields n) hr
      exact ⟨_, _, rfl, fun _ => e ▸ .dct8 h⟩
    · cases hp with | dct8 h => exact err_of_canon (planDct8_yields n) hr h
  · refine liftKindC (k := .dst1) (planDst1C hf n) Inst.single (fun s a h => by simp only [Kind.lookSt]; rw [h]; rfl) (fun pf a hr => ?_) (fun pf e hr p sc hp => ?_) st hs
    · obtain ⟨a', s', h, e⟩ := ok_of_canon (planDst1_yields n) hr
      exact ⟨_, _, rfl, fun _ => e ▸ .dst1 h⟩
    · cases hp with | dst1 h => exact err_of_canon (planDst1_yields n) hr h
  · refine liftKindC (k := .dst2) (planDct2C hf n) Inst.t23 (fun s a h => by simp only [Kind.lookSt]; rw [h]; rfl) (fun pf a hr => ?_) (fun pf e hr p sc hp => ?_) st hs
    · obtain ⟨a', s', h, e⟩ := ok_of_canon (planDct2_yields n) hr
      exact ⟨_, _, rfl, fun _ => e ▸ .dst2 h⟩
    · cases hp with | dst2 h => exact err_of_canon (planDct2_yields n) hr h
  · refine liftKindC (k := .dst3) (planDct2C hf n) Inst.t23 (fun s a h => by simp only [Kind.lookSt]; rw [h]; rfl) (fun pf a hr => ?_) (fun pf e hr p sc hp => ?_) st hs
    · obtain ⟨a', s', h, e⟩ := ok_of_canon (planDct2_yields n) hr
      exact ⟨_, _, rfl, fun hn => e ▸ .dst3 h hn⟩
    · cases hp with | dst3 h => exact err_of_canon (planDct2_yields n) hr h
  · refine liftKindC (k := .dst4) (planDct4C hf n) Inst.t4 (fun s a h => by simp only [Kind.lookSt]; rw [h]; rfl) (fun pf a hr => ?_) (fun pf e hr p sc hp => ?_) st hs
    · obtain ⟨a', s', h, e⟩ := ok_of_canon (planDct4_yields n) hr
      exact ⟨_, _, rfl, fun hn => e ▸ .dst4 h hn⟩
    · cases hp with | dst4 h => exact err_of_canon (planDct4_yields n) hr h
  · refine liftKindC (k := .dst5) (planDst5C hf n) Inst.single (fun s a h => by simp only [Kind.lookSt]; rw [h]; rfl) (fun pf a hr => ?_) (fun pf e hr p sc hp => ?_) st hs
    · obtain ⟨a', s', h, e⟩ := ok_of_canon (pf := pf) (planDst5_yields n) hr
      exact ⟨_, _, rfl, fun _ => e ▸ .dst5 h⟩
    · cases hp with | dst5 h => exact err_of_canon (planDst5_yields n) hr h
  · refine liftKindC (k := .dst6) (planDst6C hf n) Inst.t67 (fun s a h => by simp only [Kind.lookSt]; rw [h]; rfl) (fun pf a hr => ?_) (fun pf e hr p sc hp => ?_) st hs
    · obtain ⟨a', s', h, e⟩ := ok_of_canon (planDst6_yields n) hr
      exact ⟨_, _, rfl, fun _ => e ▸ .dst6 h⟩
    · cases hp with | dst6 h => exact err_of_canon (planDst6_yields n) hr h
  · refine liftKindC (k := .dst7) (planDst6C hf n) Inst.t67 (fun s a h => by simp only [Kind.lookSt]; rw [h]; rfl) (fun pf a hr => ?_) (fun pf e hr p sc hp => ?_) st hs
    · obtain ⟨a', s', h, e⟩ := ok_of_canon (planDst6_yields n) hr
      exact ⟨_, _, rfl, fun _ => e ▸ .dst7 h⟩
    · cases hp with | dst7 h => exact err_of_canon (planDst6_yields n) hr h
  · refine liftKindC (k := .dst8) (planDst8C hf n) Inst.single (fun s a h => by simp only [Kind.lookSt]; rw [h]; rfl) (fun pf a hr => ?_) (fun pf e hr p sc hp => ?_) st hs
    · obtain ⟨a', s', h, e⟩ := ok_of_canon (pf := pf) (planDst8_yields n) hr
      exact ⟨_, _, rfl, fun _ => e ▸ .dst8 h⟩
    · cases hp with | dst8 h => exact err_of_canon (planDst8_yields n) hr h

/-- A cached instance is returned, and nothing happens. -/
theorem planCr_hit {k : Kind} {n : ℕ} {st : Planner T × S} {i : Inst T} (h : k.lookSt n st.1 = some i) : k.planCr faults planFft n st = .ok i st := by
  cases k <;> simp only [Kind.lookSt, Option.map_eq_some_iff] at h <;> obtain ⟨a, h, rfl⟩ := h <;>
    simp only [Kind.planCr, Functor.map, EStateM.map, planDct3Cr, planDct1Cr_eq, planDct2Cr_eq, planDct4Cr_eq, planDst1Cr_eq, planDst6Cr_eq, planDct5Cr_eq, planDct6Cr_eq,
      planDct8Cr_eq, planDst5Cr_eq, planDst8Cr_eq, cacheCr_run, h]

/-! ### Histories -/

theorem FxCall.runCr_inv (hf : FftOk planFft G) (c : FxCall S T) {st : Planner T × S}
    (hc : ∀ n w a st', c = .mdct n w → planMdctCr faults planFft n w st = .ok a st' → ∀ s v s', w (2 * n) s = (some v, s') → V n v)
    (hs : InvS G V st.1) : InvS G V (c.runCr faults planFft st).1 ∧ Grows st.1 (c.runCr faults planFft st).1 := by
  cases c with
  | transform k n =>
    have := planCr_spec (faults := faults) hf k n st hs
    unfold FxCall.runCr
    dsimp only
    cases e : k.planCr faults planFft n st with
    | ok i st' => rw [e] at this; exact ⟨this.1, this.2.1⟩
    | error x st' => rw [e] at this; exact ⟨this.1, this.2.1⟩
  | mdct n w =>
    have := (planMdctC hf n w st (fun a st' h => hc n w a st' rfl h) hs).2
    unfold FxCall.runCr
    dsimp only
    cases e : planMdctCr faults planFft n w st with
    | ok i st' => rw [e] at this; exact ⟨this.1, this.2.1⟩
    | error x st' => rw [e] at this; exact this

theorem afterCr_append (H H' : List (FxCall S T)) (s : Planner T × S) : afterCr faults planFft (H ++ H') s = afterCr faults planFft H' (afterCr faults planFft H s) := by
  unfold afterCr; rw [List.foldl_append]

/-- The windows that may be in use after a history: returned by a window function whose call of `plan_mdct` returned. -/
def WindowsC (faults : FaultFn S) (planFft : FftFn S T) (H : List (FxCall S T)) (s : S) (n : ℕ) (v : List T) : Prop :=
  ∃ w t t', ReturnedMdctCr faults planFft H s n w ∧ w (2 * n) t = (some v, t')

theorem ReturnedC_append {H H' : List (FxCall S T)} {s : S} {n : ℕ} {w : WindowFn S T} (h : ReturnedMdctCr faults planFft H s n w) : ReturnedMdctCr faults planFft (H ++ H') s n w := by
  obtain ⟨pre, post, a, s', rfl, e⟩ := h
  exact ⟨pre, post ++ H', a, s', by simp, e⟩

theorem after_invC (hf : FftOk planFft G) (H : List (FxCall S T)) (s : S) : InvS G (WindowsC faults planFft H s) (plannerAfterCr faults planFft H s).1 := by
  induction H using List.reverseRecOn with
  | nil => exact InvS.new 0
  | append_singleton H c ih =>
    have h1 : InvS G (WindowsC faults planFft (H ++ [c]) s) (plannerAfterCr faults planFft H s).1 :=
      ih.mono fun n v ⟨w, t, t', h, e⟩ => ⟨w, t, t', ReturnedC_append h, e⟩
    have := (c.runCr_inv hf (st := plannerAfterCr faults planFft H s) (fun n w a st' e h t v t' hv => ⟨w, t, t', ⟨H, [], a, st', by rw [e], h⟩, hv⟩) h1).1
    unfold plannerAfterCr
    rw [afterCr_append]
    exact this

theorem afterCr_grows (hf : FftOk planFft G) (H : List (FxCall S T)) : ∀ {st : Planner T × S}, InvS G (fun _ _ => True) st.1 → Grows st.1 (afterCr faults planFft H st).1 := by
  induction H with
  | nil => exact fun _ => Grows.refl _
  | cons c H ih =>
    intro st hs
    obtain ⟨h1, h2⟩ := c.runCr_inv hf (fun _ _ _ _ _ _ _ _ _ _ => trivial) hs
    exact h2.trans (ih h1)

end RustDct
