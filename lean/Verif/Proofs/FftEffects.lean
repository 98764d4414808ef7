import Verif.FftHistory
import Verif.Param.Planner
import Verif.Proofs.PlannerInv
import Verif.Props.WindowEffects
/-!
# Proofs for C82: the planner with an FFT planner that has state
-/

set_option linter.all false

namespace RustDct

variable {T F S : Type} [F64 F] [DctNum T F]

/-- Every cached instance is what planning its length without a cache gives with some choice of FFTs. -/
structure InvS (G : ℕ → Fft T → Prop) (V : ℕ → List T → Prop) (s : Planner T) : Prop where
  dct1 : ∀ n a, s.dct1Cache n = some a → ∃ pf, AllFfts G pf ∧ canonDct1 pf n = .ok a.val
  dst1 : ∀ n a, s.dst1Cache n = some a → ∃ pf, AllFfts G pf ∧ canonDst1 pf n = .ok a.val
  dct23 : ∀ n a, s.dct23Cache n = some a → ∃ pf, AllFfts G pf ∧ canon23 pf n = .ok a.val
  dct4 : ∀ n a, s.dct4Cache n = some a → ∃ pf, AllFfts G pf ∧ canon4 pf n = .ok a.val
  dct5 : ∀ n a, s.dct5Cache n = some a → ∃ pf, AllFfts G pf ∧ canonDct5 n = .ok a.val
  dst5 : ∀ n a, s.dst5Cache n = some a → ∃ pf, AllFfts G pf ∧ canonDst5 n = .ok a.val
  dct6 : ∀ n a, s.dct6Cache n = some a → ∃ pf, AllFfts G pf ∧ canonDct6 n = .ok a.val
  dst6 : ∀ n a, s.dst6Cache n = some a → ∃ pf, AllFfts G pf ∧ canonDst6 pf n = .ok a.val
  dct8 : ∀ n a, s.dct8Cache n = some a → ∃ pf, AllFfts G pf ∧ canonDct8 n = .ok a.val
  dst8 : ∀ n a, s.dst8Cache n = some a → ∃ pf, AllFfts G pf ∧ canonDst8 n = .ok a.val
  mdct : ∀ n a, s.mdctCache n = some a → ∃ pf v, AllFfts G pf ∧ V n v ∧ v.length = 2 * n ∧ canonMdct pf n (fun _ => v) = .ok a.val

variable {planFft : FftFn S T} {G : ℕ → Fft T → Prop} {V : ℕ → List T → Prop}

theorem InvS.new (i : ℕ) : InvS G V (Planner.new i : Planner T) := by
  constructor <;> intro n <;> simp [Planner.new]

/-- What a planner method does. -/
def GivesS (planFft : FftFn S T) (G : ℕ → Fft T → Prop) (V : ℕ → List T → Prop) {α : Type} (L : Option ℕ) (m : PlanSt S T (Arc α))
    (r : (ℕ → Fft T) → Except Err α) (look : Planner T → Arc α → Prop) : Prop :=
  ∀ st, InvS G V st.1 →
    match m st with
    | .ok a st' => (∃ pf, AllFfts G pf ∧ r pf = .ok a.val) ∧ InvS G V st'.1 ∧ Grows st.1 st'.1 ∧ AskedFor planFft L st.2 st'.2 ∧ look st'.1 a
    | .error (.own p) st' => (∃ pf e, AllFfts G pf ∧ p = .crate e ∧ r pf = .error e) ∧ InvS G V st'.1 ∧ Grows st.1 st'.1 ∧ AskedFor planFft L st.2 st'.2
    | .error .fft st' => InvS G V st'.1 ∧ Grows st.1 st'.1 ∧ ∃ m, L = some m ∧ planFft m st.2 = (none, st'.2)

theorem FftOk.good (h : FftOk planFft G) : ∃ pf, AllFfts G pf := ⟨fun m => (h.some m).choose, fun m => (h.some m).choose_spec⟩

theorem InvS.nextId {p : Planner T} (h : InvS G V p) (i : ℕ) : InvS G V { p with nextId := i } :=
  ⟨h.dct1, h.dst1, h.dct23, h.dct4, h.dct5, h.dst5, h.dct6, h.dst6, h.dct8, h.dst8, h.mdct⟩

theorem arcNewS {α : Type} (hf : FftOk planFft G) (L : Option ℕ) (x : Except Err α) : GivesS planFft G V L (arcNewSt x) (fun _ => x) (fun _ _ => True) := by
  intro st hs
  obtain ⟨pf, hp⟩ := hf.good
  cases x with
  | ok v => exact ⟨⟨pf, hp, rfl⟩, hs.nextId _, { Grows.refl st.1 with nextId := Nat.le_succ _ }, .inl rfl, trivial⟩
  | error e => exact ⟨⟨pf, e, hp, rfl, rfl⟩, hs, Grows.refl _, .inl rfl⟩

theorem bindS_run {α β : Type} (m : PlanSt S T α) (k : α → PlanSt S T β) (s : Planner T × S) :
    (m >>= k) s = match m s with
      | .ok a s' => k a s'
      | .error e s' => .error e s' := by
  simp only [bind, EStateM.bind]
  cases m s <;> rfl

theorem callFftS {α : Type} (hf : FftOk planFft G) (n : ℕ) (q : Fft T → Except Err α) :
    GivesS planFft G V (some n) (callFft planFft n >>= fun f => arcNewSt (q f)) (fun pf => q (pf n)) (fun _ _ => True) := by
  intro st hs
  obtain ⟨pf, hp⟩ := hf.good
  rw [bindS_run]
  unfold callFft
  rcases e : planFft n st.2 with ⟨_ | f, s'⟩
  · exact ⟨hs, Grows.refl _, n, rfl, e⟩
  · dsimp only
    have hp' : AllFfts G (Function.update pf n f) := by
      intro m
      by_cases hm : m = n
      · subst hm; rw [Function.update_self]; exact hf.gives _ _ _ _ e
      · rw [Function.update_of_ne hm]; exact hp m
    have hq : q (Function.update pf n f n) = q f := by simp
    have ask : AskedFor planFft (some n) st.2 s' := .inr ⟨n, rfl, by rw [e]⟩
    unfold arcNewSt
    cases hx : q f with
    | ok v => exact ⟨⟨_, hp', by rw [hq, hx]⟩, hs.nextId _, { Grows.refl st.1 with nextId := Nat.le_succ _ }, ask, trivial⟩
    | error e => exact ⟨⟨_, e, hp', rfl, by rw [hq, hx]⟩, hs, Grows.refl _, ask⟩

theorem bindS {α β : Type} {L : Option ℕ} {m : PlanSt S T (Arc α)} {r : (ℕ → Fft T) → Except Err α} {look : Planner T → Arc α → Prop}
    (h : GivesS planFft G V L m r look) (q : α → Except Err β) :
    GivesS planFft G V L (m >>= fun a => arcNewSt (q a.val)) (fun pf => r pf >>= q) (fun _ _ => True) := by
  intro st hs
  rw [bindS_run]
  have h1 := h st hs
  cases hm : m st with
  | error e st' =>
    rw [hm] at h1
    cases e with
    | fft => exact h1
    | own p =>
      obtain ⟨⟨pf, e, hp, rfl, hr⟩, h2⟩ := h1
      exact ⟨⟨pf, e, hp, rfl, by dsimp only; rw [hr]; rfl⟩, h2⟩
  | ok a st' =>
    rw [hm] at h1
    obtain ⟨⟨pf, hp, hr⟩, h2, h3, h4, -⟩ := h1
    dsimp only
    unfold arcNewSt
    cases hx : q a.val with
    | ok v => exact ⟨⟨_, hp, by simp only [hr]; exact hx⟩, h2.nextId _, h3.trans { Grows.refl st'.1 with nextId := Nat.le_succ _ }, h4, trivial⟩
    | error e => exact ⟨⟨_, e, hp, rfl, by simp only [hr]; exact hx⟩, h2, h3, h4⟩

theorem AskedFor.none {s s' : S} (h : AskedFor planFft none s s') : s' = s := by
  rcases h with h | ⟨m, h, -⟩
  · exact h
  · cases h

theorem bind2S {α β γ : Type} {m1 : PlanSt S T (Arc α)} {r1 : (ℕ → Fft T) → Except Err α} {m2 : PlanSt S T (Arc β)} {r2 : (ℕ → Fft T) → Except Err β}
    {l1 : Planner T → Arc α → Prop} {l2 : Planner T → Arc β → Prop}
    (h1 : GivesS planFft G V none m1 r1 l1) (h2 : GivesS planFft G V none m2 r2 l2)
    (c2 : ∀ pf pf', r2 pf = r2 pf') (q : α → β → Except Err γ) (L : Option ℕ) :
    GivesS planFft G V L (m1 >>= fun a => m2 >>= fun b => arcNewSt (q a.val b.val)) (fun pf => r1 pf >>= fun a => r2 pf >>= fun b => q a b) (fun _ _ => True) := by
  intro st hs
  rw [bindS_run]
  have k1 := h1 st hs
  cases hm1 : m1 st with
  | error e st' =>
    rw [hm1] at k1
    cases e with
    | fft => obtain ⟨-, -, m, h, -⟩ := k1; cases h
    | own p =>
      obtain ⟨⟨pf, e, hp, rfl, hr⟩, k2, k3, k4⟩ := k1
      exact ⟨⟨pf, e, hp, rfl, by dsimp only; rw [hr]; rfl⟩, k2, k3, .inl k4.none⟩
  | ok a st' =>
    rw [hm1] at k1
    obtain ⟨⟨pf, hp, hr⟩, k2, k3, k4, -⟩ := k1
    dsimp only
    have j := bindS h2 (q a.val) st' k2
    cases hm2 : (m2 >>= fun b => arcNewSt (q a.val b.val)) st' with
    | error e st2 =>
      rw [hm2] at j
      cases e with
      | fft => obtain ⟨-, -, m, h, -⟩ := j; cases h
      | own p =>
        obtain ⟨⟨pf', e, hp', rfl, hr'⟩, j2, j3, j4⟩ := j
        refine ⟨⟨pf, e, hp, rfl, ?_⟩, j2, k3.trans j3, .inl (j4.none.trans k4.none)⟩
        dsimp only at hr' ⊢
        rw [hr, c2 pf pf']
        exact hr'
    | ok b st2 =>
      rw [hm2] at j
      obtain ⟨⟨pf', hp', hr'⟩, j2, j3, j4, -⟩ := j
      refine ⟨⟨pf, hp, ?_⟩, j2, k3.trans j3, .inl (j4.none.trans k4.none), trivial⟩
      dsimp only at hr' ⊢
      rw [hr, c2 pf pf']
      exact hr'

/-! ### Caches -/

/-- The cache-or-build pattern. -/
def cacheSt {α : Type} (look : Planner T → Option (Arc α)) (store : Planner T → Arc α → Planner T) (mk : PlanSt S T (Arc α)) : PlanSt S T (Arc α) := do
  match look (← get).1 with
  | some a => return a
  | none =>
    let result ← mk
    modify fun s => (store s.1 result, s.2)
    return result

theorem cacheSt_run {α : Type} (look : Planner T → Option (Arc α)) (store : Planner T → Arc α → Planner T) (mk : PlanSt S T (Arc α)) (s : Planner T × S) :
    cacheSt look store mk s = match look s.1 with
      | some a => .ok a s
      | none => match mk s with
        | .ok r s' => .ok r (store s'.1 r, s'.2)
        | .error e s' => .error e s' := by
  unfold cacheSt
  simp only [bind, EStateM.bind, get, getThe, MonadStateOf.get, EStateM.get]
  cases h : look s.1 with
  | some a => rfl
  | none =>
    simp only [h, bind, EStateM.bind]
    cases mk s <;> rfl

theorem cachedS {α : Type} {look : Planner T → Option (Arc α)} {store : Planner T → Arc α → Planner T} {mk : PlanSt S T (Arc α)} {L : Option ℕ}
    {r : (ℕ → Fft T) → Except Err α} {lk : Planner T → Arc α → Prop} (h : GivesS planFft G V L mk r lk)
    (hlook : ∀ s a, InvS G V s → look s = some a → ∃ pf, AllFfts G pf ∧ r pf = .ok a.val)
    (hstore : ∀ s0 s a, look s0 = none → Grows s0 s → InvS G V s → (∃ pf, AllFfts G pf ∧ r pf = .ok a.val) →
      InvS G V (store s a) ∧ Grows s0 (store s a) ∧ look (store s a) = some a) :
    GivesS planFft G V L (cacheSt look store mk) r (fun s a => look s = some a) := by
  intro st hs
  rw [cacheSt_run]
  cases hl : look st.1 with
  | some a => exact ⟨hlook _ _ hs hl, hs, Grows.refl _, .inl rfl, hl⟩
  | none =>
    have := h st hs
    dsimp only
    cases hm : mk st with
    | error e s' => rw [hm] at this; cases e <;> exact this
    | ok a s' =>
      rw [hm] at this
      obtain ⟨h1, h2, h3, h4, -⟩ := this
      obtain ⟨h5, h6, h7⟩ := hstore st.1 s'.1 a hl h3 h2 h1
      exact ⟨h1, h5, h6, h4, h7⟩

theorem keepState_arcNew {α : Type} (x : Except Err α) : (keepState (arcNew x) : PlanSt S T (Arc α)) = arcNewSt x := by
  funext s
  cases x <;> rfl

theorem keepState_cachePlan {α : Type} (look : Planner T → Option (Arc α)) (store : Planner T → Arc α → Planner T) (x : Except Err α) :
    (keepState (cachePlan look store (arcNew x)) : PlanSt S T (Arc α)) = cacheSt look store (arcNewSt x) := by
  funext s
  rw [cacheSt_run]
  unfold keepState
  rw [cachePlan_run]
  cases look s.1 with
  | some a => rfl
  | none => cases x <;> rfl

macro "plan_cachedS" n:ident : tactic => `(tactic| (
  unfold $n cacheSt
  congr 1
  funext s
  dsimp only
  split <;> (rename_i h; rw [h])))

/-! ### The individual methods -/

theorem planDct1St_eq (len : ℕ) : planDct1St planFft len = cacheSt (fun s => s.dct1Cache len)
    (fun s a => { s with dct1Cache := insertCache s.dct1Cache len a }) (planNewDct1St planFft len) := by
  plan_cachedS planDct1St

theorem planDct1S (hf : FftOk planFft G) (len : ℕ) :
    GivesS planFft G V (Kind.dct1.fftLen len) (planDct1St planFft len) (fun pf => canonDct1 pf len) (fun s a => s.dct1Cache len = some a) := by
  rw [planDct1St_eq]
  refine cachedS (lk := fun _ _ => True) ?_ (fun s a hs e => hs.dct1 len a e) ?_
  · unfold planNewDct1St canonDct1
    simp only [Kind.fftLen]
    by_cases hn : len < 10
    · simp only [if_pos hn]; exact arcNewS hf _ _
    · simp only [if_neg hn]
      rw [show 2 * (len - 1) = (len - 1) * 2 by omega]
      exact callFftS hf _ fun f => (Dct1ConvertToFft.new f).map Dct1ConvertToFft.toObj
  · intro s0 s a hl hg hi hr
    exact ⟨{ hi with dct1 := insertCache_inv (P := fun n o => ∃ pf, AllFfts G pf ∧ canonDct1 pf n = .ok o) hi.dct1 hr }, { hg with dct1 := insertCache_grows hl hg.dct1 }, insertCache_self _ _ _⟩

theorem planDst1St_eq (len : ℕ) : planDst1St planFft len = cacheSt (fun s => s.dst1Cache len)
    (fun s a => { s with dst1Cache := insertCache s.dst1Cache len a }) (planNewDst1St planFft len) := by
  plan_cachedS planDst1St

theorem planDst1S (hf : FftOk planFft G) (len : ℕ) :
    GivesS planFft G V (Kind.dst1.fftLen len) (planDst1St planFft len) (fun pf => canonDst1 pf len) (fun s a => s.dst1Cache len = some a) := by
  rw [planDst1St_eq]
  refine cachedS (lk := fun _ _ => True) ?_ (fun s a hs e => hs.dst1 len a e) ?_
  · unfold planNewDst1St canonDst1
    simp only [Kind.fftLen]
    by_cases hn : len < 25
    · simp only [if_pos hn]; exact arcNewS hf _ _
    · simp only [if_neg hn]
      rw [show 2 * (len + 1) = (len + 1) * 2 by omega]
      exact callFftS hf _ fun f => (Dst1ConvertToFft.new f).map Dst1ConvertToFft.toObj
  · intro s0 s a hl hg hi hr
    exact ⟨{ hi with dst1 := insertCache_inv (P := fun n o => ∃ pf, AllFfts G pf ∧ canonDst1 pf n = .ok o) hi.dst1 hr }, { hg with dst1 := insertCache_grows hl hg.dst1 }, insertCache_self _ _ _⟩

theorem planDst6St_eq (len : ℕ) : planDst6St planFft len = cacheSt (fun s => s.dst6Cache len)
    (fun s a => { s with dst6Cache := insertCache s.dst6Cache len a }) (planNewDst6St planFft len) := by
  plan_cachedS planDst6St

theorem planDst6S (hf : FftOk planFft G) (len : ℕ) :
    GivesS planFft G V (Kind.dst6.fftLen len) (planDst6St planFft len) (fun pf => canonDst6 pf len) (fun s a => s.dst6Cache len = some a) := by
  rw [planDst6St_eq]
  refine cachedS (lk := fun _ _ => True) ?_ (fun s a hs e => hs.dst6 len a e) ?_
  · unfold planNewDst6St canonDst6
    simp only [Kind.fftLen]
    by_cases hn : len < 45
    · simp only [if_pos hn]; exact arcNewS hf _ _
    · simp only [if_neg hn]
      rw [show 2 * len + 1 = len * 2 + 1 by omega]
      exact callFftS hf _ fun f => (Dst6And7ConvertToFft.new f).map Dst6And7ConvertToFft.toObj
  · intro s0 s a hl hg hi hr
    exact ⟨{ hi with dst6 := insertCache_inv (P := fun n o => ∃ pf, AllFfts G pf ∧ canonDst6 pf n = .ok o) hi.dst6 hr }, { hg with dst6 := insertCache_grows hl hg.dst6 }, insertCache_self _ _ _⟩

theorem planDct5S (hf : FftOk planFft G) (len : ℕ) :
    GivesS planFft G V none (keepState (planDct5 len)) (fun _ => canonDct5 len) (fun s a => s.dct5Cache len = some a) := by
  rw [planDct5_eq, keepState_cachePlan]
  refine cachedS (arcNewS hf _ _) (fun s a hs e => hs.dct5 len a e) ?_
  intro s0 s a hl hg hi hr
  exact ⟨{ hi with dct5 := insertCache_inv (P := fun n o => ∃ pf, AllFfts G pf ∧ canonDct5 n = .ok o) hi.dct5 hr }, { hg with dct5 := insertCache_grows hl hg.dct5 }, insertCache_self _ _ _⟩

theorem planDst5S (hf : FftOk planFft G) (len : ℕ) :
    GivesS planFft G V none (keepState (planDst5 len)) (fun _ => canonDst5 len) (fun s a => s.dst5Cache len = some a) := by
  rw [planDst5_eq, keepState_cachePlan]
  refine cachedS (arcNewS hf _ _) (fun s a hs e => hs.dst5 len a e) ?_
  intro s0 s a hl hg hi hr
  exact ⟨{ hi with dst5 := insertCache_inv (P := fun n o => ∃ pf, AllFfts G pf ∧ canonDst5 n = .ok o) hi.dst5 hr }, { hg with dst5 := insertCache_grows hl hg.dst5 }, insertCache_self _ _ _⟩

theorem planDct6S (hf : FftOk planFft G) (len : ℕ) :
    GivesS planFft G V none (keepState (planDct6 len)) (fun _ => canonDct6 len) (fun s a => s.dct6Cache len = some a) := by
  rw [planDct6_eq, keepState_cachePlan]
  refine cachedS (arcNewS hf _ _) (fun s a hs e => hs.dct6 len a e) ?_
  intro s0 s a hl hg hi hr
  exact ⟨{ hi with dct6 := insertCache_inv (P := fun n o => ∃ pf, AllFfts G pf ∧ canonDct6 n = .ok o) hi.dct6 hr }, { hg with dct6 := insertCache_grows hl hg.dct6 }, insertCache_self _ _ _⟩

theorem planDct8S (hf : FftOk planFft G) (len : ℕ) :
    GivesS planFft G V none (keepState (planDct8 len)) (fun _ => canonDct8 len) (fun s a => s.dct8Cache len = some a) := by
  rw [planDct8_eq, keepState_cachePlan]
  refine cachedS (arcNewS hf _ _) (fun s a hs e => hs.dct8 len a e) ?_
  intro s0 s a hl hg hi hr
  exact ⟨{ hi with dct8 := insertCache_inv (P := fun n o => ∃ pf, AllFfts G pf ∧ canonDct8 n = .ok o) hi.dct8 hr }, { hg with dct8 := insertCache_grows hl hg.dct8 }, insertCache_self _ _ _⟩

theorem planDst8S (hf : FftOk planFft G) (len : ℕ) :
    GivesS planFft G V none (keepState (planDst8 len)) (fun _ => canonDst8 len) (fun s a => s.dst8Cache len = some a) := by
  rw [planDst8_eq, keepState_cachePlan]
  refine cachedS (arcNewS hf _ _) (fun s a hs e => hs.dst8 len a e) ?_
  intro s0 s a hl hg hi hr
  exact ⟨{ hi with dst8 := insertCache_inv (P := fun n o => ∃ pf, AllFfts G pf ∧ canonDst8 n = .ok o) hi.dst8 hr }, { hg with dst8 := insertCache_grows hl hg.dst8 }, insertCache_self _ _ _⟩

/-! ### Types 2, 3 and 4 -/

theorem planDct2St_eq (len : ℕ) : planDct2St planFft len = cacheSt (fun s => s.dct23Cache len)
    (fun s a => { s with dct23Cache := insertCache s.dct23Cache len a }) (planNewDct2St planFft len) := by
  rw [planDct2St]
  unfold cacheSt
  congr 1
  funext s
  dsimp only
  split <;> (rename_i h; rw [h])

/-- Powers of two do not depend on the FFTs. -/
theorem canon23_const {n : ℕ} : fftLen23 n = none → ∀ pf pf' : ℕ → Fft T, canon23 pf n = canon23 pf' n := by
  refine Nat.strongRecOn (motive := fun n => fftLen23 n = none → ∀ pf pf' : ℕ → Fft T, canon23 pf n = canon23 pf' n) n ?_
  intro n ih hn pf pf'
  rw [canon23.eq_def pf n, canon23.eq_def pf' n]
  by_cases h1 : dct2Butterflies.contains n = true
  · rw [if_pos h1, if_pos h1]
  · rw [if_neg h1, if_neg h1]
    by_cases h2 : isPowerOfTwo n = true ∧ n > 2
    · rw [dif_pos h2, dif_pos h2]
      obtain ⟨q, rfl, h8, hq1, hq2⟩ := pow2_shape (by simpa using h1) h2.1 h2.2
      have e1 : 4 * q / 2 = 2 * q := by omega
      have e2 : 4 * q / 4 = q := by omega
      rw [e1, e2, ih (2 * q) (by omega) (Param.fftLen23_pow2 hq2 (by omega)) pf pf', ih q (by omega) (Param.fftLen23_pow2 hq1 (by omega)) pf pf']
    · rw [Param.fftLen23_of h1 h2] at hn; cases hn

theorem bflyS (hf : FftOk planFft G) {len : ℕ} (h : dct2Butterflies.contains len = true) (L : Option ℕ) :
    GivesS planFft G V L (keepState (planDct2Butterfly len)) (fun _ => canonBfly len) (fun _ _ => True) := by
  have e : (keepState (planDct2Butterfly len) : PlanSt S T _) = arcNewSt (canonBfly len) := by
    simp only [dct2Butterflies, List.contains_eq_mem, decide_eq_true_eq, List.mem_cons, List.not_mem_nil, or_false] at h
    rw [← keepState_arcNew]
    rcases h with rfl | rfl | rfl | rfl | rfl <;> simp [planDct2Butterfly, canonBfly]
  rw [e]
  exact arcNewS hf _ _

theorem planDct2_of_newS {len : ℕ} (h : GivesS planFft G V (fftLen23 len) (planNewDct2St planFft len) (fun pf => canon23 pf len) (fun _ _ => True)) :
    GivesS planFft G V (fftLen23 len) (planDct2St planFft len) (fun pf => canon23 pf len) (fun s a => s.dct23Cache len = some a) := by
  rw [planDct2St_eq]
  refine cachedS h (fun s a hs e => hs.dct23 len a e) ?_
  intro s0 s a hl hg hi hr
  exact ⟨{ hi with dct23 := insertCache_inv (P := fun n o => ∃ pf, AllFfts G pf ∧ canon23 pf n = .ok o) hi.dct23 hr }, { hg with dct23 := insertCache_grows hl hg.dct23 }, insertCache_self _ _ _⟩

theorem planNewDct2S (hf : FftOk planFft G) (len : ℕ) :
    GivesS planFft G V (fftLen23 len) (planNewDct2St planFft len) (fun pf => canon23 pf len) (fun _ _ => True) := by
  induction len using Nat.strongRecOn with
  | ind len ih =>
    have hc : ∀ pf : ℕ → Fft T, canon23 pf len = _ := fun pf => canon23.eq_def pf len
    simp only [hc]
    rw [planNewDct2St]
    by_cases h1 : dct2Butterflies.contains len = true
    · simp only [if_pos h1]; exact bflyS hf h1 _
    · simp only [if_neg h1]
      by_cases h2 : isPowerOfTwo len = true ∧ len > 2
      · simp only [dif_pos h2]
        obtain ⟨q, rfl, h8, hq1, hq2⟩ := pow2_shape (by simpa using h1) h2.1 h2.2
        have e1 : 4 * q / 2 = 2 * q := by omega
        have e2 : 4 * q / 4 = q := by omega
        rw [e1, e2]
        have a := planDct2_of_newS (ih (2 * q) (by omega))
        have b := planDct2_of_newS (ih q (by omega))
        rw [Param.fftLen23_pow2 hq2 (by omega)] at a
        rw [Param.fftLen23_pow2 hq1 (by omega)] at b
        exact bind2S a b (canon23_const (Param.fftLen23_pow2 hq1 (by omega))) (fun x y => (Type2And3SplitRadix.new x y).map Type2And3SplitRadix.toObj) _
      · simp only [dif_neg h2]
        rw [Param.fftLen23_of h1 h2]
        exact callFftS hf _ fun f => (Type2And3ConvertToFft.new f).map Type2And3ConvertToFft.toObj

theorem planDct2S (hf : FftOk planFft G) (len : ℕ) :
    GivesS planFft G V (fftLen23 len) (planDct2St planFft len) (fun pf => canon23 pf len) (fun s a => s.dct23Cache len = some a) :=
  planDct2_of_newS (planNewDct2S hf len)

theorem planDct4St_eq (len : ℕ) : planDct4St planFft len = cacheSt (fun s => s.dct4Cache len)
    (fun s a => { s with dct4Cache := insertCache s.dct4Cache len a }) (planNewDct4St planFft len) := by
  plan_cachedS planDct4St

theorem planDct4S (hf : FftOk planFft G) (len : ℕ) :
    GivesS planFft G V (Kind.dct4.fftLen len) (planDct4St planFft len) (fun pf => canon4 pf len) (fun s a => s.dct4Cache len = some a) := by
  rw [planDct4St_eq]
  refine cachedS (lk := fun _ _ => True) ?_ (fun s a hs e => hs.dct4 len a e) ?_
  · unfold planNewDct4St canon4 planDct3St
    simp only [Kind.fftLen]
    by_cases h2 : len % 2 = 0
    · simp only [if_pos h2]
      by_cases hn : len < 6
      · simp only [if_pos hn]; exact arcNewS hf _ _
      · simp only [if_neg hn]
        exact bindS (planDct2S hf _) fun x => (Type4ConvertToType3Even.new x).map Type4ConvertToType3Even.toObj
    · simp only [if_neg h2]
      by_cases hn : len < 7
      · simp only [if_pos hn]; exact arcNewS hf _ _
      · simp only [if_neg hn]
        exact callFftS hf _ fun f => (Type4ConvertToFftOdd.new f).map Type4ConvertToFftOdd.toObj
  · intro s0 s a hl hg hi hr
    exact ⟨{ hi with dct4 := insertCache_inv (P := fun n o => ∃ pf, AllFfts G pf ∧ canon4 pf n = .ok o) hi.dct4 hr }, { hg with dct4 := insertCache_grows hl hg.dct4 }, insertCache_self _ _ _⟩

/-! ### The MDCT -/

theorem AllFfts.shape (hf : FftOk planFft G) {pf : ℕ → Fft T} (h : AllFfts G pf) : PlanFftShape pf := fun m => hf.shape m _ (h m)

theorem planMdctSt_eq (len : ℕ) (w : WindowFn S T) : planMdctSt planFft len w = cacheSt (fun s => s.mdctCache len)
    (fun s a => { s with mdctCache := insertCache s.mdctCache len a }) (planNewMdctSt planFft len w) := by
  plan_cachedS planMdctSt

theorem planMdctSt_hit {st : Planner T × S} {n : ℕ} {a : Arc (MdctObj T)} (h : st.1.mdctCache n = some a) (w : WindowFn S T) :
    planMdctSt planFft n w st = .ok a st := by
  rw [planMdctSt_eq, cacheSt_run]
  simp only [h]

/-- What `plan_mdct` does when nothing is cached for the length. -/
def FreshMdct (planFft : FftFn S T) (G : ℕ → Fft T → Prop) (n : ℕ) (w : WindowFn S T) (s : S) (r : EStateM.Result PlanPanic (Planner T × S) (Arc (MdctObj T))) : Prop :=
  match r with
  | .ok a st => ∃ s1 v pf, AskedFor planFft (Kind.dct4.fftLen n) s s1 ∧ n % 2 = 0 ∧ w (2 * n) s1 = (some v, st.2) ∧ v.length = 2 * n ∧
      AllFfts G pf ∧ canonMdct pf n (fun _ => v) = .ok a.val
  | .error (.own p) st => ∃ s1, AskedFor planFft (Kind.dct4.fftLen n) s s1 ∧
      (n % 2 = 1 ∧ p = .crate .assertion ∧ st.2 = s1 ∨
       n % 2 = 0 ∧ p = .window ∧ w (2 * n) s1 = (none, st.2) ∨
       n % 2 = 0 ∧ p = .crate .assertion ∧ ∃ v, w (2 * n) s1 = (some v, st.2) ∧ v.length ≠ 2 * n)
  | .error .fft st => ∃ m, Kind.dct4.fftLen n = some m ∧ planFft m s = (none, st.2)

theorem planNewMdctS (hf : FftOk planFft G) (n : ℕ) (w : WindowFn S T) (st : Planner T × S) (hs : InvS G V st.1) :
    FreshMdct planFft G n w st.2 (planNewMdctSt planFft n w st) ∧
    match planNewMdctSt planFft n w st with
    | .ok _ st' | .error _ st' => InvS G V st'.1 ∧ Grows st.1 st'.1 := by
  unfold planNewMdctSt
  rw [bindS_run]
  have h4 := planDct4S hf n st hs
  cases e4 : planDct4St planFft n st with
  | error e st1 =>
    rw [e4] at h4
    cases e with
    | fft => exact ⟨h4.2.2, h4.1, h4.2.1⟩
    | own p =>
      obtain ⟨⟨pf, e, hp, rfl, hr⟩, -⟩ := h4
      dsimp only at hr
      obtain ⟨o, ho, -⟩ := canon4_made (hp.shape hf) n
      rw [ho] at hr
      cases hr
  | ok i st1 =>
    rw [e4] at h4
    obtain ⟨⟨pf, hp, hr⟩, h5, h6, h7, -⟩ := h4
    dsimp only at hr
    have hl : i.val.len = n := by
      obtain ⟨o, ho, -, h⟩ := canon4_made (hp.shape hf) n
      rw [ho] at hr
      injection hr with hr
      rw [← hr]; exact h
    dsimp only
    unfold arcNewMdctSt
    obtain ⟨k1, k2⟩ := C71_viaDct4 i.val w st1.2
    rw [hl] at k1 k2
    rcases Nat.mod_two_eq_zero_or_one n with hn | hn
    · have k2 := k2 hn
      rcases hw : w (2 * n) st1.2 with ⟨_ | v, s'⟩
      · rw [hw] at k2
        dsimp only at k2
        rw [k2]
        exact ⟨⟨st1.2, h7, .inr (.inl ⟨hn, rfl, hw⟩)⟩, h5, h6⟩
      · rw [hw] at k2
        dsimp only at k2
        by_cases hv : v.length = 2 * n
        · have hx : MdctViaDct4.new i.val (fun _ => v) = .ok ⟨i.val, v, n + i.val.scratchLen⟩ := by
            unfold MdctViaDct4.new
            simp only [hl, hn, hv, not_true_eq_false, if_false, mul_comm n 2, ne_eq]
          rw [hx] at k2
          dsimp only at k2
          rw [k2]
          refine ⟨⟨st1.2, v, pf, h7, hn, hw, hv, hp, ?_⟩, h5.nextId _, h6.trans { Grows.refl st1.1 with nextId := Nat.le_succ _ }⟩
          unfold canonMdct
          rw [hr]
          show (MdctViaDct4.new i.val (fun _ => v)).map MdctViaDct4.toObj = _
          rw [hx]; rfl
        · have hx : MdctViaDct4.new i.val (fun _ => v) = .error .assertion := by
            unfold MdctViaDct4.new
            simp only [hl, hn, hv, not_true_eq_false, if_false, mul_comm n 2, ne_eq, not_false_eq_true, if_true]
          rw [hx] at k2
          dsimp only at k2
          rw [k2]
          exact ⟨⟨st1.2, h7, .inr (.inr ⟨hn, rfl, v, hw, hv⟩)⟩, h5, h6⟩
    · rw [k1 hn]
      exact ⟨⟨st1.2, h7, .inl ⟨hn, rfl, rfl⟩⟩, h5, h6⟩

theorem planMdctS (hf : FftOk planFft G) (n : ℕ) (w : WindowFn S T) (st : Planner T × S) (hw : ∀ a st', planMdctSt planFft n w st = .ok a st' → ∀ s v s', w (2 * n) s = (some v, s') → V n v) (hs : InvS G V st.1) :
    (st.1.mdctCache n = none → FreshMdct planFft G n w st.2 (planMdctSt planFft n w st)) ∧
    match planMdctSt planFft n w st with
    | .ok a st' => InvS G V st'.1 ∧ Grows st.1 st'.1 ∧ st'.1.mdctCache n = some a
    | .error _ st' => InvS G V st'.1 ∧ Grows st.1 st'.1 := by
  rw [planMdctSt_eq, cacheSt_run] at hw ⊢
  cases hl : st.1.mdctCache n with
  | some a => exact ⟨fun h => (by cases h), hs, Grows.refl _, hl⟩
  | none =>
    obtain ⟨h1, h2⟩ := planNewMdctS hf n w st hs
    rw [hl] at hw
    dsimp only at hw ⊢
    cases e : planNewMdctSt planFft n w st with
    | error p st' =>
      rw [e] at h1 h2
      cases p <;> exact ⟨fun _ => h1, h2⟩
    | ok a st' =>
      rw [e] at h1 h2
      obtain ⟨s1, v, pf, i1, i2, i3, i4, i5, i6⟩ := h1
      refine ⟨fun _ => ⟨s1, v, pf, i1, i2, i3, i4, i5, i6⟩, { h2.1 with mdct := ?_ }, { h2.2 with mdct := insertCache_grows hl h2.2.mdct }, insertCache_self _ _ _⟩
      exact insertCache_inv (P := fun n o => ∃ pf v, AllFfts G pf ∧ V n v ∧ v.length = 2 * n ∧ canonMdct pf n (fun _ => v) = .ok o) h2.1.mdct
        ⟨pf, v, i5, hw _ _ (by rw [e]) _ _ _ i3, i4, i6⟩

/-! ### All transforms -/

theorem ok_of_canon {α : Type} {pf : ℕ → Fft T} {m : PlanM T (Arc α)} {r : Except Err α} {post : Planner T → Planner T → Arc α → Prop}
    (h : Yields pf (fun _ _ => False) m r post) {v : α} (hr : r = .ok v) : ∃ a s', m (plannerAfter pf []) = .ok a s' ∧ a.val = v := by
  have := h (plannerAfter pf []) (Inv.new 0)
  cases e : m (plannerAfter pf []) with
  | ok a s' => rw [e, hr] at this; injection this.1 with h1; exact ⟨a, s', rfl, h1.symm⟩
  | error e s' => rw [e, hr] at this; cases this.1

theorem err_of_canon {α : Type} {pf : ℕ → Fft T} {m : PlanM T (Arc α)} {r : Except Err α} {post : Planner T → Planner T → Arc α → Prop}
    (h : Yields pf (fun _ _ => False) m r post) {x : Err} (hr : r = .error x) {a s'} : m (plannerAfter pf []) ≠ .ok a s' := by
  intro e
  have := h (plannerAfter pf []) (Inv.new 0)
  rw [e, hr] at this
  cases this.1

/-- The cached instance for a request. -/
def Kind.lookSt : Kind → ℕ → Planner T → Option (Inst T)
  | .dct1, n, p => (p.dct1Cache n).map .single
  | .dct2, n, p | .dct3, n, p | .dst2, n, p | .dst3, n, p => (p.dct23Cache n).map .t23
  | .dct4, n, p | .dst4, n, p => (p.dct4Cache n).map .t4
  | .dct5, n, p => (p.dct5Cache n).map .single
  | .dct6, n, p | .dct7, n, p => (p.dct6Cache n).map .t67
  | .dct8, n, p => (p.dct8Cache n).map .single
  | .dst1, n, p => (p.dst1Cache n).map .single
  | .dst5, n, p => (p.dst5Cache n).map .single
  | .dst6, n, p | .dst7, n, p => (p.dst6Cache n).map .t67
  | .dst8, n, p => (p.dst8Cache n).map .single

/-- What a request does. -/
def KindSpec (planFft : FftFn S T) (G : ℕ → Fft T → Prop) (V : ℕ → List T → Prop) (k : Kind) (n : ℕ) (st : Planner T × S)
    (r : EStateM.Result PlanPanic (Planner T × S) (Inst T)) : Prop :=
  match r with
  | .ok i st' => InvS G V st'.1 ∧ Grows st.1 st'.1 ∧ AskedFor planFft (k.fftLen n) st.2 st'.2 ∧ k.lookSt n st'.1 = some i ∧
      ∃ p sc, i.method k = some (p, sc) ∧ (1 ≤ n → ∃ pf, AllFfts G pf ∧ Planned pf [] k p n sc)
  | .error (.own x) st' => InvS G V st'.1 ∧ Grows st.1 st'.1 ∧ AskedFor planFft (k.fftLen n) st.2 st'.2 ∧ ∃ e pf, x = .crate e ∧ AllFfts G pf ∧ ∀ p sc, ¬ Planned pf [] k p n sc
  | .error .fft st' => InvS G V st'.1 ∧ Grows st.1 st'.1 ∧ ∃ m, k.fftLen n = some m ∧ planFft m st.2 = (none, st'.2)

theorem liftKind {α : Type} {k : Kind} {n : ℕ} {m : PlanSt S T (Arc α)} {r : (ℕ → Fft T) → Except Err α} {look : Planner T → Arc α → Prop}
    (h : GivesS planFft G V (k.fftLen n) m r look) (c : Arc α → Inst T) (hl : ∀ s a, look s a → k.lookSt n s = some (c a))
    (hok : ∀ pf a, r pf = .ok a.val → ∃ p sc, (c a).method k = some (p, sc) ∧ (1 ≤ n → Planned pf [] k p n sc))
    (herr : ∀ pf e, r pf = .error e → ∀ p sc, ¬ Planned pf [] k p n sc) (st : Planner T × S) (hs : InvS G V st.1) :
    KindSpec planFft G V k n st ((c <$> m) st) := by
  have h1 := h st hs
  simp only [Functor.map, EStateM.map]
  cases e : m st with
  | ok a st' =>
    rw [e] at h1
    obtain ⟨⟨pf, hp, hr⟩, h2, h3, h4, h5⟩ := h1
    obtain ⟨p, sc, h6, h7⟩ := hok pf a hr
    exact ⟨h2, h3, h4, hl _ _ h5, p, sc, h6, fun hn => ⟨pf, hp, h7 hn⟩⟩
  | error x st' =>
    rw [e] at h1
    cases x with
    | fft => exact h1
    | own x =>
      obtain ⟨⟨pf, er, hp, rfl, hr⟩, h2, h3, h4⟩ := h1
      exact ⟨h2, h3, h4, er, pf, rfl, hp, herr pf er hr⟩

theorem planSt_spec (hf : FftOk planFft G) (k : Kind) (n : ℕ) (st : Planner T × S) (hs : InvS G V st.1) : KindSpec planFft G V k n st (k.planSt planFft n st) := by
  cases k
  · refine liftKind (k := .dct1) (planDct1S hf n) Inst.single (fun s a h => by simp only [Kind.lookSt]; rw [h]; rfl) (fun pf a hr => ?_) (fun pf e hr p sc hp => ?_) st hs
    · obtain ⟨a', s', h, e⟩ := ok_of_canon (planDct1_yields n) hr
      exact ⟨_, _, rfl, fun _ => e ▸ .dct1 h⟩
    · cases hp with | dct1 h => exact err_of_canon (planDct1_yields n) hr h
  · refine liftKind (k := .dct2) (planDct2S hf n) Inst.t23 (fun s a h => by simp only [Kind.lookSt]; rw [h]; rfl) (fun pf a hr => ?_) (fun pf e hr p sc hp => ?_) st hs
    · obtain ⟨a', s', h, e⟩ := ok_of_canon (planDct2_yields n) hr
      exact ⟨_, _, rfl, fun _ => e ▸ .dct2 h⟩
    · cases hp with | dct2 h => exact err_of_canon (planDct2_yields n) hr h
  · refine liftKind (k := .dct3) (planDct2S hf n) Inst.t23 (fun s a h => by simp only [Kind.lookSt]; rw [h]; rfl) (fun pf a hr => ?_) (fun pf e hr p sc hp => ?_) st hs
    · obtain ⟨a', s', h, e⟩ := ok_of_canon (planDct2_yields n) hr
      exact ⟨_, _, rfl, fun hn => e ▸ .dct3 h hn⟩
    · cases hp with | dct3 h => exact err_of_canon (planDct2_yields n) hr h
  · refine liftKind (k := .dct4) (planDct4S hf n) Inst.t4 (fun s a h => by simp only [Kind.lookSt]; rw [h]; rfl) (fun pf a hr => ?_) (fun pf e hr p sc hp => ?_) st hs
    · obtain ⟨a', s', h, e⟩ := ok_of_canon (planDct4_yields n) hr
      exact ⟨_, _, rfl, fun hn => e ▸ .dct4 h hn⟩
    · cases hp with | dct4 h => exact err_of_canon (planDct4_yields n) hr h
  · refine liftKind (k := .dct5) (planDct5S hf n) Inst.single (fun s a h => by simp only [Kind.lookSt]; rw [h]; rfl) (fun pf a hr => ?_) (fun pf e hr p sc hp => ?_) st hs
    · obtain ⟨a', s', h, e⟩ := ok_of_canon (pf := pf) (planDct5_yields n) hr
      exact ⟨_, _, rfl, fun _ => e ▸ .dct5 h⟩
    · cases hp with | dct5 h => exact err_of_canon (planDct5_yields n) hr h
  · refine liftKind (k := .dct6) (planDct6S hf n) Inst.t67 (fun s a h => by simp only [Kind.lookSt]; rw [h]; rfl) (fun pf a hr => ?_) (fun pf e hr p sc hp => ?_) st hs
    · obtain ⟨a', s', h, e⟩ := ok_of_canon (pf := pf) (planDct6_yields n) hr
      exact ⟨_, _, rfl, fun _ => e ▸ .dct6 h⟩
    · cases hp with | dct6 h => exact err_of_canon (planDct6_yields n) hr h
  · refine liftKind (k := .dct7) (planDct6S hf n) Inst.t67 (fun s a h => by simp only [Kind.lookSt]; rw [h]; rfl) (fun pf a hr => ?_) (fun pf e hr p sc hp => ?_) st hs
    · obtain ⟨a', s', h, e⟩ := ok_of_canon (pf := pf) (planDct6_yields n) hr
      exact ⟨_, _, rfl, fun _ => e ▸ .dct7 h⟩
    · cases hp with | dct7 h => exact err_of_canon (planDct6_yields n) hr h
  · refine liftKind (k := .dct8) (planDct8S hf n) Inst.single (fun s a h => by simp only [Kind.lookSt]; rw [h]; rfl) (fun pf a hr => ?_) (fun pf e hr p sc hp => ?_) st hs
    · obtain ⟨a', s', h, e⟩ := ok_of_canon (pf := pf) (planDct8_yields n) hr
      exact ⟨_, _, rfl, fun _ => e ▸ .dct8 h⟩
    · cases hp with | dct8 h => exact err_of_canon (planDct8_yields n) hr h
  · refine liftKind (k := .dst1) (planDst1S hf n) Inst.single (fun s a h => by simp only [Kind.lookSt]; rw [h]; rfl) (fun pf a hr => ?_) (fun pf e hr p sc hp => ?_) st hs
    · obtain ⟨a', s', h, e⟩ := ok_of_canon (planDst1_yields n) hr
      exact ⟨_, _, rfl, fun _ => e ▸ .dst1 h⟩
    · cases hp with | dst1 h => exact err_of_canon (planDst1_yields n) hr h
  · refine liftKind (k := .dst2) (planDct2S hf n) Inst.t23 (fun s a h => by simp only [Kind.lookSt]; rw [h]; rfl) (fun pf a hr => ?_) (fun pf e hr p sc hp => ?_) st hs
    · obtain ⟨a', s', h, e⟩ := ok_of_canon (planDct2_yields n) hr
      exact ⟨_, _, rfl, fun _ => e ▸ .dst2 h⟩
    · cases hp with | dst2 h => exact err_of_canon (planDct2_yields n) hr h
  · refine liftKind (k := .dst3) (planDct2S hf n) Inst.t23 (fun s a h => by simp only [Kind.lookSt]; rw [h]; rfl) (fun pf a hr => ?_) (fun pf e hr p sc hp => ?_) st hs
    · obtain ⟨a', s', h, e⟩ := ok_of_canon (planDct2_yields n) hr
      exact ⟨_, _, rfl, fun hn => e ▸ .dst3 h hn⟩
    · cases hp with | dst3 h => exact err_of_canon (planDct2_yields n) hr h
  · refine liftKind (k := .dst4) (planDct4S hf n) Inst.t4 (fun s a h => by simp only [Kind.lookSt]; rw [h]; rfl) (fun pf a hr => ?_) (fun pf e hr p sc hp => ?_) st hs
    · obtain ⟨a', s', h, e⟩ := ok_of_canon (planDct4_yields n) hr
      exact ⟨_, _, rfl, fun hn => e ▸ .dst4 h hn⟩
    · cases hp with | dst4 h => exact err_of_canon (planDct4_yields n) hr h
  · refine liftKind (k := .dst5) (planDst5S hf n) Inst.single (fun s a h => by simp only [Kind.lookSt]; rw [h]; rfl) (fun pf a hr => ?_) (fun pf e hr p sc hp => ?_) st hs
    · obtain ⟨a', s', h, e⟩ := ok_of_canon (pf := pf) (planDst5_yields n) hr
      exact ⟨_, _, rfl, fun _ => e ▸ .dst5 h⟩
    · cases hp with | dst5 h => exact err_of_canon (planDst5_yields n) hr h
  · refine liftKind (k := .dst6) (planDst6S hf n) Inst.t67 (fun s a h => by simp only [Kind.lookSt]; rw [h]; rfl) (fun pf a hr => ?_) (fun pf e hr p sc hp => ?_) st hs
    · obtain ⟨a', s', h, e⟩ := ok_of_canon (planDst6_yields n) hr
      exact ⟨_, _, rfl, fun _ => e ▸ .dst6 h⟩
    · cases hp with | dst6 h => exact err_of_canon (planDst6_yields n) hr h
  · refine liftKind (k := .dst7) (planDst6S hf n) Inst.t67 (fun s a h => by simp only [Kind.lookSt]; rw [h]; rfl) (fun pf a hr => ?_) (fun pf e hr p sc hp => ?_) st hs
    · obtain ⟨a', s', h, e⟩ := ok_of_canon (planDst6_yields n) hr
      exact ⟨_, _, rfl, fun _ => e ▸ .dst7 h⟩
    · cases hp with | dst7 h => exact err_of_canon (planDst6_yields n) hr h
  · refine liftKind (k := .dst8) (planDst8S hf n) Inst.single (fun s a h => by simp only [Kind.lookSt]; rw [h]; rfl) (fun pf a hr => ?_) (fun pf e hr p sc hp => ?_) st hs
    · obtain ⟨a', s', h, e⟩ := ok_of_canon (pf := pf) (planDst8_yields n) hr
      exact ⟨_, _, rfl, fun _ => e ▸ .dst8 h⟩
    · cases hp with | dst8 h => exact err_of_canon (planDst8_yields n) hr h

/-- A cached instance is returned, and nothing happens. -/
theorem planSt_hit {k : Kind} {n : ℕ} {st : Planner T × S} {i : Inst T} (h : k.lookSt n st.1 = some i) : k.planSt planFft n st = .ok i st := by
  cases k <;> simp only [Kind.lookSt, Option.map_eq_some_iff] at h <;> obtain ⟨a, h, rfl⟩ := h <;>
    simp only [Kind.planSt, Functor.map, EStateM.map, planDct3St, planDct1St_eq, planDct2St_eq, planDct4St_eq, planDst1St_eq, planDst6St_eq, planDct5_eq, planDct6_eq,
      planDct8_eq, planDst5_eq, planDst8_eq, keepState_cachePlan, cacheSt_run, h]

theorem Grows.lookSt {s s' : Planner T} (h : Grows s s') {k : Kind} {n : ℕ} {i : Inst T} (hi : k.lookSt n s = some i) : k.lookSt n s' = some i := by
  cases k <;> simp only [Kind.lookSt, Option.map_eq_some_iff] at hi ⊢ <;> obtain ⟨a, ha, rfl⟩ := hi <;> refine ⟨a, ?_, rfl⟩
  all_goals first
    | exact h.dct1 _ _ ha | exact h.dct23 _ _ ha | exact h.dct4 _ _ ha | exact h.dct5 _ _ ha | exact h.dct6 _ _ ha | exact h.dct8 _ _ ha
    | exact h.dst1 _ _ ha | exact h.dst5 _ _ ha | exact h.dst6 _ _ ha | exact h.dst8 _ _ ha

/-! ### Histories -/

theorem InvS.mono {V' : ℕ → List T → Prop} (h : ∀ n v, V n v → V' n v) {p : Planner T} (hp : InvS G V p) : InvS G V' p :=
  { hp with mdct := fun n a e => let ⟨pf, v, h1, h2, h3⟩ := hp.mdct n a e; ⟨pf, v, h1, h n v h2, h3⟩ }

theorem FxCall.runSt_inv (hf : FftOk planFft G) (c : FxCall S T) {st : Planner T × S}
    (hc : ∀ n w a st', c = .mdct n w → planMdctSt planFft n w st = .ok a st' → ∀ s v s', w (2 * n) s = (some v, s') → V n v)
    (hs : InvS G V st.1) : InvS G V (c.runSt planFft st).1 ∧ Grows st.1 (c.runSt planFft st).1 := by
  cases c with
  | transform k n =>
    have := planSt_spec hf k n st hs
    unfold FxCall.runSt
    dsimp only
    cases e : k.planSt planFft n st with
    | ok i st' => rw [e] at this; exact ⟨this.1, this.2.1⟩
    | error x st' => rw [e] at this; cases x <;> exact ⟨this.1, this.2.1⟩
  | mdct n w =>
    have := (planMdctS hf n w st (fun a st' h => hc n w a st' rfl h) hs).2
    unfold FxCall.runSt
    dsimp only
    cases e : planMdctSt planFft n w st with
    | ok i st' => rw [e] at this; exact ⟨this.1, this.2.1⟩
    | error x st' => rw [e] at this; exact this

theorem afterSt_append (H H' : List (FxCall S T)) (s : Planner T × S) : afterSt planFft (H ++ H') s = afterSt planFft H' (afterSt planFft H s) := by
  unfold afterSt; rw [List.foldl_append]

/-- The windows that may be in use after a history: returned by a window function whose call of `plan_mdct` returned. -/
def Windows (planFft : FftFn S T) (H : List (FxCall S T)) (s : S) (n : ℕ) (v : List T) : Prop :=
  ∃ w t t', ReturnedMdctSt planFft H s n w ∧ w (2 * n) t = (some v, t')

theorem Returned_append {H H' : List (FxCall S T)} {s : S} {n : ℕ} {w : WindowFn S T} (h : ReturnedMdctSt planFft H s n w) : ReturnedMdctSt planFft (H ++ H') s n w := by
  obtain ⟨pre, post, a, s', rfl, e⟩ := h
  exact ⟨pre, post ++ H', a, s', by simp, e⟩

theorem after_invS (hf : FftOk planFft G) (H : List (FxCall S T)) (s : S) : InvS G (Windows planFft H s) (plannerAfterSt planFft H s).1 := by
  induction H using List.reverseRecOn with
  | nil => exact InvS.new 0
  | append_singleton H c ih =>
    have h1 : InvS G (Windows planFft (H ++ [c]) s) (plannerAfterSt planFft H s).1 :=
      ih.mono fun n v ⟨w, t, t', h, e⟩ => ⟨w, t, t', Returned_append h, e⟩
    have := (c.runSt_inv hf (st := plannerAfterSt planFft H s) (fun n w a st' e h t v t' hv => ⟨w, t, t', ⟨H, [], a, st', by rw [e], h⟩, hv⟩) h1).1
    unfold plannerAfterSt
    rw [afterSt_append]
    exact this

theorem afterSt_grows (hf : FftOk planFft G) (H : List (FxCall S T)) : ∀ {st : Planner T × S}, InvS G (fun _ _ => True) st.1 → Grows st.1 (afterSt planFft H st).1 := by
  induction H with
  | nil => exact fun _ => Grows.refl _
  | cons c H ih =>
    intro st hs
    obtain ⟨h1, h2⟩ := c.runSt_inv hf (fun _ _ _ _ _ _ _ _ _ _ => trivial) hs
    exact h2.trans (ih h1)

end RustDct
