import Verif.Props.WordPlan
/-!
# C66: `plan_mdct` with bounded `usize`, after any history

`C66_mdct_returns` is about a first call.  Here the histories on both sides are the same and arbitrary: a planner on a real machine returns an
MDCT instance exactly when the unbounded model does, and the two have the same window.
-/

set_option linter.all false

namespace RustDct

variable {T : Type} {F : Type} [F64 F] [DctNum T F]
variable {M : Target} {planFft : Nat → Fft T} {n : Nat}

/-- The method leaves the cache of MDCT instances alone. -/
def LeavesMdct {α : Type} (m : PlanM T α) : Prop := ∀ s, (finalState (m s)).mdctCache = s.mdctCache

theorem arcNew_leaves {α : Type} (x : Except Err α) : LeavesMdct (arcNew x : PlanM T (Arc α)) := by
  intro s; cases x <;> rfl

theorem LeavesMdct.bind {α β : Type} {m : PlanM T α} {k : α → PlanM T β} (h : LeavesMdct m) (h2 : ∀ a, LeavesMdct (k a)) : LeavesMdct (m >>= k) := by
  intro s
  rw [bind_run]
  have h1 := h s
  cases hm : m s with
  | error e s' => rw [hm] at h1; exact h1
  | ok a s' => rw [hm] at h1; exact (h2 a s').trans h1

theorem LeavesMdct.orPlan {α : Type} {look : Planner T → Option (Arc α)} {store : Planner T → Arc α → Planner T} {mk : PlanM T (Arc α)}
    (h : LeavesMdct mk) (hs : ∀ s a, (store s a).mdctCache = s.mdctCache) : LeavesMdct (orPlan look store mk) := by
  intro s
  rw [orPlan_run]
  cases hl : look s with
  | some a => rfl
  | none =>
    dsimp only
    have h1 := h s
    cases hm : mk s with
    | error e s' => rw [hm] at h1; exact h1
    | ok a s' => rw [hm] at h1; exact (hs s' a).trans h1

theorem planDct2Butterfly_leaves (n : Nat) : LeavesMdct (planDct2Butterfly n : PlanM T (Arc (Obj23 T))) := by
  unfold planDct2Butterfly
  iterate 5 (split; · exact arcNew_leaves _)
  exact fun s => rfl

theorem planDct2On_leaves (n : Nat) : LeavesMdct (planDct2On M planFft n) := by
  induction n using Nat.strongRecOn with
  | ind n ih =>
    rw [planDct2On]
    refine LeavesMdct.orPlan ?_ fun s a => rfl
    rw [planNewDct2On]
    split
    · exact planDct2Butterfly_leaves n
    split
    · next h1 h2 => exact LeavesMdct.bind (ih (n / 2) (by omega)) fun a => LeavesMdct.bind (ih (n / 4) (by omega)) fun b => arcNew_leaves _
    · exact arcNew_leaves _

theorem planDct4On_leaves (n : Nat) : LeavesMdct (planDct4On M planFft n) := by
  refine LeavesMdct.orPlan ?_ fun s a => rfl
  unfold planNewDct4On
  split
  · split
    · exact arcNew_leaves _
    · exact LeavesMdct.bind (planDct2On_leaves _) fun a => arcNew_leaves _
  · split <;> exact arcNew_leaves _

/-- Calls for other transforms. -/
theorem runOn_leaves (c : PlanCall T) (hc : ∀ n w, c ≠ .mdct n w) (s : Planner T) : (c.runOn M planFft s).mdctCache = s.mdctCache := by
  cases c with
  | dct1 n => exact (show LeavesMdct (planDct1On M planFft n) from LeavesMdct.orPlan (arcNew_leaves _) fun _ _ => rfl) s
  | dct2 n => exact planDct2On_leaves n s
  | dct3 n => exact planDct2On_leaves n s
  | dct4 n => exact planDct4On_leaves n s
  | dct5 n => exact (show LeavesMdct (planDct5On M n) from LeavesMdct.orPlan (arcNew_leaves _) fun _ _ => rfl) s
  | dct6 n => exact (show LeavesMdct (planDct6On M n) from LeavesMdct.orPlan (arcNew_leaves _) fun _ _ => rfl) s
  | dct7 n => exact (show LeavesMdct (planDct6On M n) from LeavesMdct.orPlan (arcNew_leaves _) fun _ _ => rfl) s
  | dct8 n => exact (show LeavesMdct (planDct8On M n) from LeavesMdct.orPlan (arcNew_leaves _) fun _ _ => rfl) s
  | dst1 n => exact (show LeavesMdct (planDst1On M planFft n) from LeavesMdct.orPlan (arcNew_leaves _) fun _ _ => rfl) s
  | dst2 n => exact planDct2On_leaves n s
  | dst3 n => exact planDct2On_leaves n s
  | dst4 n => exact planDct4On_leaves n s
  | dst5 n => exact (show LeavesMdct (planDst5On M n) from LeavesMdct.orPlan (arcNew_leaves _) fun _ _ => rfl) s
  | dst6 n => exact (show LeavesMdct (planDst6On M planFft n) from LeavesMdct.orPlan (arcNew_leaves _) fun _ _ => rfl) s
  | dst7 n => exact (show LeavesMdct (planDst6On M planFft n) from LeavesMdct.orPlan (arcNew_leaves _) fun _ _ => rfl) s
  | dst8 n => exact (show LeavesMdct (planDst8On M n) from LeavesMdct.orPlan (arcNew_leaves _) fun _ _ => rfl) s
  | mdct n w => exact absurd rfl (hc n w)

/-- `plan_mdct` of a length that is not cached. -/
theorem planMdctOn_fresh {W : Nat → (Nat → List T) → Prop} {w : Nat → List T} {s : Planner T} (hs : InvOn M planFft W s) (h : s.mdctCache n = none) :
    match planMdctOn M planFft n w s with
    | .ok a s' => canonMdctOn M planFft n w = .ok a.val ∧ s'.mdctCache = insertCache s.mdctCache n a
    | .error e s' => canonMdctOn M planFft n w = .error e ∧ s'.mdctCache = s.mdctCache := by
  unfold planMdctOn
  rw [orPlan_run, h]
  have := Gives.bind (planDct4On_gives (M := M) (planFft := planFft) (W := W) n)
    (k := fun a => arcNew ((MdctViaDct4.newOn M a.val w).map MdctViaDct4.toObj)) (q := fun a => (MdctViaDct4.newOn M a w).map MdctViaDct4.toObj)
    (fun a => arcNew_gives _) s hs
  have hl : LeavesMdct (planDct4On M planFft n >>= fun a => arcNew ((MdctViaDct4.newOn M a.val w).map MdctViaDct4.toObj)) :=
    (planDct4On_leaves n).bind fun a => arcNew_leaves _
  have hl := hl s
  dsimp only
  cases hm : (planDct4On M planFft n >>= fun a => arcNew ((MdctViaDct4.newOn M a.val w).map MdctViaDct4.toObj)) s with
  | error e s' => rw [hm] at this hl; exact ⟨this.1, hl⟩
  | ok a s' =>
    rw [hm] at this hl
    refine ⟨this.1, ?_⟩
    show insertCache s'.mdctCache n a = _
    rw [show s'.mdctCache = s.mdctCache from hl]

/-- Calls of `plan_mdct` change at most the entry of their own length. -/
theorem runOn_mdct_other {m : Nat} (w : Nat → List T) {W : Nat → (Nat → List T) → Prop} {s : Planner T} (hs : InvOn M planFft W s) (h : m ≠ n) :
    ((PlanCall.mdct m w).runOn M planFft s).mdctCache n = s.mdctCache n := by
  change (finalState (planMdctOn M planFft m w s)).mdctCache n = _
  cases hc : s.mdctCache m with
  | some a =>
    have : planMdctOn M planFft m w s = .ok a s := by unfold planMdctOn; rw [orPlan_run, hc]
    rw [this]; rfl
  | none =>
    have := planMdctOn_fresh (w := w) hs hc
    cases hm : planMdctOn M planFft m w s with
    | error e s' => rw [hm] at this; exact congrFun this.2 n
    | ok a s' =>
      rw [hm] at this
      show s'.mdctCache n = _
      rw [this.2, insertCache_ne _ _ (Ne.symm h)]

theorem effectiveWindow_append (n : Nat) (calls calls' : List (PlanCall T)) (w : Nat → List T) :
    effectiveWindow n (calls ++ calls') w = effectiveWindow n calls (effectiveWindow n calls' w) := by
  induction calls with
  | nil => rfl
  | cons c calls ih =>
    cases c with
    | mdct m v =>
      simp only [List.cons_append, effectiveWindow]
      rw [ih]
    | _ => exact ih

theorem canonMdctOn_iff (hf : PlanFftShape planFft) (h : M.Roomy n) (hF : ∀ m, Kind.dct4.fftLen n = some m → M.Usable (planFft m)) (h2 : n % 2 = 0)
    (w : Nat → List T) : (∃ o, canonMdctOn M planFft n w = .ok o) ↔ (w (2 * n)).length = 2 * n := by
  have e := canonMdctMid_eq hf h hF w h2
  constructor
  · rintro ⟨o, c⟩
    obtain ⟨a, c, -⟩ := (canonMdct_mid hf w).left c
    rw [e] at c
    by_contra hd
    rw [canonMdct_err hf (fun h => hd h.2)] at c
    cases c
  · intro hd
    obtain ⟨o, ho, -⟩ := canonMdct_ok hf h2 hd
    rw [← e] at ho
    obtain ⟨a, c, -⟩ := (canonMdct_mid hf w).right ho
    exact ⟨a, c⟩

/-- The cache entry of length `n` after a history. -/
theorem mdctCacheOn (hf : PlanFftShape planFft) (h : M.Roomy n) (hF : ∀ m, Kind.dct4.fftLen n = some m → M.Usable (planFft m)) (h2 : n % 2 = 0)
    (calls : List (PlanCall T)) :
    ((plannerAfterOn M planFft calls).mdctCache n = none ∧ ∀ v, .mdct n v ∈ calls → ¬ (v (2 * n)).length = 2 * n) ∨
    ∃ a, (plannerAfterOn M planFft calls).mdctCache n = some a ∧ ∀ w, canonMdctOn M planFft n (effectiveWindow n calls w) = .ok a.val := by
  induction calls using List.reverseRecOn with
  | nil => exact .inl ⟨rfl, fun v hv => by cases hv⟩
  | append_singleton calls c ih =>
    have hrun : plannerAfterOn M planFft (calls ++ [c]) = c.runOn M planFft (plannerAfterOn M planFft calls) := by
      unfold plannerAfterOn; rw [List.foldl_append]; rfl
    rw [hrun]
    have hI := afterOn_inv (M := M) (planFft := planFft) calls
    have keep : (c.runOn M planFft (plannerAfterOn M planFft calls)).mdctCache n = (plannerAfterOn M planFft calls).mdctCache n →
        (∀ v, c = .mdct n v → (plannerAfterOn M planFft calls).mdctCache n = none → ¬ (v (2 * n)).length = 2 * n) →
        ((c.runOn M planFft (plannerAfterOn M planFft calls)).mdctCache n = none ∧ ∀ v, .mdct n v ∈ calls ++ [c] → ¬ (v (2 * n)).length = 2 * n) ∨
        ∃ a, (c.runOn M planFft (plannerAfterOn M planFft calls)).mdctCache n = some a ∧
          ∀ w, canonMdctOn M planFft n (effectiveWindow n (calls ++ [c]) w) = .ok a.val := by
      intro e hn
      rw [e]
      rcases ih with ⟨h0, hb⟩ | ⟨a, ha, hw⟩
      · refine .inl ⟨h0, fun v hv => ?_⟩
        rcases List.mem_append.1 hv with hv | hv
        · exact hb v hv
        · exact hn v (List.mem_singleton.1 hv).symm h0
      · exact .inr ⟨a, ha, fun w => by rw [effectiveWindow_append]; exact hw _⟩
    by_cases hc : ∀ m w, c ≠ .mdct m w
    · exact keep (congrFun (runOn_leaves c hc _) n) fun v hv => absurd hv (hc n v)
    push Not at hc
    obtain ⟨m, w, rfl⟩ := hc
    by_cases hmn : m = n
    · subst hmn
      rcases ih with ⟨h0, hb⟩ | ⟨a, ha, hw⟩
      · have fr := planMdctOn_fresh (w := w) hI h0
        by_cases hd : (w (2 * m)).length = 2 * m
        · obtain ⟨o, ho⟩ := (canonMdctOn_iff hf h hF h2 w).2 hd
          refine .inr ?_
          change ∃ a, (finalState (planMdctOn M planFft m w _)).mdctCache m = some a ∧ _
          cases hm : planMdctOn M planFft m w (plannerAfterOn M planFft calls) with
          | error e s' => rw [hm, ho] at fr; cases fr.1
          | ok a s' =>
            rw [hm] at fr
            refine ⟨a, ?_, fun u => ?_⟩
            · show s'.mdctCache m = _
              rw [fr.2, insertCache_self]
            · rw [effectiveWindow_append]
              rcases effectiveWindow_cases m calls (effectiveWindow m [.mdct m w] u) with ⟨-, e⟩ | ⟨pre, v, post, rfl, -, hv, -⟩
              · rw [e]
                simp only [effectiveWindow, hd, and_self, if_true]
                exact fr.1
              · exact absurd hv (hb v (by simp))
        · refine keep ?_ fun v hv _ => by injection hv with _ hv; subst hv; exact hd
          change (finalState (planMdctOn M planFft m w _)).mdctCache m = _
          cases hm : planMdctOn M planFft m w (plannerAfterOn M planFft calls) with
          | ok a s' => rw [hm] at fr; exact absurd ((canonMdctOn_iff hf h hF h2 w).1 ⟨_, fr.1⟩) hd
          | error e s' => rw [hm] at fr; exact congrFun fr.2 m
      · refine keep ?_ fun v _ h0 => by rw [ha] at h0; cases h0
        change (finalState (planMdctOn M planFft m w _)).mdctCache m = _
        have : planMdctOn M planFft m w (plannerAfterOn M planFft calls) = .ok a (plannerAfterOn M planFft calls) := by
          unfold planMdctOn; rw [orPlan_run, ha]
        rw [this]; rfl
    · exact keep (runOn_mdct_other w hI hmn) fun v hv => by injection hv with hv; exact absurd hv hmn

/-- What `plan_mdct` returns after a history: what planning with the effective window gives. -/
theorem plannedMdctOn_iff (hf : PlanFftShape planFft) (h : M.Roomy n) (hF : ∀ m, Kind.dct4.fftLen n = some m → M.Usable (planFft m)) (h2 : n % 2 = 0)
    {calls : List (PlanCall T)} {w : Nat → List T} {o : MdctObj T} :
    PlannedMdctOn M planFft calls n w o ↔ canonMdctOn M planFft n (effectiveWindow n calls w) = .ok o := by
  rcases mdctCacheOn hf h hF h2 calls with ⟨h0, hb⟩ | ⟨a, ha, hw⟩
  · have fr := planMdctOn_fresh (w := w) (afterOn_inv (M := M) (planFft := planFft) calls) h0
    have e : effectiveWindow n calls w = w := by
      rcases effectiveWindow_cases n calls w with ⟨-, e⟩ | ⟨pre, v, post, rfl, -, hv, -⟩
      · exact e
      · exact absurd hv (hb v (by simp))
    rw [e]
    unfold PlannedMdctOn
    cases hm : planMdctOn M planFft n w (plannerAfterOn M planFft calls) with
    | error e s' =>
      rw [hm] at fr
      rw [fr.1]
      exact ⟨fun ⟨_, _, h, _⟩ => (by cases h), fun h => (by cases h)⟩
    | ok b t =>
      rw [hm] at fr
      rw [fr.1]
      constructor
      · rintro ⟨a, s', h, rfl⟩; cases h; rfl
      · intro h; injection h with h; exact ⟨b, t, rfl, h⟩
  · rw [hw w]
    have e : planMdctOn M planFft n w (plannerAfterOn M planFft calls) = .ok a (plannerAfterOn M planFft calls) := by
      unfold planMdctOn; rw [orPlan_run, ha]
    unfold PlannedMdctOn
    rw [e]
    constructor
    · rintro ⟨a, s', h, rfl⟩; cases h; rfl
    · intro h; injection h with h; exact ⟨a, _, rfl, h⟩

/-- Whatever the unbounded model returns for an MDCT after a history, for a length for which the tables can be allocated, is returned on the machine after
the same history, with the same window. -/
theorem C66_mdct_history (hf : PlanFftShape planFft) {calls : List (PlanCall T)} {w : ℕ → List T} {o : MdctObj T} (h : PlannedMdct planFft calls n w o)
    (hr : M.Realistic) (hn : 8 * n + 8 ≤ M.maxVec) (hF : ∀ m, Kind.dct4.fftLen n = some m → M.Usable (planFft m)) :
    ∃ o', PlannedMdctOn M planFft calls n w o' ∧ o.Agrees M.toMachine o' := by
  have c : canonMdct planFft n (effectiveWindow n calls w) = .ok o := h.canon hf
  obtain ⟨a, s', e, rfl⟩ := h
  have h2 : n % 2 = 0 := ((C33_mdct_domain hf calls n w).1 ⟨a, s', e⟩).1
  rw [← canonMdctMid_eq hf ⟨hr, hn⟩ hF _ h2] at c
  obtain ⟨a', c, L⟩ := (canonMdct_mid hf _).right c
  exact ⟨a', (plannedMdctOn_iff hf ⟨hr, hn⟩ hF h2).2 c, L.2.2 ⟨hr, by omega⟩⟩

/-- And nothing else is: what the machine returns agrees with what the unbounded model returns after the same history. -/
theorem C66_mdct_history_only (hf : PlanFftShape planFft) {calls : List (PlanCall T)} {w : ℕ → List T} {o : MdctObj T} (h : PlannedMdctOn M planFft calls n w o)
    (hr : M.Realistic) (hn : 8 * n + 8 ≤ M.maxVec) (hF : ∀ m, Kind.dct4.fftLen n = some m → M.Usable (planFft m)) :
    ∃ o', PlannedMdct planFft calls n w o' ∧ o'.Agrees M.toMachine o := by
  have h2 : n % 2 = 0 := by
    obtain ⟨-, v, o', -, ⟨a, s', e, -⟩, -⟩ := C66_mdct hf h (.inr ⟨hr, by omega, hF⟩)
    exact ((C33_mdct_domain hf [] n v).1 ⟨a, s', e⟩).1
  have c := (plannedMdctOn_iff hf ⟨hr, hn⟩ hF h2).1 h
  have hl := (canonMdctOn_iff hf ⟨hr, hn⟩ hF h2 _).1 ⟨_, c⟩
  obtain ⟨a', c, L⟩ := (canonMdct_mid hf _).left c
  rw [canonMdctMid_eq hf ⟨hr, hn⟩ hF _ h2] at c
  have hd : (w (2 * n)).length = 2 * n ∨ ∃ w', .mdct n w' ∈ calls ∧ (w' (2 * n)).length = 2 * n := by
    rcases effectiveWindow_cases n calls w with ⟨-, e⟩ | ⟨pre, v, post, rfl, -, hv, -⟩
    · rw [e] at hl; exact .inl hl
    · exact .inr ⟨v, by simp, hv⟩
  obtain ⟨a, s', e⟩ := (C33_mdct_domain hf calls n w).2 ⟨h2, hd⟩
  have hp : PlannedMdct planFft calls n w a.val := ⟨a, s', e, rfl⟩
  have := hp.canon hf
  rw [c] at this; injection this with this
  exact ⟨a', this ▸ hp, L.2.2 ⟨hr, by omega⟩⟩

/-- The hypotheses are met: length 64 in a release build, after a call for this length with another window and one with a window of the wrong size. -/
example : ∃ o o', PlannedMdct (fun n => (sumFft n : Fft ℝ)) [.mdct 64 fun _ => [], .mdct 64 WindowFn.vorbis, .dct2 5] 64 WindowFn.one o ∧
    PlannedMdctOn release64 (fun n => (sumFft n : Fft ℝ)) [.mdct 64 fun _ => [], .mdct 64 WindowFn.vorbis, .dct2 5] 64 WindowFn.one o' ∧ o.Agrees release64.toMachine o' := by
  obtain ⟨a, s', e⟩ := (C33_mdct_domain (T := ℝ) (planFft := fun n => sumFft n) sumFft_sane.shape [.mdct 64 fun _ => [], .mdct 64 WindowFn.vorbis, .dct2 5] 64
    WindowFn.one).2 ⟨by norm_num, .inl (by simp [WindowFn.one])⟩
  have hu : ∀ m, Kind.dct4.fftLen 64 = some m → release64.Usable (sumFft m : Fft ℝ) := by
    intro m hm
    have h64 : Kind.dct4.fftLen 64 = none := by decide
    rw [h64] at hm; cases hm
  obtain ⟨o', h1, h2⟩ := C66_mdct_history sumFft_sane.shape ⟨a, s', e, rfl⟩ release64_realistic (by norm_num [release64]) hu
  exact ⟨_, o', ⟨a, s', e, rfl⟩, h1, h2⟩

end RustDct
