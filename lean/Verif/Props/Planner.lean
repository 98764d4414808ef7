import Verif.Proofs.Methods
import Verif.Model.DftFft
/-!
# C32–C35, C43: the planner, for every history of calls and every element type
-/

set_option linter.all false

namespace RustDct

section
variable {T : Type} {F : Type} [F64 F] [DctNum T F]
variable {planFft : Nat → Fft T} {calls : List (PlanCall T)}

/-- The call returned (it did not panic). -/
def Returns {α : Type} (r : EStateM.Result Err (Planner T) α) : Prop := ∃ a s, r = .ok a s

/-! ### The planner only returns instances made by the public constructors, of the requested length -/

theorem planned_instances (hf : PlanFftShape planFft) (n : Nat) :
    (2 ≤ n → Plans planFft (planDct1 planFft n) fun o => MadeDct1 (FromPlan planFft) o ∧ o.len = n) ∧
    Plans planFft (planDct2 planFft n) (fun o => Made23 (FromPlan planFft) o ∧ o.len = n) ∧
    Plans planFft (planDct4 planFft n) (fun o => Made4 (FromPlan planFft) o ∧ o.len = n) ∧
    (1 ≤ n → Plans planFft (planDct5 n) fun o => MadeDct5 o ∧ o.len = n) ∧
    (1 ≤ n → Plans planFft (planDct6 n) fun o => MadeDct67 o ∧ o.len = n) ∧
    Plans planFft (planDct8 n) (fun o => MadeDct8 o ∧ o.len = n) ∧
    Plans planFft (planDst1 planFft n) (fun o => MadeDst1 (FromPlan planFft) o ∧ o.len = n) ∧
    Plans planFft (planDst5 n) (fun o => MadeDst5 o ∧ o.len = n) ∧
    Plans planFft (planDst6 planFft n) (fun o => MadeDst67 (FromPlan planFft) o ∧ o.len = n) ∧
    (1 ≤ n → Plans planFft (planDst8 n) fun o => MadeDst8 o ∧ o.len = n) :=
  ⟨fun hn => Plans.of (fun _ => planDct1_yields n) (canonDct1_ok hf hn), Plans.of (fun _ => planDct2_yields n) (canon23_made hf n),
   Plans.of (fun _ => planDct4_yields n) (canon4_made hf n), fun hn => Plans.of (fun _ => planDct5_yields n) (canonDct5_ok hn),
   fun hn => Plans.of (fun _ => planDct6_yields n) (canonDct6_ok hn), Plans.of (fun _ => planDct8_yields n) (canonDct8_ok n),
   Plans.of (fun _ => planDst1_yields n) (canonDst1_ok hf n), Plans.of (fun _ => planDst5_yields n) (canonDst5_ok n),
   Plans.of (fun _ => planDst6_yields n) (canonDst6_ok hf n), fun hn => Plans.of (fun _ => planDst8_yields n) (canonDst8_ok hn)⟩

/-! ### C32: instances report the requested length -/

theorem C32_planned (hf : PlanFftShape planFft) (n : Nat) :
    (2 ≤ n → Plans planFft (planDct1 planFft n) fun o => o.len = n) ∧
    Plans planFft (planDct2 planFft n) (fun o => o.len = n) ∧ Plans planFft (planDct3 planFft n) (fun o => o.len = n) ∧
    Plans planFft (planDct4 planFft n) (fun o => o.len = n) ∧
    (1 ≤ n → Plans planFft (planDct5 n) fun o => o.len = n) ∧
    (1 ≤ n → Plans planFft (planDct6 n) fun o => o.len = n) ∧ (1 ≤ n → Plans planFft (planDct7 n) fun o => o.len = n) ∧
    Plans planFft (planDct8 n) (fun o => o.len = n) ∧
    Plans planFft (planDst1 planFft n) (fun o => o.len = n) ∧
    Plans planFft (planDst2 planFft n) (fun o => o.len = n) ∧ Plans planFft (planDst3 planFft n) (fun o => o.len = n) ∧
    Plans planFft (planDst4 planFft n) (fun o => o.len = n) ∧
    Plans planFft (planDst5 n) (fun o => o.len = n) ∧
    Plans planFft (planDst6 planFft n) (fun o => o.len = n) ∧ Plans planFft (planDst7 planFft n) (fun o => o.len = n) ∧
    (1 ≤ n → Plans planFft (planDst8 n) fun o => o.len = n) := by
  obtain ⟨h1, h2, h4, h5, h6, h8, s1, s5, s6, s8⟩ := planned_instances hf n
  have L : ∀ {α : Type} {m : PlanM T (Arc α)} {P Q : α → Prop}, Plans planFft m (fun o => P o ∧ Q o) → Plans planFft m Q :=
    fun h calls => let ⟨a, s, e, hp⟩ := h calls; ⟨a, s, e, hp.2⟩
  exact ⟨fun hn => L (h1 hn), L h2, L h2, L h4, fun hn => L (h5 hn), fun hn => L (h6 hn), fun hn => L (h6 hn), L h8, L s1, L h2, L h2, L h4,
    L s5, L s6, L s6, fun hn => L (s8 hn)⟩

theorem C32_mdct_planned (hf : PlanFftShape planFft) {n : Nat} {w : Nat → List T} {o : MdctObj T} (h : PlannedMdct planFft calls n w o) :
    o.len = n := (h.made hf).1

theorem C32_naive (n : Nat) :
    (∀ x : Dct1Naive T, Dct1Naive.new n = .ok x → x.len = n) ∧ (∀ x : Dst1Naive T, Dst1Naive.new n = .ok x → x.len = n) ∧
    (∀ x : Type2And3Naive T, Type2And3Naive.new n = .ok x → x.len = n) ∧ (∀ x : Type4Naive T, Type4Naive.new n = .ok x → x.len = n) ∧
    (∀ x : Dct5Naive T, Dct5Naive.new n = .ok x → x.len = n) ∧ (∀ x : Dst5Naive T, Dst5Naive.new n = .ok x → x.len = n) ∧
    (∀ x : Dct6And7Naive T, Dct6And7Naive.new n = .ok x → x.len = n) ∧ (∀ x : Dst6And7Naive T, Dst6And7Naive.new n = .ok x → x.len = n) ∧
    (∀ x : Dct8Naive T, Dct8Naive.new n = .ok x → x.len = n) ∧ (∀ x : Dst8Naive T, Dst8Naive.new n = .ok x → x.len = n) ∧
    (∀ (w : Nat → List T) (x : MdctNaive T), MdctNaive.new n w = .ok x → x.len = n) := by
  refine ⟨fun _ => Dct1Naive.len_new, fun _ => Dst1Naive.len_new, fun _ => Type2And3Naive.len_new, fun _ => Type4Naive.len_new,
    fun _ => Dct5Naive.len_new, fun _ => Dst5Naive.len_new, fun _ => Dct6And7Naive.len_new, fun _ => Dst6And7Naive.len_new,
    fun _ => Dct8Naive.len_new, fun _ => Dst8Naive.len_new, fun w x h => ?_⟩
  obtain ⟨-, -, t, rfl⟩ := MdctNaive.new_shape h
  simp [MdctNaive.len]

/-! ### C33: the planner's domain -/

theorem returns_iff {α : Type} {m : PlanM T (Arc α)} {r : Except Err α} {post} (h : ∀ W, Yields planFft W m r post) (calls : List (PlanCall T)) :
    Returns (m (plannerAfter planFft calls)) ↔ ∃ o, r = .ok o := by
  have := h _ _ (after_inv (planFft := planFft) calls)
  cases hm : m (plannerAfter planFft calls) with
  | ok a s' => rw [hm] at this; exact ⟨fun _ => ⟨_, this.1⟩, fun _ => ⟨a, s', rfl⟩⟩
  | error e s' =>
    rw [hm] at this
    constructor
    · rintro ⟨_, _, h⟩; cases h
    · rintro ⟨o, ho⟩; rw [this.1] at ho; cases ho

theorem returns_iff' {α : Type} {m : PlanM T (Arc α)} {r : Except Err α} {post} {P : α → Prop} {D : Prop} [Decidable D] (h : ∀ W, Yields planFft W m r post)
    (h1 : D → ∃ o, r = .ok o ∧ P o) (h2 : ¬ D → ∃ e, r = .error e ∧ e ≠ .ub) (calls : List (PlanCall T)) :
    Returns (m (plannerAfter planFft calls)) ↔ D := by
  rw [returns_iff h]
  constructor
  · rintro ⟨o, ho⟩
    by_contra hd
    obtain ⟨e, he, -⟩ := h2 hd
    rw [he] at ho; cases ho
  · intro hd
    obtain ⟨o, ho, -⟩ := h1 hd
    exact ⟨o, ho⟩

/-- Exactly the documented lengths are accepted, after every history. -/
theorem C33_domain (hf : PlanFftShape planFft) (calls : List (PlanCall T)) (n : Nat) :
    (Returns (planDct1 planFft n (plannerAfter planFft calls)) ↔ 2 ≤ n) ∧
    Returns (planDct2 planFft n (plannerAfter planFft calls)) ∧ Returns (planDct3 planFft n (plannerAfter planFft calls)) ∧
    Returns (planDct4 planFft n (plannerAfter planFft calls)) ∧
    (Returns (planDct5 n (plannerAfter planFft calls)) ↔ 1 ≤ n) ∧ (Returns (planDct6 n (plannerAfter planFft calls)) ↔ 1 ≤ n) ∧
    (Returns (planDct7 n (plannerAfter planFft calls)) ↔ 1 ≤ n) ∧ Returns (planDct8 n (plannerAfter planFft calls)) ∧
    Returns (planDst1 planFft n (plannerAfter planFft calls)) ∧ Returns (planDst2 planFft n (plannerAfter planFft calls)) ∧
    Returns (planDst3 planFft n (plannerAfter planFft calls)) ∧ Returns (planDst4 planFft n (plannerAfter planFft calls)) ∧
    Returns (planDst5 n (plannerAfter planFft calls)) ∧ Returns (planDst6 planFft n (plannerAfter planFft calls)) ∧
    Returns (planDst7 planFft n (plannerAfter planFft calls)) ∧ (Returns (planDst8 n (plannerAfter planFft calls)) ↔ 1 ≤ n) := by
  have L : ∀ {α : Type} {m : PlanM T (Arc α)} {P : α → Prop}, Plans planFft m P → Returns (m (plannerAfter planFft calls)) :=
    fun h => let ⟨a, s, e, _⟩ := h calls; ⟨a, s, e⟩
  obtain ⟨-, h2, h4, -, -, h8, s1, s5, s6, -⟩ := planned_instances hf n
  have d1 := returns_iff' (fun W => planDct1_yields (planFft := planFft) n) (fun hn => canonDct1_ok hf hn) (fun hn => canonDct1_err hn) calls
  have d5 := returns_iff' (planFft := planFft) (fun W => planDct5_yields (T := T) n) (fun hn => canonDct5_ok hn) (fun hn => canonDct5_err hn) calls
  have d6 := returns_iff' (planFft := planFft) (fun W => planDct6_yields (T := T) n) (fun hn => canonDct6_ok hn) (fun hn => canonDct6_err hn) calls
  have d8 := returns_iff' (planFft := planFft) (fun W => planDst8_yields (T := T) n) (fun hn => canonDst8_ok hn) (fun hn => canonDst8_err hn) calls
  exact ⟨d1, L h2, L h2, L h4, d5, d6, d6, L h8, L s1, L h2, L h2, L h4, L s5, L s6, L s6, d8⟩

/-- An MDCT of length `n` was planned successfully at some point of the history. -/
theorem mdct_cached_iff (hf : PlanFftShape planFft) (calls : List (PlanCall T)) (n : Nat) :
    (plannerAfter planFft calls).mdctCache n ≠ none ↔ ∃ w, .mdct n w ∈ calls ∧ n % 2 = 0 ∧ (w (2 * n)).length = 2 * n := by
  constructor
  · intro h
    obtain ⟨a, ha⟩ := Option.ne_none_iff_exists'.1 h
    obtain ⟨w, hw, hc⟩ := (after_inv (planFft := planFft) calls).mdct n a ha
    refine ⟨w, hw, ?_⟩
    by_contra hd
    rw [canonMdct_err hf hd] at hc; cases hc
  · rintro ⟨w, hw, hd⟩
    obtain ⟨pre, post, rfl⟩ := List.append_of_mem hw
    have hI : Inv planFft (UsedWindow (pre ++ .mdct n w :: post)) (plannerAfter planFft pre) :=
      (after_inv pre).mono fun _ _ h => by unfold UsedWindow at *; simp [h]
    have hr := planMdct_run n (W := UsedWindow (pre ++ .mdct n w :: post)) hw _ hI
    obtain ⟨o, ho, -⟩ := canonMdct_ok hf hd.1 hd.2
    rw [after_append]
    simp only [List.foldl_cons]
    have e1 : PlanCall.run planFft (.mdct n w) (plannerAfter planFft pre) = finalState (planMdct planFft n w (plannerAfter planFft pre)) := rfl
    rw [e1]
    cases hm : planMdct planFft n w (plannerAfter planFft pre) with
    | error e s' => rw [hm] at hr; rw [hr.1] at ho; cases ho
    | ok a s' =>
      rw [hm] at hr
      obtain ⟨-, h1, -, h2, -⟩ := hr
      rw [show finalState (EStateM.Result.ok a s') = s' from rfl, (foldl_inv (planFft := planFft) (W := UsedWindow (pre ++ .mdct n w :: post)) post (fun m v hv => by unfold UsedWindow; simp [hv]) h1).2.mdct n a h2]
      simp

/-- `plan_mdct` returns exactly for even lengths whose window has the right size; the window is not looked at when an
MDCT of this length was planned before. -/
theorem C33_mdct_domain (hf : PlanFftShape planFft) (calls : List (PlanCall T)) (n : Nat) (w : Nat → List T) :
    Returns (planMdct planFft n w (plannerAfter planFft calls)) ↔
      n % 2 = 0 ∧ ((w (2 * n)).length = 2 * n ∨ ∃ w', .mdct n w' ∈ calls ∧ (w' (2 * n)).length = 2 * n) := by
  by_cases hc : (plannerAfter planFft calls).mdctCache n = none
  · have hI : Inv planFft (fun m v => (m = n ∧ v = w) ∨ UsedWindow calls m v) (plannerAfter planFft calls) := (after_inv calls).mono fun _ _ h => .inr h
    have hr := planMdct_run n (W := fun m v => (m = n ∧ v = w) ∨ UsedWindow calls m v) (.inl ⟨rfl, rfl⟩) _ hI
    have key : (∃ w', .mdct n w' ∈ calls ∧ n % 2 = 0 ∧ (w' (2 * n)).length = 2 * n) → False := fun h =>
      (mdct_cached_iff hf calls n).2 h hc
    constructor
    · rintro ⟨a, s', e⟩
      rw [e] at hr
      have := hr.2.2.2.2 hc
      by_cases hd : n % 2 = 0 ∧ (w (2 * n)).length = 2 * n
      · exact ⟨hd.1, .inl hd.2⟩
      · rw [canonMdct_err hf hd] at this; cases this
    · rintro ⟨h1, h2 | ⟨w', hw', hl⟩⟩
      · obtain ⟨o, ho, -⟩ := canonMdct_ok hf h1 h2
        cases hm : planMdct planFft n w (plannerAfter planFft calls) with
        | error e s' => rw [hm] at hr; rw [hr.1] at ho; cases ho
        | ok a s' => exact ⟨a, s', rfl⟩
      · exact (key ⟨w', hw', h1, hl⟩).elim
  · obtain ⟨w', hw', h1, h2⟩ := (mdct_cached_iff hf calls n).1 hc
    obtain ⟨a, ha⟩ := Option.ne_none_iff_exists'.1 hc
    constructor
    · exact fun _ => ⟨h1, .inr ⟨w', hw', h2⟩⟩
    · intro _
      rw [planMdct_eq, cachePlan_run, ha]
      exact ⟨a, _, rfl⟩

/-! ### C34: results do not depend on history -/

theorem C34_history_independent (calls : List (PlanCall T)) (n : Nat) :
    answer (planDct1 planFft n (plannerAfter planFft calls)) = answer (planDct1 planFft n (Planner.new 0)) ∧
    answer (planDct2 planFft n (plannerAfter planFft calls)) = answer (planDct2 planFft n (Planner.new 0)) ∧
    answer (planDct3 planFft n (plannerAfter planFft calls)) = answer (planDct3 planFft n (Planner.new 0)) ∧
    answer (planDct4 planFft n (plannerAfter planFft calls)) = answer (planDct4 planFft n (Planner.new 0)) ∧
    answer (planDct5 n (plannerAfter planFft calls)) = answer (planDct5 n (Planner.new 0 : Planner T)) ∧
    answer (planDct6 n (plannerAfter planFft calls)) = answer (planDct6 n (Planner.new 0 : Planner T)) ∧
    answer (planDct7 n (plannerAfter planFft calls)) = answer (planDct7 n (Planner.new 0 : Planner T)) ∧
    answer (planDct8 n (plannerAfter planFft calls)) = answer (planDct8 n (Planner.new 0 : Planner T)) ∧
    answer (planDst1 planFft n (plannerAfter planFft calls)) = answer (planDst1 planFft n (Planner.new 0)) ∧
    answer (planDst2 planFft n (plannerAfter planFft calls)) = answer (planDst2 planFft n (Planner.new 0)) ∧
    answer (planDst3 planFft n (plannerAfter planFft calls)) = answer (planDst3 planFft n (Planner.new 0)) ∧
    answer (planDst4 planFft n (plannerAfter planFft calls)) = answer (planDst4 planFft n (Planner.new 0)) ∧
    answer (planDst5 n (plannerAfter planFft calls)) = answer (planDst5 n (Planner.new 0 : Planner T)) ∧
    answer (planDst6 planFft n (plannerAfter planFft calls)) = answer (planDst6 planFft n (Planner.new 0)) ∧
    answer (planDst7 planFft n (plannerAfter planFft calls)) = answer (planDst7 planFft n (Planner.new 0)) ∧
    answer (planDst8 n (plannerAfter planFft calls)) = answer (planDst8 n (Planner.new 0 : Planner T)) := by
  have L : ∀ {α : Type} {m : PlanM T (Arc α)} {r : Except Err α} {post}, (∀ W, Yields planFft W m r post) →
      answer (m (plannerAfter planFft calls)) = answer (m (Planner.new 0)) := fun h =>
    (Yields.answers h calls).trans (Yields.answers h []).symm
  exact ⟨L fun W => planDct1_yields n, L fun W => planDct2_yields n, L fun W => planDct2_yields n, L fun W => planDct4_yields n,
    L fun W => planDct5_yields n, L fun W => planDct6_yields n, L fun W => planDct6_yields n, L fun W => planDct8_yields n,
    L fun W => planDst1_yields n, L fun W => planDct2_yields n, L fun W => planDct2_yields n, L fun W => planDct4_yields n,
    L fun W => planDst5_yields n, L fun W => planDst6_yields n, L fun W => planDst6_yields n, L fun W => planDst8_yields n⟩

/-! ### C35: instances are cached and shared -/

/-- If method `m` (whose call is `c`) returned the reference `a`, then after any further calls method `m'` returns the very same
reference and leaves the planner as it is. -/
def Remembers {α : Type} (planFft : Nat → Fft T) (c : PlanCall T) (m m' : PlanM T (Arc α)) : Prop :=
  ∀ calls more a s', m (plannerAfter planFft calls) = .ok a s' →
    m' (plannerAfter planFft (calls ++ c :: more)) = .ok a (plannerAfter planFft (calls ++ c :: more))

theorem remembers {α : Type} {m : PlanM T (Arc α)} {r : Except Err α} {look : Planner T → Option (Arc α)} {c : PlanCall T}
    (hy : ∀ W, Yields planFft W m r (fun _ s' a => look s' = some a)) (hc : ∀ s a, look s = some a → m s = .ok a s)
    (hg : ∀ s s' a, Grows s s' → look s = some a → look s' = some a) (hrun : ∀ s, c.run planFft s = finalState (m s)) :
    Remembers planFft c m m := by
  intro calls more a s' e
  apply hc
  rw [after_append]
  simp only [List.foldl_cons]
  rw [hrun, e]
  have := hy (UsedWindow (calls ++ c :: more)) _ ((after_inv (planFft := planFft) calls).mono fun _ _ h => by unfold UsedWindow at *; simp [h])
  rw [e] at this
  exact hg _ _ _ (foldl_inv (planFft := planFft) (W := UsedWindow (calls ++ c :: more)) more (fun m v hv => by unfold UsedWindow; simp [hv]) this.2.1).2 this.2.2.2

theorem cachePlan_hit {α : Type} {look : Planner T → Option (Arc α)} {store mk} {s : Planner T} {a : Arc α} (h : look s = some a) :
    cachePlan look store mk s = .ok a s := by rw [cachePlan_run, h]

theorem C35_cached (n : Nat) :
    Remembers planFft (.dct1 n) (planDct1 planFft n) (planDct1 planFft n) ∧
    Remembers planFft (.dst1 n) (planDst1 planFft n) (planDst1 planFft n) ∧
    Remembers planFft (.dct5 n) (planDct5 n) (planDct5 n) ∧ Remembers planFft (.dst5 n) (planDst5 n) (planDst5 n) ∧
    Remembers planFft (.dct8 n) (planDct8 n) (planDct8 n) ∧ Remembers planFft (.dst8 n) (planDst8 n) (planDst8 n) := by
  refine ⟨?_, ?_, ?_, ?_, ?_, ?_⟩
  · exact remembers (look := fun s => s.dct1Cache n) (fun W => planDct1_yields n) (fun s a h => by rw [planDct1_eq]; exact cachePlan_hit h) (fun s s' a g => g.dct1 n a) (fun s => rfl)
  · exact remembers (look := fun s => s.dst1Cache n) (fun W => planDst1_yields n) (fun s a h => by rw [planDst1_eq]; exact cachePlan_hit h) (fun s s' a g => g.dst1 n a) (fun s => rfl)
  · exact remembers (look := fun s => s.dct5Cache n) (fun W => planDct5_yields n) (fun s a h => by rw [planDct5_eq]; exact cachePlan_hit h) (fun s s' a g => g.dct5 n a) (fun s => rfl)
  · exact remembers (look := fun s => s.dst5Cache n) (fun W => planDst5_yields n) (fun s a h => by rw [planDst5_eq]; exact cachePlan_hit h) (fun s s' a g => g.dst5 n a) (fun s => rfl)
  · exact remembers (look := fun s => s.dct8Cache n) (fun W => planDct8_yields n) (fun s a h => by rw [planDct8_eq]; exact cachePlan_hit h) (fun s s' a g => g.dct8 n a) (fun s => rfl)
  · exact remembers (look := fun s => s.dst8Cache n) (fun W => planDst8_yields n) (fun s a h => by rw [planDst8_eq]; exact cachePlan_hit h) (fun s s' a g => g.dst8 n a) (fun s => rfl)

/-- The four calls that share the type 2 and 3 instance of length `n`. -/
def calls23 (planFft : Nat → Fft T) (n : Nat) : List (PlanCall T × PlanM T (Arc (Obj23 T))) :=
  [(.dct2 n, planDct2 planFft n), (.dct3 n, planDct3 planFft n), (.dst2 n, planDst2 planFft n), (.dst3 n, planDst3 planFft n)]

/-- The two calls that share the type 4 instance. -/
def calls4 (planFft : Nat → Fft T) (n : Nat) : List (PlanCall T × PlanM T (Arc (Obj4 T))) :=
  [(.dct4 n, planDct4 planFft n), (.dst4 n, planDst4 planFft n)]

/-- The two calls that share the DCT6 and DCT7 instance. -/
def callsDct67 (n : Nat) : List (PlanCall T × PlanM T (Arc (Obj67 T))) := [(.dct6 n, planDct6 n), (.dct7 n, planDct7 n)]

/-- The two calls that share the DST6 and DST7 instance. -/
def callsDst67 (planFft : Nat → Fft T) (n : Nat) : List (PlanCall T × PlanM T (Arc (Obj67 T))) :=
  [(.dst6 n, planDst6 planFft n), (.dst7 n, planDst7 planFft n)]

theorem C35_shared (n : Nat) :
    (∀ x ∈ calls23 planFft n, ∀ y ∈ calls23 planFft n, Remembers planFft x.1 x.2 y.2) ∧
    (∀ x ∈ calls4 planFft n, ∀ y ∈ calls4 planFft n, Remembers planFft x.1 x.2 y.2) ∧
    (∀ x ∈ callsDct67 (T := T) n, ∀ y ∈ callsDct67 n, Remembers planFft x.1 x.2 y.2) ∧
    (∀ x ∈ callsDst67 planFft n, ∀ y ∈ callsDst67 planFft n, Remembers planFft x.1 x.2 y.2) := by
  refine ⟨?_, ?_, ?_, ?_⟩
  · have a : ∀ c : PlanCall T, (∀ s, c.run planFft s = finalState (planDct2 planFft n s)) → Remembers planFft c (planDct2 planFft n) (planDct2 planFft n) := fun c hc =>
      remembers (look := fun s => s.dct23Cache n) (fun W => planDct2_yields n) (fun s a h => by rw [planDct2_eq]; exact cachePlan_hit h) (fun s s' a g => g.dct23 n a) hc
    intro x hx y hy
    simp only [calls23, List.mem_cons, List.not_mem_nil, or_false] at hx hy
    rcases hx with rfl | rfl | rfl | rfl <;> rcases hy with rfl | rfl | rfl | rfl <;> exact a _ fun _ => rfl
  · have a : ∀ c : PlanCall T, (∀ s, c.run planFft s = finalState (planDct4 planFft n s)) → Remembers planFft c (planDct4 planFft n) (planDct4 planFft n) := fun c hc =>
      remembers (look := fun s => s.dct4Cache n) (fun W => planDct4_yields n) (fun s a h => by rw [planDct4_eq]; exact cachePlan_hit h) (fun s s' a g => g.dct4 n a) hc
    intro x hx y hy
    simp only [calls4, List.mem_cons, List.not_mem_nil, or_false] at hx hy
    rcases hx with rfl | rfl <;> rcases hy with rfl | rfl <;> exact a _ fun _ => rfl
  · have a : ∀ c : PlanCall T, (∀ s, c.run planFft s = finalState (planDct6 n s)) → Remembers planFft c (planDct6 n) (planDct6 n) := fun c hc =>
      remembers (look := fun s => s.dct6Cache n) (fun W => planDct6_yields n) (fun s a h => by rw [planDct6_eq]; exact cachePlan_hit h) (fun s s' a g => g.dct6 n a) hc
    intro x hx y hy
    simp only [callsDct67, List.mem_cons, List.not_mem_nil, or_false] at hx hy
    rcases hx with rfl | rfl <;> rcases hy with rfl | rfl <;> exact a _ fun _ => rfl
  · have a : ∀ c : PlanCall T, (∀ s, c.run planFft s = finalState (planDst6 planFft n s)) → Remembers planFft c (planDst6 planFft n) (planDst6 planFft n) := fun c hc =>
      remembers (look := fun s => s.dst6Cache n) (fun W => planDst6_yields n) (fun s a h => by rw [planDst6_eq]; exact cachePlan_hit h) (fun s s' a g => g.dst6 n a) hc
    intro x hx y hy
    simp only [callsDst67, List.mem_cons, List.not_mem_nil, or_false] at hx hy
    rcases hx with rfl | rfl <;> rcases hy with rfl | rfl <;> exact a _ fun _ => rfl

/-- The same for `plan_mdct`, whatever the second window function is. -/
theorem C35_mdct (n : Nat) (w w' : Nat → List T) : Remembers planFft (.mdct n w) (planMdct planFft n w) (planMdct planFft n w') := by
  intro calls more a s' e
  rw [planMdct_eq, cachePlan_run]
  have hI : Inv planFft (UsedWindow (calls ++ .mdct n w :: more)) (plannerAfter planFft calls) :=
    (after_inv (planFft := planFft) calls).mono fun _ _ h => by unfold UsedWindow at *; simp [h]
  have hr := planMdct_run n (w := w) (W := UsedWindow (calls ++ .mdct n w :: more)) (by unfold UsedWindow; simp) _ hI
  rw [e] at hr
  have : (plannerAfter planFft (calls ++ .mdct n w :: more)).mdctCache n = some a := by
    rw [after_append]
    simp only [List.foldl_cons]
    have e1 : PlanCall.run planFft (.mdct n w) (plannerAfter planFft calls) = finalState (planMdct planFft n w (plannerAfter planFft calls)) := rfl
    rw [e1, e]
    exact (foldl_inv (planFft := planFft) (W := UsedWindow (calls ++ .mdct n w :: more)) more (fun m v hv => by unfold UsedWindow; simp [hv]) hr.2.1).2.mdct n a hr.2.2.2.1
  rw [this]

/-! ### C43: recursive planning is cheap -/

theorem planDct2_hit {s : Planner T} {n : Nat} (h : s.dct23Cache n ≠ none) : ∃ a, planDct2 planFft n s = .ok a s := by
  obtain ⟨a, ha⟩ := Option.ne_none_iff_exists'.1 h
  exact ⟨a, by rw [planDct2_eq]; exact cachePlan_hit ha⟩

theorem planDct2_butterfly {s : Planner T} {n : Nat} (h : dct2Butterflies.contains n = true) :
    ∃ a s', planDct2 planFft n s = .ok a s' ∧ s'.nextId ≤ s.nextId + 1 := by
  by_cases hc : s.dct23Cache n = none
  · rw [planDct2_eq, cachePlan_run, hc, planNewDct2, if_pos h]
    simp [dct2Butterflies] at h
    rcases h with rfl | rfl | rfl | rfl | rfl <;> exact ⟨_, _, rfl, Nat.le_refl _⟩
  · obtain ⟨a, ha⟩ := planDct2_hit (planFft := planFft) hc
    exact ⟨a, s, ha, by omega⟩

theorem planDct2_cost (hf : PlanFftShape planFft) {W} {k : Nat} : ∀ {s : Planner T}, Inv planFft W s → 1 ≤ k →
    ∃ a s', planDct2 planFft (2 ^ k) s = .ok a s' ∧ s'.nextId ≤ s.nextId + k := by
  induction k using Nat.strongRecOn with
  | ind k ih =>
    intro s hs hk
    by_cases hb : dct2Butterflies.contains (2 ^ k) = true
    · obtain ⟨a, s', e, h⟩ := planDct2_butterfly (planFft := planFft) (s := s) hb
      exact ⟨a, s', e, by omega⟩
    have hk5 : 5 ≤ k := by
      rcases Nat.lt_or_ge k 5 with h | h
      · exfalso
        have : k = 1 ∨ k = 2 ∨ k = 3 ∨ k = 4 := by omega
        rcases this with rfl | rfl | rfl | rfl <;> exact hb (by decide)
      · exact h
    by_cases hc : s.dct23Cache (2 ^ k) = none
    · have hp : isPowerOfTwo (2 ^ k) = true := (isPowerOfTwo_iff _).2 ⟨k, rfl⟩
      have hgt : 2 ^ k > 2 := by
        calc 2 < 2 ^ 5 := by norm_num
          _ ≤ 2 ^ k := Nat.pow_le_pow_right (by norm_num) hk5
      obtain ⟨j, rfl⟩ : ∃ j, k = j + 2 := ⟨k - 2, by omega⟩
      have e2 : 2 ^ (j + 2) / 2 = 2 ^ (j + 1) := by rw [Nat.pow_succ]; omega
      have e4 : 2 ^ (j + 2) / 4 = 2 ^ j := by rw [Nat.pow_succ, Nat.pow_succ]; omega
      rw [planDct2_eq, cachePlan_run, hc, planNewDct2, if_neg hb, dif_pos ⟨hp, hgt⟩, e2, e4]
      obtain ⟨a, s1, ea, ha⟩ := ih (j + 1) (by omega) hs (by omega)
      have y1 := planDct2_yields (planFft := planFft) (W := W) (2 ^ (j + 1)) s hs
      rw [ea] at y1
      obtain ⟨ca, hs1, -, hla⟩ := y1
      -- the quarter plan
      have hq : ∃ b s2, planDct2 planFft (2 ^ j) s1 = .ok b s2 ∧ s2.nextId ≤ s.nextId + (j + 1) := by
        by_cases hj : 5 ≤ j + 1
        · have hb' : dct2Butterflies.contains (2 ^ (j + 1)) = false := by
            simp [dct2Butterflies]
            have : 2 ^ 5 ≤ 2 ^ (j + 1) := Nat.pow_le_pow_right (by norm_num) hj
            omega
          have hgt' : 2 ^ (j + 1) > 2 := by
            calc 2 < 2 ^ 5 := by norm_num
              _ ≤ 2 ^ (j + 1) := Nat.pow_le_pow_right (by norm_num) hj
          have := (hs1.closed (2 ^ (j + 1)) (by rw [hla]; simp) hb' ((isPowerOfTwo_iff _).2 ⟨_, rfl⟩) hgt').1
          rw [show 2 ^ (j + 1) / 2 = 2 ^ j by rw [Nat.pow_succ]; omega] at this
          obtain ⟨b, eb⟩ := planDct2_hit (planFft := planFft) this
          exact ⟨b, s1, eb, ha⟩
        · obtain rfl : j = 3 := by omega
          obtain ⟨b, s2, eb, hb2⟩ := planDct2_butterfly (planFft := planFft) (s := s1) (n := 2 ^ 3) (by decide)
          obtain ⟨a', s1', ea', ha'⟩ := planDct2_butterfly (planFft := planFft) (s := s) (n := 2 ^ (3 + 1)) (by decide)
          rw [ea] at ea'
          injection ea' with _ e'
          subst e'
          exact ⟨b, s2, eb, by omega⟩
      obtain ⟨b, s2, eb, hb2⟩ := hq
      have y2 := planDct2_yields (planFft := planFft) (W := W) (2 ^ j) s1 hs1
      rw [eb] at y2
      have hk0 := planDct2_yields (planFft := planFft) (W := W) (2 ^ (j + 2)) s hs
      rw [planDct2_eq, cachePlan_run, hc, planNewDct2, if_neg hb, dif_pos ⟨hp, hgt⟩, e2, e4] at hk0
      simp only [bind_run, ea, eb] at hk0 ⊢
      have hp4 : isPowerOfTwo (4 * 2 ^ j) = true := by rw [show 4 * 2 ^ j = 2 ^ (j + 2) by ring]; exact hp
      cases hn : Type2And3SplitRadix.new a.val b.val with
      | error e =>
        exfalso
        obtain ⟨o, ho, -⟩ := canon23_made hf (2 ^ (j + 2))
        simp only [hn, Except.map, arcNew] at hk0
        rw [hk0.1] at ho; cases ho
      | ok v =>
        simp only [hn, arcNew, Except.map]
        exact ⟨_, _, rfl, by dsimp only; omega⟩
    · obtain ⟨a, ha⟩ := planDct2_hit (planFft := planFft) hc
      exact ⟨a, s, ha, by omega⟩

/-- `Planner.nextId` counts the instances (`Arc::new`) created so far: planning `2 ^ k` creates at most `k` of them, on
top of whatever history.  (Termination is part of the statement: the call returns.) -/
theorem C43_cost (hf : PlanFftShape planFft) (calls : List (PlanCall T)) {k : Nat} (hk : 1 ≤ k) :
    ∃ a s', planDct2 planFft (2 ^ k) (plannerAfter planFft calls) = .ok a s' ∧
      s'.nextId ≤ (plannerAfter planFft calls).nextId + k :=
  planDct2_cost hf (after_inv calls) hk

/-! ### Non-vacuity: every transform is planned after every history -/

/-- The defining-sum FFT meets the structural contract for every element type. -/
theorem dftFft_sane (n s : Nat) : FftSane (dftFft n s : Fft T) :=
  ⟨dftList, fun l h => by simp [dftList, h], fun buf scr h1 h2 => ⟨scr, by
    simp only [dftFft] at h1 h2 ⊢
    rw [if_pos ⟨h1, h2⟩], rfl⟩⟩

theorem dftFft_planSane : PlanFftSane (fun n => (dftFft n : Fft T)) := fun n => ⟨rfl, rfl, dftFft_sane n 0⟩

theorem planned_exists (hf : PlanFftShape planFft) (calls : List (PlanCall T)) (k : Kind) {n : Nat} (hn : 2 ≤ n) :
    ∃ p s, Planned planFft calls k p n s := by
  obtain ⟨h1, h2, h4, h5, h6, h8, s1, s5, s6, s8⟩ := planned_instances hf n
  cases k
  · obtain ⟨a, s, e, -⟩ := h1 hn calls; exact ⟨_, _, .dct1 e⟩
  · obtain ⟨a, s, e, -⟩ := h2 calls; exact ⟨_, _, .dct2 e⟩
  · obtain ⟨a, s, e, -⟩ := h2 calls; exact ⟨_, _, .dct3 e (by omega)⟩
  · obtain ⟨a, s, e, -⟩ := h4 calls; exact ⟨_, _, .dct4 e (by omega)⟩
  · obtain ⟨a, s, e, -⟩ := h5 (by omega) calls; exact ⟨_, _, .dct5 e⟩
  · obtain ⟨a, s, e, -⟩ := h6 (by omega) calls; exact ⟨_, _, .dct6 e⟩
  · obtain ⟨a, s, e, -⟩ := h6 (by omega) calls; exact ⟨_, _, .dct7 e⟩
  · obtain ⟨a, s, e, -⟩ := h8 calls; exact ⟨_, _, .dct8 e⟩
  · obtain ⟨a, s, e, -⟩ := s1 calls; exact ⟨_, _, .dst1 e⟩
  · obtain ⟨a, s, e, -⟩ := h2 calls; exact ⟨_, _, .dst2 e⟩
  · obtain ⟨a, s, e, -⟩ := h2 calls; exact ⟨_, _, .dst3 e (by omega)⟩
  · obtain ⟨a, s, e, -⟩ := h4 calls; exact ⟨_, _, .dst4 e (by omega)⟩
  · obtain ⟨a, s, e, -⟩ := s5 calls; exact ⟨_, _, .dst5 e⟩
  · obtain ⟨a, s, e, -⟩ := s6 calls; exact ⟨_, _, .dst6 e⟩
  · obtain ⟨a, s, e, -⟩ := s6 calls; exact ⟨_, _, .dst7 e⟩
  · obtain ⟨a, s, e, -⟩ := s8 (by omega) calls; exact ⟨_, _, .dst8 e⟩

theorem plannedMdct_exists (hf : PlanFftShape planFft) (calls : List (PlanCall T)) {n : Nat} (hn : n % 2 = 0) {w : Nat → List T}
    (hw : (w (2 * n)).length = 2 * n) : ∃ o, PlannedMdct planFft calls n w o :=
  let ⟨a, s, e⟩ := (C33_mdct_domain hf calls n w).2 ⟨hn, .inl hw⟩
  ⟨a.val, a, s, e, rfl⟩

/-- Histories with failed calls and with every kind of call are allowed: for instance length 1000 of every transform
exists after planning `dct2 1024`, a panicking `dct1 0` and an MDCT. -/
example (k : Kind) : ∃ p s, Planned (fun n => (dftFft n : Fft T)) [.dct2 1024, .dct1 0, .mdct 8 (fun n => List.replicate n 1)] k p 1000 s :=
  planned_exists dftFft_planSane.shape _ k (by norm_num)

end
end RustDct
