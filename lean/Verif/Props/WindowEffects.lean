import Verif.WindowHistory
import Verif.Props.Mdct
/-!
# C71: window functions that panic or have side effects
-/

set_option linter.all false

namespace RustDct

variable {T F W : Type} [F64 F] [DctNum T F] {planFft : ℕ → Fft T}

/-! ### The constructors -/

/-- `MdctNaive::new`: an odd length is rejected before the window function is called; otherwise it is called once, with `2 n`; its panic is
passed on, and what it returns decides what a window function without effects returning the same would decide. -/
theorem C71_naive (n : ℕ) (w : WindowFn W T) (s : W) :
    (n % 2 = 1 → MdctNaive.newFx n w s = .error (.crate .assertion) s) ∧
    (n % 2 = 0 → match w (2 * n) s with
      | (none, s') => MdctNaive.newFx n w s = .error .window s'
      | (some v, s') => match MdctNaive.new n (fun _ => v) with
        | .ok x => MdctNaive.newFx n w s = .ok x s'
        | .error e => MdctNaive.newFx n w s = .error (.crate e) s') := by
  constructor
  · intro h
    unfold MdctNaive.newFx
    rw [if_pos (by omega)]
    rfl
  · intro h
    rw [show 2 * n = n * 2 by omega]
    unfold MdctNaive.newFx MdctNaive.new callWindow
    simp only [h, not_true_eq_false, if_false, bind, EStateM.bind, pure, EStateM.pure]
    rcases w (n * 2) s with ⟨_ | v, s'⟩
    · rfl
    · dsimp only
      by_cases hv : v.length = n * 2
      · simp only [hv, ne_eq, not_true_eq_false, if_false]; rfl
      · simp only [hv, ne_eq, not_false_eq_true, if_true]; rfl

/-- `MdctViaDct4::new`, likewise. -/
theorem C71_viaDct4 (inner : Obj4 T) (w : WindowFn W T) (s : W) :
    (inner.len % 2 = 1 → MdctViaDct4.newFx inner w s = .error (.crate .assertion) s) ∧
    (inner.len % 2 = 0 → match w (2 * inner.len) s with
      | (none, s') => MdctViaDct4.newFx inner w s = .error .window s'
      | (some v, s') => match MdctViaDct4.new inner (fun _ => v) with
        | .ok x => MdctViaDct4.newFx inner w s = .ok x s'
        | .error e => MdctViaDct4.newFx inner w s = .error (.crate e) s') := by
  constructor
  · intro h
    unfold MdctViaDct4.newFx
    dsimp only
    rw [if_pos (by omega)]
    rfl
  · intro h
    rw [show 2 * inner.len = inner.len * 2 by omega]
    unfold MdctViaDct4.newFx MdctViaDct4.new callWindow
    simp only [h, not_true_eq_false, if_false, bind, EStateM.bind, pure, EStateM.pure]
    rcases w (inner.len * 2) s with ⟨_ | v, s'⟩
    · rfl
    · dsimp only
      by_cases hv : v.length = inner.len * 2
      · simp only [hv, ne_eq, not_true_eq_false, if_false]; rfl
      · simp only [hv, ne_eq, not_false_eq_true, if_true]; rfl

/-! ### One call of the planner -/

theorem planMdctFx_hit {p : Planner T} {s : W} {n : ℕ} {a : Arc (MdctObj T)} (h : p.mdctCache n = some a) (w : WindowFn W T) :
    planMdctFx planFft n w (p, s) = .ok a (p, s) := by
  unfold planMdctFx
  simp only [bind, EStateM.bind, get, getThe, MonadStateOf.get, EStateM.get, h]
  rfl

theorem planMdctFx_miss {p : Planner T} {s : W} {n : ℕ} (h : p.mdctCache n = none) (w : WindowFn W T) :
    planMdctFx planFft n w (p, s) = match planDct4 planFft n p with
      | .error e p' => .error (.crate e) (p', s)
      | .ok inner p' => match MdctViaDct4.newFx inner.val w s with
        | .error e s' => .error e (p', s')
        | .ok x s' => .ok ⟨p'.nextId, x.toObj⟩ ({ p' with nextId := p'.nextId + 1, mdctCache := insertCache p'.mdctCache n ⟨p'.nextId, x.toObj⟩ }, s') := by
  unfold planMdctFx planNewMdctFx
  simp only [bind, EStateM.bind, get, getThe, MonadStateOf.get, EStateM.get, h, liftPlan, Functor.map, EStateM.map, arcNewFx]
  cases planDct4 planFft n p with
  | error e p' => rfl
  | ok inner p' =>
    dsimp only
    cases MdctViaDct4.newFx inner.val w s <;> rfl

theorem planMdct_miss {p : Planner T} {n : ℕ} (h : p.mdctCache n = none) (w : ℕ → List T) :
    planMdct planFft n w p = match planDct4 planFft n p with
      | .error e p' => .error e p'
      | .ok inner p' => match MdctViaDct4.new inner.val w with
        | .error e => .error e p'
        | .ok x => .ok ⟨p'.nextId, x.toObj⟩ { p' with nextId := p'.nextId + 1, mdctCache := insertCache p'.mdctCache n ⟨p'.nextId, x.toObj⟩ } := by
  unfold planMdct planNewMdct
  simp only [bind, EStateM.bind, get, getThe, MonadStateOf.get, EStateM.get, h]
  cases planDct4 planFft n p with
  | error e p' => rfl
  | ok inner p' =>
    dsimp only [arcNew]
    cases MdctViaDct4.new inner.val w <;> rfl

/-- The planner after a history has a planned type 4 instance of every length. -/
theorem planDct4_after (hf : PlanFftShape planFft) (calls : List (PlanCall T)) (n : ℕ) :
    ∃ a p', planDct4 planFft n (plannerAfter planFft calls) = .ok a p' ∧ a.val.len = n := by
  obtain ⟨o, ho, -, hl⟩ := canon4_made hf n
  have := planDct4_yields (planFft := planFft) (W := UsedWindow calls) n _ (after_inv calls)
  cases e : planDct4 planFft n (plannerAfter planFft calls) with
  | error e' p' => rw [e, ho] at this; cases this.1
  | ok a p' =>
    rw [e, ho] at this
    injection this.1 with h1
    exact ⟨a, p', rfl, by rw [← h1]; exact hl⟩

/-- What a call of `plan_mdct` does, in terms of calls without effects. -/
inductive Step (planFft : ℕ → Fft T) (calls : List (PlanCall T)) (n : ℕ) (w : WindowFn W T) (s : W) : Prop
  | hit {a} (h : (plannerAfter planFft calls).mdctCache n = some a) (e : planMdctFx planFft n w (plannerAfter planFft calls, s) = .ok a (plannerAfter planFft calls, s))
  | odd (h : (plannerAfter planFft calls).mdctCache n = none) (hn : n % 2 = 1)
      (e : planMdctFx planFft n w (plannerAfter planFft calls, s) = .error (.crate .assertion) (plannerAfter planFft (calls ++ [.dct4 n]), s))
  | window {s'} (h : (plannerAfter planFft calls).mdctCache n = none) (hn : n % 2 = 0) (hw : w (2 * n) s = (none, s'))
      (e : planMdctFx planFft n w (plannerAfter planFft calls, s) = .error .window (plannerAfter planFft (calls ++ [.dct4 n]), s'))
  | length {v s'} (h : (plannerAfter planFft calls).mdctCache n = none) (hn : n % 2 = 0) (hw : w (2 * n) s = (some v, s')) (hv : v.length ≠ 2 * n)
      (e : planMdctFx planFft n w (plannerAfter planFft calls, s) = .error (.crate .assertion) (plannerAfter planFft (calls ++ [.dct4 n]), s'))
  | new {v s' a} (h : (plannerAfter planFft calls).mdctCache n = none) (hn : n % 2 = 0) (hw : w (2 * n) s = (some v, s')) (hv : v.length = 2 * n)
      (e : planMdctFx planFft n w (plannerAfter planFft calls, s) = .ok a (plannerAfter planFft (calls ++ [.mdct n fun _ => v]), s'))
      (e' : planMdct planFft n (fun _ => v) (plannerAfter planFft calls) = .ok a (plannerAfter planFft (calls ++ [.mdct n fun _ => v])))
      (ha : (plannerAfter planFft (calls ++ [.mdct n fun _ => v])).mdctCache n = some a)

theorem step (hf : PlanFftShape planFft) (calls : List (PlanCall T)) (n : ℕ) (w : WindowFn W T) (s : W) : Step planFft calls n w s := by
  cases h : (plannerAfter planFft calls).mdctCache n with
  | some a => exact .hit h (planMdctFx_hit h w)
  | none =>
    obtain ⟨i, p', hi, hl⟩ := planDct4_after hf calls n
    have e := planMdctFx_miss (planFft := planFft) (s := s) h w
    rw [hi] at e
    dsimp only at e
    have e4 : plannerAfter planFft (calls ++ [.dct4 n]) = p' := by
      rw [after_append]
      show finalState (planDct4 planFft n (plannerAfter planFft calls)) = p'
      rw [hi]; rfl
    obtain ⟨h1, h2⟩ := C71_viaDct4 i.val w s
    rw [hl] at h1 h2
    rcases Nat.mod_two_eq_zero_or_one n with hn | hn
    · have h2 := h2 hn
      rcases hw : w (2 * n) s with ⟨_ | v, s'⟩
      · rw [hw] at h2
        dsimp only at h2
        rw [h2] at e
        exact .window h hn hw (by rw [e4]; exact e)
      · rw [hw] at h2
        dsimp only at h2
        by_cases hv : v.length = 2 * n
        · have hx : MdctViaDct4.new i.val (fun _ => v) = .ok ⟨i.val, v, n + i.val.scratchLen⟩ := by
            unfold MdctViaDct4.new
            simp only [hl, hn, hv, not_true_eq_false, if_false, mul_comm n 2, ne_eq]
          rw [hx] at h2
          dsimp only at h2
          rw [h2] at e
          have e' := planMdct_miss (planFft := planFft) h (fun _ => v)
          rw [hi] at e'
          dsimp only at e'
          rw [hx] at e'
          dsimp only at e e'
          have em : plannerAfter planFft (calls ++ [.mdct n fun _ => v]) = finalState (planMdct planFft n (fun _ => v) (plannerAfter planFft calls)) := by
            rw [after_append]; rfl
          rw [e'] at em
          refine .new h hn hw hv (by rw [em]; exact e) (by rw [em]; exact e') ?_
          rw [em]
          exact insertCache_self _ _ _
        · have hx : MdctViaDct4.new i.val (fun _ => v) = .error .assertion := by
            unfold MdctViaDct4.new
            simp only [hl, hn, hv, not_true_eq_false, if_false, mul_comm n 2, ne_eq, not_false_eq_true, if_true]
          rw [hx] at h2
          dsimp only at h2
          rw [h2] at e
          exact .length h hn hw hv (by rw [e4]; exact e)
    · rw [h1 hn] at e
      exact .odd h hn (by rw [e4]; exact e)

/-! ### Histories -/

theorem after_grows (calls more : List (PlanCall T)) : Grows (plannerAfter planFft calls) (plannerAfter planFft (calls ++ more)) := by
  rw [after_append]
  exact (foldl_inv (planFft := planFft) (W := fun _ _ => True) more (fun _ _ _ => trivial) ((after_inv calls).mono fun _ _ _ => trivial)).2

/-- A call, in terms of calls without effects. -/
theorem FxCall.run_pure (hf : PlanFftShape planFft) (c : FxCall W T) (calls : List (PlanCall T)) (s : W) :
    ∃ more, (c.run planFft (plannerAfter planFft calls, s)).1 = plannerAfter planFft (calls ++ more) ∧
      ∀ n v, .mdct n v ∈ more → ∃ w a st, c = .mdct n w ∧ planMdctFx planFft n w (plannerAfter planFft calls, s) = .ok a st := by
  cases c with
  | transform k n =>
    refine ⟨[k.planCall n], by rw [after_append]; rfl, fun m v hm => ?_⟩
    rw [List.mem_singleton] at hm
    cases k <;> cases hm
  | mdct n w =>
    unfold FxCall.run
    dsimp only
    cases step hf calls n w s with
    | hit h e => rw [e]; exact ⟨[], by simp, by simp⟩
    | odd h hn e => rw [e]; exact ⟨_, rfl, by simp⟩
    | window h hn hw e => rw [e]; exact ⟨_, rfl, by simp⟩
    | length h hn hw hv e => rw [e]; exact ⟨_, rfl, by simp⟩
    | new h hn hw hv e e' ha =>
      rw [e]
      refine ⟨_, rfl, fun m v hm => ?_⟩
      simp only [List.mem_singleton, PlanCall.mdct.injEq] at hm
      obtain ⟨rfl, -⟩ := hm
      exact ⟨w, _, _, rfl, e⟩

theorem afterFx_append (H H' : List (FxCall W T)) (s : Planner T × W) : afterFx planFft (H ++ H') s = afterFx planFft H' (afterFx planFft H s) := by
  unfold afterFx; rw [List.foldl_append]

theorem afterFx_grows (hf : PlanFftShape planFft) (H : List (FxCall W T)) : ∀ (calls : List (PlanCall T)) (s : W),
    ∃ more, (afterFx planFft H (plannerAfter planFft calls, s)).1 = plannerAfter planFft (calls ++ more) := by
  induction H with
  | nil => exact fun calls s => ⟨[], by simp [afterFx]⟩
  | cons c H ih =>
    intro calls s
    obtain ⟨m1, h1, -⟩ := c.run_pure hf calls s
    obtain ⟨m2, h2⟩ := ih (calls ++ m1) (c.run planFft (plannerAfter planFft calls, s)).2
    refine ⟨m1 ++ m2, ?_⟩
    rw [← List.append_assoc, ← h2, ← h1]
    rfl

/-- Whatever closures the history contains, the planner is in a state that a history with window functions without effects leads to; in
that history, `plan_mdct` occurs only with lengths for which a call returned.  So every theorem about planned instances holds after every
history with arbitrary window functions. -/
theorem C71_history (hf : PlanFftShape planFft) (H : List (FxCall W T)) (s : W) :
    ∃ calls, (plannerAfterFx planFft H s).1 = plannerAfter planFft calls ∧ ∀ n v, .mdct n v ∈ calls → ReturnedMdct planFft H s n := by
  induction H using List.reverseRecOn with
  | nil => exact ⟨[], rfl, by simp⟩
  | append_singleton H c ih =>
    obtain ⟨calls, h1, h2⟩ := ih
    obtain ⟨more, h3, h4⟩ := c.run_pure hf calls (plannerAfterFx planFft H s).2
    rw [← h1] at h3 h4
    refine ⟨calls ++ more, ?_, fun n v hm => ?_⟩
    · rw [← h3]
      unfold plannerAfterFx
      rw [afterFx_append]
      rfl
    · rcases List.mem_append.1 hm with hm | hm
      · obtain ⟨pre, w, post, a, s', rfl, e⟩ := h2 n v hm
        exact ⟨pre, w, post ++ [c], a, s', by simp, e⟩
      · obtain ⟨w, a, st, rfl, e⟩ := h4 n v hm
        exact ⟨H, w, [], a, st, rfl, e⟩

/-- An instance that was returned is returned again, for ever: by every later call with the same length, whatever the window function,
which is not called, and whatever happened in between. -/
theorem C71_remembered (hf : PlanFftShape planFft) (H : List (FxCall W T)) (s : W) {n : ℕ} {w : WindowFn W T} {a st}
    (h : planMdctFx planFft n w (plannerAfterFx planFft H s) = .ok a st) (H' : List (FxCall W T)) (w' : WindowFn W T) :
    planMdctFx planFft n w' (afterFx planFft H' st) = .ok a (afterFx planFft H' st) := by
  obtain ⟨calls, h1, -⟩ := C71_history hf H s
  have h0 : plannerAfterFx planFft H s = (plannerAfter planFft calls, (plannerAfterFx planFft H s).2) := by rw [← h1]
  rw [h0] at h
  have key : ∃ more, st.1 = plannerAfter planFft more ∧ st.1.mdctCache n = some a := by
    cases step hf calls n w (plannerAfterFx planFft H s).2 with
    | hit hc e => rw [e] at h; injection h with ha hs; subst ha hs; exact ⟨_, rfl, hc⟩
    | odd hc hn e => rw [e] at h; cases h
    | window hc hn hw e => rw [e] at h; cases h
    | length hc hn hw hv e => rw [e] at h; cases h
    | new hc hn hw hv e e' hm => rw [e] at h; injection h with ha hs; subst ha hs; exact ⟨_, rfl, hm⟩
  obtain ⟨more, hm, hc⟩ := key
  obtain ⟨rest, hr⟩ := afterFx_grows hf H' more st.2
  have hst : st = (plannerAfter planFft more, st.2) := by rw [← hm]
  rw [← hst] at hr
  have : (afterFx planFft H' st).1.mdctCache n = some a := by
    rw [hr]
    exact (after_grows more rest).mdct n a (hm ▸ hc)
  exact planMdctFx_hit (s := (afterFx planFft H' st).2) this w'

/-- A call of `plan_mdct` with a length for which no earlier call returned.  An odd length is rejected without calling the window function.
For an even length the window function is called once, with `2 n`: if it panics, so does the call; if it returns a vector of another length,
the call panics; otherwise it returns an instance of length `n` with this window.  Nothing else happens to the world. -/
theorem C71_planned (hf : PlanFftShape planFft) (H : List (FxCall W T)) (s : W) {n : ℕ} (hH : ¬ ReturnedMdct planFft H s n) (w : WindowFn W T) :
    (n % 2 = 1 → ∃ p, planMdctFx planFft n w (plannerAfterFx planFft H s) = .error (.crate .assertion) (p, (plannerAfterFx planFft H s).2)) ∧
    (n % 2 = 0 → match w (2 * n) (plannerAfterFx planFft H s).2 with
      | (none, s') => ∃ p, planMdctFx planFft n w (plannerAfterFx planFft H s) = .error .window (p, s')
      | (some v, s') =>
        (v.length ≠ 2 * n → ∃ p, planMdctFx planFft n w (plannerAfterFx planFft H s) = .error (.crate .assertion) (p, s')) ∧
        (v.length = 2 * n → ∃ a p, planMdctFx planFft n w (plannerAfterFx planFft H s) = .ok a (p, s') ∧
          a.val.len = n ∧ MadeMdct (FromPlan planFft) v a.val ∧
          ∃ calls, PlannedMdct planFft calls n (fun _ => v) a.val ∧ ∀ u, .mdct n u ∉ calls)) := by
  obtain ⟨calls, h1, h2⟩ := C71_history hf H s
  have h0 : plannerAfterFx planFft H s = (plannerAfter planFft calls, (plannerAfterFx planFft H s).2) := by rw [← h1]
  have hno : ∀ u, .mdct n u ∉ calls := fun u hu => hH (h2 n u hu)
  generalize (plannerAfterFx planFft H s).2 = t at h0
  rw [h0]
  cases step hf calls n w t with
  | hit hc e =>
    obtain ⟨u, hu, -⟩ := (mdct_cached_iff hf calls n).1 (by rw [hc]; simp)
    exact absurd hu (hno u)
  | odd hc hn e => exact ⟨fun _ => ⟨_, e⟩, fun h => by omega⟩
  | window hc hn hw e => refine ⟨fun h => by omega, fun _ => ?_⟩; rw [hw]; exact ⟨_, e⟩
  | length hc hn hw hv e => refine ⟨fun h => by omega, fun _ => ?_⟩; rw [hw]; exact ⟨fun _ => ⟨_, e⟩, fun h => absurd h hv⟩
  | @new v s' a hc hn hw hv e e' hm =>
    refine ⟨fun h => by omega, fun _ => ?_⟩
    rw [hw]
    refine ⟨fun h => absurd hv h, fun _ => ?_⟩
    have hp : PlannedMdct planFft calls n (fun _ => v) a.val := ⟨a, _, e', rfl⟩
    have hw := hp.made_window hf
    have he : effectiveWindow n calls (fun _ => v) = fun _ => v := by
      rcases effectiveWindow_cases n calls (fun _ => v) with ⟨-, h⟩ | ⟨pre, u, post, rfl, -, -, -⟩
      · exact h
      · exact absurd (by simp) (hno u)
    rw [he] at hw
    exact ⟨a, _, e, hw.1, hw.2, calls, hp, hno⟩

/-! ### A case: a window function that keeps a log of its calls and panics the first time -/

def flaky : WindowFn (List ℕ) T := fun size log => (if log = [] then none else some (List.replicate size 1), size :: log)

example (hf : PlanFftShape planFft) : ∃ a p q, planMdctFx planFft 6 flaky (plannerAfterFx planFft [.transform .dct2 5] []) = .error .window (p, [12]) ∧
    planMdctFx planFft 6 flaky (plannerAfterFx planFft [.transform .dct2 5, .mdct 6 flaky] []) = .ok a (q, [12, 12]) ∧
    a.val.len = 6 ∧ MadeMdct (FromPlan planFft) (List.replicate 12 1) a.val ∧
    planMdctFx planFft 6 flaky (q, [12, 12]) = .ok a (q, [12, 12]) := by
  have n1 : ¬ ReturnedMdct planFft [.transform .dct2 5] ([] : List ℕ) 6 := by
    rintro ⟨pre, w, post, a, s', e, -⟩
    have hm : FxCall.mdct 6 w ∈ [FxCall.transform Kind.dct2 5] := by rw [e]; simp
    simp at hm
  obtain ⟨p, hp⟩ := (C71_planned hf _ _ n1 flaky).2 rfl
  have hp' : planMdctFx planFft 6 flaky (plannerAfterFx planFft [.transform .dct2 5] []) = .error .window (p, [12]) := hp
  have e2 : plannerAfterFx planFft [.transform .dct2 5, .mdct 6 flaky] [] = (p, [12]) := by
    show FxCall.run planFft (.mdct 6 flaky) (plannerAfterFx planFft [.transform .dct2 5] []) = _
    unfold FxCall.run
    dsimp only
    rw [hp']
  have n2 : ¬ ReturnedMdct planFft [.transform .dct2 5, .mdct 6 flaky] ([] : List ℕ) 6 := by
    rintro ⟨pre, w, post, a, s', e, h⟩
    match pre, e with
    | [], e => simp at e
    | [x], e =>
      simp only [List.singleton_append, List.cons.injEq, FxCall.mdct.injEq, true_and] at e
      obtain ⟨rfl, rfl, -⟩ := e
      rw [hp'] at h
      cases h
    | x :: y :: r, e => simp at e
  have h2 := (C71_planned hf _ _ n2 flaky).2 rfl
  rw [e2] at h2 ⊢
  obtain ⟨a, q, hq, hl, hm, -⟩ := h2.2 rfl
  have hq' : planMdctFx planFft 6 flaky (p, [12]) = .ok a (q, [12, 12]) := hq
  refine ⟨a, p, q, hp', hq', hl, hm, ?_⟩
  rw [← e2] at hq'
  exact C71_remembered hf _ _ hq' [] flaky

end RustDct
