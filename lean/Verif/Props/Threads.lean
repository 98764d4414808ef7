import Verif.Threads
import Verif.Props.Inverse
import Verif.Props.Safety
/-!
# C42: one shared instance can be used from many threads
-/

set_option linter.all false

namespace RustDct

variable {A R : Type} {call : A → R} {client : ℕ → List (A × R) → Option A}

theorem afterSchedule_snoc (es : List Event) (e : Event) (t : ℕ) : afterSchedule call client (es ++ [e]) t =
    if t = e.thread then (afterSchedule call client es t).step call (client t) e else afterSchedule call client es t := by
  simp only [afterSchedule, List.foldl_append, List.foldl_cons, List.foldl_nil]
  rfl

theorem alone_stop {c : List (A × R) → Option A} {k : ℕ} (h : c (alone call c k) = none) : ∀ j, alone call c (k + j) = alone call c k
  | 0 => rfl
  | j + 1 => by
    have ih := alone_stop h j
    rw [← Nat.add_assoc, alone, ih, h]

theorem C42_aux (es : List Event) (t : ℕ) :
    (afterSchedule call client es t).log = alone call (client t) (afterSchedule call client es t).log.length ∧
    (∀ a, (afterSchedule call client es t).running = some a → client t (afterSchedule call client es t).log = some a) := by
  induction es using List.reverseRecOn with
  | nil => exact ⟨rfl, fun a h => by cases h⟩
  | append_singleton es e ih =>
    rw [afterSchedule_snoc]
    by_cases h : t = e.thread
    · rw [if_pos h]
      generalize afterSchedule call client es t = th at ih ⊢
      obtain ⟨log, running⟩ := th
      obtain ⟨h1, h2⟩ := ih
      cases e with
      | start u => cases running with
        | some a => exact ⟨h1, h2⟩
        | none => exact ⟨h1, fun a h => h⟩
      | finish u => cases running with
        | none => exact ⟨h1, h2⟩
        | some a =>
          refine ⟨?_, fun a h => by cases h⟩
          have hc := h2 a rfl
          change log = _ at h1
          change client t log = _ at hc
          change log ++ [(a, call a)] = alone call (client t) (log ++ [(a, call a)]).length
          rw [List.length_append, List.length_singleton, alone, ← h1, hc]
    · rw [if_neg h]
      exact ih

/-- Whatever the other threads do and in whatever order events happen, the calls a thread has made, and what it passed and got
back in each, are those of its program run alone. -/
theorem C42_shared (es : List Event) (t : ℕ) :
    (afterSchedule call client es t).log = alone call (client t) (afterSchedule call client es t).log.length :=
  (C42_aux es t).1

/-- The other threads cannot hold a thread up either: it is where it would be if only its own events had happened. -/
theorem C42_independent (es : List Event) (t : ℕ) :
    afterSchedule call client es t = afterSchedule call client (es.filter (fun e => e.thread = t)) t := by
  induction es using List.reverseRecOn with
  | nil => rfl
  | append_singleton es e ih =>
    rw [afterSchedule_snoc, List.filter_append]
    by_cases h : t = e.thread
    · rw [if_pos h, List.filter_singleton]
      simp only [h.symm, decide_true, cond_true, afterSchedule_snoc, if_true]
      rw [ih]
    · rw [if_neg h, List.filter_singleton]
      have h' : ¬ e.thread = t := fun e => h e.symm
      simp only [h', decide_false, cond_false, List.append_nil]
      exact ih

theorem alone_mem {c : List (A × R) → Option A} : ∀ {k : ℕ} {x : A × R}, x ∈ alone call c k → x.2 = call x.1
  | 0, x, h => by cases h
  | k + 1, x, h => by
    rw [alone] at h
    split at h
    · exact alone_mem h
    · rcases List.mem_append.1 h with h | h
      · exact alone_mem h
      · rw [List.mem_singleton] at h
        subst h
        rfl

section
variable {planFft : ℕ → Fft ℝ} {calls : List (PlanCall ℝ)} {k : Kind} {p : Proc ℝ} {n s : ℕ}

/-- Threads sharing one instance the planner returned and calling its default method: every call with a buffer of the right size, in every
thread and under every schedule, gives the transform. -/
theorem C42_planned (hf : PlanFftContract planFft) (h : Planned planFft calls k p n s)
    (client : ℕ → List (List ℝ × Outcome (List ℝ)) → Option (List ℝ)) (es : List Event) (t : ℕ) (x : List ℝ × Outcome (List ℝ))
    (hx : x ∈ (afterSchedule (processDefault s p) client es t).log) (hl : x.1.length = n) :
    x.2 = .ok (Spec.onList k.specAt x.1) := by
  rw [C42_shared] at hx
  rw [alone_mem hx]
  exact (h.made hf).performs.2 _ hl

end

/-- Non-vacuity: thread 0 transforms its buffer twice, thread 1 once, all three calls overlapping; the calls happen and give
the right results. -/
example (call : A → R) (a b c : A) :
    let client : ℕ → List (A × R) → Option A := fun t log => if t = 0 then [a, b][log.length]? else [c][log.length]?
    let es := [.start 0, .start 1, .finish 0, .start 0, .finish 1, .finish 0]
    (afterSchedule call client es 0).log = [(a, call a), (b, call b)] ∧ (afterSchedule call client es 1).log = [(c, call c)] := by
  exact ⟨rfl, rfl⟩

end RustDct
