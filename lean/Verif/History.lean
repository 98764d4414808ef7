import Verif.Instances
/-!
# Histories of planner calls

Vocabulary of the planner theorems: the public planner methods as data, the state of a planner after an arbitrary
sequence of calls, and what a call answers.
-/

namespace RustDct

variable {T : Type} {F : Type} [F64 F] [DctNum T F]

/-- One call of a public method of `DctPlanner` (src/plan.rs), with its arguments. -/
inductive PlanCall (T : Type)
  | dct1 (n : Nat) | dct2 (n : Nat) | dct3 (n : Nat) | dct4 (n : Nat)
  | dct5 (n : Nat) | dct6 (n : Nat) | dct7 (n : Nat) | dct8 (n : Nat)
  | dst1 (n : Nat) | dst2 (n : Nat) | dst3 (n : Nat) | dst4 (n : Nat)
  | dst5 (n : Nat) | dst6 (n : Nat) | dst7 (n : Nat) | dst8 (n : Nat)
  | mdct (n : Nat) (window : Nat → List T)

/-- The planner after a call: also after one that panicked (a panic can be caught and the planner used again). -/
def finalState {α : Type} : EStateM.Result Err (Planner T) α → Planner T
  | .ok _ s => s
  | .error _ s => s

/-- The planner after one call. -/
def PlanCall.run (planFft : Nat → Fft T) (c : PlanCall T) (s : Planner T) : Planner T :=
  match c with
  | dct1 n => finalState (planDct1 planFft n s)
  | dct2 n => finalState (planDct2 planFft n s)
  | dct3 n => finalState (planDct3 planFft n s)
  | dct4 n => finalState (planDct4 planFft n s)
  | dct5 n => finalState (planDct5 n s)
  | dct6 n => finalState (planDct6 n s)
  | dct7 n => finalState (planDct7 n s)
  | dct8 n => finalState (planDct8 n s)
  | dst1 n => finalState (planDst1 planFft n s)
  | dst2 n => finalState (planDst2 planFft n s)
  | dst3 n => finalState (planDst3 planFft n s)
  | dst4 n => finalState (planDst4 planFft n s)
  | dst5 n => finalState (planDst5 n s)
  | dst6 n => finalState (planDst6 planFft n s)
  | dst7 n => finalState (planDst7 planFft n s)
  | dst8 n => finalState (planDst8 n s)
  | mdct n w => finalState (planMdct planFft n w s)

/-- A new planner after the sequence of calls `calls`, first call first. -/
def plannerAfter (planFft : Nat → Fft T) (calls : List (PlanCall T)) : Planner T :=
  calls.foldl (fun s c => c.run planFft s) (Planner.new 0)

/-- What a call answers: the instance, or the panic. -/
def answer {α : Type} : EStateM.Result Err (Planner T) (Arc α) → Except Err α
  | .ok a _ => .ok a.val
  | .error e _ => .error e

/-- What a call answers, as a reference: `Arc::ptr_eq` compares the `id`s. -/
def reference {α : Type} : EStateM.Result Err (Planner T) (Arc α) → Option (Arc α)
  | .ok a _ => some a
  | .error _ _ => none

/-- After every history the planner method `m` returns, with an instance that satisfies `P`. -/
def Plans {α : Type} (planFft : Nat → Fft T) (m : PlanM T (Arc α)) (P : α → Prop) : Prop :=
  ∀ calls : List (PlanCall T), ∃ a s', m (plannerAfter planFft calls) = .ok a s' ∧ P a.val

/-- The FFT was obtained from the FFT planner. -/
def FromPlan (planFft : Nat → Fft T) (f : Fft T) : Prop := ∃ n, f = planFft n

end RustDct
