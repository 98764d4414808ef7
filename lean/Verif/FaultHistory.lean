import Verif.Model.PlanFaults
import Verif.FftHistory
/-!
# Histories of planner calls with panics at arbitrary points

Vocabulary of C84: as `Verif/FftHistory.lean`.
-/

namespace RustDct

variable {T F S : Type} [F64 F] [DctNum T F]

/-- Planner and everything outside after a call: also after one that panicked. -/
def FxCall.runCr (faults : FaultFn S) (planFft : FftFn S T) : FxCall S T → Planner T × S → Planner T × S
  | .transform k n, s =>
    match k.planCr faults planFft n s with
    | .ok _ s' => s'
    | .error _ s' => s'
  | .mdct n w, s =>
    match planMdctCr faults planFft n w s with
    | .ok _ s' => s'
    | .error _ s' => s'

/-- The state after the sequence of calls `calls`, first call first. -/
def afterCr (faults : FaultFn S) (planFft : FftFn S T) (calls : List (FxCall S T)) (s : Planner T × S) : Planner T × S :=
  calls.foldl (fun s c => c.runCr faults planFft s) s

/-- The state after a sequence of calls on a new planner. -/
def plannerAfterCr (faults : FaultFn S) (planFft : FftFn S T) (calls : List (FxCall S T)) (s : S) : Planner T × S :=
  afterCr faults planFft calls (Planner.new 0, s)

/-- A method of the instance that the planner returned, for the requested length `n`, after the history `calls`. -/
def PlannedCr (faults : FaultFn S) (planFft : FftFn S T) (calls : List (FxCall S T)) (s : S) (k : Kind) (p : Proc T) (n scratch : Nat) : Prop :=
  ∃ i s', k.planCr faults planFft n (plannerAfterCr faults planFft calls s) = .ok i s' ∧ i.method k = some (p, scratch)

/-- One of the calls was a `plan_mdct` of length `n` with the window function `w`, and returned (did not panic). -/
def ReturnedMdctCr (faults : FaultFn S) (planFft : FftFn S T) (calls : List (FxCall S T)) (s : S) (n : Nat) (w : WindowFn S T) : Prop :=
  ∃ pre post a s', calls = pre ++ .mdct n w :: post ∧ planMdctCr faults planFft n w (plannerAfterCr faults planFft pre s) = .ok a s'

/-- Why a request that asks for an FFT of length `L`, if any, has panicked other than by a rejection of its arguments: the FFT planner has, or
there was a fault; `s'` is the state afterwards. -/
def PanicCause (faults : FaultFn S) (planFft : FftFn S T) (L : Option Nat) (s' : S) : CrashPanic → Prop
  | .plan (.own _) => False
  | .plan .fft => ∃ m s, L = some m ∧ planFft m s = (none, s')
  | .fault => ∃ pt s, faults pt s = (true, s')

/-- Why a call of `plan_mdct` with the window function `w` has panicked: the length is odd, the window function has panicked or has returned a
vector of another length, or one of the causes above. -/
def MdctCause (faults : FaultFn S) (planFft : FftFn S T) (n : Nat) (w : WindowFn S T) (s' : S) (p : CrashPanic) : Prop :=
  (n % 2 = 1 ∧ p = .plan (.own (.crate .assertion)) ∨
   n % 2 = 0 ∧ p = .plan (.own .window) ∧ (∃ s, w (2 * n) s = (none, s')) ∨
   n % 2 = 0 ∧ p = .plan (.own (.crate .assertion)) ∧ ∃ s v, w (2 * n) s = (some v, s') ∧ v.length ≠ 2 * n) ∨
  PanicCause faults planFft (Kind.dct4.fftLen n) s' p

/-- No faults. -/
def noFaults : FaultFn S := fun _ s => (false, s)

end RustDct
