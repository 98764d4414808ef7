import Verif.Model.WindowEffects
import Verif.Methods
/-!
# Histories of planner calls with arbitrary window functions

Vocabulary of C71: as `Verif/History.lean`, but the window functions passed to `plan_mdct` are arbitrary closures, and the state
consists of the planner and of the world the closures act on.
-/

namespace RustDct

variable {T F W : Type} [F64 F] [DctNum T F]

/-- One call of a public method of `DctPlanner`. -/
inductive FxCall (W T : Type)
  | transform (k : Kind) (n : Nat)
  | mdct (n : Nat) (window : WindowFn W T)

/-- The planner method for a kind of transform. -/
def Kind.planCall : Kind → Nat → PlanCall T
  | .dct1, n => .dct1 n | .dct2, n => .dct2 n | .dct3, n => .dct3 n | .dct4, n => .dct4 n
  | .dct5, n => .dct5 n | .dct6, n => .dct6 n | .dct7, n => .dct7 n | .dct8, n => .dct8 n
  | .dst1, n => .dst1 n | .dst2, n => .dst2 n | .dst3, n => .dst3 n | .dst4, n => .dst4 n
  | .dst5, n => .dst5 n | .dst6, n => .dst6 n | .dst7, n => .dst7 n | .dst8, n => .dst8 n

/-- Planner and world after a call: also after one that panicked. -/
def FxCall.run (planFft : Nat → Fft T) : FxCall W T → Planner T × W → Planner T × W
  | .transform k n, s => ((k.planCall n).run planFft s.1, s.2)
  | .mdct n w, s =>
    match planMdctFx planFft n w s with
    | .ok _ s' => s'
    | .error _ s' => s'

/-- A planner and the world after the sequence of calls `calls`, first call first. -/
def afterFx (planFft : Nat → Fft T) (calls : List (FxCall W T)) (s : Planner T × W) : Planner T × W :=
  calls.foldl (fun s c => c.run planFft s) s

/-- A new planner and the world after a sequence of calls. -/
def plannerAfterFx (planFft : Nat → Fft T) (calls : List (FxCall W T)) (s : W) : Planner T × W := afterFx planFft calls (Planner.new 0, s)

/-- One of the calls was a `plan_mdct` of length `n` that returned (did not panic). -/
def ReturnedMdct (planFft : Nat → Fft T) (calls : List (FxCall W T)) (s : W) (n : Nat) : Prop :=
  ∃ pre w post a s', calls = pre ++ .mdct n w :: post ∧ planMdctFx planFft n w (plannerAfterFx planFft pre s) = .ok a s'

end RustDct
