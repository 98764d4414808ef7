import Verif.Model.Planner
/-!
# Window functions that panic or have side effects

The second model of everything that takes a window function: `MdctNaive::new`, `MdctViaDct4::new` and `plan_mdct`.  In
`Verif/Model/Mdct.lean` and `Verif/Model/Planner.lean` a window function is a total function without effects; here it is an arbitrary
`FnOnce(usize) -> Vec<T>`.  `W` is everything a closure can see and change (its captured variables, files, clocks, other threads).  It
cannot reach the planner, which is mutably borrowed during the call; if it tries to through a `RefCell`, that is a panic of the closure.
-/

namespace RustDct

variable {T F W : Type} [F64 F] [DctNum T F]

/-- A closure `FnOnce(usize) -> Vec<T>`: what it returns (`none` if it panics), and the world afterwards. -/
abbrev WindowFn (W T : Type) := Nat → W → Option (List T) × W

/-- A panic: one of the crate's own, or one of the window function, passed on to the caller. -/
inductive Panic
  | crate (e : Err)
  | window
  deriving DecidableEq, Repr

/-- A call `window_fn(size)`. -/
def callWindow (w : WindowFn W T) (size : Nat) : EStateM Panic W (List T) := fun s =>
  match w size s with
  | (some v, s') => .ok v s'
  | (none, s') => .error .window s'

/-- src/mdct/mdct_naive.rs:42-69. -/
def MdctNaive.newFx (outputLen : Nat) (windowFn : WindowFn W T) : EStateM Panic W (MdctNaive T) := do
  if ¬ outputLen % 2 = 0 then throw (.crate .assertion)
  let constantFactor : F := F64.half * F64.pi / F64.nat outputLen
  let twiddles : List T := (List.range (outputLen * 4)).map fun i =>
    fromF64 (F64.cos (constantFactor * (F64.nat i + F64.half)))
  let window ← callWindow windowFn (outputLen * 2)
  if window.length ≠ outputLen * 2 then throw (.crate .assertion)
  return { twiddles, window }

/-- src/mdct/mdct_via_dct4.rs:47-67. -/
def MdctViaDct4.newFx (innerDct : Obj4 T) (windowFn : WindowFn W T) : EStateM Panic W (MdctViaDct4 T) := do
  let len := innerDct.len
  if ¬ len % 2 = 0 then throw (.crate .assertion)
  let window ← callWindow windowFn (len * 2)
  if window.length ≠ len * 2 then throw (.crate .assertion)
  return { scratchLen := len + innerDct.scratchLen, dct := innerDct, window }

/-- A planner method with access to the world. -/
abbrev PlanFx (W T : Type) := EStateM Panic (Planner T × W)

/-- A planner method that takes no window function leaves the world alone. -/
def liftPlan {α : Type} (m : PlanM T α) : PlanFx W T α := fun s =>
  match m s.1 with
  | .ok a p => .ok a (p, s.2)
  | .error e p => .error (.crate e) (p, s.2)

/-- `Arc::new(X::new(..))`, as `arcNew`. -/
def arcNewFx {α : Type} (x : EStateM Panic W α) : PlanFx W T (Arc α) := fun s =>
  match x s.2 with
  | .ok v s' => .ok ⟨s.1.nextId, v⟩ ({ s.1 with nextId := s.1.nextId + 1 }, s')
  | .error e s' => .error e (s.1, s')

/-- src/plan.rs:348-355. -/
def planNewMdctFx (planFft : Nat → Fft T) (len : Nat) (windowFn : WindowFn W T) : PlanFx W T (Arc (MdctObj T)) := do
  let innerDct4 ← liftPlan (planDct4 planFft len)
  arcNewFx (MdctViaDct4.toObj <$> MdctViaDct4.newFx innerDct4.val windowFn)

/-- src/plan.rs:335-346. -/
def planMdctFx (planFft : Nat → Fft T) (len : Nat) (windowFn : WindowFn W T) : PlanFx W T (Arc (MdctObj T)) := do
  match (← get).1.mdctCache len with
  | some a => return a
  | none =>
    let result ← planNewMdctFx planFft len windowFn
    modify fun s => ({ s.1 with mdctCache := insertCache s.1.mdctCache len result }, s.2)
    return result

end RustDct
