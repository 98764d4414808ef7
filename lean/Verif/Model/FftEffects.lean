import Verif.Model.WindowEffects
import Verif.Methods
/-!
# FFT planners with state

The third model of the planner.  In `Verif/Model/Planner.lean` rustfft's planner is a function of the length; here `plan_fft_forward` is an
arbitrary method of an object with state: it may return different FFTs for the same length at different times, and it may panic.  Window
functions are arbitrary closures as in `Verif/Model/WindowEffects.lean`.  `S` is everything outside the eleven caches of `DctPlanner`: the
state of its `fft_planner`, and the world the window functions act on.
-/

namespace RustDct

variable {T F S : Type} [F64 F] [DctNum T F]

/-- `FftPlanner::plan_fft_forward(len)`: the FFT (`none` if it panics), and the state afterwards. -/
abbrev FftFn (S T : Type) := Nat → S → Option (Fft T) × S

/-- A panic of a planner method: the crate's own or of a window function, or one of the FFT planner, passed on to the caller. -/
inductive PlanPanic
  | own (p : Panic)
  | fft
  deriving DecidableEq, Repr

/-- A planner method with access to the state of the FFT planner and to the world. -/
abbrev PlanSt (S T : Type) := EStateM PlanPanic (Planner T × S)

/-- A call `self.fft_planner.plan_fft_forward(len)`. -/
def callFft (planFft : FftFn S T) (len : Nat) : PlanSt S T (Fft T) := fun s =>
  match planFft len s.2 with
  | (some f, s') => .ok f (s.1, s')
  | (none, s') => .error .fft (s.1, s')

/-- `Arc::new(X::new(..))`, as `arcNew`. -/
def arcNewSt {α : Type} (x : Except Err α) : PlanSt S T (Arc α) := fun s =>
  match x with
  | .ok v => .ok ⟨s.1.nextId, v⟩ ({ s.1 with nextId := s.1.nextId + 1 }, s.2)
  | .error e => .error (.own (.crate e)) s

/-- A planner method that uses neither an FFT nor a window function. -/
def keepState {α : Type} (m : PlanM T α) : PlanSt S T α := fun s =>
  match m s.1 with
  | .ok a p => .ok a (p, s.2)
  | .error e p => .error (.own (.crate e)) (p, s.2)

section
variable (planFft : FftFn S T)

/-- src/plan.rs:89-97. -/
def planNewDct1St (len : Nat) : PlanSt S T (Arc (Obj1 T)) :=
  if len < 10 then arcNewSt ((Dct1Naive.new len).map Dct1Naive.toObj)
  else do
    let fft ← callFft planFft ((len - 1) * 2)
    arcNewSt ((Dct1ConvertToFft.new fft).map Dct1ConvertToFft.toObj)

/-- src/plan.rs:79-87. -/
def planDct1St (len : Nat) : PlanSt S T (Arc (Obj1 T)) := do
  match (← get).1.dct1Cache len with
  | some a => return a
  | none =>
    let result ← planNewDct1St planFft len
    modify fun s => ({ s.1 with dct1Cache := insertCache s.1.dct1Cache len result }, s.2)
    return result

mutual
/-- src/plan.rs:101-109. -/
def planDct2St (len : Nat) : PlanSt S T (Arc (Obj23 T)) := do
  match (← get).1.dct23Cache len with
  | some a => return a
  | none =>
    let result ← planNewDct2St len
    modify fun s => ({ s.1 with dct23Cache := insertCache s.1.dct23Cache len result }, s.2)
    return result
termination_by (len, 1)

/-- src/plan.rs:111-134. -/
def planNewDct2St (len : Nat) : PlanSt S T (Arc (Obj23 T)) := do
  if dct2Butterflies.contains len then keepState (planDct2Butterfly len)
  else if _h : isPowerOfTwo len = true ∧ len > 2 then
    let halfDct ← planDct2St (len / 2)
    let quarterDct ← planDct2St (len / 4)
    arcNewSt ((Type2And3SplitRadix.new halfDct.val quarterDct.val).map Type2And3SplitRadix.toObj)
  else
    let fft ← callFft planFft len
    arcNewSt ((Type2And3ConvertToFft.new fft).map Type2And3ConvertToFft.toObj)
termination_by (len, 0)
end

/-- src/plan.rs:138-140. -/
def planDct3St (len : Nat) : PlanSt S T (Arc (Obj23 T)) := planDct2St planFft len

/-- src/plan.rs:154-174. -/
def planNewDct4St (len : Nat) : PlanSt S T (Arc (Obj4 T)) := do
  if len % 2 = 0 then
    if len < 6 then arcNewSt ((Type4Naive.new len).map Type4Naive.toObj)
    else
      let innerDct ← planDct3St planFft (len / 2)
      arcNewSt ((Type4ConvertToType3Even.new innerDct.val).map Type4ConvertToType3Even.toObj)
  else if len < 7 then arcNewSt ((Type4Naive.new len).map Type4Naive.toObj)
  else
    let fft ← callFft planFft len
    arcNewSt ((Type4ConvertToFftOdd.new fft).map Type4ConvertToFftOdd.toObj)

/-- src/plan.rs:144-152. -/
def planDct4St (len : Nat) : PlanSt S T (Arc (Obj4 T)) := do
  match (← get).1.dct4Cache len with
  | some a => return a
  | none =>
    let result ← planNewDct4St planFft len
    modify fun s => ({ s.1 with dct4Cache := insertCache s.1.dct4Cache len result }, s.2)
    return result

/-- src/plan.rs:242-250. -/
def planNewDst1St (len : Nat) : PlanSt S T (Arc (Obj1 T)) :=
  if len < 25 then arcNewSt ((Dst1Naive.new len).map Dst1Naive.toObj)
  else do
    let fft ← callFft planFft ((len + 1) * 2)
    arcNewSt ((Dst1ConvertToFft.new fft).map Dst1ConvertToFft.toObj)

/-- src/plan.rs:232-240. -/
def planDst1St (len : Nat) : PlanSt S T (Arc (Obj1 T)) := do
  match (← get).1.dst1Cache len with
  | some a => return a
  | none =>
    let result ← planNewDst1St planFft len
    modify fun s => ({ s.1 with dst1Cache := insertCache s.1.dst1Cache len result }, s.2)
    return result

/-- src/plan.rs:298-305. -/
def planNewDst6St (len : Nat) : PlanSt S T (Arc (Obj67 T)) :=
  if len < 45 then arcNewSt ((Dst6And7Naive.new len).map Dst6And7Naive.toObj)
  else do
    let fft ← callFft planFft (len * 2 + 1)
    arcNewSt ((Dst6And7ConvertToFft.new fft).map Dst6And7ConvertToFft.toObj)

/-- src/plan.rs:288-296. -/
def planDst6St (len : Nat) : PlanSt S T (Arc (Obj67 T)) := do
  match (← get).1.dst6Cache len with
  | some a => return a
  | none =>
    let result ← planNewDst6St planFft len
    modify fun s => ({ s.1 with dst6Cache := insertCache s.1.dst6Cache len result }, s.2)
    return result

/-- `Arc::new(MdctViaDct4::new(inner, window_fn))`, src/plan.rs:354. -/
def arcNewMdctSt (inner : Obj4 T) (windowFn : WindowFn S T) : PlanSt S T (Arc (MdctObj T)) := fun s =>
  match MdctViaDct4.newFx inner windowFn s.2 with
  | .ok v s' => .ok ⟨s.1.nextId, v.toObj⟩ ({ s.1 with nextId := s.1.nextId + 1 }, s')
  | .error e s' => .error (.own e) (s.1, s')

/-- src/plan.rs:348-355. -/
def planNewMdctSt (len : Nat) (windowFn : WindowFn S T) : PlanSt S T (Arc (MdctObj T)) := do
  let innerDct4 ← planDct4St planFft len
  arcNewMdctSt innerDct4.val windowFn

/-- src/plan.rs:335-346. -/
def planMdctSt (len : Nat) (windowFn : WindowFn S T) : PlanSt S T (Arc (MdctObj T)) := do
  match (← get).1.mdctCache len with
  | some a => return a
  | none =>
    let result ← planNewMdctSt planFft len windowFn
    modify fun s => ({ s.1 with mdctCache := insertCache s.1.mdctCache len result }, s.2)
    return result

end

/-- An instance that a planner method other than `plan_mdct` returns, by the trait it implements: those of the types 1, 5 and 8 have one
method, those of the types 2 and 3 four, those of type 4 two and those of the types 6 and 7 two. -/
inductive Inst (T : Type)
  | single (a : Arc (Obj1 T))
  | t23 (a : Arc (Obj23 T))
  | t4 (a : Arc (Obj4 T))
  | t67 (a : Arc (Obj67 T))

/-- The methods `plan_dct1`, …, `plan_dst8`: src/plan.rs:79, 101, 138, 144, 178, 194, 210, 216, 232, 254, 260, 266, 272, 288, 309, 315
(the aliases 138, 210, 254, 260, 266 and 309 unfolded). -/
def Kind.planSt (planFft : FftFn S T) : Kind → Nat → PlanSt S T (Inst T)
  | .dct1, n => Inst.single <$> planDct1St planFft n
  | .dct2, n | .dst2, n | .dst3, n => Inst.t23 <$> planDct2St planFft n
  | .dct3, n => Inst.t23 <$> planDct3St planFft n
  | .dct4, n | .dst4, n => Inst.t4 <$> planDct4St planFft n
  | .dct5, n => Inst.single <$> keepState (planDct5 n)
  | .dct6, n | .dct7, n => Inst.t67 <$> keepState (planDct6 n)
  | .dct8, n => Inst.single <$> keepState (planDct8 n)
  | .dst1, n => Inst.single <$> planDst1St planFft n
  | .dst5, n => Inst.single <$> keepState (planDst5 n)
  | .dst6, n | .dst7, n => Inst.t67 <$> planDst6St planFft n
  | .dst8, n => Inst.single <$> keepState (planDst8 n)

end RustDct
