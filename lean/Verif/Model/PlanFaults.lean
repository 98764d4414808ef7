import Verif.Model.FftEffects
/-!
# Panics at arbitrary points of the planner

The planner of `Verif/Model/FftEffects.lean` once more, now with faults: whenever the planner constructs an instance or stores one in a
cache, that step may panic instead (`Vec` or `HashMap` exceeding their capacity, a conversion of a constant that fails, a hook of the test
harness, ...).  An arbitrary function with state, `faults`, decides when.  The caller catches the panic and goes on using the planner.
-/

namespace RustDct

variable {T F S : Type} [F64 F] [DctNum T F]

/-- A point where the planner may panic: constructing an instance, or storing it in a cache; with the length of the request at hand. -/
inductive Point
  | make (len : Nat)
  | store (len : Nat)
  deriving DecidableEq, Repr

/-- Whether there is a panic at a point, and the state of everything outside the planner afterwards. -/
abbrev FaultFn (S : Type) := Point → S → Bool × S

/-- A panic: one of those without faults, or a fault. -/
inductive CrashPanic
  | plan (p : PlanPanic)
  | fault
  deriving DecidableEq, Repr

/-- A planner method with faults. -/
abbrev PlanCr (S T : Type) := EStateM CrashPanic (Planner T × S)

/-- Reaching a point. -/
def checkpoint (faults : FaultFn S) (pt : Point) : PlanCr S T Unit := fun s =>
  match faults pt s.2 with
  | (false, s') => .ok () (s.1, s')
  | (true, s') => .error .fault (s.1, s')

/-- A step of the planner without faults. -/
def faultless {α : Type} (m : PlanSt S T α) : PlanCr S T α := fun s =>
  match m s with
  | .ok a s' => .ok a s'
  | .error p s' => .error (.plan p) s'

/-- A call `self.fft_planner.plan_fft_forward(len)`. -/
def callFftCr (planFft : FftFn S T) (len : Nat) : PlanCr S T (Fft T) := faultless (callFft planFft len)

/-- `Arc::new(X::new(..))`, as `arcNewSt`. -/
def arcNewCr {α : Type} (faults : FaultFn S) (len : Nat) (x : Except Err α) : PlanCr S T (Arc α) := do
  checkpoint faults (.make len)
  faultless (arcNewSt x)

/-- `self.cache.insert(len, Arc::clone(&result))`; a fault leaves the cache as it was. -/
def storeCr (faults : FaultFn S) (len : Nat) (f : Planner T → Planner T) : PlanCr S T Unit := do
  checkpoint faults (.store len)
  modify fun s => (f s.1, s.2)

/-- src/plan.rs:125-134. -/
def planDct2ButterflyCr (faults : FaultFn S) (len : Nat) : PlanCr S T (Arc (Obj23 T)) :=
  if len = 2 then arcNewCr faults len (.ok (Type2And3Butterfly2.new (T := T)).toObj)
  else if len = 3 then arcNewCr faults len (.ok (Type2And3Butterfly3.new (T := T)).toObj)
  else if len = 4 then arcNewCr faults len (.ok (Type2And3Butterfly4.new (T := T)).toObj)
  else if len = 8 then arcNewCr faults len (.ok (Type2And3Butterfly8.new (T := T)).toObj)
  else if len = 16 then arcNewCr faults len (.ok (Type2And3Butterfly16.new (T := T)).toObj)
  else throw (.plan (.own (.crate .assertion)))

/-- src/plan.rs:178-190 (`plan_new_dct5` inlined). -/
def planDct5Cr (faults : FaultFn S) (len : Nat) : PlanCr S T (Arc (Obj1 T)) := do
  match (← get).1.dct5Cache len with
  | some a => return a
  | none =>
    let result ← arcNewCr faults len ((Dct5Naive.new len).map Dct5Naive.toObj)
    storeCr faults len fun s => { s with dct5Cache := insertCache s.dct5Cache len result }
    return result

/-- src/plan.rs:194-206 (`plan_new_dct6` inlined). -/
def planDct6Cr (faults : FaultFn S) (len : Nat) : PlanCr S T (Arc (Obj67 T)) := do
  match (← get).1.dct6Cache len with
  | some a => return a
  | none =>
    let result ← arcNewCr faults len ((Dct6And7Naive.new len).map Dct6And7Naive.toObj)
    storeCr faults len fun s => { s with dct6Cache := insertCache s.dct6Cache len result }
    return result

/-- src/plan.rs:216-228 (`plan_new_dct8` inlined). -/
def planDct8Cr (faults : FaultFn S) (len : Nat) : PlanCr S T (Arc (Obj1 T)) := do
  match (← get).1.dct8Cache len with
  | some a => return a
  | none =>
    let result ← arcNewCr faults len ((Dct8Naive.new len).map Dct8Naive.toObj)
    storeCr faults len fun s => { s with dct8Cache := insertCache s.dct8Cache len result }
    return result

/-- src/plan.rs:272-284 (`plan_new_dst5` inlined). -/
def planDst5Cr (faults : FaultFn S) (len : Nat) : PlanCr S T (Arc (Obj1 T)) := do
  match (← get).1.dst5Cache len with
  | some a => return a
  | none =>
    let result ← arcNewCr faults len ((Dst5Naive.new len).map Dst5Naive.toObj)
    storeCr faults len fun s => { s with dst5Cache := insertCache s.dst5Cache len result }
    return result

/-- src/plan.rs:315-327 (`plan_new_dst8` inlined). -/
def planDst8Cr (faults : FaultFn S) (len : Nat) : PlanCr S T (Arc (Obj1 T)) := do
  match (← get).1.dst8Cache len with
  | some a => return a
  | none =>
    let result ← arcNewCr faults len ((Dst8Naive.new len).map Dst8Naive.toObj)
    storeCr faults len fun s => { s with dst8Cache := insertCache s.dst8Cache len result }
    return result

section
variable (faults : FaultFn S) (planFft : FftFn S T)

/-- src/plan.rs:89-97. -/
def planNewDct1Cr (len : Nat) : PlanCr S T (Arc (Obj1 T)) :=
  if len < 10 then arcNewCr faults len ((Dct1Naive.new len).map Dct1Naive.toObj)
  else do
    let fft ← callFftCr planFft ((len - 1) * 2)
    arcNewCr faults len ((Dct1ConvertToFft.new fft).map Dct1ConvertToFft.toObj)

/-- src/plan.rs:79-87. -/
def planDct1Cr (len : Nat) : PlanCr S T (Arc (Obj1 T)) := do
  match (← get).1.dct1Cache len with
  | some a => return a
  | none =>
    let result ← planNewDct1Cr faults planFft len
    storeCr faults len fun s => { s with dct1Cache := insertCache s.dct1Cache len result }
    return result

mutual
/-- src/plan.rs:101-109. -/
def planDct2Cr (len : Nat) : PlanCr S T (Arc (Obj23 T)) := do
  match (← get).1.dct23Cache len with
  | some a => return a
  | none =>
    let result ← planNewDct2Cr len
    storeCr faults len fun s => { s with dct23Cache := insertCache s.dct23Cache len result }
    return result
termination_by (len, 1)

/-- src/plan.rs:111-134. -/
def planNewDct2Cr (len : Nat) : PlanCr S T (Arc (Obj23 T)) := do
  if dct2Butterflies.contains len then planDct2ButterflyCr faults len
  else if _h : isPowerOfTwo len = true ∧ len > 2 then
    let halfDct ← planDct2Cr (len / 2)
    let quarterDct ← planDct2Cr (len / 4)
    arcNewCr faults len ((Type2And3SplitRadix.new halfDct.val quarterDct.val).map Type2And3SplitRadix.toObj)
  else
    let fft ← callFftCr planFft len
    arcNewCr faults len ((Type2And3ConvertToFft.new fft).map Type2And3ConvertToFft.toObj)
termination_by (len, 0)
end

/-- src/plan.rs:138-140. -/
def planDct3Cr (len : Nat) : PlanCr S T (Arc (Obj23 T)) := planDct2Cr faults planFft len

/-- src/plan.rs:154-174. -/
def planNewDct4Cr (len : Nat) : PlanCr S T (Arc (Obj4 T)) := do
  if len % 2 = 0 then
    if len < 6 then arcNewCr faults len ((Type4Naive.new len).map Type4Naive.toObj)
    else
      let innerDct ← planDct3Cr faults planFft (len / 2)
      arcNewCr faults len ((Type4ConvertToType3Even.new innerDct.val).map Type4ConvertToType3Even.toObj)
  else if len < 7 then arcNewCr faults len ((Type4Naive.new len).map Type4Naive.toObj)
  else
    let fft ← callFftCr planFft len
    arcNewCr faults len ((Type4ConvertToFftOdd.new fft).map Type4ConvertToFftOdd.toObj)

/-- src/plan.rs:144-152. -/
def planDct4Cr (len : Nat) : PlanCr S T (Arc (Obj4 T)) := do
  match (← get).1.dct4Cache len with
  | some a => return a
  | none =>
    let result ← planNewDct4Cr faults planFft len
    storeCr faults len fun s => { s with dct4Cache := insertCache s.dct4Cache len result }
    return result

/-- src/plan.rs:242-250. -/
def planNewDst1Cr (len : Nat) : PlanCr S T (Arc (Obj1 T)) :=
  if len < 25 then arcNewCr faults len ((Dst1Naive.new len).map Dst1Naive.toObj)
  else do
    let fft ← callFftCr planFft ((len + 1) * 2)
    arcNewCr faults len ((Dst1ConvertToFft.new fft).map Dst1ConvertToFft.toObj)

/-- src/plan.rs:232-240. -/
def planDst1Cr (len : Nat) : PlanCr S T (Arc (Obj1 T)) := do
  match (← get).1.dst1Cache len with
  | some a => return a
  | none =>
    let result ← planNewDst1Cr faults planFft len
    storeCr faults len fun s => { s with dst1Cache := insertCache s.dst1Cache len result }
    return result

/-- src/plan.rs:298-305. -/
def planNewDst6Cr (len : Nat) : PlanCr S T (Arc (Obj67 T)) :=
  if len < 45 then arcNewCr faults len ((Dst6And7Naive.new len).map Dst6And7Naive.toObj)
  else do
    let fft ← callFftCr planFft (len * 2 + 1)
    arcNewCr faults len ((Dst6And7ConvertToFft.new fft).map Dst6And7ConvertToFft.toObj)

/-- src/plan.rs:288-296. -/
def planDst6Cr (len : Nat) : PlanCr S T (Arc (Obj67 T)) := do
  match (← get).1.dst6Cache len with
  | some a => return a
  | none =>
    let result ← planNewDst6Cr faults planFft len
    storeCr faults len fun s => { s with dst6Cache := insertCache s.dst6Cache len result }
    return result

/-- `Arc::new(MdctViaDct4::new(inner, window_fn))`, src/plan.rs:354. -/
def arcNewMdctCr (len : Nat) (inner : Obj4 T) (windowFn : WindowFn S T) : PlanCr S T (Arc (MdctObj T)) := do
  checkpoint faults (.make len)
  faultless (arcNewMdctSt inner windowFn)

/-- src/plan.rs:348-355. -/
def planNewMdctCr (len : Nat) (windowFn : WindowFn S T) : PlanCr S T (Arc (MdctObj T)) := do
  let innerDct4 ← planDct4Cr faults planFft len
  arcNewMdctCr faults len innerDct4.val windowFn

/-- src/plan.rs:335-346. -/
def planMdctCr (len : Nat) (windowFn : WindowFn S T) : PlanCr S T (Arc (MdctObj T)) := do
  match (← get).1.mdctCache len with
  | some a => return a
  | none =>
    let result ← planNewMdctCr faults planFft len windowFn
    storeCr faults len fun s => { s with mdctCache := insertCache s.mdctCache len result }
    return result

end

/-- The methods `plan_dct1`, …, `plan_dst8`: src/plan.rs:79, 101, 138, 144, 178, 194, 210, 216, 232, 254, 260, 266, 272, 288, 309, 315
(the aliases 138, 210, 254, 260, 266 and 309 unfolded). -/
def Kind.planCr (faults : FaultFn S) (planFft : FftFn S T) : Kind → Nat → PlanCr S T (Inst T)
  | .dct1, n => Inst.single <$> planDct1Cr faults planFft n
  | .dct2, n | .dst2, n | .dst3, n => Inst.t23 <$> planDct2Cr faults planFft n
  | .dct3, n => Inst.t23 <$> planDct3Cr faults planFft n
  | .dct4, n | .dst4, n => Inst.t4 <$> planDct4Cr faults planFft n
  | .dct5, n => Inst.single <$> planDct5Cr faults n
  | .dct6, n | .dct7, n => Inst.t67 <$> planDct6Cr faults n
  | .dct8, n => Inst.single <$> planDct8Cr faults n
  | .dst1, n => Inst.single <$> planDst1Cr faults planFft n
  | .dst5, n => Inst.single <$> planDst5Cr faults n
  | .dst6, n | .dst7, n => Inst.t67 <$> planDst6Cr faults planFft n
  | .dst8, n => Inst.single <$> planDst8Cr faults n

end RustDct
