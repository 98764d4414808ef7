import Verif.Model.Naive
import Verif.Model.ConvertFft
import Verif.Model.Butterflies
import Verif.Model.SplitRadix
import Verif.Model.Mdct
/-!
# The planner

`Arc<dyn X>` is a value together with the identity of its allocation (`Arc::ptr_eq` compares `id`s).
Each `HashMap<usize, _>` cache is a partial function.  rustfft's own planner is external: `planFft n` is the
FFT instance that `plan_fft_forward(n)` yields (simplification: one instance per size, so that rustfft's cache is
not observable).
-/

namespace RustDct

variable {T : Type} {F : Type} [F64 F] [DctNum T F]

/-- A reference-counted instance; `id` identifies the allocation. -/
structure Arc (α : Type) where
  id : Nat
  val : α

/-- src/plan.rs:43-58 `DctPlanner`; `nextId` is the allocator's supply of identities. -/
structure Planner (T : Type) where
  dct1Cache : Nat → Option (Arc (Obj1 T))
  dst1Cache : Nat → Option (Arc (Obj1 T))
  dct23Cache : Nat → Option (Arc (Obj23 T))
  dct4Cache : Nat → Option (Arc (Obj4 T))
  dct5Cache : Nat → Option (Arc (Obj1 T))
  dst5Cache : Nat → Option (Arc (Obj1 T))
  dct6Cache : Nat → Option (Arc (Obj67 T))
  dst6Cache : Nat → Option (Arc (Obj67 T))
  dct8Cache : Nat → Option (Arc (Obj1 T))
  dst8Cache : Nat → Option (Arc (Obj1 T))
  mdctCache : Nat → Option (Arc (MdctObj T))
  nextId : Nat

/-- src/plan.rs:60-75 `DctPlanner::new`.  The allocator may already have handed out identities. -/
def Planner.new (nextId : Nat := 0) : Planner T :=
  { dct1Cache := fun _ => none, dst1Cache := fun _ => none, dct23Cache := fun _ => none,
    dct4Cache := fun _ => none, dct5Cache := fun _ => none, dst5Cache := fun _ => none,
    dct6Cache := fun _ => none, dst6Cache := fun _ => none, dct8Cache := fun _ => none,
    dst8Cache := fun _ => none, mdctCache := fun _ => none, nextId }

/-- A planner method: changes the planner, returns or panics (the planner survives a panic that is caught). -/
abbrev PlanM (T : Type) := EStateM Err (Planner T)

/-- `Arc::new(X::new(..))`: the constructor may panic, otherwise a new allocation is made. -/
def arcNew {α : Type} (x : Except Err α) : PlanM T (Arc α) := fun s =>
  match x with
  | .ok v => .ok ⟨s.nextId, v⟩ { s with nextId := s.nextId + 1 }
  | .error e => .error e s

/-- `HashMap::insert`. -/
def insertCache {α : Type} (c : Nat → Option α) (k : Nat) (v : α) : Nat → Option α :=
  fun j => if j = k then some v else c j

/-- src/plan.rs:14. -/
def dct2Butterflies : List Nat := [2, 3, 4, 8, 16]

section
variable (planFft : Nat → Fft T)

/-- src/plan.rs:89-97. -/
def planNewDct1 (len : Nat) : PlanM T (Arc (Obj1 T)) :=
  if len < 10 then arcNew ((Dct1Naive.new len).map Dct1Naive.toObj)
  else
    let fft := planFft ((len - 1) * 2)
    arcNew ((Dct1ConvertToFft.new fft).map Dct1ConvertToFft.toObj)

/-- src/plan.rs:79-87. -/
def planDct1 (len : Nat) : PlanM T (Arc (Obj1 T)) := do
  match (← get).dct1Cache len with
  | some a => return a
  | none =>
    let result ← planNewDct1 planFft len
    modify fun s => { s with dct1Cache := insertCache s.dct1Cache len result }
    return result

/-- src/plan.rs:125-134. -/
def planDct2Butterfly (len : Nat) : PlanM T (Arc (Obj23 T)) :=
  if len = 2 then arcNew (.ok (Type2And3Butterfly2.new (T := T)).toObj)
  else if len = 3 then arcNew (.ok (Type2And3Butterfly3.new (T := T)).toObj)
  else if len = 4 then arcNew (.ok (Type2And3Butterfly4.new (T := T)).toObj)
  else if len = 8 then arcNew (.ok (Type2And3Butterfly8.new (T := T)).toObj)
  else if len = 16 then arcNew (.ok (Type2And3Butterfly16.new (T := T)).toObj)
  else throw .assertion

mutual
/-- src/plan.rs:101-109. -/
def planDct2 (len : Nat) : PlanM T (Arc (Obj23 T)) := do
  match (← get).dct23Cache len with
  | some a => return a
  | none =>
    let result ← planNewDct2 len
    modify fun s => { s with dct23Cache := insertCache s.dct23Cache len result }
    return result
termination_by (len, 1)

/-- src/plan.rs:111-123. -/
def planNewDct2 (len : Nat) : PlanM T (Arc (Obj23 T)) := do
  if dct2Butterflies.contains len then planDct2Butterfly len
  else if _h : isPowerOfTwo len = true ∧ len > 2 then
    let halfDct ← planDct2 (len / 2)
    let quarterDct ← planDct2 (len / 4)
    arcNew ((Type2And3SplitRadix.new halfDct.val quarterDct.val).map Type2And3SplitRadix.toObj)
  else
    let fft := planFft len
    arcNew ((Type2And3ConvertToFft.new fft).map Type2And3ConvertToFft.toObj)
termination_by (len, 0)
end

/-- src/plan.rs:138-140. -/
def planDct3 (len : Nat) : PlanM T (Arc (Obj23 T)) := planDct2 planFft len

/-- src/plan.rs:154-174. -/
def planNewDct4 (len : Nat) : PlanM T (Arc (Obj4 T)) := do
  if len % 2 = 0 then
    if len < 6 then arcNew ((Type4Naive.new len).map Type4Naive.toObj)
    else
      let innerDct ← planDct3 planFft (len / 2)
      arcNew ((Type4ConvertToType3Even.new innerDct.val).map Type4ConvertToType3Even.toObj)
  else if len < 7 then arcNew ((Type4Naive.new len).map Type4Naive.toObj)
  else
    let fft := planFft len
    arcNew ((Type4ConvertToFftOdd.new fft).map Type4ConvertToFftOdd.toObj)

/-- src/plan.rs:144-152. -/
def planDct4 (len : Nat) : PlanM T (Arc (Obj4 T)) := do
  match (← get).dct4Cache len with
  | some a => return a
  | none =>
    let result ← planNewDct4 planFft len
    modify fun s => { s with dct4Cache := insertCache s.dct4Cache len result }
    return result

end

/-- src/plan.rs:178-190 (`plan_new_dct5` inlined). -/
def planDct5 (len : Nat) : PlanM T (Arc (Obj1 T)) := do
  match (← get).dct5Cache len with
  | some a => return a
  | none =>
    let result ← arcNew ((Dct5Naive.new len).map Dct5Naive.toObj)
    modify fun s => { s with dct5Cache := insertCache s.dct5Cache len result }
    return result

/-- src/plan.rs:194-206 (`plan_new_dct6` inlined). -/
def planDct6 (len : Nat) : PlanM T (Arc (Obj67 T)) := do
  match (← get).dct6Cache len with
  | some a => return a
  | none =>
    let result ← arcNew ((Dct6And7Naive.new len).map Dct6And7Naive.toObj)
    modify fun s => { s with dct6Cache := insertCache s.dct6Cache len result }
    return result

/-- src/plan.rs:210-212. -/
def planDct7 (len : Nat) : PlanM T (Arc (Obj67 T)) := planDct6 len

/-- src/plan.rs:216-228 (`plan_new_dct8` inlined). -/
def planDct8 (len : Nat) : PlanM T (Arc (Obj1 T)) := do
  match (← get).dct8Cache len with
  | some a => return a
  | none =>
    let result ← arcNew ((Dct8Naive.new len).map Dct8Naive.toObj)
    modify fun s => { s with dct8Cache := insertCache s.dct8Cache len result }
    return result

/-- src/plan.rs:242-250. -/
def planNewDst1 (planFft : Nat → Fft T) (len : Nat) : PlanM T (Arc (Obj1 T)) :=
  if len < 25 then arcNew ((Dst1Naive.new len).map Dst1Naive.toObj)
  else
    let fft := planFft ((len + 1) * 2)
    arcNew ((Dst1ConvertToFft.new fft).map Dst1ConvertToFft.toObj)

/-- src/plan.rs:232-240. -/
def planDst1 (planFft : Nat → Fft T) (len : Nat) : PlanM T (Arc (Obj1 T)) := do
  match (← get).dst1Cache len with
  | some a => return a
  | none =>
    let result ← planNewDst1 planFft len
    modify fun s => { s with dst1Cache := insertCache s.dst1Cache len result }
    return result

/-- src/plan.rs:254-256. -/
def planDst2 (planFft : Nat → Fft T) (len : Nat) : PlanM T (Arc (Obj23 T)) := planDct2 planFft len

/-- src/plan.rs:260-262. -/
def planDst3 (planFft : Nat → Fft T) (len : Nat) : PlanM T (Arc (Obj23 T)) := planDct2 planFft len

/-- src/plan.rs:266-268. -/
def planDst4 (planFft : Nat → Fft T) (len : Nat) : PlanM T (Arc (Obj4 T)) := planDct4 planFft len

/-- src/plan.rs:272-284 (`plan_new_dst5` inlined). -/
def planDst5 (len : Nat) : PlanM T (Arc (Obj1 T)) := do
  match (← get).dst5Cache len with
  | some a => return a
  | none =>
    let result ← arcNew ((Dst5Naive.new len).map Dst5Naive.toObj)
    modify fun s => { s with dst5Cache := insertCache s.dst5Cache len result }
    return result

/-- src/plan.rs:298-305. -/
def planNewDst6 (planFft : Nat → Fft T) (len : Nat) : PlanM T (Arc (Obj67 T)) :=
  if len < 45 then arcNew ((Dst6And7Naive.new len).map Dst6And7Naive.toObj)
  else
    let fft := planFft (len * 2 + 1)
    arcNew ((Dst6And7ConvertToFft.new fft).map Dst6And7ConvertToFft.toObj)

/-- src/plan.rs:288-296. -/
def planDst6 (planFft : Nat → Fft T) (len : Nat) : PlanM T (Arc (Obj67 T)) := do
  match (← get).dst6Cache len with
  | some a => return a
  | none =>
    let result ← planNewDst6 planFft len
    modify fun s => { s with dst6Cache := insertCache s.dst6Cache len result }
    return result

/-- src/plan.rs:309-311. -/
def planDst7 (planFft : Nat → Fft T) (len : Nat) : PlanM T (Arc (Obj67 T)) := planDst6 planFft len

/-- src/plan.rs:315-327 (`plan_new_dst8` inlined). -/
def planDst8 (len : Nat) : PlanM T (Arc (Obj1 T)) := do
  match (← get).dst8Cache len with
  | some a => return a
  | none =>
    let result ← arcNew ((Dst8Naive.new len).map Dst8Naive.toObj)
    modify fun s => { s with dst8Cache := insertCache s.dst8Cache len result }
    return result

/-- src/plan.rs:348-355. -/
def planNewMdct (planFft : Nat → Fft T) (len : Nat) (windowFn : Nat → List T) : PlanM T (Arc (MdctObj T)) := do
  let innerDct4 ← planDct4 planFft len
  arcNew ((MdctViaDct4.new innerDct4.val windowFn).map MdctViaDct4.toObj)

/-- src/plan.rs:335-346. -/
def planMdct (planFft : Nat → Fft T) (len : Nat) (windowFn : Nat → List T) : PlanM T (Arc (MdctObj T)) := do
  match (← get).mdctCache len with
  | some a => return a
  | none =>
    let result ← planNewMdct planFft len windowFn
    modify fun s => { s with mdctCache := insertCache s.mdctCache len result }
    return result

end RustDct
