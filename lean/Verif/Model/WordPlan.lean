import Verif.Model.WordProcess
import Verif.Model.Planner
/-!
# Constructors and planner with bounded `usize`

In `Verif/Model/Planner.lean` and in the constructors `usize` is `Nat`.  Here are all constructors and the planner on a machine with a bounded
`usize`, in debug and in release builds: every addition, subtraction and multiplication that can leave the range goes through
`Machine.arith` or `Machine.sub`.  A `Vec` has a largest length: collecting more elements panics ("capacity overflow").  Not modelled:
allocations below that bound that fail.  The instances have the methods of `Verif/Model/WordProcess.lean`.
-/

namespace RustDct

variable {T : Type} {F : Type} [F64 F] [DctNum T F]

/-- A machine together with the largest length of a `Vec<T>`: `isize::MAX / size_of::<T>()`. -/
structure Target extends Machine where
  maxVec : Nat

/-- `(0..n).map(f).collect::<Vec<T>>()`, where `words` is the size of an entry in units of `size_of::<T>()` (2 for `Complex<T>`). -/
def Target.collect (M : Target) (words n : Nat) {α : Type} (f : Nat → α) : Except Err (List α) :=
  if n * words ≤ M.maxVec then .ok ((List.range n).map f) else .error .overflow

/-! ### Constructors -/

/-- src/algorithm/type1_naive.rs:31-44 `Dct1Naive::new`. -/
def Dct1Naive.newOn (M : Target) (len : Nat) : Except Err (Dct1Naive T) := do
  if len = 1 then .error .assertion
  else do
    let lenM1 ← M.sub len 1
    let constantFactor : F := F64.pi / F64.nat lenM1
    let count ← M.arith (lenM1 * 2)
    let twiddles ← M.collect 1 count fun i => fromF64 (F64.cos (constantFactor * F64.nat i))
    .ok ⟨twiddles⟩

/-- src/algorithm/type1_naive.rs:109-120 `Dst1Naive::new`. -/
def Dst1Naive.newOn (M : Target) (len : Nat) : Except Err (Dst1Naive T) := do
  let lenP1 ← M.arith (len + 1)
  let constantFactor : F := F64.pi / F64.nat lenP1
  let count ← M.arith (lenP1 * 2)
  let twiddles ← M.collect 1 count fun i => fromF64 (F64.sin (constantFactor * F64.nat i))
  .ok ⟨twiddles⟩

/-- src/algorithm/type2and3_naive.rs:37-45 `Type2And3Naive::new`. -/
def Type2And3Naive.newOn (M : Target) (len : Nat) : Except Err (Type2And3Naive T) := do
  let count ← M.arith (len * 4)
  let twiddles ← M.collect 2 count fun i => singleTwiddle i count
  .ok ⟨twiddles⟩

/-- src/algorithm/type4_naive.rs:31-39 `Type4Naive::new`. -/
def Type4Naive.newOn (M : Target) (len : Nat) : Except Err (Type4Naive T) := do
  let count ← M.arith (len * 4)
  let twiddles ← M.collect 2 count fun i => singleTwiddleHalfoffset i count
  .ok ⟨twiddles⟩

/-- src/algorithm/type5_naive.rs:29-40 `Dct5Naive::new`. -/
def Dct5Naive.newOn (M : Target) (len : Nat) : Except Err (Dct5Naive T) := do
  let constantFactor : F := F64.pi / (F64.nat len - F64.half)
  let double ← M.arith (len * 2)
  let count ← M.sub double 1
  let twiddles ← M.collect 1 count fun i => fromF64 (F64.cos (constantFactor * F64.nat i))
  .ok ⟨twiddles⟩

/-- src/algorithm/type5_naive.rs:103-114 `Dst5Naive::new`. -/
def Dst5Naive.newOn (M : Target) (len : Nat) : Except Err (Dst5Naive T) := do
  let constantFactor : F := F64.pi / (F64.nat len + F64.half)
  let double ← M.arith (len * 2)
  let count ← M.arith (double + 1)
  let twiddles ← M.collect 1 count fun i => fromF64 (F64.sin (constantFactor * F64.nat i))
  .ok ⟨twiddles⟩

/-- src/algorithm/type6and7_naive.rs:29-40 `Dct6And7Naive::new`. -/
def Dct6And7Naive.newOn (M : Target) (len : Nat) : Except Err (Dct6And7Naive T) := do
  let double ← M.arith (len * 2)
  let denom ← M.sub double 1
  let constantFactor : F := F64.pi / F64.nat denom
  let fourfold ← M.arith (len * 4)
  let count ← M.sub fourfold 2
  let twiddles ← M.collect 1 count fun i => fromF64 (F64.cos (constantFactor * F64.nat i))
  .ok ⟨twiddles⟩

/-- src/algorithm/type6and7_naive.rs:132-143 `Dst6And7Naive::new`. -/
def Dst6And7Naive.newOn (M : Target) (len : Nat) : Except Err (Dst6And7Naive T) := do
  let double ← M.arith (len * 2)
  let denom ← M.arith (double + 1)
  let constantFactor : F := F64.pi / F64.nat denom
  let fourfold ← M.arith (len * 4)
  let count ← M.arith (fourfold + 2)
  let twiddles ← M.collect 1 count fun i => fromF64 (F64.sin (constantFactor * F64.nat i))
  .ok ⟨twiddles⟩

/-- src/algorithm/type8_naive.rs:25-36 `Dct8Naive::new`. -/
def Dct8Naive.newOn (M : Target) (len : Nat) : Except Err (Dct8Naive T) := do
  let double ← M.arith (len * 2)
  let denom ← M.arith (double + 1)
  let constantFactor : F := F64.pi / F64.nat denom
  let fourfold ← M.arith (len * 4)
  let count ← M.arith (fourfold + 2)
  let twiddles ← M.collect 1 count fun i => fromF64 (F64.cos (constantFactor * (F64.nat i + F64.half)))
  .ok ⟨twiddles⟩

/-- src/algorithm/type8_naive.rs:93-104 `Dst8Naive::new`. -/
def Dst8Naive.newOn (M : Target) (len : Nat) : Except Err (Dst8Naive T) := do
  let double ← M.arith (len * 2)
  let denom ← M.sub double 1
  let constantFactor : F := F64.pi / F64.nat denom
  let fourfold ← M.arith (len * 4)
  let count ← M.sub fourfold 2
  let twiddles ← M.collect 1 count fun i => fromF64 (F64.sin (constantFactor * (F64.nat i + F64.half)))
  .ok ⟨twiddles⟩

/-- `2 * (inner_fft_len + inner_fft.get_inplace_scratch_len())`, in five constructors. -/
def fftScratchOn (M : Target) (innerFft : Fft T) : Except Err Nat := do
  let sum ← M.arith (innerFft.len + innerFft.inplaceScratchLen)
  M.arith (2 * sum)

/-- src/algorithm/type1_convert_to_fft.rs:38-61. -/
def Dct1ConvertToFft.newOn (M : Target) (innerFft : Fft T) : Except Err (Dct1ConvertToFft T) :=
  if ¬ innerFft.len % 2 = 0 then .error .assertion
  else if innerFft.direction ≠ .forward then .error .assertion
  else do
    let len ← M.arith (innerFft.len / 2 + 1)
    let scratchLen ← fftScratchOn M innerFft
    .ok { scratchLen, innerFftLen := innerFft.len, fft := innerFft, len }

/-- src/algorithm/type1_convert_to_fft.rs:138-161. -/
def Dst1ConvertToFft.newOn (M : Target) (innerFft : Fft T) : Except Err (Dst1ConvertToFft T) :=
  if ¬ innerFft.len % 2 = 0 then .error .assertion
  else if innerFft.direction ≠ .forward then .error .assertion
  else do
    let len ← M.sub (innerFft.len / 2) 1
    let scratchLen ← fftScratchOn M innerFft
    .ok { scratchLen, innerFftLen := innerFft.len, fft := innerFft, len }

/-- src/algorithm/type2and3_convert_to_fft.rs:45-65; `len * 4` is computed for each twiddle. -/
def Type2And3ConvertToFft.newOn (M : Target) (innerFft : Fft T) : Except Err (Type2And3ConvertToFft T) :=
  if innerFft.direction ≠ .forward then .error .assertion
  else do
    let len := innerFft.len
    let _ ← M.collect 2 len fun i => i
    let fourfold ← if 0 < len then M.arith (len * 4) else .ok 0
    let twiddles ← M.collect 2 len fun i => singleTwiddle i fourfold
    let scratchLen ← fftScratchOn M innerFft
    .ok { fft := innerFft, twiddles, scratchLen }

/-- src/algorithm/type4_convert_to_fft.rs:42-62. -/
def Type4ConvertToFftOdd.newOn (M : Target) (innerFft : Fft T) : Except Err (Type4ConvertToFftOdd T) :=
  if innerFft.direction ≠ .forward then .error .assertion
  else if ¬ innerFft.len % 2 = 1 then .error .assertion
  else do
    let scratchLen ← fftScratchOn M innerFft
    .ok { scratchLen, fft := innerFft, len := innerFft.len }

/-- src/algorithm/type6and7_convert_to_fft.rs:40-59. -/
def Dst6And7ConvertToFft.newOn (M : Target) (innerFft : Fft T) : Except Err (Dst6And7ConvertToFft T) :=
  if ¬ innerFft.len % 2 = 1 then .error .assertion
  else if innerFft.direction ≠ .forward then .error .assertion
  else do
    let a ← M.sub innerFft.len 1
    let scratchLen ← fftScratchOn M innerFft
    .ok { scratchLen, innerFftLen := innerFft.len, fft := innerFft, len := a / 2 }

/-- src/algorithm/type2and3_splitradix.rs:39-64; `len * 4` is computed for each twiddle (as is `2 * i + 1`, which is below `len`). -/
def Type2And3SplitRadix.newOn (M : Target) (halfDct quarterDct : Obj23 T) : Except Err (Type2And3SplitRadix T) := do
  let halfLen := halfDct.len
  let quarterLen := quarterDct.len
  let len ← M.arith (halfLen * 2)
  if ¬ (isPowerOfTwo len = true ∧ len > 2) then .error .assertion
  else do
    let quarterDouble ← M.arith (quarterLen * 2)
    if halfLen ≠ quarterDouble then .error .assertion
    else do
      let _ ← M.collect 2 (len / 4) fun i => i
      let fourfold ← if 0 < len / 4 then M.arith (len * 4) else .ok 0
      let twiddles ← M.collect 2 (len / 4) fun i => Cx.conj (singleTwiddle (2 * i + 1) fourfold)
      .ok { halfDct, quarterDct, twiddles }

/-- src/algorithm/type4_convert_to_type3.rs:37-57; `len * 8` is computed for each twiddle (as is `2 * i + 1`, which is below twice
`inner_len`, and the `Vec` has a largest length). -/
def Type4ConvertToType3Even.newOn (M : Target) (innerDct : Obj23 T) : Except Err (Type4ConvertToType3Even T) := do
  let innerLen := innerDct.len
  let len ← M.arith (innerLen * 2)
  let _ ← M.collect 2 innerLen fun i => i
  let eightfold ← if 0 < innerLen then M.arith (len * 8) else .ok 0
  let twiddles ← M.collect 2 innerLen fun i => Cx.conj (singleTwiddle (2 * i + 1) eightfold)
  let scratchLen ← if innerDct.scratchLen ≤ len then .ok len else M.arith (len + innerDct.scratchLen)
  .ok { innerDct, twiddles, scratchLen }

/-- src/mdct/mdct_naive.rs:42-69. -/
def MdctNaive.newOn (M : Target) (outputLen : Nat) (windowFn : Nat → List T) : Except Err (MdctNaive T) :=
  if ¬ outputLen % 2 = 0 then .error .assertion
  else do
    let constantFactor : F := F64.half * F64.pi / F64.nat outputLen
    let fourfold ← M.arith (outputLen * 4)
    let twiddles ← M.collect 1 fourfold fun i => fromF64 (F64.cos (constantFactor * (F64.nat i + F64.half)))
    let double ← M.arith (outputLen * 2)
    let window := windowFn double
    if window.length ≠ double then .error .assertion
    else .ok { twiddles, window }

/-- src/mdct/mdct_via_dct4.rs:47-67. -/
def MdctViaDct4.newOn (M : Target) (innerDct : Obj4 T) (windowFn : Nat → List T) : Except Err (MdctViaDct4 T) :=
  let len := innerDct.len
  if ¬ len % 2 = 0 then .error .assertion
  else do
    let double ← M.arith (len * 2)
    let window := windowFn double
    if window.length ≠ double then .error .assertion
    else do
      let scratchLen ← M.arith (len + innerDct.scratchLen)
      .ok { scratchLen, dct := innerDct, window }

/-! ### The planner -/

/-- `if self.x_cache.contains_key(&len) { clone } else { let result = self.plan_new_x(len); self.x_cache.insert(len, ..); result }`, the body of
all caching methods of src/plan.rs. -/
def orPlan {α : Type} (look : Planner T → Option (Arc α)) (store : Planner T → Arc α → Planner T) (planNew : PlanM T (Arc α)) : PlanM T (Arc α) := do
  match look (← get) with
  | some a => return a
  | none =>
    let result ← planNew
    modify fun s => store s result
    return result

section
variable (M : Target) (planFft : Nat → Fft T)

/-- src/plan.rs:89-97. -/
def planNewDct1On (len : Nat) : PlanM T (Arc (Obj1 T)) := arcNew <|
  if len < 10 then (Dct1Naive.newOn M len).map (Dct1Naive.toObjOn M.toMachine)
  else do
    let lenM1 ← M.sub len 1
    let fftLen ← M.arith (lenM1 * 2)
    (Dct1ConvertToFft.newOn M (planFft fftLen)).map Dct1ConvertToFft.toObj

/-- src/plan.rs:79-87. -/
def planDct1On (len : Nat) : PlanM T (Arc (Obj1 T)) :=
  orPlan (·.dct1Cache len) (fun s a => { s with dct1Cache := insertCache s.dct1Cache len a }) (planNewDct1On M planFft len)

mutual
/-- src/plan.rs:101-109. -/
def planDct2On (len : Nat) : PlanM T (Arc (Obj23 T)) :=
  orPlan (·.dct23Cache len) (fun s a => { s with dct23Cache := insertCache s.dct23Cache len a }) (planNewDct2On len)
termination_by (len, 1)

/-- src/plan.rs:111-123. -/
def planNewDct2On (len : Nat) : PlanM T (Arc (Obj23 T)) := do
  if dct2Butterflies.contains len then planDct2Butterfly len
  else if _h : isPowerOfTwo len = true ∧ len > 2 then
    let halfDct ← planDct2On (len / 2)
    let quarterDct ← planDct2On (len / 4)
    arcNew ((Type2And3SplitRadix.newOn M halfDct.val quarterDct.val).map (Type2And3SplitRadix.toObjOn M.toMachine))
  else
    arcNew ((Type2And3ConvertToFft.newOn M (planFft len)).map (Type2And3ConvertToFft.toObjOn M.toMachine))
termination_by (len, 0)
end

/-- src/plan.rs:154-174. -/
def planNewDct4On (len : Nat) : PlanM T (Arc (Obj4 T)) := do
  if len % 2 = 0 then
    if len < 6 then arcNew ((Type4Naive.newOn M len).map (Type4Naive.toObjOn M.toMachine))
    else
      let innerDct ← planDct2On M planFft (len / 2)
      arcNew ((Type4ConvertToType3Even.newOn M innerDct.val).map (Type4ConvertToType3Even.toObjOn M.toMachine))
  else if len < 7 then arcNew ((Type4Naive.newOn M len).map (Type4Naive.toObjOn M.toMachine))
  else arcNew ((Type4ConvertToFftOdd.newOn M (planFft len)).map (Type4ConvertToFftOdd.toObjOn M.toMachine))

/-- src/plan.rs:144-152. -/
def planDct4On (len : Nat) : PlanM T (Arc (Obj4 T)) :=
  orPlan (·.dct4Cache len) (fun s a => { s with dct4Cache := insertCache s.dct4Cache len a }) (planNewDct4On M planFft len)

/-- src/plan.rs:178-190. -/
def planDct5On (len : Nat) : PlanM T (Arc (Obj1 T)) :=
  orPlan (·.dct5Cache len) (fun s a => { s with dct5Cache := insertCache s.dct5Cache len a }) (arcNew ((Dct5Naive.newOn M len).map (Dct5Naive.toObjOn M.toMachine)))

/-- src/plan.rs:194-206; 210-212 (`plan_dct7`). -/
def planDct6On (len : Nat) : PlanM T (Arc (Obj67 T)) :=
  orPlan (·.dct6Cache len) (fun s a => { s with dct6Cache := insertCache s.dct6Cache len a }) (arcNew ((Dct6And7Naive.newOn M len).map (Dct6And7Naive.toObjOn M.toMachine)))

/-- src/plan.rs:216-228. -/
def planDct8On (len : Nat) : PlanM T (Arc (Obj1 T)) :=
  orPlan (·.dct8Cache len) (fun s a => { s with dct8Cache := insertCache s.dct8Cache len a }) (arcNew ((Dct8Naive.newOn M len).map (Dct8Naive.toObjOn M.toMachine)))

/-- src/plan.rs:242-250. -/
def planNewDst1On (len : Nat) : PlanM T (Arc (Obj1 T)) := arcNew <|
  if len < 25 then (Dst1Naive.newOn M len).map (Dst1Naive.toObjOn M.toMachine)
  else do
    let lenP1 ← M.arith (len + 1)
    let fftLen ← M.arith (lenP1 * 2)
    (Dst1ConvertToFft.newOn M (planFft fftLen)).map Dst1ConvertToFft.toObj

/-- src/plan.rs:232-240. -/
def planDst1On (len : Nat) : PlanM T (Arc (Obj1 T)) :=
  orPlan (·.dst1Cache len) (fun s a => { s with dst1Cache := insertCache s.dst1Cache len a }) (planNewDst1On M planFft len)

/-- src/plan.rs:272-284. -/
def planDst5On (len : Nat) : PlanM T (Arc (Obj1 T)) :=
  orPlan (·.dst5Cache len) (fun s a => { s with dst5Cache := insertCache s.dst5Cache len a }) (arcNew ((Dst5Naive.newOn M len).map (Dst5Naive.toObjOn M.toMachine)))

/-- src/plan.rs:298-305. -/
def planNewDst6On (len : Nat) : PlanM T (Arc (Obj67 T)) := arcNew <|
  if len < 45 then (Dst6And7Naive.newOn M len).map (Dst6And7Naive.toObjOn M.toMachine)
  else do
    let double ← M.arith (len * 2)
    let fftLen ← M.arith (double + 1)
    (Dst6And7ConvertToFft.newOn M (planFft fftLen)).map (Dst6And7ConvertToFft.toObjOn M.toMachine)

/-- src/plan.rs:288-296; 309-311 (`plan_dst7`). -/
def planDst6On (len : Nat) : PlanM T (Arc (Obj67 T)) :=
  orPlan (·.dst6Cache len) (fun s a => { s with dst6Cache := insertCache s.dst6Cache len a }) (planNewDst6On M planFft len)

/-- src/plan.rs:315-327. -/
def planDst8On (len : Nat) : PlanM T (Arc (Obj1 T)) :=
  orPlan (·.dst8Cache len) (fun s a => { s with dst8Cache := insertCache s.dst8Cache len a }) (arcNew ((Dst8Naive.newOn M len).map (Dst8Naive.toObjOn M.toMachine)))

/-- src/plan.rs:335-355. -/
def planMdctOn (len : Nat) (windowFn : Nat → List T) : PlanM T (Arc (MdctObj T)) :=
  orPlan (·.mdctCache len) (fun s a => { s with mdctCache := insertCache s.mdctCache len a }) (do
    let innerDct4 ← planDct4On M planFft len
    arcNew ((MdctViaDct4.newOn M innerDct4.val windowFn).map MdctViaDct4.toObj))

end

end RustDct
