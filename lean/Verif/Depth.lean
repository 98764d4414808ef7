import Verif.History
/-!
# Depth of recursion

Vocabulary of C79.
-/

namespace RustDct

section
variable {T : Type} {F : Type} [F64 F] [DctNum T F]

/-- The methods of `x` call methods of inner instances, these of their inner instances, and so on, `k` levels deep.  (A call of an FFT is not counted.) -/
inductive Depth23 : Obj23 T → Nat → Prop
  | naive (x : Type2And3Naive T) : Depth23 x.toObj 0
  | fft (x : Type2And3ConvertToFft T) : Depth23 x.toObj 0
  | splitRadix (x : Type2And3SplitRadix T) {h q : Nat} (hh : Depth23 x.halfDct h) (hq : Depth23 x.quarterDct q) : Depth23 x.toObj (1 + max h q)
  | butterfly2 (x : Type2And3Butterfly2 T) : Depth23 x.toObj 0
  | butterfly3 (x : Type2And3Butterfly3 T) : Depth23 x.toObj 0
  | butterfly4 (x : Type2And3Butterfly4 T) : Depth23 x.toObj 1
  | butterfly8 (x : Type2And3Butterfly8 T) : Depth23 x.toObj 2
  | butterfly16 (x : Type2And3Butterfly16 T) : Depth23 x.toObj 3

/-- The same for type 4. -/
inductive Depth4 : Obj4 T → Nat → Prop
  | naive (x : Type4Naive T) : Depth4 x.toObj 0
  | odd (x : Type4ConvertToFftOdd T) : Depth4 x.toObj 0
  | even (x : Type4ConvertToType3Even T) {k : Nat} (h : Depth23 x.innerDct k) : Depth4 x.toObj (1 + k)

/-- The same for the MDCT. -/
inductive DepthMdct : MdctObj T → Nat → Prop
  | naive (x : MdctNaive T) : DepthMdct x.toObj 0
  | viaDct4 (x : MdctViaDct4 T) {k : Nat} (h : Depth4 x.dct k) : DepthMdct x.toObj (1 + k)

mutual
/-- `plan_dct2` (src/plan.rs:101-109) on a stack that has room for `frames` nested calls of it; a deeper call
overflows the stack, which is represented by an error (which `planDct2` never returns, C33). -/
def planDct2In (planFft : Nat → Fft T) (frames : Nat) (len : Nat) : PlanM T (Arc (Obj23 T)) :=
  match frames with
  | 0 => throw .assertion
  | frames + 1 => do
    match (← get).dct23Cache len with
    | some a => return a
    | none =>
      let result ← planNewDct2In planFft frames len
      modify fun s => { s with dct23Cache := insertCache s.dct23Cache len result }
      return result
termination_by (frames, 0)

/-- `plan_new_dct2` (src/plan.rs:111-123) on a stack that has room for `frames` nested calls of `plan_dct2`. -/
def planNewDct2In (planFft : Nat → Fft T) (frames : Nat) (len : Nat) : PlanM T (Arc (Obj23 T)) := do
  if dct2Butterflies.contains len then planDct2Butterfly len
  else if isPowerOfTwo len = true ∧ len > 2 then
    let halfDct ← planDct2In planFft frames (len / 2)
    let quarterDct ← planDct2In planFft frames (len / 4)
    arcNew ((Type2And3SplitRadix.new halfDct.val quarterDct.val).map Type2And3SplitRadix.toObj)
  else
    let fft := planFft len
    arcNew ((Type2And3ConvertToFft.new fft).map Type2And3ConvertToFft.toObj)
termination_by (frames, 1)
end

end
end RustDct
