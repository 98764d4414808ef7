import Verif.History
import Mathlib.Algebra.BigOperators.Group.Finset.Basic
import Mathlib.Data.Nat.Log
/-!
# Memory held by a planner

Vocabulary of C78.  What is counted are the numbers (of the element type `T`, two for a complex number) that the structs of the crate keep: tables and windows.
Not counted: what rustfft keeps, the structs' fixed fields, the hash maps.  An inner instance is not part of the instance that refers to it (`Arc`): the planner
takes inner instances from its caches, so they are counted there.
-/

namespace RustDct

section
variable {T : Type} {F : Type} [F64 F] [DctNum T F]

/-- `x` is an instance of types 1, 5 or 8 whose struct keeps `k` numbers. -/
inductive Own1 : Obj1 T → Nat → Prop
  | dct1Naive (x : Dct1Naive T) : Own1 x.toObj x.twiddles.length
  | dct1Fft (x : Dct1ConvertToFft T) : Own1 x.toObj 0
  | dst1Naive (x : Dst1Naive T) : Own1 x.toObj x.twiddles.length
  | dst1Fft (x : Dst1ConvertToFft T) : Own1 x.toObj 0
  | dct5Naive (x : Dct5Naive T) : Own1 x.toObj x.twiddles.length
  | dst5Naive (x : Dst5Naive T) : Own1 x.toObj x.twiddles.length
  | dct8Naive (x : Dct8Naive T) : Own1 x.toObj x.twiddles.length
  | dst8Naive (x : Dst8Naive T) : Own1 x.toObj x.twiddles.length

/-- `x` is an instance of types 2 and 3 whose struct keeps `k` numbers. -/
inductive Own23 : Obj23 T → Nat → Prop
  | naive (x : Type2And3Naive T) : Own23 x.toObj (2 * x.twiddles.length)
  | fft (x : Type2And3ConvertToFft T) : Own23 x.toObj (2 * x.twiddles.length)
  | splitRadix (x : Type2And3SplitRadix T) : Own23 x.toObj (2 * x.twiddles.length)
  | butterfly2 (x : Type2And3Butterfly2 T) : Own23 x.toObj 0
  | butterfly3 (x : Type2And3Butterfly3 T) : Own23 x.toObj 1
  | butterfly4 (x : Type2And3Butterfly4 T) : Own23 x.toObj 2
  | butterfly8 (x : Type2And3Butterfly8 T) : Own23 x.toObj (2 + 2 * x.twiddles.length)
  | butterfly16 (x : Type2And3Butterfly16 T) : Own23 x.toObj ((2 + 2 * x.butterfly8.twiddles.length) + 2 + 2 * x.twiddles.length)

/-- `x` is an instance of type 4 whose struct keeps `k` numbers. -/
inductive Own4 : Obj4 T → Nat → Prop
  | naive (x : Type4Naive T) : Own4 x.toObj (2 * x.twiddles.length)
  | even (x : Type4ConvertToType3Even T) : Own4 x.toObj (2 * x.twiddles.length)
  | odd (x : Type4ConvertToFftOdd T) : Own4 x.toObj 0

/-- `x` is an instance of types 6 and 7 whose struct keeps `k` numbers. -/
inductive Own67 : Obj67 T → Nat → Prop
  | dctNaive (x : Dct6And7Naive T) : Own67 x.toObj x.twiddles.length
  | dstNaive (x : Dst6And7Naive T) : Own67 x.toObj x.twiddles.length
  | dstFft (x : Dst6And7ConvertToFft T) : Own67 x.toObj 0

/-- `x` is an MDCT instance whose struct keeps `k` numbers. -/
inductive OwnMdct : MdctObj T → Nat → Prop
  | naive (x : MdctNaive T) : OwnMdct x.toObj (x.twiddles.length + x.window.length)
  | viaDct4 (x : MdctViaDct4 T) : OwnMdct x.toObj x.window.length

/-- `x` is an instance of types 2 and 3 that keeps `k` numbers, including what its inner instances keep (also if both are shared with others). -/
inductive Whole23 : Obj23 T → Nat → Prop
  | naive (x : Type2And3Naive T) : Whole23 x.toObj (2 * x.twiddles.length)
  | fft (x : Type2And3ConvertToFft T) : Whole23 x.toObj (2 * x.twiddles.length)
  | splitRadix (x : Type2And3SplitRadix T) {h q : Nat} (hh : Whole23 x.halfDct h) (hq : Whole23 x.quarterDct q) : Whole23 x.toObj (2 * x.twiddles.length + h + q)
  | butterfly2 (x : Type2And3Butterfly2 T) : Whole23 x.toObj 0
  | butterfly3 (x : Type2And3Butterfly3 T) : Whole23 x.toObj 1
  | butterfly4 (x : Type2And3Butterfly4 T) : Whole23 x.toObj 2
  | butterfly8 (x : Type2And3Butterfly8 T) : Whole23 x.toObj (2 + 2 * x.twiddles.length)
  | butterfly16 (x : Type2And3Butterfly16 T) : Whole23 x.toObj ((2 + 2 * x.butterfly8.twiddles.length) + 2 + 2 * x.twiddles.length)

/-- The same for type 4. -/
inductive Whole4 : Obj4 T → Nat → Prop
  | naive (x : Type4Naive T) : Whole4 x.toObj (2 * x.twiddles.length)
  | even (x : Type4ConvertToType3Even T) {k : Nat} (h : Whole23 x.innerDct k) : Whole4 x.toObj (2 * x.twiddles.length + k)
  | odd (x : Type4ConvertToFftOdd T) : Whole4 x.toObj 0

/-- The same for the MDCT. -/
inductive WholeMdct : MdctObj T → Nat → Prop
  | naive (x : MdctNaive T) : WholeMdct x.toObj (x.twiddles.length + x.window.length)
  | viaDct4 (x : MdctViaDct4 T) {k : Nat} (h : Whole4 x.dct k) : WholeMdct x.toObj (x.window.length + k)

/-- The caches of a planner, src/plan.rs:43-58. -/
inductive Cache
  | dct1 | dst1 | dct23 | dct4 | dct5 | dst5 | dct67 | dst67 | dct8 | dst8 | mdct
  deriving DecidableEq

/-- The planner has no instance of this length in this cache. -/
def Planner.Free (s : Planner T) : Cache × Nat → Prop
  | (.dct1, n) => s.dct1Cache n = none
  | (.dst1, n) => s.dst1Cache n = none
  | (.dct23, n) => s.dct23Cache n = none
  | (.dct4, n) => s.dct4Cache n = none
  | (.dct5, n) => s.dct5Cache n = none
  | (.dst5, n) => s.dst5Cache n = none
  | (.dct67, n) => s.dct6Cache n = none
  | (.dst67, n) => s.dst6Cache n = none
  | (.dct8, n) => s.dct8Cache n = none
  | (.dst8, n) => s.dst8Cache n = none
  | (.mdct, n) => s.mdctCache n = none

/-- The planner has an instance of this length in this cache, and its struct keeps `k` numbers. -/
def Planner.Holds (s : Planner T) : Cache × Nat → Nat → Prop
  | (.dct1, n), k => ∃ a, s.dct1Cache n = some a ∧ Own1 a.val k
  | (.dst1, n), k => ∃ a, s.dst1Cache n = some a ∧ Own1 a.val k
  | (.dct23, n), k => ∃ a, s.dct23Cache n = some a ∧ Own23 a.val k
  | (.dct4, n), k => ∃ a, s.dct4Cache n = some a ∧ Own4 a.val k
  | (.dct5, n), k => ∃ a, s.dct5Cache n = some a ∧ Own1 a.val k
  | (.dst5, n), k => ∃ a, s.dst5Cache n = some a ∧ Own1 a.val k
  | (.dct67, n), k => ∃ a, s.dct6Cache n = some a ∧ Own67 a.val k
  | (.dst67, n), k => ∃ a, s.dst6Cache n = some a ∧ Own67 a.val k
  | (.dct8, n), k => ∃ a, s.dct8Cache n = some a ∧ Own1 a.val k
  | (.dst8, n), k => ∃ a, s.dst8Cache n = some a ∧ Own1 a.val k
  | (.mdct, n), k => ∃ a, s.mdctCache n = some a ∧ OwnMdct a.val k

/-- The planner keeps at most `count` instances, and their structs keep at most `total` numbers together. -/
def Planner.Within (s : Planner T) (count total : Nat) : Prop :=
  ∃ (cells : Finset (Cache × Nat)) (size : Cache × Nat → Nat),
    (∀ c ∈ cells, s.Holds c (size c)) ∧ (∀ c, c ∉ cells → s.Free c) ∧ cells.card ≤ count ∧ ∑ c ∈ cells, size c ≤ total

/-- What a call asks for: a cache and a length.  `plan_mdct` also asks for a DCT4. -/
def PlanCall.asks : PlanCall T → List (Cache × Nat)
  | .dct1 n => [(.dct1, n)]
  | .dst1 n => [(.dst1, n)]
  | .dct2 n | .dct3 n | .dst2 n | .dst3 n => [(.dct23, n)]
  | .dct4 n | .dst4 n => [(.dct4, n)]
  | .dct5 n => [(.dct5, n)]
  | .dst5 n => [(.dst5, n)]
  | .dct6 n | .dct7 n => [(.dct67, n)]
  | .dst6 n | .dst7 n => [(.dst67, n)]
  | .dct8 n => [(.dct8, n)]
  | .dst8 n => [(.dst8, n)]
  | .mdct n _ => [(.dct4, n), (.mdct, n)]

/-- Everything that was asked for, each request once. -/
def asked (calls : List (PlanCall T)) : Finset (Cache × Nat) := (calls.flatMap PlanCall.asks).toFinset

/-- How many numbers are kept because of one request, for the instance and for the inner instances. -/
def Cache.numbers : Cache × Nat → Nat
  | (.dct1, n) => if n < 10 then 2 * n else 0
  | (.dst1, n) => if n < 25 then 2 * n + 2 else 0
  | (.dct23, n) => 2 * n
  | (.dct4, n) => if n < 7 then 8 * n else 2 * n
  | (.dct5, n) => 2 * n
  | (.dst5, n) => 2 * n + 1
  | (.dct67, n) => 4 * n
  | (.dst67, n) => if n < 45 then 4 * n + 2 else 0
  | (.dct8, n) => 4 * n + 2
  | (.dst8, n) => 4 * n
  | (.mdct, n) => 2 * n

/-- How many instances are kept because of one request. -/
def Cache.instances : Cache × Nat → Nat
  | (.dct23, n) => Nat.log 2 n + 1
  | (.dct4, n) => Nat.log 2 n + 2
  | _ => 1

end
end RustDct
