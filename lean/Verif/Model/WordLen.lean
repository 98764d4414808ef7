import Verif.Model.WordPlan
/-!
# `len()` with bounded `usize`

`len()` of the structs that compute it from the length of a table; the other structs return a field, a constant or the `len()` of an inner instance.
`get_scratch_len()` is `len()`, a field or 0 everywhere.
-/

namespace RustDct

variable {T : Type} {F : Type} [F64 F] [DctNum T F]

/-- src/algorithm/type1_naive.rs:77-79. -/
def Dct1Naive.lenOn (M : Machine) (self : Dct1Naive T) : Except Err Nat := M.arith (self.twiddles.length / 2 + 1)

/-- src/algorithm/type1_naive.rs:149-151. -/
def Dst1Naive.lenOn (M : Machine) (self : Dst1Naive T) : Except Err Nat := M.sub (self.twiddles.length / 2) 1

/-- src/algorithm/type5_naive.rs:77-79. -/
def Dct5Naive.lenOn (M : Machine) (self : Dct5Naive T) : Except Err Nat := do
  let a ← M.arith (self.twiddles.length + 1)
  .ok (a / 2)

/-- src/algorithm/type5_naive.rs:148-150. -/
def Dst5Naive.lenOn (M : Machine) (self : Dst5Naive T) : Except Err Nat := do
  let a ← M.sub self.twiddles.length 1
  .ok (a / 2)

/-- src/algorithm/type6and7_naive.rs:105-107. -/
def Dct6And7Naive.lenOn (M : Machine) (self : Dct6And7Naive T) : Except Err Nat := do
  let a ← M.arith (self.twiddles.length + 2)
  .ok (a / 4)

/-- src/algorithm/type6and7_naive.rs:203-205. -/
def Dst6And7Naive.lenOn (M : Machine) (self : Dst6And7Naive T) : Except Err Nat := do
  let a ← M.sub self.twiddles.length 2
  .ok (a / 4)

/-- src/algorithm/type8_naive.rs:69-71. -/
def Dct8Naive.lenOn (M : Machine) (self : Dct8Naive T) : Except Err Nat := do
  let a ← M.sub self.twiddles.length 2
  .ok (a / 4)

/-- src/algorithm/type8_naive.rs:140-142. -/
def Dst8Naive.lenOn (M : Machine) (self : Dst8Naive T) : Except Err Nat := do
  let a ← M.arith (self.twiddles.length + 2)
  .ok (a / 4)

/-- src/algorithm/type2and3_splitradix.rs:237-239. -/
def Type2And3SplitRadix.lenOn (M : Machine) (self : Type2And3SplitRadix T) : Except Err Nat := M.arith (self.twiddles.length * 4)

/-- src/algorithm/type4_convert_to_type3.rs:150-152. -/
def Type4ConvertToType3Even.lenOn (M : Machine) (self : Type4ConvertToType3Even T) : Except Err Nat := M.arith (self.twiddles.length * 2)

end RustDct
