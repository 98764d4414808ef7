import Verif.Model.Mdct
/-!
# `MdctNaive` with bounded `usize`

In the basic model `usize` is `Nat`.  Here is the `usize` of a machine, and `MdctNaive::process_mdct_with_scratch`, whose start index grows with the
square of the length, on such a machine.  For the other methods see `Verif/Model/WordProcess.lean`, for constructors and planner `Verif/Model/WordPlan.lean`.
-/

namespace RustDct

variable {T : Type} {F : Type} [F64 F] [DctNum T F]

/-- The `usize` of a target and a build: the number of its values (`2^32`, `2^64`), and whether arithmetic wraps around (release
builds) or panics (debug builds) when a result is too large. -/
structure Machine where
  values : Nat
  wraps : Bool

/-- The result of a `usize` operation whose mathematical result is `x`. -/
def Machine.arith (M : Machine) (x : Nat) : Except Err Nat :=
  if x < M.values then .ok x
  else if M.wraps then .ok (x % M.values)
  else .error .overflow

/-- The result of the `usize` operation `a - b`. -/
def Machine.sub (M : Machine) (a b : Nat) : Except Err Nat :=
  if b ≤ a then .ok (a - b)
  else if M.wraps then .ok (a + M.values - b)
  else .error .overflow

/-- `mdctLoop` (src/mdct/mdct_naive.rs:99-108, 110-119) with the additions of the machine. -/
def mdctLoopOn (M : Machine) (twiddles : List T) (cnt twiddleStride : Nat) (term : Nat → T → Except Err T)
    (acc : T) (twiddleIndex : Nat) : Except Err (T × Nat) :=
  forRange 0 cnt (acc, twiddleIndex) fun i st => do
    let twiddle ← rd twiddles st.2
    let v ← term i twiddle
    let acc := st.1 + v
    let twiddleIndex ← M.arith (st.2 + twiddleStride)
    if twiddleIndex ≥ twiddles.length then
      .ok (acc, twiddleIndex - twiddles.length)
    else
      .ok (acc, twiddleIndex)

/-- src/mdct/mdct_naive.rs:73-121 with the arithmetic of the machine; the start index is computed in line 96. -/
def MdctNaive.mdctOn (M : Machine) (self : MdctNaive T) (inputA inputB : List T) : Mem T → Outcome (Mem T) := fun m =>
  validateMdct inputA inputB m self.len self.scratchLen fun output scratch => do
    let outputLen := output.length
    let halfOutput := output.length / 2
    let output ← forRange 0 outputLen output fun k output => do
      let p ← M.arith (outputLen + 1)
      let q ← M.arith (k * p)
      let r ← M.arith (halfOutput + q)
      let twiddleIndex := r % self.twiddles.length
      let d ← M.arith (k * 2)
      let twiddleStride ← M.arith (d + 1)
      let st ← mdctLoopOn M self.twiddles inputA.length twiddleStride (fun i twiddle => do
        let a ← rd inputA i
        let w ← rd self.window i
        .ok (a * w * twiddle)) 0 twiddleIndex
      let st ← mdctLoopOn M self.twiddles inputB.length twiddleStride (fun i twiddle => do
        let b ← rd inputB i
        let j ← M.arith (i + outputLen)
        let w ← rd self.window j
        .ok (b * w * twiddle)) st.1 st.2
      wr output k st.1
    .ok (output, scratch)

end RustDct
