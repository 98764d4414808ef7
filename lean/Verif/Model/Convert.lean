import Verif.Model.Planner
/-!
# Number types whose `from_f64` can fail

In the basic model `T::from_f64(x).unwrap()` is the total function `fromF64`.  Here are the functions that fill tables (twiddle functions,
constructors, window functions) for a number type whose `from_f64` is the partial function `conv`.  `unwrap` of `None` panics; the tables are
filled in order, so the first value that cannot be converted ends the construction.  Constructors that are not listed convert no number.
-/

namespace RustDct

variable {T : Type} {F : Type} [F64 F] [DctNum T F]

/-- `Option::unwrap`. -/
def unwrap {α : Type} : Option α → Except Err α
  | some v => .ok v
  | none => .error .assertion

/-- `(0..n).map(f).map(|c| T::from_f64(c).unwrap()).collect()`. -/
def tableVia (conv : F → Option T) (n : Nat) (f : Nat → F) : Except Err (List T) := (List.range n).mapM fun i => unwrap (conv (f i))

/-- src/twiddles.rs:7-16 `single_twiddle`. -/
def singleTwiddleVia (conv : F → Option T) (i fftLen : Nat) : Except Err (Cx T) := do
  let θ : F := angleConstant fftLen * F64.nat i
  let re ← unwrap (conv (F64.nat 1 * F64.cos θ))
  let im ← unwrap (conv (F64.nat 1 * F64.sin θ))
  .ok ⟨re, im⟩

/-- src/twiddles.rs:20-26 `single_twiddle_re`. -/
def singleTwiddleReVia (conv : F → Option T) (i fftLen : Nat) : Except Err T :=
  unwrap (conv (F64.cos (angleConstant fftLen * F64.nat i : F)))

/-- src/twiddles.rs:30-39 `single_twiddle_halfoffset`. -/
def singleTwiddleHalfoffsetVia (conv : F → Option T) (i fftLen : Nat) : Except Err (Cx T) := do
  let θ : F := angleConstant fftLen * (F64.nat i + F64.half)
  let re ← unwrap (conv (F64.nat 1 * F64.cos θ))
  let im ← unwrap (conv (F64.nat 1 * F64.sin θ))
  .ok ⟨re, im⟩

/-- src/algorithm/type1_naive.rs:31-44. -/
def Dct1Naive.newVia (conv : F → Option T) (len : Nat) : Except Err (Dct1Naive T) := do
  if len = 1 then .error .assertion
  else do
    let lenM1 ← csub len 1
    let constantFactor : F := F64.pi / F64.nat lenM1
    let twiddles ← tableVia conv (lenM1 * 2) fun i => F64.cos (constantFactor * F64.nat i)
    .ok ⟨twiddles⟩

/-- src/algorithm/type1_naive.rs:109-120. -/
def Dst1Naive.newVia (conv : F → Option T) (len : Nat) : Except Err (Dst1Naive T) := do
  let constantFactor : F := F64.pi / F64.nat (len + 1)
  let twiddles ← tableVia conv ((len + 1) * 2) fun i => F64.sin (constantFactor * F64.nat i)
  .ok ⟨twiddles⟩

/-- src/algorithm/type2and3_naive.rs:37-45. -/
def Type2And3Naive.newVia (conv : F → Option T) (len : Nat) : Except Err (Type2And3Naive T) := do
  let twiddles ← (List.range (len * 4)).mapM fun i => singleTwiddleVia conv i (len * 4)
  .ok ⟨twiddles⟩

/-- src/algorithm/type4_naive.rs:31-39. -/
def Type4Naive.newVia (conv : F → Option T) (len : Nat) : Except Err (Type4Naive T) := do
  let twiddles ← (List.range (len * 4)).mapM fun i => singleTwiddleHalfoffsetVia conv i (len * 4)
  .ok ⟨twiddles⟩

/-- src/algorithm/type5_naive.rs:29-40. -/
def Dct5Naive.newVia (conv : F → Option T) (len : Nat) : Except Err (Dct5Naive T) := do
  let constantFactor : F := F64.pi / (F64.nat len - F64.half)
  let count ← csub (len * 2) 1
  let twiddles ← tableVia conv count fun i => F64.cos (constantFactor * F64.nat i)
  .ok ⟨twiddles⟩

/-- src/algorithm/type5_naive.rs:103-114. -/
def Dst5Naive.newVia (conv : F → Option T) (len : Nat) : Except Err (Dst5Naive T) := do
  let constantFactor : F := F64.pi / (F64.nat len + F64.half)
  let twiddles ← tableVia conv (len * 2 + 1) fun i => F64.sin (constantFactor * F64.nat i)
  .ok ⟨twiddles⟩

/-- src/algorithm/type6and7_naive.rs:29-40. -/
def Dct6And7Naive.newVia (conv : F → Option T) (len : Nat) : Except Err (Dct6And7Naive T) := do
  let denom ← csub (len * 2) 1
  let constantFactor : F := F64.pi / F64.nat denom
  let count ← csub (len * 4) 2
  let twiddles ← tableVia conv count fun i => F64.cos (constantFactor * F64.nat i)
  .ok ⟨twiddles⟩

/-- src/algorithm/type6and7_naive.rs:132-143. -/
def Dst6And7Naive.newVia (conv : F → Option T) (len : Nat) : Except Err (Dst6And7Naive T) := do
  let constantFactor : F := F64.pi / F64.nat (len * 2 + 1)
  let twiddles ← tableVia conv (len * 4 + 2) fun i => F64.sin (constantFactor * F64.nat i)
  .ok ⟨twiddles⟩

/-- src/algorithm/type8_naive.rs:25-36. -/
def Dct8Naive.newVia (conv : F → Option T) (len : Nat) : Except Err (Dct8Naive T) := do
  let constantFactor : F := F64.pi / F64.nat (len * 2 + 1)
  let twiddles ← tableVia conv (len * 4 + 2) fun i => F64.cos (constantFactor * (F64.nat i + F64.half))
  .ok ⟨twiddles⟩

/-- src/algorithm/type8_naive.rs:93-104. -/
def Dst8Naive.newVia (conv : F → Option T) (len : Nat) : Except Err (Dst8Naive T) := do
  let denom ← csub (len * 2) 1
  let constantFactor : F := F64.pi / F64.nat denom
  let count ← csub (len * 4) 2
  let twiddles ← tableVia conv count fun i => F64.sin (constantFactor * (F64.nat i + F64.half))
  .ok ⟨twiddles⟩

/-- src/algorithm/type2and3_convert_to_fft.rs:45-65. -/
def Type2And3ConvertToFft.newVia (conv : F → Option T) (innerFft : Fft T) : Except Err (Type2And3ConvertToFft T) :=
  if innerFft.direction ≠ .forward then .error .assertion
  else do
    let len := innerFft.len
    let twiddles ← (List.range len).mapM fun i => singleTwiddleVia conv i (len * 4)
    .ok { fft := innerFft, twiddles, scratchLen := 2 * (len + innerFft.inplaceScratchLen) }

/-- `single_twiddle(i, fft_len).conj()`. -/
def conjTwiddleVia (conv : F → Option T) (i fftLen : Nat) : Except Err (Cx T) := (singleTwiddleVia conv i fftLen).map Cx.conj

/-- src/algorithm/type2and3_splitradix.rs:39-64. -/
def Type2And3SplitRadix.newVia (conv : F → Option T) (halfDct quarterDct : Obj23 T) : Except Err (Type2And3SplitRadix T) :=
  let halfLen := halfDct.len
  let quarterLen := quarterDct.len
  let len := halfLen * 2
  if ¬ (isPowerOfTwo len = true ∧ len > 2) then .error .assertion
  else if halfLen ≠ quarterLen * 2 then .error .assertion
  else do
    let twiddles ← (List.range (len / 4)).mapM fun i => conjTwiddleVia conv (2 * i + 1) (len * 4)
    .ok { halfDct, quarterDct, twiddles }

/-- src/algorithm/type4_convert_to_type3.rs:37-57. -/
def Type4ConvertToType3Even.newVia (conv : F → Option T) (innerDct : Obj23 T) : Except Err (Type4ConvertToType3Even T) := do
  let innerLen := innerDct.len
  let len := innerLen * 2
  let twiddles ← (List.range innerLen).mapM fun i => conjTwiddleVia conv (2 * i + 1) (len * 8)
  .ok { innerDct, twiddles, scratchLen := if innerDct.scratchLen ≤ len then len else len + innerDct.scratchLen }

/-- src/algorithm/type2and3_butterflies.rs:170-174. -/
def Type2And3Butterfly3.newVia (conv : F → Option T) : Except Err (Type2And3Butterfly3 T) := do
  let twiddle ← singleTwiddleReVia conv 1 12
  .ok { twiddle }

/-- src/algorithm/type2and3_butterflies.rs:224-228. -/
def Type2And3Butterfly4.newVia (conv : F → Option T) : Except Err (Type2And3Butterfly4 T) := do
  let twiddle ← conjTwiddleVia conv 1 16
  .ok { twiddle }

/-- src/algorithm/type2and3_butterflies.rs:302-311. -/
def Type2And3Butterfly8.newVia (conv : F → Option T) : Except Err (Type2And3Butterfly8 T) := do
  let butterfly4 ← Type2And3Butterfly4.newVia conv
  let a ← conjTwiddleVia conv 1 32
  let b ← conjTwiddleVia conv 3 32
  .ok { butterfly4, butterfly2 := Type2And3Butterfly2.new, twiddles := [a, b] }

/-- src/algorithm/type2and3_butterflies.rs:503-514. -/
def Type2And3Butterfly16.newVia (conv : F → Option T) : Except Err (Type2And3Butterfly16 T) := do
  let butterfly8 ← Type2And3Butterfly8.newVia conv
  let butterfly4 ← Type2And3Butterfly4.newVia conv
  let a ← conjTwiddleVia conv 1 64
  let b ← conjTwiddleVia conv 3 64
  let c ← conjTwiddleVia conv 5 64
  let d ← conjTwiddleVia conv 7 64
  .ok { butterfly8, butterfly4, twiddles := [a, b, c, d] }

/-- src/mdct/mdct_naive.rs:42-69. -/
def MdctNaive.newVia (conv : F → Option T) (outputLen : Nat) (windowFn : Nat → List T) : Except Err (MdctNaive T) :=
  if ¬ outputLen % 2 = 0 then .error .assertion
  else do
    let constantFactor : F := F64.half * F64.pi / F64.nat outputLen
    let twiddles ← tableVia conv (outputLen * 4) fun i => F64.cos (constantFactor * (F64.nat i + F64.half))
    let window := windowFn (outputLen * 2)
    if window.length ≠ outputLen * 2 then .error .assertion
    else .ok { twiddles, window }

namespace WindowFn

/-- src/mdct/window_fn.rs:6-13. -/
def mp3Via (conv : F → Option T) (len : Nat) : Except Err (List T) :=
  let constantTerm : F := F64.pi / F64.nat len
  tableVia conv len fun n => F64.sin (constantTerm * (F64.nat n + F64.half))

/-- src/mdct/window_fn.rs:16-24. -/
def mp3InvertibleVia (conv : F → Option T) (len : Nat) : Except Err (List T) :=
  let outerScale : F := F64.sqrt (F64.nat 4 / F64.nat len)
  let constantTerm : F := F64.pi / F64.nat len
  tableVia conv len fun n => F64.sin (constantTerm * (F64.nat n + F64.half)) * outerScale

/-- src/mdct/window_fn.rs:27-38. -/
def vorbisVia (conv : F → Option T) (len : Nat) : Except Err (List T) :=
  let constantTerm : F := F64.pi / F64.nat len
  tableVia conv len fun n =>
    let innerSin := F64.sin (constantTerm * (F64.nat n + F64.half))
    F64.sin (F64.pi * F64.half * innerSin * innerSin)

/-- src/mdct/window_fn.rs:41-53. -/
def vorbisInvertibleVia (conv : F → Option T) (len : Nat) : Except Err (List T) :=
  let outerScale : F := F64.sqrt (F64.nat 4 / F64.nat len)
  let constantTerm : F := F64.pi / F64.nat len
  tableVia conv len fun n =>
    let innerSin := F64.sin (constantTerm * (F64.nat n + F64.half))
    F64.sin (F64.pi * F64.half * innerSin * innerSin) * outerScale

/-- src/mdct/window_fn.rs:61-67. -/
def invertibleVia (conv : F → Option T) (len : Nat) : Except Err (List T) :=
  let constantTerm : F := F64.sqrt (F64.nat 2 / F64.nat len)
  tableVia conv len fun _ => constantTerm

end WindowFn

end RustDct
