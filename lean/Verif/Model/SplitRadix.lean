import Verif.Model.Num
/-!
# Types 2 and 3 by split radix, type 4 (even length) by type 3
-/

namespace RustDct

variable {T : Type} {F : Type} [F64 F] [DctNum T F]

/-- `usize::is_power_of_two`: exactly one bit set. -/
def isPowerOfTwo (n : Nat) : Bool := n ≠ 0 && n &&& (n - 1) = 0

/-- src/algorithm/type2and3_splitradix.rs:31-35. -/
structure Type2And3SplitRadix (T : Type) where
  halfDct : Obj23 T
  quarterDct : Obj23 T
  twiddles : List (Cx T)

/-- src/algorithm/type2and3_splitradix.rs:39-64. -/
def Type2And3SplitRadix.new (halfDct quarterDct : Obj23 T) : Except Err (Type2And3SplitRadix T) :=
  let halfLen := halfDct.len
  let quarterLen := quarterDct.len
  let len := halfLen * 2
  if ¬ (isPowerOfTwo len = true ∧ len > 2) then .error .assertion
  else if halfLen ≠ quarterLen * 2 then .error .assertion
  else
    .ok { halfDct, quarterDct
          twiddles := (List.range (len / 4)).map fun i => Cx.conj (singleTwiddle (2 * i + 1) (len * 4)) }

/-- src/algorithm/type2and3_splitradix.rs:236-240. -/
def Type2And3SplitRadix.len (self : Type2And3SplitRadix T) : Nat := self.twiddles.length * 4

/-- src/algorithm/type2and3_splitradix.rs:241-245. -/
def Type2And3SplitRadix.scratchLen (self : Type2And3SplitRadix T) : Nat := self.len

/-- src/algorithm/type2and3_splitradix.rs:68-136. -/
def Type2And3SplitRadix.dct2 (self : Type2And3SplitRadix T) : Proc T := fun m =>
  validateBuffers m self.len self.scratchLen fun buffer scratch => do
    let len := self.len
    let halfLen := len / 2
    let quarterLen := len / 4
    let (inputDct2, inputDct4) ← splitAtMut scratch halfLen
    let (inputDct4Even, inputDct4Odd) ← splitAtMut inputDct4 quarterLen
    -- 79-104
    let (inputDct2, inputDct4Even, inputDct4Odd) ←
      forRange 0 quarterLen (inputDct2, inputDct4Even, inputDct4Odd) fun i st => do
        let (inputDct2, inputDct4Even, inputDct4Odd) := st
        let inputBottom ← rdU buffer i
        let a ← csub len i
        let top ← csub a 1
        let inputTop ← rdU buffer top
        let b ← csub halfLen i
        let hb ← csub b 1
        let inputHalfBottom ← rdU buffer hb
        let inputHalfTop ← rdU buffer (halfLen + i)
        let inputDct2 ← wrU inputDct2 i (inputTop + inputBottom)
        let inputDct2 ← wrU inputDct2 hb (inputHalfBottom + inputHalfTop)
        let lowerDct4 := inputBottom - inputTop
        let upperDct4 := inputHalfBottom - inputHalfTop
        let twiddle ← rdU self.twiddles i
        let cosInput := lowerDct4 * twiddle.re + upperDct4 * twiddle.im
        let sinInput := upperDct4 * twiddle.re - lowerDct4 * twiddle.im
        let inputDct4Even ← wrU inputDct4Even i cosInput
        let c ← csub quarterLen i
        let q ← csub c 1
        let inputDct4Odd ← wrU inputDct4Odd q (if i % 2 = 0 then sinInput else -sinInput)
        .ok (inputDct2, inputDct4Even, inputDct4Odd)
    -- 107-111: the original buffer serves as scratch space
    let (inputDct2, buffer) ← callProc self.halfDct.dct2 inputDct2 buffer
    let (inputDct4Even, buffer) ← callProc self.quarterDct.dct2 inputDct4Even buffer
    let (inputDct4Odd, buffer) ← callProc self.quarterDct.dct2 inputDct4Odd buffer
    -- 115-117
    let x ← rdU inputDct2 0
    let buffer ← wrU buffer 0 x
    let x ← rdU inputDct4Even 0
    let buffer ← wrU buffer 1 x
    let x ← rdU inputDct2 1
    let buffer ← wrU buffer 2 x
    -- 119-132
    let buffer ← forRange 1 quarterLen buffer fun i buffer => do
      let dct4CosOutput ← rdU inputDct4Even i
      let q ← csub quarterLen i
      let o ← rdU inputDct4Odd q
      let dct4SinOutput := if (i + quarterLen) % 2 = 0 then -o else o
      let k1 ← csub (i * 4) 1
      let buffer ← wrU buffer k1 (dct4CosOutput + dct4SinOutput)
      let x ← rdU inputDct2 (i * 2)
      let buffer ← wrU buffer (i * 4) x
      let buffer ← wrU buffer (i * 4 + 1) (dct4CosOutput - dct4SinOutput)
      let x ← rdU inputDct2 (i * 2 + 1)
      wrU buffer (i * 4 + 2) x
    -- 134
    let last ← csub len 1
    let x ← rdU inputDct4Odd 0
    let buffer ← wrU buffer last (-x)
    .ok (buffer, inputDct2 ++ (inputDct4Even ++ inputDct4Odd))

/-- src/algorithm/type2and3_splitradix.rs:150-222. -/
def Type2And3SplitRadix.dct3 (self : Type2And3SplitRadix T) : Proc T := fun m =>
  validateBuffers m self.len self.scratchLen fun buffer scratch => do
    let len := buffer.length
    let halfLen := len / 2
    let quarterLen := len / 4
    let (evens, odds) ← splitAtMut scratch halfLen
    let (n1, n3) ← splitAtMut odds quarterLen
    -- 164-167
    let b0 ← rd buffer 0
    let evens ← wr evens 0 b0
    let b2 ← rd buffer 2
    let evens ← wr evens 1 b2
    let b1 ← rd buffer 1
    let n1 ← wr n1 0 (b1 * ttwo T)
    let last ← csub len 1
    let bl ← rd buffer last
    let n3 ← wr n3 0 (bl * ttwo T)
    -- 170-184
    let (evens, n1, n3) ← forRange 1 quarterLen (evens, n1, n3) fun i st => do
      let (evens, n1, n3) := st
      let k := 4 * i
      let x ← rdU buffer k
      let evens ← wrU evens (i * 2) x
      let x ← rdU buffer (k + 2)
      let evens ← wrU evens (i * 2 + 1) x
      let km1 ← csub k 1
      let x ← rdU buffer km1
      let y ← rdU buffer (k + 1)
      let n1 ← wrU n1 i (x + y)
      let q ← csub quarterLen i
      let n3 ← wrU n3 q (x - y)
      .ok (evens, n1, n3)
    -- 187-192
    let (evens, buffer) ← callProc self.halfDct.dct3 evens buffer
    let (n1, buffer) ← callProc self.quarterDct.dct3 n1 buffer
    let (n3, buffer) ← callProc self.quarterDct.dct3 n3 buffer
    -- 197-221
    let buffer ← forRange 0 quarterLen buffer fun i buffer => do
      let twiddle ← rd self.twiddles i
      let cosineValue ← rd n1 i
      let s ← rd n3 i
      let sineValue := if i % 2 = 0 then s else -s
      let lowerDct4 := cosineValue * twiddle.re + sineValue * twiddle.im
      let upperDct4 := cosineValue * twiddle.im - sineValue * twiddle.re
      let lowerDct3 ← rdU evens i
      let a ← csub halfLen i
      let hb ← csub a 1
      let upperDct3 ← rdU evens hb
      let buffer ← wrU buffer i (lowerDct3 + lowerDct4)
      let b ← csub len i
      let top ← csub b 1
      let buffer ← wrU buffer top (lowerDct3 - lowerDct4)
      let buffer ← wrU buffer hb (upperDct3 + upperDct4)
      wrU buffer (halfLen + i) (upperDct3 - upperDct4)
    .ok (buffer, evens ++ (n1 ++ n3))

/-- `for i in 0..cnt { buffer[2 * i + 1] = buffer[2 * i + 1].neg(); }`
(src/algorithm/type2and3_splitradix.rs:140-142 and 230-232).  On an index panic the buffer at that point is
kept: the iterations before have already modified it. -/
def negOdds (cnt : Nat) (buf : List T) : Except (Err × List T) (List T) :=
  (List.range cnt).foldlM (fun b i =>
    match b[2 * i + 1]? with
    | some v => .ok (b.set (2 * i + 1) (-v))
    | none => .error (.index, b)) buf

/-- src/algorithm/type2and3_splitradix.rs:139-147: the buffer is modified before any size check. -/
def Type2And3SplitRadix.dst2 (self : Type2And3SplitRadix T) : Proc T := fun m =>
  match negOdds (self.len / 2) m.buf with
  | .error (e, b) => .panic e (some ⟨b, m.scr⟩)
  | .ok b =>
    match self.dct2 ⟨b, m.scr⟩ with
    | .ok m' => .ok ⟨m'.buf.reverse, m'.scr⟩
    | .panic e m' => .panic e m'

/-- src/algorithm/type2and3_splitradix.rs:225-233: the buffer is reversed before any size check. -/
def Type2And3SplitRadix.dst3 (self : Type2And3SplitRadix T) : Proc T := fun m =>
  match self.dct3 ⟨m.buf.reverse, m.scr⟩ with
  | .ok m' =>
    match negOdds (self.len / 2) m'.buf with
    | .error (e, b) => .panic e (some ⟨b, m'.scr⟩)
    | .ok b => .ok ⟨b, m'.scr⟩
  | .panic e m' => .panic e m'

/-- `Type2And3SplitRadix` behind an `Arc<dyn TransformType2And3>`. -/
def Type2And3SplitRadix.toObj (self : Type2And3SplitRadix T) : Obj23 T :=
  { len := self.len, scratchLen := self.scratchLen,
    dct2 := self.dct2, dct3 := self.dct3, dst2 := self.dst2, dst3 := self.dst3 }

/-! ## Type 4, even length -/

/-- src/algorithm/type4_convert_to_type3.rs:29-33. -/
structure Type4ConvertToType3Even (T : Type) where
  innerDct : Obj23 T
  twiddles : List (Cx T)
  scratchLen : Nat

/-- src/algorithm/type4_convert_to_type3.rs:37-57. -/
def Type4ConvertToType3Even.new (innerDct : Obj23 T) : Except Err (Type4ConvertToType3Even T) :=
  let innerLen := innerDct.len
  let len := innerLen * 2
  .ok { innerDct
        twiddles := (List.range innerLen).map fun i => Cx.conj (singleTwiddle (2 * i + 1) (len * 8))
        scratchLen := if innerDct.scratchLen ≤ len then len else len + innerDct.scratchLen }

/-- src/algorithm/type4_convert_to_type3.rs:149-153. -/
def Type4ConvertToType3Even.len (self : Type4ConvertToType3Even T) : Nat := self.twiddles.length * 2

/-- Lines 79-88 and 121-130 of src/algorithm/type4_convert_to_type3.rs: the two inner transforms run one
after the other on `first` and `second`, both using `extra_scratch` as scratch space if it is non-empty and the
buffer otherwise.  Returns (first, second, buffer, extra_scratch). -/
def runInnerPair (p1 p2 : Proc T) (first second buffer extra : List T) :
    Except Err (List T × List T × List T × List T) := do
  if extra.length > 0 then do
    let (first, extra) ← callProc p1 first extra
    let (second, extra) ← callProc p2 second extra
    .ok (first, second, buffer, extra)
  else do
    let (first, buffer) ← callProc p1 first buffer
    let (second, buffer) ← callProc p2 second buffer
    .ok (first, second, buffer, extra)

/-- src/algorithm/type4_convert_to_type3.rs:60-99. -/
def Type4ConvertToType3Even.dct4 (self : Type4ConvertToType3Even T) : Proc T := fun m =>
  validateBuffers m self.len self.scratchLen fun buffer scratch => do
    let (selfScratch, extraScratch) ← splitAtMut scratch self.len
    let len := self.len
    let innerLen := len / 2
    let (outputLeft, outputRight) ← splitAtMut selfScratch innerLen
    let b0 ← rd buffer 0
    let outputLeft ← wr outputLeft 0 (b0 * ttwo T)
    let (outputLeft, outputRight) ← forRange 1 innerLen (outputLeft, outputRight) fun k st => do
      let (outputLeft, outputRight) := st
      let k1 ← csub (2 * k) 1
      let x ← rd buffer k1
      let y ← rd buffer (2 * k)
      let outputLeft ← wr outputLeft k (x + y)
      let r ← csub k 1
      let outputRight ← wr outputRight r (x - y)
      .ok (outputLeft, outputRight)
    let il ← csub innerLen 1
    let l1 ← csub len 1
    let bl ← rd buffer l1
    let outputRight ← wr outputRight il (bl * ttwo T)
    let (outputLeft, outputRight, buffer, extraScratch) ←
      runInnerPair self.innerDct.dct3 self.innerDct.dst3 outputLeft outputRight buffer extraScratch
    let buffer ← forRange 0 innerLen buffer fun k buffer => do
      let twiddle ← rd self.twiddles k
      let cosValue ← rd outputLeft k
      let sinValue ← rd outputRight k
      let buffer ← wr buffer k (cosValue * twiddle.re + sinValue * twiddle.im)
      let a ← csub len 1
      let j ← csub a k
      wr buffer j (cosValue * twiddle.im - sinValue * twiddle.re)
    .ok (buffer, (outputLeft ++ outputRight) ++ extraScratch)

/-- src/algorithm/type4_convert_to_type3.rs:102-141. -/
def Type4ConvertToType3Even.dst4 (self : Type4ConvertToType3Even T) : Proc T := fun m =>
  validateBuffers m self.len self.scratchLen fun buffer scratch => do
    let (selfScratch, extraScratch) ← splitAtMut scratch self.len
    let len := self.len
    let innerLen := len / 2
    let (outputLeft, outputRight) ← splitAtMut selfScratch innerLen
    let b0 ← rd buffer 0
    let outputRight ← wr outputRight 0 (b0 * ttwo T)
    let (outputLeft, outputRight) ← forRange 1 innerLen (outputLeft, outputRight) fun k st => do
      let (outputLeft, outputRight) := st
      let k1 ← csub (2 * k) 1
      let x ← rd buffer k1
      let y ← rd buffer (2 * k)
      let r ← csub k 1
      let outputLeft ← wr outputLeft r (x + y)
      let outputRight ← wr outputRight k (y - x)
      .ok (outputLeft, outputRight)
    let il ← csub innerLen 1
    let l1 ← csub len 1
    let bl ← rd buffer l1
    let outputLeft ← wr outputLeft il (bl * ttwo T)
    let (outputLeft, outputRight, buffer, extraScratch) ←
      runInnerPair self.innerDct.dst3 self.innerDct.dct3 outputLeft outputRight buffer extraScratch
    let buffer ← forRange 0 innerLen buffer fun k buffer => do
      let twiddle ← rd self.twiddles k
      let cosValue ← rd outputLeft k
      let sinValue ← rd outputRight k
      let buffer ← wr buffer k (cosValue * twiddle.re + sinValue * twiddle.im)
      let a ← csub len 1
      let j ← csub a k
      wr buffer j (sinValue * twiddle.re - cosValue * twiddle.im)
    .ok (buffer, (outputLeft ++ outputRight) ++ extraScratch)

/-- `Type4ConvertToType3Even` behind an `Arc<dyn TransformType4>`. -/
def Type4ConvertToType3Even.toObj (self : Type4ConvertToType3Even T) : Obj4 T :=
  { len := self.len, scratchLen := self.scratchLen, dct4 := self.dct4, dst4 := self.dst4 }

end RustDct
