import Verif.Model.SplitRadix
/-!
# Split radix over inner instances whose behaviour changes from call to call

An inner instance may have interior mutability (a counter, a lock, a random generator), so that each call of it is another function of its
arguments.  Of the structs with unchecked accesses this concerns `Type2And3SplitRadix` only, whose methods make three inner calls: the
text of `Verif/Model/SplitRadix.lean` with a parameter for each of them.  (`self.len()` is stored in the table, not asked of the inner instances.)
-/

namespace RustDct

variable {T : Type} {F : Type} [F64 F] [DctNum T F]

/-- src/algorithm/type2and3_splitradix.rs:68-136. -/
def Type2And3SplitRadix.dct2With (half quarter1 quarter2 : Proc T) (self : Type2And3SplitRadix T) : Proc T := fun m =>
  validateBuffers m self.len self.scratchLen fun buffer scratch => do
    let len := self.len
    let halfLen := len / 2
    let quarterLen := len / 4
    let (inputDct2, inputDct4) ← splitAtMut scratch halfLen
    let (inputDct4Even, inputDct4Odd) ← splitAtMut inputDct4 quarterLen
    -- 79-104
    let (inputDct2, inputDct4Even, inputDct4Odd) ←
      forRange 0 quarterLen (inputDct2, inputDct4Even, inputDct4Odd) fun i st => do
        let (inputDct2, inputDct4Even, inputDct4Odd) := st
        let inputBottom ← rdU buffer i
        let a ← csub len i
        let top ← csub a 1
        let inputTop ← rdU buffer top
        let b ← csub halfLen i
        let hb ← csub b 1
        let inputHalfBottom ← rdU buffer hb
        let inputHalfTop ← rdU buffer (halfLen + i)
        let inputDct2 ← wrU inputDct2 i (inputTop + inputBottom)
        let inputDct2 ← wrU inputDct2 hb (inputHalfBottom + inputHalfTop)
        let lowerDct4 := inputBottom - inputTop
        let upperDct4 := inputHalfBottom - inputHalfTop
        let twiddle ← rdU self.twiddles i
        let cosInput := lowerDct4 * twiddle.re + upperDct4 * twiddle.im
        let sinInput := upperDct4 * twiddle.re - lowerDct4 * twiddle.im
        let inputDct4Even ← wrU inputDct4Even i cosInput
        let c ← csub quarterLen i
        let q ← csub c 1
        let inputDct4Odd ← wrU inputDct4Odd q (if i % 2 = 0 then sinInput else -sinInput)
        .ok (inputDct2, inputDct4Even, inputDct4Odd)
    -- 107-111: the original buffer serves as scratch space
    let (inputDct2, buffer) ← callProc half inputDct2 buffer
    let (inputDct4Even, buffer) ← callProc quarter1 inputDct4Even buffer
    let (inputDct4Odd, buffer) ← callProc quarter2 inputDct4Odd buffer
    -- 115-117
    let x ← rdU inputDct2 0
    let buffer ← wrU buffer 0 x
    let x ← rdU inputDct4Even 0
    let buffer ← wrU buffer 1 x
    let x ← rdU inputDct2 1
    let buffer ← wrU buffer 2 x
    -- 119-132
    let buffer ← forRange 1 quarterLen buffer fun i buffer => do
      let dct4CosOutput ← rdU inputDct4Even i
      let q ← csub quarterLen i
      let o ← rdU inputDct4Odd q
      let dct4SinOutput := if (i + quarterLen) % 2 = 0 then -o else o
      let k1 ← csub (i * 4) 1
      let buffer ← wrU buffer k1 (dct4CosOutput + dct4SinOutput)
      let x ← rdU inputDct2 (i * 2)
      let buffer ← wrU buffer (i * 4) x
      let buffer ← wrU buffer (i * 4 + 1) (dct4CosOutput - dct4SinOutput)
      let x ← rdU inputDct2 (i * 2 + 1)
      wrU buffer (i * 4 + 2) x
    -- 134
    let last ← csub len 1
    let x ← rdU inputDct4Odd 0
    let buffer ← wrU buffer last (-x)
    .ok (buffer, inputDct2 ++ (inputDct4Even ++ inputDct4Odd))

/-- src/algorithm/type2and3_splitradix.rs:150-222. -/
def Type2And3SplitRadix.dct3With (half quarter1 quarter2 : Proc T) (self : Type2And3SplitRadix T) : Proc T := fun m =>
  validateBuffers m self.len self.scratchLen fun buffer scratch => do
    let len := buffer.length
    let halfLen := len / 2
    let quarterLen := len / 4
    let (evens, odds) ← splitAtMut scratch halfLen
    let (n1, n3) ← splitAtMut odds quarterLen
    -- 164-167
    let b0 ← rd buffer 0
    let evens ← wr evens 0 b0
    let b2 ← rd buffer 2
    let evens ← wr evens 1 b2
    let b1 ← rd buffer 1
    let n1 ← wr n1 0 (b1 * ttwo T)
    let last ← csub len 1
    let bl ← rd buffer last
    let n3 ← wr n3 0 (bl * ttwo T)
    -- 170-184
    let (evens, n1, n3) ← forRange 1 quarterLen (evens, n1, n3) fun i st => do
      let (evens, n1, n3) := st
      let k := 4 * i
      let x ← rdU buffer k
      let evens ← wrU evens (i * 2) x
      let x ← rdU buffer (k + 2)
      let evens ← wrU evens (i * 2 + 1) x
      let km1 ← csub k 1
      let x ← rdU buffer km1
      let y ← rdU buffer (k + 1)
      let n1 ← wrU n1 i (x + y)
      let q ← csub quarterLen i
      let n3 ← wrU n3 q (x - y)
      .ok (evens, n1, n3)
    -- 187-192
    let (evens, buffer) ← callProc half evens buffer
    let (n1, buffer) ← callProc quarter1 n1 buffer
    let (n3, buffer) ← callProc quarter2 n3 buffer
    -- 197-221
    let buffer ← forRange 0 quarterLen buffer fun i buffer => do
      let twiddle ← rd self.twiddles i
      let cosineValue ← rd n1 i
      let s ← rd n3 i
      let sineValue := if i % 2 = 0 then s else -s
      let lowerDct4 := cosineValue * twiddle.re + sineValue * twiddle.im
      let upperDct4 := cosineValue * twiddle.im - sineValue * twiddle.re
      let lowerDct3 ← rdU evens i
      let a ← csub halfLen i
      let hb ← csub a 1
      let upperDct3 ← rdU evens hb
      let buffer ← wrU buffer i (lowerDct3 + lowerDct4)
      let b ← csub len i
      let top ← csub b 1
      let buffer ← wrU buffer top (lowerDct3 - lowerDct4)
      let buffer ← wrU buffer hb (upperDct3 + upperDct4)
      wrU buffer (halfLen + i) (upperDct3 - upperDct4)
    .ok (buffer, evens ++ (n1 ++ n3))

/-- src/algorithm/type2and3_splitradix.rs:139-147: the buffer is modified before any size check. -/
def Type2And3SplitRadix.dst2With (half quarter1 quarter2 : Proc T) (self : Type2And3SplitRadix T) : Proc T := fun m =>
  match negOdds (self.len / 2) m.buf with
  | .error (e, b) => .panic e (some ⟨b, m.scr⟩)
  | .ok b =>
    match self.dct2With half quarter1 quarter2 ⟨b, m.scr⟩ with
    | .ok m' => .ok ⟨m'.buf.reverse, m'.scr⟩
    | .panic e m' => .panic e m'

/-- src/algorithm/type2and3_splitradix.rs:225-233: the buffer is reversed before any size check. -/
def Type2And3SplitRadix.dst3With (half quarter1 quarter2 : Proc T) (self : Type2And3SplitRadix T) : Proc T := fun m =>
  match self.dct3With half quarter1 quarter2 ⟨m.buf.reverse, m.scr⟩ with
  | .ok m' =>
    match negOdds (self.len / 2) m'.buf with
    | .error (e, b) => .panic e (some ⟨b, m'.scr⟩)
    | .ok b => .ok ⟨b, m'.scr⟩
  | .panic e m' => .panic e m'

end RustDct
