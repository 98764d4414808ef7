import Verif.Model.Word
import Verif.Model.Naive
import Verif.Model.ConvertFft
import Verif.Model.SplitRadix
/-!
# The `process_*` methods with bounded `usize`

The methods of `Verif/Model/Naive.lean`, `Verif/Model/ConvertFft.lean`, `Verif/Model/SplitRadix.lean` and `Verif/Model/Mdct.lean` again, this time
on a machine with a bounded `usize`, in debug or release mode: every addition and multiplication of indices, strides and lengths goes through
`Machine.arith` and every subtraction through `Machine.sub`, in the order in which the Rust expression evaluates them.  The methods that are not
here (butterflies, `Dct1ConvertToFft`, `Dst1ConvertToFft`, `MdctViaDct4`) contain no such arithmetic apart from `len / 2` and literal indices.
The loop counter of a Rust `for` over a range does not overflow, and neither do `/`, `%` and comparisons.  The subtraction in the accumulation
loops is guarded by the comparison in front of it.  The simplifications are those of the methods with unbounded `usize`.
-/

namespace RustDct

variable {T : Type} {F : Type} [F64 F] [DctNum T F]


/-! ### Naive algorithms -/

/-- `strideLoop` (e.g. src/algorithm/type1_naive.rs:63-72) with the addition of the machine. -/
def strideLoopOn (M : Machine) {T W : Type} (twiddles : List W) (scratch : List T) (twiddleStride : Nat)
    (f : T → T → W → T) (lo : Nat) (cell : T) (twiddleIndex : Nat) : Except Err (T × Nat) :=
  forRange lo scratch.length (cell, twiddleIndex) fun i st => do
    let twiddle ← rd twiddles st.2
    let x ← rd scratch i
    let cell := f st.1 x twiddle
    let twiddleIndex ← M.arith (st.2 + twiddleStride)
    if twiddleIndex ≥ twiddles.length then
      .ok (cell, twiddleIndex - twiddles.length)
    else
      .ok (cell, twiddleIndex)

/-- src/algorithm/type1_naive.rs:48-74, with the arithmetic of the machine. -/
def Dct1Naive.dct1On (M : Machine) (self : Dct1Naive T) : Proc T := fun m =>
  validateBuffers m self.len self.scratchLen fun buffer scratch => do
    let scratch ← copyFromSlice scratch buffer
    let s0 ← rd scratch 0
    let scratch ← wr scratch 0 (s0 * thalf T)
    let last ← M.sub self.len 1
    let sl ← rd scratch last
    let scratch ← wr scratch last (sl * thalf T)
    let buffer ← forRange 0 buffer.length buffer fun k buffer => do
      let s0 ← rd scratch 0
      let twiddleStride := k
      let r ← strideLoopOn M self.twiddles scratch twiddleStride (fun c x w => c + x * w) 1 s0 (twiddleStride)
      wr buffer k r.1
    .ok (buffer, scratch)

/-- `Dct1Naive` behind an `Arc<dyn _>`. -/
def Dct1Naive.toObjOn (M : Machine) (self : Dct1Naive T) : Obj1 T :=
  { len := self.len, scratchLen := self.scratchLen, run := self.dct1On M }

/-- src/algorithm/type1_naive.rs:124-146, with the arithmetic of the machine. -/
def Dst1Naive.dst1On (M : Machine) (self : Dst1Naive T) : Proc T := fun m =>
  validateBuffers m self.len self.scratchLen fun buffer scratch => do
    let scratch ← copyFromSlice scratch buffer
    let buffer ← forRange 0 buffer.length buffer fun k buffer => do
      let twiddleStride ← M.arith (k + 1)
      let r ← strideLoopOn M self.twiddles scratch twiddleStride (fun c x w => c + x * w) 0 0 (twiddleStride)
      wr buffer k r.1
    .ok (buffer, scratch)

/-- `Dst1Naive` behind an `Arc<dyn _>`. -/
def Dst1Naive.toObjOn (M : Machine) (self : Dst1Naive T) : Obj1 T :=
  { len := self.len, scratchLen := self.scratchLen, run := self.dst1On M }

/-- src/algorithm/type2and3_naive.rs:49-71, with the arithmetic of the machine. -/
def Type2And3Naive.dct2On (M : Machine) (self : Type2And3Naive T) : Proc T := fun m =>
  validateBuffers m self.len self.scratchLen fun buffer scratch => do
    let scratch ← copyFromSlice scratch buffer
    let buffer ← forRange 0 buffer.length buffer fun k buffer => do
      let twiddleStride ← M.arith (k * 2)
      let r ← strideLoopOn M self.twiddles scratch twiddleStride (fun c x w => c + x * w.re) 0 0 (k)
      wr buffer k r.1
    .ok (buffer, scratch)

/-- src/algorithm/type2and3_naive.rs:74-96, with the arithmetic of the machine. -/
def Type2And3Naive.dst2On (M : Machine) (self : Type2And3Naive T) : Proc T := fun m =>
  validateBuffers m self.len self.scratchLen fun buffer scratch => do
    let scratch ← copyFromSlice scratch buffer
    let buffer ← forRange 0 buffer.length buffer fun k buffer => do
      let twiddleStride ← M.arith ((← M.arith (k + 1)) * 2)
      let r ← strideLoopOn M self.twiddles scratch twiddleStride (fun c x w => c - x * w.im) 0 0 (← M.arith (k + 1))
      wr buffer k r.1
    .ok (buffer, scratch)

/-- src/algorithm/type2and3_naive.rs:99-123, with the arithmetic of the machine. -/
def Type2And3Naive.dct3On (M : Machine) (self : Type2And3Naive T) : Proc T := fun m =>
  validateBuffers m self.len self.scratchLen fun buffer scratch => do
    let scratch ← copyFromSlice scratch buffer
    let s0 ← rd scratch 0
    let halfFirst := thalf T * s0
    let buffer ← forRange 0 buffer.length buffer fun k buffer => do
      let twiddleStride ← M.arith ((← M.arith (k * 2)) + 1)
      let r ← strideLoopOn M self.twiddles scratch twiddleStride (fun c x w => c + x * w.re) 1 halfFirst (twiddleStride)
      wr buffer k r.1
    .ok (buffer, scratch)

/-- src/algorithm/type2and3_naive.rs:126-151, with the arithmetic of the machine. -/
def Type2And3Naive.dst3On (M : Machine) (self : Type2And3Naive T) : Proc T := fun m =>
  validateBuffers m self.len self.scratchLen fun buffer scratch => do
    let scratch ← copyFromSlice scratch buffer
    let last ← M.sub scratch.length 1
    let sl ← rd scratch last
    let scratch ← wr scratch last (sl * thalf T)
    let buffer ← forRange 0 buffer.length buffer fun k buffer => do
      let twiddleStride ← M.arith ((← M.arith (k * 2)) + 1)
      let r ← strideLoopOn M self.twiddles scratch twiddleStride (fun c x w => c - x * w.im) 0 0 (twiddleStride)
      wr buffer k r.1
    .ok (buffer, scratch)

/-- `Type2And3Naive` behind an `Arc<dyn _>`. -/
def Type2And3Naive.toObjOn (M : Machine) (self : Type2And3Naive T) : Obj23 T :=
  { len := self.len, scratchLen := self.scratchLen, dct2 := self.dct2On M, dct3 := self.dct3On M, dst2 := self.dst2On M, dst3 := self.dst3On M }

/-- src/algorithm/type4_naive.rs:43-65, with the arithmetic of the machine. -/
def Type4Naive.dct4On (M : Machine) (self : Type4Naive T) : Proc T := fun m =>
  validateBuffers m self.len self.scratchLen fun buffer scratch => do
    let scratch ← copyFromSlice scratch buffer
    let buffer ← forRange 0 buffer.length buffer fun k buffer => do
      let twiddleStride ← M.arith ((← M.arith (k * 2)) + 1)
      let r ← strideLoopOn M self.twiddles scratch twiddleStride (fun c x w => c + x * w.re) 0 0 (k)
      wr buffer k r.1
    .ok (buffer, scratch)

/-- src/algorithm/type4_naive.rs:68-90, with the arithmetic of the machine. -/
def Type4Naive.dst4On (M : Machine) (self : Type4Naive T) : Proc T := fun m =>
  validateBuffers m self.len self.scratchLen fun buffer scratch => do
    let scratch ← copyFromSlice scratch buffer
    let buffer ← forRange 0 buffer.length buffer fun k buffer => do
      let twiddleStride ← M.arith ((← M.arith (k * 2)) + 1)
      let r ← strideLoopOn M self.twiddles scratch twiddleStride (fun c x w => c - x * w.im) 0 0 (k)
      wr buffer k r.1
    .ok (buffer, scratch)

/-- `Type4Naive` behind an `Arc<dyn _>`. -/
def Type4Naive.toObjOn (M : Machine) (self : Type4Naive T) : Obj4 T :=
  { len := self.len, scratchLen := self.scratchLen, dct4 := self.dct4On M, dst4 := self.dst4On M }

/-- src/algorithm/type5_naive.rs:44-69, with the arithmetic of the machine. -/
def Dct5Naive.dct5On (M : Machine) (self : Dct5Naive T) : Proc T := fun m =>
  validateBuffers m self.len self.scratchLen fun buffer scratch => do
    let scratch ← copyFromSlice scratch buffer
    let s0 ← rd scratch 0
    let scratch ← wr scratch 0 (s0 * thalf T)
    let buffer ← wr buffer 0 (scratch.foldl (fun acc e => acc + e) 0)
    let buffer ← forRange 1 buffer.length buffer fun k buffer => do
      let s0 ← rd scratch 0
      let twiddleStride := k
      let r ← strideLoopOn M self.twiddles scratch twiddleStride (fun c x w => c + x * w) 1 s0 (twiddleStride)
      wr buffer k r.1
    .ok (buffer, scratch)

/-- `Dct5Naive` behind an `Arc<dyn _>`. -/
def Dct5Naive.toObjOn (M : Machine) (self : Dct5Naive T) : Obj1 T :=
  { len := self.len, scratchLen := self.scratchLen, run := self.dct5On M }

/-- src/algorithm/type5_naive.rs:118-140, with the arithmetic of the machine. -/
def Dst5Naive.dst5On (M : Machine) (self : Dst5Naive T) : Proc T := fun m =>
  validateBuffers m self.len self.scratchLen fun buffer scratch => do
    let scratch ← copyFromSlice scratch buffer
    let buffer ← forRange 0 buffer.length buffer fun k buffer => do
      let twiddleStride ← M.arith (k + 1)
      let r ← strideLoopOn M self.twiddles scratch twiddleStride (fun c x w => c + x * w) 0 0 (twiddleStride)
      wr buffer k r.1
    .ok (buffer, scratch)

/-- `Dst5Naive` behind an `Arc<dyn _>`. -/
def Dst5Naive.toObjOn (M : Machine) (self : Dst5Naive T) : Obj1 T :=
  { len := self.len, scratchLen := self.scratchLen, run := self.dst5On M }

/-- src/algorithm/type6and7_naive.rs:44-69, with the arithmetic of the machine. -/
def Dct6And7Naive.dct6On (M : Machine) (self : Dct6And7Naive T) : Proc T := fun m =>
  validateBuffers m self.len self.scratchLen fun buffer scratch => do
    let scratch ← copyFromSlice scratch buffer
    let last ← M.sub scratch.length 1
    let sl ← rd scratch last
    let scratch ← wr scratch last (sl * thalf T)
    let buffer ← wr buffer 0 (scratch.foldl (fun acc e => acc + e) 0)
    let buffer ← forRange 1 buffer.length buffer fun k buffer => do
      let twiddleStride ← M.arith (k * 2)
      let r ← strideLoopOn M self.twiddles scratch twiddleStride (fun c x w => c + x * w) 0 0 (k)
      wr buffer k r.1
    .ok (buffer, scratch)

/-- src/algorithm/type6and7_naive.rs:72-96, with the arithmetic of the machine. -/
def Dct6And7Naive.dct7On (M : Machine) (self : Dct6And7Naive T) : Proc T := fun m =>
  validateBuffers m self.len self.scratchLen fun buffer scratch => do
    let scratch ← copyFromSlice scratch buffer
    let s0 ← rd scratch 0
    let scratch ← wr scratch 0 (s0 * thalf T)
    let buffer ← forRange 0 buffer.length buffer fun k buffer => do
      let s0 ← rd scratch 0
      let twiddleStride ← M.arith ((← M.arith (k * 2)) + 1)
      let r ← strideLoopOn M self.twiddles scratch twiddleStride (fun c x w => c + x * w) 1 s0 (twiddleStride)
      wr buffer k r.1
    .ok (buffer, scratch)

/-- `Dct6And7Naive` behind an `Arc<dyn _>`. -/
def Dct6And7Naive.toObjOn (M : Machine) (self : Dct6And7Naive T) : Obj67 T :=
  { len := self.len, scratchLen := self.scratchLen, t6 := self.dct6On M, t7 := self.dct7On M }

/-- src/algorithm/type6and7_naive.rs:147-169, with the arithmetic of the machine. -/
def Dst6And7Naive.dst6On (M : Machine) (self : Dst6And7Naive T) : Proc T := fun m =>
  validateBuffers m self.len self.scratchLen fun buffer scratch => do
    let scratch ← copyFromSlice scratch buffer
    let buffer ← forRange 0 buffer.length buffer fun k buffer => do
      let twiddleStride ← M.arith ((← M.arith (k + 1)) * 2)
      let r ← strideLoopOn M self.twiddles scratch twiddleStride (fun c x w => c + x * w) 0 0 (← M.arith (k + 1))
      wr buffer k r.1
    .ok (buffer, scratch)

/-- src/algorithm/type6and7_naive.rs:172-194, with the arithmetic of the machine. -/
def Dst6And7Naive.dst7On (M : Machine) (self : Dst6And7Naive T) : Proc T := fun m =>
  validateBuffers m self.len self.scratchLen fun buffer scratch => do
    let scratch ← copyFromSlice scratch buffer
    let buffer ← forRange 0 buffer.length buffer fun k buffer => do
      let twiddleStride ← M.arith ((← M.arith (k * 2)) + 1)
      let r ← strideLoopOn M self.twiddles scratch twiddleStride (fun c x w => c + x * w) 0 0 (twiddleStride)
      wr buffer k r.1
    .ok (buffer, scratch)

/-- `Dst6And7Naive` behind an `Arc<dyn _>`. -/
def Dst6And7Naive.toObjOn (M : Machine) (self : Dst6And7Naive T) : Obj67 T :=
  { len := self.len, scratchLen := self.scratchLen, t6 := self.dst6On M, t7 := self.dst7On M }

/-- src/algorithm/type8_naive.rs:39-61, with the arithmetic of the machine. -/
def Dct8Naive.dct8On (M : Machine) (self : Dct8Naive T) : Proc T := fun m =>
  validateBuffers m self.len self.scratchLen fun buffer scratch => do
    let scratch ← copyFromSlice scratch buffer
    let buffer ← forRange 0 buffer.length buffer fun k buffer => do
      let twiddleStride ← M.arith ((← M.arith (k * 2)) + 1)
      let r ← strideLoopOn M self.twiddles scratch twiddleStride (fun c x w => c + x * w) 0 0 (k)
      wr buffer k r.1
    .ok (buffer, scratch)

/-- `Dct8Naive` behind an `Arc<dyn _>`. -/
def Dct8Naive.toObjOn (M : Machine) (self : Dct8Naive T) : Obj1 T :=
  { len := self.len, scratchLen := self.scratchLen, run := self.dct8On M }

/-- src/algorithm/type8_naive.rs:108-132, with the arithmetic of the machine. -/
def Dst8Naive.dst8On (M : Machine) (self : Dst8Naive T) : Proc T := fun m =>
  validateBuffers m self.len self.scratchLen fun buffer scratch => do
    let scratch ← copyFromSlice scratch buffer
    let last ← M.sub scratch.length 1
    let sl ← rd scratch last
    let scratch ← wr scratch last (sl * thalf T)
    let buffer ← forRange 0 buffer.length buffer fun k buffer => do
      let twiddleStride ← M.arith ((← M.arith (k * 2)) + 1)
      let r ← strideLoopOn M self.twiddles scratch twiddleStride (fun c x w => c + x * w) 0 0 (k)
      wr buffer k r.1
    .ok (buffer, scratch)

/-- `Dst8Naive` behind an `Arc<dyn _>`. -/
def Dst8Naive.toObjOn (M : Machine) (self : Dst8Naive T) : Obj1 T :=
  { len := self.len, scratchLen := self.scratchLen, run := self.dst8On M }

/-! ### Conversions to an FFT -/

/-- src/algorithm/type2and3_convert_to_fft.rs:69-102, with the arithmetic of the machine. -/
def Type2And3ConvertToFft.dct2On (M : Machine) (self : Type2And3ConvertToFft T) : Proc T := fun m =>
  validateBuffers m self.len self.scratchLen fun buffer scratch => do
    let complexScratch := intoComplex scratch
    let (fftBuffer, fftScratch) ← splitAtMut complexScratch self.len
    let evenEnd := (← M.arith (buffer.length + 1)) / 2
    let fftBuffer ← forRange 0 evenEnd fftBuffer fun i fftBuffer => do
      let x ← rd buffer (← M.arith (i * 2))
      wr fftBuffer i (Cx.ofRe x)
    let fftBuffer ←
      if self.len > 1 then do
        let a ← M.sub self.len 1
        let oddEnd ← M.sub a (self.len % 2)
        forRange 0 (self.len / 2) fftBuffer fun i fftBuffer => do
          let j ← M.sub oddEnd (← M.arith (2 * i))
          let x ← rd buffer j
          wr fftBuffer (← M.arith (evenEnd + i)) (Cx.ofRe x)
      else .ok fftBuffer
    let (fftBuffer, fftScratch) ← self.fft.process fftBuffer fftScratch
    let buffer := assignZip (fun p : Cx T × Cx T => (Cx.mul p.1 p.2).re) buffer (fftBuffer.zip self.twiddles)
    .ok (buffer, fromComplex (fftBuffer ++ fftScratch) scratch)

/-- src/algorithm/type2and3_convert_to_fft.rs:105-138, with the arithmetic of the machine. -/
def Type2And3ConvertToFft.dst2On (M : Machine) (self : Type2And3ConvertToFft T) : Proc T := fun m =>
  validateBuffers m self.len self.scratchLen fun buffer scratch => do
    let complexScratch := intoComplex scratch
    let (fftBuffer, fftScratch) ← splitAtMut complexScratch self.len
    let evenEnd := (← M.arith (buffer.length + 1)) / 2
    let fftBuffer ← forRange 0 evenEnd fftBuffer fun i fftBuffer => do
      let x ← rd buffer (← M.arith (i * 2))
      wr fftBuffer i (Cx.ofRe x)
    let fftBuffer ←
      if self.len > 1 then do
        let a ← M.sub self.len 1
        let oddEnd ← M.sub a (self.len % 2)
        forRange 0 (self.len / 2) fftBuffer fun i fftBuffer => do
          let j ← M.sub oddEnd (← M.arith (2 * i))
          let x ← rd buffer j
          wr fftBuffer (← M.arith (evenEnd + i)) (Cx.ofRe (-x))
      else .ok fftBuffer
    let (fftBuffer, fftScratch) ← self.fft.process fftBuffer fftScratch
    let buffer := (assignZip (fun p : Cx T × Cx T => (Cx.mul p.1 p.2).re) buffer.reverse
      (fftBuffer.zip self.twiddles)).reverse
    .ok (buffer, fromComplex (fftBuffer ++ fftScratch) scratch)

/-- src/algorithm/type2and3_convert_to_fft.rs:141-181.  The loop at 152-163 runs over
`fft_buffer.iter_mut().zip(twiddles).enumerate().skip(1)`, i.e. over `i` from 1 to the shorter length. -/
def Type2And3ConvertToFft.dct3On (M : Machine) (self : Type2And3ConvertToFft T) : Proc T := fun m =>
  validateBuffers m self.len self.scratchLen fun buffer scratch => do
    let complexScratch := intoComplex scratch
    let (fftBuffer, fftScratch) ← splitAtMut complexScratch self.len
    let b0 ← rd buffer 0
    let fftBuffer ← wr fftBuffer 0 (Cx.ofRe (b0 * thalf T))
    let fftBuffer ← forRange 1 (min fftBuffer.length self.twiddles.length) fftBuffer fun i fftBuffer => do
      let twiddle ← rd self.twiddles i
      let re ← rd buffer i
      let j ← M.sub buffer.length i
      let im ← rd buffer j
      wr fftBuffer i (Cx.scale (Cx.mul ⟨re, im⟩ twiddle) (thalf T))
    let (fftBuffer, fftScratch) ← self.fft.process fftBuffer fftScratch
    let evenEnd := (← M.arith (buffer.length + 1)) / 2
    let buffer ← forRange 0 evenEnd buffer fun i buffer => do
      let c ← rd fftBuffer i
      wr buffer (← M.arith (i * 2)) c.re
    let buffer ←
      if self.len > 1 then do
        let a ← M.sub self.len 1
        let oddEnd ← M.sub a (self.len % 2)
        forRange 0 (self.len / 2) buffer fun i buffer => do
          let c ← rd fftBuffer (← M.arith (i + evenEnd))
          let j ← M.sub oddEnd (← M.arith (2 * i))
          wr buffer j c.re
      else .ok buffer
    .ok (buffer, fromComplex (fftBuffer ++ fftScratch) scratch)

/-- src/algorithm/type2and3_convert_to_fft.rs:184-224, with the arithmetic of the machine. -/
def Type2And3ConvertToFft.dst3On (M : Machine) (self : Type2And3ConvertToFft T) : Proc T := fun m =>
  validateBuffers m self.len self.scratchLen fun buffer scratch => do
    let complexScratch := intoComplex scratch
    let (fftBuffer, fftScratch) ← splitAtMut complexScratch self.len
    let last ← M.sub buffer.length 1
    let bl ← rd buffer last
    let fftBuffer ← wr fftBuffer 0 (Cx.ofRe (bl * thalf T))
    let fftBuffer ← forRange 1 (min fftBuffer.length self.twiddles.length) fftBuffer fun i fftBuffer => do
      let twiddle ← rd self.twiddles i
      let a ← M.sub buffer.length i
      let j ← M.sub a 1
      let re ← rd buffer j
      let i1 ← M.sub i 1
      let im ← rd buffer i1
      wr fftBuffer i (Cx.scale (Cx.mul ⟨re, im⟩ twiddle) (thalf T))
    let (fftBuffer, fftScratch) ← self.fft.process fftBuffer fftScratch
    let evenEnd := (← M.arith (self.len + 1)) / 2
    let buffer ← forRange 0 evenEnd buffer fun i buffer => do
      let c ← rd fftBuffer i
      wr buffer (← M.arith (i * 2)) c.re
    let buffer ←
      if self.len > 1 then do
        let a ← M.sub self.len 1
        let oddEnd ← M.sub a (self.len % 2)
        forRange 0 (self.len / 2) buffer fun i buffer => do
          let c ← rd fftBuffer (← M.arith (i + evenEnd))
          let j ← M.sub oddEnd (← M.arith (2 * i))
          wr buffer j (-c.re)
      else .ok buffer
    .ok (buffer, fromComplex (fftBuffer ++ fftScratch) scratch)

/-- `Type2And3ConvertToFft` behind an `Arc<dyn TransformType2And3>`. -/
def Type2And3ConvertToFft.toObjOn (M : Machine) (self : Type2And3ConvertToFft T) : Obj23 T :=
  { len := self.len, scratchLen := self.scratchLen,
    dct2 := self.dct2On M, dct3 := self.dct3On M, dst2 := self.dst2On M, dst3 := self.dst3On M }

/-- The loop of `fillWhileInput` (src/algorithm/type4_convert_to_fft.rs:79-87 and the other seven places) with the additions of the machine.
`fuel` bounds the number of iterations: every iteration writes to the next cell of `fft_buffer` or panics, so `fft_buffer.len() + 1` are enough
and the first case is never reached. -/
def fillWhileInputOn (M : Machine) (len : Nat) (value : Nat → Except Err (Cx T)) :
    (fuel inputIndex fftIndex : Nat) → List (Cx T) → Except Err (Nat × Nat × List (Cx T))
  | 0, _, _, _ => .error .index
  | fuel + 1, inputIndex, fftIndex, fftBuffer =>
    if inputIndex < len then do
      let v ← value inputIndex
      let fftBuffer ← wr fftBuffer fftIndex v
      let inputIndex ← M.arith (inputIndex + 4)
      let fftIndex ← M.arith (fftIndex + 1)
      fillWhileInputOn M len value fuel inputIndex fftIndex fftBuffer
    else .ok (inputIndex, fftIndex, fftBuffer)

/-- The loop of `fillWhileFft` (src/algorithm/type4_convert_to_fft.rs:124-132, 226-234), likewise. -/
def fillWhileFftOn (M : Machine) (len : Nat) (value : Nat → Except Err (Cx T)) :
    (fuel inputIndex fftIndex : Nat) → List (Cx T) → Except Err (List (Cx T))
  | 0, _, _, _ => .error .index
  | fuel + 1, inputIndex, fftIndex, fftBuffer =>
    if fftIndex < len then do
      let v ← value inputIndex
      let fftBuffer ← wr fftBuffer fftIndex v
      let inputIndex ← M.arith (inputIndex + 4)
      let fftIndex ← M.arith (fftIndex + 1)
      fillWhileFftOn M len value fuel inputIndex fftIndex fftBuffer
    else .ok fftBuffer

/-- `buffer[len - input_index - 1]`, with the arithmetic of the machine. -/
def rdMirrorOn (M : Machine) (buffer : List T) (len i : Nat) : Except Err T := do
  let a ← M.sub len i
  let j ← M.sub a 1
  rd buffer j

/-- src/algorithm/type4_convert_to_fft.rs:66-165, with the arithmetic of the machine. -/
def Type4ConvertToFftOdd.dct4On (M : Machine) (self : Type4ConvertToFftOdd T) : Proc T := fun m =>
  validateBuffers m self.len self.scratchLen fun buffer scratch => do
    let len := self.len
    let halfLen := len / 2
    let quarterLen := len / 4
    let complexScratch := intoComplex scratch
    let (fftBuffer, fftScratch) ← splitAtMut complexScratch len
    -- 77-87
    let (ii, fi, fftBuffer) ← fillWhileInputOn M len (fun i => do
      let x ← rd buffer i
      .ok (Cx.ofRe x)) (fftBuffer.length + 1) halfLen 0 fftBuffer
    -- 90-99
    let ii ← M.sub ii len
    let (ii, fi, fftBuffer) ← fillWhileInputOn M len (fun i => do
      let x ← rdMirrorOn M buffer len i
      .ok (Cx.ofRe (-x))) (fftBuffer.length + 1) ii fi fftBuffer
    -- 101-110
    let ii ← M.sub ii len
    let (ii, fi, fftBuffer) ← fillWhileInputOn M len (fun i => do
      let x ← rd buffer i
      .ok (Cx.ofRe (-x))) (fftBuffer.length + 1) ii fi fftBuffer
    -- 112-121
    let ii ← M.sub ii len
    let (ii, fi, fftBuffer) ← fillWhileInputOn M len (fun i => do
      let x ← rdMirrorOn M buffer len i
      .ok (Cx.ofRe x)) (fftBuffer.length + 1) ii fi fftBuffer
    -- 123-132
    let ii ← M.sub ii len
    let fftBuffer ← fillWhileFftOn M len (fun i => do
      let x ← rd buffer i
      .ok (Cx.ofRe x)) (fftBuffer.length + 1) ii fi fftBuffer
    -- 135
    let (fftBuffer, fftScratch) ← self.fft.process fftBuffer fftScratch
    let resultScale : T := DctNum.sqrt2 * thalf T
    let secondHalfSign : T := if len % 4 = 1 then 1 else -1
    -- 141-153
    let (buffer, outputSign) ← forRange 0 quarterLen (buffer, (1 : T)) fun i st => do
      let (buffer, outputSign) := st
      let a ← rd fftBuffer (← M.arith ((← M.arith (4 * i)) + 1))
      let fftResult := Cx.scale a (outputSign * resultScale)
      let b ← rd fftBuffer (← M.arith ((← M.arith (4 * i)) + 3))
      let nextResult := Cx.scale b (outputSign * resultScale)
      let buffer ← wr buffer (← M.arith (i * 2)) (fftResult.re + fftResult.im)
      let buffer ← wr buffer (← M.arith ((← M.arith (i * 2)) + 1)) (-nextResult.re + nextResult.im)
      let j ← M.sub len (← M.arith (i * 2))
      let j2 ← M.sub j 2
      let buffer ← wr buffer j2 ((nextResult.re + nextResult.im) * secondHalfSign)
      let j1 ← M.sub j 1
      let buffer ← wr buffer j1 ((fftResult.re - fftResult.im) * secondHalfSign)
      .ok (buffer, -outputSign)
    -- 156-164
    if len % 4 = 1 then do
      let c ← rd fftBuffer 0
      let buffer ← wr buffer halfLen (c.re * outputSign * resultScale)
      .ok (buffer, fromComplex (fftBuffer ++ fftScratch) scratch)
    else do
      let j ← M.sub len 2
      let a ← rd fftBuffer j
      let fftResult := Cx.scale a (outputSign * resultScale)
      let h1 ← M.sub halfLen 1
      let buffer ← wr buffer h1 (fftResult.re + fftResult.im)
      let buffer ← wr buffer (← M.arith (halfLen + 1)) (-fftResult.re + fftResult.im)
      let c ← rd fftBuffer 0
      let buffer ← wr buffer halfLen (-c.re * outputSign * resultScale)
      .ok (buffer, fromComplex (fftBuffer ++ fftScratch) scratch)

/-- src/algorithm/type4_convert_to_fft.rs:168-267, with the arithmetic of the machine. -/
def Type4ConvertToFftOdd.dst4On (M : Machine) (self : Type4ConvertToFftOdd T) : Proc T := fun m =>
  validateBuffers m self.len self.scratchLen fun buffer scratch => do
    let len := self.len
    let halfLen := len / 2
    let quarterLen := len / 4
    let complexScratch := intoComplex scratch
    let (fftBuffer, fftScratch) ← splitAtMut complexScratch len
    -- 179-189
    let (ii, fi, fftBuffer) ← fillWhileInputOn M len (fun i => do
      let x ← rdMirrorOn M buffer len i
      .ok (Cx.ofRe x)) (fftBuffer.length + 1) halfLen 0 fftBuffer
    -- 192-201
    let ii ← M.sub ii len
    let (ii, fi, fftBuffer) ← fillWhileInputOn M len (fun i => do
      let x ← rd buffer i
      .ok (Cx.ofRe (-x))) (fftBuffer.length + 1) ii fi fftBuffer
    -- 203-212
    let ii ← M.sub ii len
    let (ii, fi, fftBuffer) ← fillWhileInputOn M len (fun i => do
      let x ← rdMirrorOn M buffer len i
      .ok (Cx.ofRe (-x))) (fftBuffer.length + 1) ii fi fftBuffer
    -- 214-223
    let ii ← M.sub ii len
    let (ii, fi, fftBuffer) ← fillWhileInputOn M len (fun i => do
      let x ← rd buffer i
      .ok (Cx.ofRe x)) (fftBuffer.length + 1) ii fi fftBuffer
    -- 225-234
    let ii ← M.sub ii len
    let fftBuffer ← fillWhileFftOn M len (fun i => do
      let x ← rdMirrorOn M buffer len i
      .ok (Cx.ofRe x)) (fftBuffer.length + 1) ii fi fftBuffer
    -- 237
    let (fftBuffer, fftScratch) ← self.fft.process fftBuffer fftScratch
    let resultScale : T := DctNum.sqrt2 * thalf T
    let secondHalfSign : T := if len % 4 = 1 then 1 else -1
    -- 243-255
    let (buffer, outputSign) ← forRange 0 quarterLen (buffer, (1 : T)) fun i st => do
      let (buffer, outputSign) := st
      let a ← rd fftBuffer (← M.arith ((← M.arith (4 * i)) + 1))
      let fftResult := Cx.scale a (outputSign * resultScale)
      let b ← rd fftBuffer (← M.arith ((← M.arith (4 * i)) + 3))
      let nextResult := Cx.scale b (outputSign * resultScale)
      let buffer ← wr buffer (← M.arith (i * 2)) (fftResult.re + fftResult.im)
      let buffer ← wr buffer (← M.arith ((← M.arith (i * 2)) + 1)) (nextResult.re - nextResult.im)
      let j ← M.sub len (← M.arith (i * 2))
      let j2 ← M.sub j 2
      let buffer ← wr buffer j2 (-(nextResult.re + nextResult.im) * secondHalfSign)
      let j1 ← M.sub j 1
      let buffer ← wr buffer j1 ((fftResult.re - fftResult.im) * secondHalfSign)
      .ok (buffer, -outputSign)
    -- 258-266
    if len % 4 = 1 then do
      let c ← rd fftBuffer 0
      let buffer ← wr buffer halfLen (c.re * outputSign * resultScale)
      .ok (buffer, fromComplex (fftBuffer ++ fftScratch) scratch)
    else do
      let j ← M.sub len 2
      let a ← rd fftBuffer j
      let fftResult := Cx.scale a (outputSign * resultScale)
      let h1 ← M.sub halfLen 1
      let buffer ← wr buffer h1 (fftResult.re + fftResult.im)
      let buffer ← wr buffer (← M.arith (halfLen + 1)) (-fftResult.re + fftResult.im)
      let c ← rd fftBuffer 0
      let buffer ← wr buffer halfLen (c.re * outputSign * resultScale)
      .ok (buffer, fromComplex (fftBuffer ++ fftScratch) scratch)

/-- `Type4ConvertToFftOdd` behind an `Arc<dyn TransformType4>`. -/
def Type4ConvertToFftOdd.toObjOn (M : Machine) (self : Type4ConvertToFftOdd T) : Obj4 T :=
  { len := self.len, scratchLen := self.scratchLen, dct4 := self.dct4On M, dst4 := self.dst4On M }

/-- src/algorithm/type6and7_convert_to_fft.rs:62-89, with the arithmetic of the machine. -/
def Dst6And7ConvertToFft.dst6On (M : Machine) (self : Dst6And7ConvertToFft T) : Proc T := fun m =>
  validateBuffers m self.len self.scratchLen fun buffer scratch => do
    let complexScratch := intoComplex scratch
    let (fftBuffer, fftScratch) ← splitAtMut complexScratch self.innerFftLen
    -- 69-71: only the imaginary part is assigned
    let fftBuffer ← forRange 0 buffer.length fftBuffer fun i fftBuffer => do
      let x ← rd buffer i
      let c ← rd fftBuffer (← M.arith ((← M.arith (i * 2)) + 1))
      wr fftBuffer (← M.arith ((← M.arith (i * 2)) + 1)) ⟨c.re, x⟩
    let (fftBuffer, fftScratch) ← self.fft.process fftBuffer fftScratch
    let evenCount := (← M.arith (buffer.length + 1)) / 2
    let oddCount ← M.sub buffer.length evenCount
    let buffer ← forRange 0 oddCount buffer fun i buffer => do
      let c ← rd fftBuffer (← M.arith (i + 1))
      wr buffer (← M.arith ((← M.arith (i * 2)) + 1)) c.re
    let buffer ← forRange 0 evenCount buffer fun i buffer => do
      let a ← M.sub evenCount i
      let b ← M.sub a 1
      let c ← rd fftBuffer (← M.arith ((← M.arith (i + oddCount)) + 1))
      wr buffer (← M.arith (2 * b)) c.re
    .ok (buffer, fromComplex (fftBuffer ++ fftScratch) scratch)

/-- src/algorithm/type6and7_convert_to_fft.rs:92-130, with the arithmetic of the machine. -/
def Dst6And7ConvertToFft.dst7On (M : Machine) (self : Dst6And7ConvertToFft T) : Proc T := fun m =>
  validateBuffers m self.len self.scratchLen fun buffer scratch => do
    let complexScratch := intoComplex scratch
    let (fftBuffer, fftScratch) ← splitAtMut complexScratch self.innerFftLen
    let evenCount := (← M.arith (buffer.length + 1)) / 2
    let fftBuffer ← forRange 0 evenCount fftBuffer fun i fftBuffer => do
      let x ← rd buffer (← M.arith (i * 2))
      wr fftBuffer (← M.arith ((← M.arith (buffer.length + 1)) + i)) (Cx.ofRe x)
    let oddCount ← M.sub buffer.length evenCount
    let fftBuffer ← forRange 0 oddCount fftBuffer fun i fftBuffer => do
      let a ← M.sub oddCount i
      let inputIndex ← M.sub (← M.arith (2 * a)) 1
      let x ← rd buffer inputIndex
      wr fftBuffer (← M.arith ((← M.arith ((← M.arith (buffer.length + evenCount)) + 1)) + i)) (Cx.ofRe x)
    let fftBuffer ← forRange 0 buffer.length fftBuffer fun i fftBuffer => do
      let a ← M.sub fftBuffer.length 1
      let j ← M.sub a i
      let c ← rd fftBuffer j
      wr fftBuffer (← M.arith (i + 1)) (Cx.neg c)
    let (fftBuffer, fftScratch) ← self.fft.process fftBuffer fftScratch
    let buffer ← forRange 0 buffer.length buffer fun i buffer => do
      let c ← rd fftBuffer (← M.arith ((← M.arith (i * 2)) + 1))
      wr buffer i (c.im * thalf T)
    .ok (buffer, fromComplex (fftBuffer ++ fftScratch) scratch)

/-- `Dst6And7ConvertToFft` behind an `Arc<dyn Dst6And7>`. -/
def Dst6And7ConvertToFft.toObjOn (M : Machine) (self : Dst6And7ConvertToFft T) : Obj67 T :=
  { len := self.len, scratchLen := self.scratchLen, t6 := self.dst6On M, t7 := self.dst7On M }

/-! ### Split radix and type 4 of even length -/

/-- src/algorithm/type2and3_splitradix.rs:68-136, with the arithmetic of the machine. -/
def Type2And3SplitRadix.dct2On (M : Machine) (self : Type2And3SplitRadix T) : Proc T := fun m =>
  validateBuffers m self.len self.scratchLen fun buffer scratch => do
    let len := self.len
    let halfLen := len / 2
    let quarterLen := len / 4
    let (inputDct2, inputDct4) ← splitAtMut scratch halfLen
    let (inputDct4Even, inputDct4Odd) ← splitAtMut inputDct4 quarterLen
    -- 79-104
    let (inputDct2, inputDct4Even, inputDct4Odd) ←
      forRange 0 quarterLen (inputDct2, inputDct4Even, inputDct4Odd) fun i st => do
        let (inputDct2, inputDct4Even, inputDct4Odd) := st
        let inputBottom ← rdU buffer i
        let a ← M.sub len i
        let top ← M.sub a 1
        let inputTop ← rdU buffer top
        let b ← M.sub halfLen i
        let hb ← M.sub b 1
        let inputHalfBottom ← rdU buffer hb
        let inputHalfTop ← rdU buffer (← M.arith (halfLen + i))
        let inputDct2 ← wrU inputDct2 i (inputTop + inputBottom)
        let inputDct2 ← wrU inputDct2 hb (inputHalfBottom + inputHalfTop)
        let lowerDct4 := inputBottom - inputTop
        let upperDct4 := inputHalfBottom - inputHalfTop
        let twiddle ← rdU self.twiddles i
        let cosInput := lowerDct4 * twiddle.re + upperDct4 * twiddle.im
        let sinInput := upperDct4 * twiddle.re - lowerDct4 * twiddle.im
        let inputDct4Even ← wrU inputDct4Even i cosInput
        let c ← M.sub quarterLen i
        let q ← M.sub c 1
        let inputDct4Odd ← wrU inputDct4Odd q (if i % 2 = 0 then sinInput else -sinInput)
        .ok (inputDct2, inputDct4Even, inputDct4Odd)
    -- 107-111: the original buffer serves as scratch space
    let (inputDct2, buffer) ← callProc self.halfDct.dct2 inputDct2 buffer
    let (inputDct4Even, buffer) ← callProc self.quarterDct.dct2 inputDct4Even buffer
    let (inputDct4Odd, buffer) ← callProc self.quarterDct.dct2 inputDct4Odd buffer
    -- 115-117
    let x ← rdU inputDct2 0
    let buffer ← wrU buffer 0 x
    let x ← rdU inputDct4Even 0
    let buffer ← wrU buffer 1 x
    let x ← rdU inputDct2 1
    let buffer ← wrU buffer 2 x
    -- 119-132
    let buffer ← forRange 1 quarterLen buffer fun i buffer => do
      let dct4CosOutput ← rdU inputDct4Even i
      let q ← M.sub quarterLen i
      let o ← rdU inputDct4Odd q
      let dct4SinOutput := if (← M.arith (i + quarterLen)) % 2 = 0 then -o else o
      let k1 ← M.sub (← M.arith (i * 4)) 1
      let buffer ← wrU buffer k1 (dct4CosOutput + dct4SinOutput)
      let x ← rdU inputDct2 (← M.arith (i * 2))
      let buffer ← wrU buffer (← M.arith (i * 4)) x
      let buffer ← wrU buffer (← M.arith ((← M.arith (i * 4)) + 1)) (dct4CosOutput - dct4SinOutput)
      let x ← rdU inputDct2 (← M.arith ((← M.arith (i * 2)) + 1))
      wrU buffer (← M.arith ((← M.arith (i * 4)) + 2)) x
    -- 134
    let last ← M.sub len 1
    let x ← rdU inputDct4Odd 0
    let buffer ← wrU buffer last (-x)
    .ok (buffer, inputDct2 ++ (inputDct4Even ++ inputDct4Odd))

/-- src/algorithm/type2and3_splitradix.rs:150-222, with the arithmetic of the machine. -/
def Type2And3SplitRadix.dct3On (M : Machine) (self : Type2And3SplitRadix T) : Proc T := fun m =>
  validateBuffers m self.len self.scratchLen fun buffer scratch => do
    let len := buffer.length
    let halfLen := len / 2
    let quarterLen := len / 4
    let (evens, odds) ← splitAtMut scratch halfLen
    let (n1, n3) ← splitAtMut odds quarterLen
    -- 164-167
    let b0 ← rd buffer 0
    let evens ← wr evens 0 b0
    let b2 ← rd buffer 2
    let evens ← wr evens 1 b2
    let b1 ← rd buffer 1
    let n1 ← wr n1 0 (b1 * ttwo T)
    let last ← M.sub len 1
    let bl ← rd buffer last
    let n3 ← wr n3 0 (bl * ttwo T)
    -- 170-184
    let (evens, n1, n3) ← forRange 1 quarterLen (evens, n1, n3) fun i st => do
      let (evens, n1, n3) := st
      let k ← M.arith (4 * i)
      let x ← rdU buffer k
      let evens ← wrU evens (← M.arith (i * 2)) x
      let x ← rdU buffer (← M.arith (k + 2))
      let evens ← wrU evens (← M.arith ((← M.arith (i * 2)) + 1)) x
      let km1 ← M.sub k 1
      let x ← rdU buffer km1
      let y ← rdU buffer (← M.arith (k + 1))
      let n1 ← wrU n1 i (x + y)
      let q ← M.sub quarterLen i
      let n3 ← wrU n3 q (x - y)
      .ok (evens, n1, n3)
    -- 187-192
    let (evens, buffer) ← callProc self.halfDct.dct3 evens buffer
    let (n1, buffer) ← callProc self.quarterDct.dct3 n1 buffer
    let (n3, buffer) ← callProc self.quarterDct.dct3 n3 buffer
    -- 197-221
    let buffer ← forRange 0 quarterLen buffer fun i buffer => do
      let twiddle ← rd self.twiddles i
      let cosineValue ← rd n1 i
      let s ← rd n3 i
      let sineValue := if i % 2 = 0 then s else -s
      let lowerDct4 := cosineValue * twiddle.re + sineValue * twiddle.im
      let upperDct4 := cosineValue * twiddle.im - sineValue * twiddle.re
      let lowerDct3 ← rdU evens i
      let a ← M.sub halfLen i
      let hb ← M.sub a 1
      let upperDct3 ← rdU evens hb
      let buffer ← wrU buffer i (lowerDct3 + lowerDct4)
      let b ← M.sub len i
      let top ← M.sub b 1
      let buffer ← wrU buffer top (lowerDct3 - lowerDct4)
      let buffer ← wrU buffer hb (upperDct3 + upperDct4)
      wrU buffer (← M.arith (halfLen + i)) (upperDct3 - upperDct4)
    .ok (buffer, evens ++ (n1 ++ n3))

/-- `negOdds` (src/algorithm/type2and3_splitradix.rs:140-142 and 230-232) with the arithmetic of the machine. -/
def negOddsOn (M : Machine) (cnt : Nat) (buf : List T) : Except (Err × List T) (List T) :=
  (List.range cnt).foldlM (fun b i =>
    match (do let d ← M.arith (2 * i); M.arith (d + 1)) with
    | .error e => .error (e, b)
    | .ok j =>
      match b[j]? with
      | some v => .ok (b.set j (-v))
      | none => .error (.index, b)) buf

/-- src/algorithm/type2and3_splitradix.rs:139-147: the buffer is modified before any size check, with the arithmetic of the machine. -/
def Type2And3SplitRadix.dst2On (M : Machine) (self : Type2And3SplitRadix T) : Proc T := fun m =>
  match negOddsOn M (self.len / 2) m.buf with
  | .error (e, b) => .panic e (some ⟨b, m.scr⟩)
  | .ok b =>
    match self.dct2On M ⟨b, m.scr⟩ with
    | .ok m' => .ok ⟨m'.buf.reverse, m'.scr⟩
    | .panic e m' => .panic e m'

/-- src/algorithm/type2and3_splitradix.rs:225-233: the buffer is reversed before any size check, with the arithmetic of the machine. -/
def Type2And3SplitRadix.dst3On (M : Machine) (self : Type2And3SplitRadix T) : Proc T := fun m =>
  match self.dct3On M ⟨m.buf.reverse, m.scr⟩ with
  | .ok m' =>
    match negOddsOn M (self.len / 2) m'.buf with
    | .error (e, b) => .panic e (some ⟨b, m'.scr⟩)
    | .ok b => .ok ⟨b, m'.scr⟩
  | .panic e m' => .panic e m'

/-- `Type2And3SplitRadix` behind an `Arc<dyn TransformType2And3>`. -/
def Type2And3SplitRadix.toObjOn (M : Machine) (self : Type2And3SplitRadix T) : Obj23 T :=
  { len := self.len, scratchLen := self.scratchLen,
    dct2 := self.dct2On M, dct3 := self.dct3On M, dst2 := self.dst2On M, dst3 := self.dst3On M }

/-- src/algorithm/type4_convert_to_type3.rs:60-99, with the arithmetic of the machine. -/
def Type4ConvertToType3Even.dct4On (M : Machine) (self : Type4ConvertToType3Even T) : Proc T := fun m =>
  validateBuffers m self.len self.scratchLen fun buffer scratch => do
    let (selfScratch, extraScratch) ← splitAtMut scratch self.len
    let len := self.len
    let innerLen := len / 2
    let (outputLeft, outputRight) ← splitAtMut selfScratch innerLen
    let b0 ← rd buffer 0
    let outputLeft ← wr outputLeft 0 (b0 * ttwo T)
    let (outputLeft, outputRight) ← forRange 1 innerLen (outputLeft, outputRight) fun k st => do
      let (outputLeft, outputRight) := st
      let k1 ← M.sub (← M.arith (2 * k)) 1
      let x ← rd buffer k1
      let y ← rd buffer (← M.arith (2 * k))
      let outputLeft ← wr outputLeft k (x + y)
      let r ← M.sub k 1
      let outputRight ← wr outputRight r (x - y)
      .ok (outputLeft, outputRight)
    let il ← M.sub innerLen 1
    let l1 ← M.sub len 1
    let bl ← rd buffer l1
    let outputRight ← wr outputRight il (bl * ttwo T)
    let (outputLeft, outputRight, buffer, extraScratch) ←
      runInnerPair self.innerDct.dct3 self.innerDct.dst3 outputLeft outputRight buffer extraScratch
    let buffer ← forRange 0 innerLen buffer fun k buffer => do
      let twiddle ← rd self.twiddles k
      let cosValue ← rd outputLeft k
      let sinValue ← rd outputRight k
      let buffer ← wr buffer k (cosValue * twiddle.re + sinValue * twiddle.im)
      let a ← M.sub len 1
      let j ← M.sub a k
      wr buffer j (cosValue * twiddle.im - sinValue * twiddle.re)
    .ok (buffer, (outputLeft ++ outputRight) ++ extraScratch)

/-- src/algorithm/type4_convert_to_type3.rs:102-141, with the arithmetic of the machine. -/
def Type4ConvertToType3Even.dst4On (M : Machine) (self : Type4ConvertToType3Even T) : Proc T := fun m =>
  validateBuffers m self.len self.scratchLen fun buffer scratch => do
    let (selfScratch, extraScratch) ← splitAtMut scratch self.len
    let len := self.len
    let innerLen := len / 2
    let (outputLeft, outputRight) ← splitAtMut selfScratch innerLen
    let b0 ← rd buffer 0
    let outputRight ← wr outputRight 0 (b0 * ttwo T)
    let (outputLeft, outputRight) ← forRange 1 innerLen (outputLeft, outputRight) fun k st => do
      let (outputLeft, outputRight) := st
      let k1 ← M.sub (← M.arith (2 * k)) 1
      let x ← rd buffer k1
      let y ← rd buffer (← M.arith (2 * k))
      let r ← M.sub k 1
      let outputLeft ← wr outputLeft r (x + y)
      let outputRight ← wr outputRight k (y - x)
      .ok (outputLeft, outputRight)
    let il ← M.sub innerLen 1
    let l1 ← M.sub len 1
    let bl ← rd buffer l1
    let outputLeft ← wr outputLeft il (bl * ttwo T)
    let (outputLeft, outputRight, buffer, extraScratch) ←
      runInnerPair self.innerDct.dst3 self.innerDct.dct3 outputLeft outputRight buffer extraScratch
    let buffer ← forRange 0 innerLen buffer fun k buffer => do
      let twiddle ← rd self.twiddles k
      let cosValue ← rd outputLeft k
      let sinValue ← rd outputRight k
      let buffer ← wr buffer k (cosValue * twiddle.re + sinValue * twiddle.im)
      let a ← M.sub len 1
      let j ← M.sub a k
      wr buffer j (sinValue * twiddle.re - cosValue * twiddle.im)
    .ok (buffer, (outputLeft ++ outputRight) ++ extraScratch)

/-- `Type4ConvertToType3Even` behind an `Arc<dyn TransformType4>`. -/
def Type4ConvertToType3Even.toObjOn (M : Machine) (self : Type4ConvertToType3Even T) : Obj4 T :=
  { len := self.len, scratchLen := self.scratchLen, dct4 := self.dct4On M, dst4 := self.dst4On M }

/-! ### MDCT -/

/-- src/mdct/mdct_naive.rs:122-185, with the arithmetic of the machine. -/
def MdctNaive.imdctOn (M : Machine) (self : MdctNaive T) (input : List T) : IMem T → Outcome (IMem T) := fun m =>
  validateImdct input m self.len self.scratchLen fun outputA outputB scratch => do
    let inputLen := input.length
    let halfInput := inputLen / 2
    let outputA ← forRange 0 inputLen outputA fun k outputA => do
      let twiddleIndex ← M.arith (halfInput + k)
      let twiddleStride ← M.arith ((← M.arith (inputLen + (← M.arith (k * 2)))) + 1)
      let st ← mdctLoopOn M self.twiddles input.length twiddleStride (fun i twiddle => do
        let x ← rd input i
        .ok (x * twiddle)) 0 twiddleIndex
      let a ← rd outputA k
      let w ← rd self.window k
      wr outputA k (a + st.1 * w)
    let outputB ← forRange 0 inputLen outputB fun k outputB => do
      let twiddleK ← if k < inputLen / 2 then .ok k else do
        let a ← M.sub inputLen k
        M.sub a 1
      let a ← M.sub self.twiddles.length (← M.arith (inputLen * 2))
      let b ← M.sub (← M.arith (a + halfInput)) twiddleK
      let twiddleIndex ← M.sub b 1
      let c ← M.sub inputLen 1
      let twiddleStride ← M.sub c (← M.arith (twiddleK * 2))
      let st ← mdctLoopOn M self.twiddles input.length twiddleStride (fun i twiddle => do
        let x ← rd input i
        .ok (x * twiddle)) 0 twiddleIndex
      let o ← rd outputB k
      let w ← rd self.window (← M.arith (k + inputLen))
      wr outputB k (o + st.1 * w)
    .ok (outputA, outputB, scratch)

/-- `MdctNaive` behind an `Arc<dyn Mdct>`. -/
def MdctNaive.toObjOn (M : Machine) (self : MdctNaive T) : MdctObj T :=
  { len := self.len, scratchLen := self.scratchLen, mdct := self.mdctOn M, imdct := self.imdctOn M }

end RustDct
