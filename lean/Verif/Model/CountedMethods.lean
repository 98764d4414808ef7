import Verif.Model.Counted
/-!
# Counting steps: the methods

The text of `Verif/Model/Naive.lean`, `ConvertFft.lean`, `Butterflies.lean`, `SplitRadix.lean` and `Mdct.lean` with the primitives of
`Verif/Model/Counted.lean`.  Where the code binds an expression to a variable (`let`), the operations in it are counted once (`arith`).
An instance that contains others gets their counting versions as arguments (`half`, `quarter`, `inner`), one that contains an FFT the
number of steps of the FFT (`cost`).
-/

namespace RustDct.Counted

set_option linter.unusedVariables false
set_option linter.constructorNameAsVariable false

variable {T : Type} {F : Type} [F64 F] [DctNum T F]

/-! ## `Verif/Model/Naive.lean` -/

/-- The inner accumulation loop of all naive algorithms.  The Rust text is repeated in every method
(e.g. src/algorithm/type1_naive.rs:63-72):
`for i in lo..scratch.len() { let twiddle = self.twiddles[twiddle_index]; *cell = f(*cell, scratch[i], twiddle);
twiddle_index += twiddle_stride; if twiddle_index >= self.twiddles.len() { twiddle_index -= self.twiddles.len(); } }`.
The loop state is (output cell, twiddle index). Simplification: the output cell is kept in a local and
stored into the buffer after the loop; nothing else reads the buffer meanwhile. -/
def strideLoop {T W V : Type} [Cell W V] (twiddles : List W) (scratch : List T) (twiddleStride : Nat)
    (f : Cn T → Cn T → V → Cn T) (lo : Nat) (cell : Cn T) (twiddleIndex : Nat) : Run (Cn T × Nat) :=
  forRange lo scratch.length (cell, twiddleIndex) fun i st => do
    let twiddle ← rd twiddles st.2
    let x ← rd scratch i
    let cell ← arith (f st.1 x twiddle)
    let twiddleIndex := st.2 + twiddleStride
    if twiddleIndex ≥ twiddles.length then
      pure (cell, twiddleIndex - twiddles.length)
    else
      pure (cell, twiddleIndex)

/-- src/algorithm/type1_naive.rs:48-74. -/
def Dct1Naive.dct1 (self : Dct1Naive T) : CProc T := fun m =>
  validateBuffers m self.len self.scratchLen fun buffer scratch => do
    let scratch ← copyFromSlice scratch buffer
    let s0 ← rd scratch 0
    let scratch ← wr scratch 0 (s0 * thalf (Cn T))
    let last ← csub self.len 1
    let sl ← rd scratch last
    let scratch ← wr scratch last (sl * thalf (Cn T))
    let buffer ← forRange 0 buffer.length buffer fun k buffer => do
      let s0 ← rd scratch 0
      let twiddleStride := k
      let r ← strideLoop self.twiddles scratch twiddleStride (fun c x w => c + x * w) 1 s0 (twiddleStride)
      wr buffer k r.1
    pure (buffer, scratch)

/-- src/algorithm/type1_naive.rs:124-146. -/
def Dst1Naive.dst1 (self : Dst1Naive T) : CProc T := fun m =>
  validateBuffers m self.len self.scratchLen fun buffer scratch => do
    let scratch ← copyFromSlice scratch buffer
    let buffer ← forRange 0 buffer.length buffer fun k buffer => do
      let twiddleStride := k + 1
      let r ← strideLoop self.twiddles scratch twiddleStride (fun c x w => c + x * w) 0 0 (twiddleStride)
      wr buffer k r.1
    pure (buffer, scratch)

/-- src/algorithm/type2and3_naive.rs:49-71. -/
def Type2And3Naive.dct2 (self : Type2And3Naive T) : CProc T := fun m =>
  validateBuffers m self.len self.scratchLen fun buffer scratch => do
    let scratch ← copyFromSlice scratch buffer
    let buffer ← forRange 0 buffer.length buffer fun k buffer => do
      let twiddleStride := k * 2
      let r ← strideLoop self.twiddles scratch twiddleStride (fun c x w => c + x * w.re) 0 0 (k)
      wr buffer k r.1
    pure (buffer, scratch)

/-- src/algorithm/type2and3_naive.rs:74-96. -/
def Type2And3Naive.dst2 (self : Type2And3Naive T) : CProc T := fun m =>
  validateBuffers m self.len self.scratchLen fun buffer scratch => do
    let scratch ← copyFromSlice scratch buffer
    let buffer ← forRange 0 buffer.length buffer fun k buffer => do
      let twiddleStride := (k + 1) * 2
      let r ← strideLoop self.twiddles scratch twiddleStride (fun c x w => c - x * w.im) 0 0 (k + 1)
      wr buffer k r.1
    pure (buffer, scratch)

/-- src/algorithm/type2and3_naive.rs:99-123. -/
def Type2And3Naive.dct3 (self : Type2And3Naive T) : CProc T := fun m =>
  validateBuffers m self.len self.scratchLen fun buffer scratch => do
    let scratch ← copyFromSlice scratch buffer
    let s0 ← rd scratch 0
    let halfFirst ← arith (thalf (Cn T) * s0)
    let buffer ← forRange 0 buffer.length buffer fun k buffer => do
      let twiddleStride := k * 2 + 1
      let r ← strideLoop self.twiddles scratch twiddleStride (fun c x w => c + x * w.re) 1 halfFirst (twiddleStride)
      wr buffer k r.1
    pure (buffer, scratch)

/-- src/algorithm/type2and3_naive.rs:126-151. -/
def Type2And3Naive.dst3 (self : Type2And3Naive T) : CProc T := fun m =>
  validateBuffers m self.len self.scratchLen fun buffer scratch => do
    let scratch ← copyFromSlice scratch buffer
    let last ← csub scratch.length 1
    let sl ← rd scratch last
    let scratch ← wr scratch last (sl * thalf (Cn T))
    let buffer ← forRange 0 buffer.length buffer fun k buffer => do
      let twiddleStride := k * 2 + 1
      let r ← strideLoop self.twiddles scratch twiddleStride (fun c x w => c - x * w.im) 0 0 (twiddleStride)
      wr buffer k r.1
    pure (buffer, scratch)

/-- src/algorithm/type4_naive.rs:43-65. -/
def Type4Naive.dct4 (self : Type4Naive T) : CProc T := fun m =>
  validateBuffers m self.len self.scratchLen fun buffer scratch => do
    let scratch ← copyFromSlice scratch buffer
    let buffer ← forRange 0 buffer.length buffer fun k buffer => do
      let twiddleStride := k * 2 + 1
      let r ← strideLoop self.twiddles scratch twiddleStride (fun c x w => c + x * w.re) 0 0 (k)
      wr buffer k r.1
    pure (buffer, scratch)

/-- src/algorithm/type4_naive.rs:68-90. -/
def Type4Naive.dst4 (self : Type4Naive T) : CProc T := fun m =>
  validateBuffers m self.len self.scratchLen fun buffer scratch => do
    let scratch ← copyFromSlice scratch buffer
    let buffer ← forRange 0 buffer.length buffer fun k buffer => do
      let twiddleStride := k * 2 + 1
      let r ← strideLoop self.twiddles scratch twiddleStride (fun c x w => c - x * w.im) 0 0 (k)
      wr buffer k r.1
    pure (buffer, scratch)

/-- src/algorithm/type5_naive.rs:44-69. -/
def Dct5Naive.dct5 (self : Dct5Naive T) : CProc T := fun m =>
  validateBuffers m self.len self.scratchLen fun buffer scratch => do
    let scratch ← copyFromSlice scratch buffer
    let s0 ← rd scratch 0
    let scratch ← wr scratch 0 (s0 * thalf (Cn T))
    let total ← sumSlice scratch
    let buffer ← wr buffer 0 total
    let buffer ← forRange 1 buffer.length buffer fun k buffer => do
      let s0 ← rd scratch 0
      let twiddleStride := k
      let r ← strideLoop self.twiddles scratch twiddleStride (fun c x w => c + x * w) 1 s0 (twiddleStride)
      wr buffer k r.1
    pure (buffer, scratch)

/-- src/algorithm/type5_naive.rs:118-140. -/
def Dst5Naive.dst5 (self : Dst5Naive T) : CProc T := fun m =>
  validateBuffers m self.len self.scratchLen fun buffer scratch => do
    let scratch ← copyFromSlice scratch buffer
    let buffer ← forRange 0 buffer.length buffer fun k buffer => do
      let twiddleStride := k + 1
      let r ← strideLoop self.twiddles scratch twiddleStride (fun c x w => c + x * w) 0 0 (twiddleStride)
      wr buffer k r.1
    pure (buffer, scratch)

/-- src/algorithm/type6and7_naive.rs:44-69. -/
def Dct6And7Naive.dct6 (self : Dct6And7Naive T) : CProc T := fun m =>
  validateBuffers m self.len self.scratchLen fun buffer scratch => do
    let scratch ← copyFromSlice scratch buffer
    let last ← csub scratch.length 1
    let sl ← rd scratch last
    let scratch ← wr scratch last (sl * thalf (Cn T))
    let total ← sumSlice scratch
    let buffer ← wr buffer 0 total
    let buffer ← forRange 1 buffer.length buffer fun k buffer => do
      let twiddleStride := k * 2
      let r ← strideLoop self.twiddles scratch twiddleStride (fun c x w => c + x * w) 0 0 (k)
      wr buffer k r.1
    pure (buffer, scratch)

/-- src/algorithm/type6and7_naive.rs:72-96. -/
def Dct6And7Naive.dct7 (self : Dct6And7Naive T) : CProc T := fun m =>
  validateBuffers m self.len self.scratchLen fun buffer scratch => do
    let scratch ← copyFromSlice scratch buffer
    let s0 ← rd scratch 0
    let scratch ← wr scratch 0 (s0 * thalf (Cn T))
    let buffer ← forRange 0 buffer.length buffer fun k buffer => do
      let s0 ← rd scratch 0
      let twiddleStride := k * 2 + 1
      let r ← strideLoop self.twiddles scratch twiddleStride (fun c x w => c + x * w) 1 s0 (twiddleStride)
      wr buffer k r.1
    pure (buffer, scratch)

/-- src/algorithm/type6and7_naive.rs:147-169. -/
def Dst6And7Naive.dst6 (self : Dst6And7Naive T) : CProc T := fun m =>
  validateBuffers m self.len self.scratchLen fun buffer scratch => do
    let scratch ← copyFromSlice scratch buffer
    let buffer ← forRange 0 buffer.length buffer fun k buffer => do
      let twiddleStride := (k + 1) * 2
      let r ← strideLoop self.twiddles scratch twiddleStride (fun c x w => c + x * w) 0 0 (k + 1)
      wr buffer k r.1
    pure (buffer, scratch)

/-- src/algorithm/type6and7_naive.rs:172-194. -/
def Dst6And7Naive.dst7 (self : Dst6And7Naive T) : CProc T := fun m =>
  validateBuffers m self.len self.scratchLen fun buffer scratch => do
    let scratch ← copyFromSlice scratch buffer
    let buffer ← forRange 0 buffer.length buffer fun k buffer => do
      let twiddleStride := k * 2 + 1
      let r ← strideLoop self.twiddles scratch twiddleStride (fun c x w => c + x * w) 0 0 (twiddleStride)
      wr buffer k r.1
    pure (buffer, scratch)

/-- src/algorithm/type8_naive.rs:39-61. -/
def Dct8Naive.dct8 (self : Dct8Naive T) : CProc T := fun m =>
  validateBuffers m self.len self.scratchLen fun buffer scratch => do
    let scratch ← copyFromSlice scratch buffer
    let buffer ← forRange 0 buffer.length buffer fun k buffer => do
      let twiddleStride := k * 2 + 1
      let r ← strideLoop self.twiddles scratch twiddleStride (fun c x w => c + x * w) 0 0 (k)
      wr buffer k r.1
    pure (buffer, scratch)

/-- src/algorithm/type8_naive.rs:108-132. -/
def Dst8Naive.dst8 (self : Dst8Naive T) : CProc T := fun m =>
  validateBuffers m self.len self.scratchLen fun buffer scratch => do
    let scratch ← copyFromSlice scratch buffer
    let last ← csub scratch.length 1
    let sl ← rd scratch last
    let scratch ← wr scratch last (sl * thalf (Cn T))
    let buffer ← forRange 0 buffer.length buffer fun k buffer => do
      let twiddleStride := k * 2 + 1
      let r ← strideLoop self.twiddles scratch twiddleStride (fun c x w => c + x * w) 0 0 (k)
      wr buffer k r.1
    pure (buffer, scratch)


/-! ## `Verif/Model/ConvertFft.lean` -/

/-- src/algorithm/type1_convert_to_fft.rs:65-97. -/
def Dct1ConvertToFft.dct1 (cost : Fft T → Nat) (self : Dct1ConvertToFft T) : CProc T := fun m =>
  validateBuffers m self.len self.scratchLen fun buffer scratch => do
    let complexScratch := intoComplex scratch
    let (fftBuffer, fftScratch) ← splitAtMut complexScratch self.innerFftLen
    -- 71-76: buffer.iter().zip(&mut fft_buffer[..buffer.len()])
    let (front, back) ← splitAtMut fftBuffer buffer.length
    let front ← assignZip Cx.ofRe front buffer
    -- 77-87: buffer.iter().rev().skip(1).zip(&mut fft_buffer[buffer.len()..])
    let back ← assignZip Cx.ofRe back (buffer.reverse.drop 1)
    let (fftBuffer, fftScratch) ← fftCall cost self.fft (front ++ back) fftScratch
    -- 93-96
    let buffer ← assignZip (fun c : Cx (Cn T) => c.re * thalf (Cn T)) buffer fftBuffer
    pure (buffer, fromComplex (fftBuffer ++ fftScratch) scratch)

/-- src/algorithm/type1_convert_to_fft.rs:165-189. -/
def Dst1ConvertToFft.dst1 (cost : Fft T → Nat) (self : Dst1ConvertToFft T) : CProc T := fun m =>
  validateBuffers m self.len self.scratchLen fun buffer scratch => do
    let complexScratch := intoComplex scratch
    let (fftBuffer, fftScratch) ← splitAtMut complexScratch self.innerFftLen
    -- 172-174: buffer.iter().zip(fft_buffer.iter_mut().skip(1))
    let fftBuffer ← (fun l => fftBuffer.take 1 ++ l) <$> assignZip Cx.ofRe (fftBuffer.drop 1) buffer
    -- 177-179: buffer.iter().zip(fft_buffer.iter_mut().rev())
    let fftBuffer ← List.reverse <$> assignZip (fun x => Cx.ofRe (-x)) fftBuffer.reverse buffer
    let (fftBuffer, fftScratch) ← fftCall cost self.fft fftBuffer fftScratch
    -- 185-188: fft_buffer.iter().rev().zip(buffer.iter_mut())
    let buffer ← assignZip (fun c : Cx (Cn T) => c.im * thalf (Cn T)) buffer fftBuffer.reverse
    pure (buffer, fromComplex (fftBuffer ++ fftScratch) scratch)

/-- src/algorithm/type2and3_convert_to_fft.rs:69-102. -/
def Type2And3ConvertToFft.dct2 (cost : Fft T → Nat) (self : Type2And3ConvertToFft T) : CProc T := fun m =>
  validateBuffers m self.len self.scratchLen fun buffer scratch => do
    let complexScratch := intoComplex scratch
    let (fftBuffer, fftScratch) ← splitAtMut complexScratch self.len
    let evenEnd := (buffer.length + 1) / 2
    let fftBuffer ← forRange 0 evenEnd fftBuffer fun i fftBuffer => do
      let x ← rd buffer (i * 2)
      wr fftBuffer i (Cx.ofRe x)
    let fftBuffer ←
      if self.len > 1 then do
        let a ← csub self.len 1
        let oddEnd ← csub a (self.len % 2)
        forRange 0 (self.len / 2) fftBuffer fun i fftBuffer => do
          let j ← csub oddEnd (2 * i)
          let x ← rd buffer j
          wr fftBuffer (evenEnd + i) (Cx.ofRe x)
      else pure fftBuffer
    let (fftBuffer, fftScratch) ← fftCall cost self.fft fftBuffer fftScratch
    let buffer ← assignZip (fun p : Cx (Cn T) × Cx (Cn T) => reOf (Cx.mul p.1 p.2)) buffer (fftBuffer.zip self.twiddles)
    pure (buffer, fromComplex (fftBuffer ++ fftScratch) scratch)

/-- src/algorithm/type2and3_convert_to_fft.rs:105-138. -/
def Type2And3ConvertToFft.dst2 (cost : Fft T → Nat) (self : Type2And3ConvertToFft T) : CProc T := fun m =>
  validateBuffers m self.len self.scratchLen fun buffer scratch => do
    let complexScratch := intoComplex scratch
    let (fftBuffer, fftScratch) ← splitAtMut complexScratch self.len
    let evenEnd := (buffer.length + 1) / 2
    let fftBuffer ← forRange 0 evenEnd fftBuffer fun i fftBuffer => do
      let x ← rd buffer (i * 2)
      wr fftBuffer i (Cx.ofRe x)
    let fftBuffer ←
      if self.len > 1 then do
        let a ← csub self.len 1
        let oddEnd ← csub a (self.len % 2)
        forRange 0 (self.len / 2) fftBuffer fun i fftBuffer => do
          let j ← csub oddEnd (2 * i)
          let x ← rd buffer j
          wr fftBuffer (evenEnd + i) (Cx.ofRe (-x))
      else pure fftBuffer
    let (fftBuffer, fftScratch) ← fftCall cost self.fft fftBuffer fftScratch
    let buffer ← List.reverse <$> assignZip (fun p : Cx (Cn T) × Cx (Cn T) => reOf (Cx.mul p.1 p.2)) buffer.reverse
      (fftBuffer.zip self.twiddles)
    pure (buffer, fromComplex (fftBuffer ++ fftScratch) scratch)

/-- src/algorithm/type2and3_convert_to_fft.rs:141-181.  The loop at 152-163 runs over
`fft_buffer.iter_mut().zip(twiddles).enumerate().skip(1)`, i.e. over `i` from 1 to the shorter length. -/
def Type2And3ConvertToFft.dct3 (cost : Fft T → Nat) (self : Type2And3ConvertToFft T) : CProc T := fun m =>
  validateBuffers m self.len self.scratchLen fun buffer scratch => do
    let complexScratch := intoComplex scratch
    let (fftBuffer, fftScratch) ← splitAtMut complexScratch self.len
    let b0 ← rd buffer 0
    let fftBuffer ← wr fftBuffer 0 (Cx.ofRe (b0 * thalf (Cn T)))
    let fftBuffer ← forRange 1 (min fftBuffer.length self.twiddles.length) fftBuffer fun i fftBuffer => do
      let twiddle ← rd self.twiddles i
      let re ← rd buffer i
      let j ← csub buffer.length i
      let im ← rd buffer j
      wr fftBuffer i (Cx.scale (Cx.mul ⟨re, im⟩ twiddle) (thalf (Cn T)))
    let (fftBuffer, fftScratch) ← fftCall cost self.fft fftBuffer fftScratch
    let evenEnd := (buffer.length + 1) / 2
    let buffer ← forRange 0 evenEnd buffer fun i buffer => do
      let c ← rd fftBuffer i
      wr buffer (i * 2) c.re
    let buffer ←
      if self.len > 1 then do
        let a ← csub self.len 1
        let oddEnd ← csub a (self.len % 2)
        forRange 0 (self.len / 2) buffer fun i buffer => do
          let c ← rd fftBuffer (i + evenEnd)
          let j ← csub oddEnd (2 * i)
          wr buffer j c.re
      else pure buffer
    pure (buffer, fromComplex (fftBuffer ++ fftScratch) scratch)

/-- src/algorithm/type2and3_convert_to_fft.rs:184-224. -/
def Type2And3ConvertToFft.dst3 (cost : Fft T → Nat) (self : Type2And3ConvertToFft T) : CProc T := fun m =>
  validateBuffers m self.len self.scratchLen fun buffer scratch => do
    let complexScratch := intoComplex scratch
    let (fftBuffer, fftScratch) ← splitAtMut complexScratch self.len
    let last ← csub buffer.length 1
    let bl ← rd buffer last
    let fftBuffer ← wr fftBuffer 0 (Cx.ofRe (bl * thalf (Cn T)))
    let fftBuffer ← forRange 1 (min fftBuffer.length self.twiddles.length) fftBuffer fun i fftBuffer => do
      let twiddle ← rd self.twiddles i
      let a ← csub buffer.length i
      let j ← csub a 1
      let re ← rd buffer j
      let i1 ← csub i 1
      let im ← rd buffer i1
      wr fftBuffer i (Cx.scale (Cx.mul ⟨re, im⟩ twiddle) (thalf (Cn T)))
    let (fftBuffer, fftScratch) ← fftCall cost self.fft fftBuffer fftScratch
    let evenEnd := (self.len + 1) / 2
    let buffer ← forRange 0 evenEnd buffer fun i buffer => do
      let c ← rd fftBuffer i
      wr buffer (i * 2) c.re
    let buffer ←
      if self.len > 1 then do
        let a ← csub self.len 1
        let oddEnd ← csub a (self.len % 2)
        forRange 0 (self.len / 2) buffer fun i buffer => do
          let c ← rd fftBuffer (i + evenEnd)
          let j ← csub oddEnd (2 * i)
          wr buffer j (-c.re)
      else pure buffer
    pure (buffer, fromComplex (fftBuffer ++ fftScratch) scratch)

/-- `while input_index < len { fft_buffer[fft_index] = value(input_index); input_index += 4; fft_index += 1; }`,
the loop repeated at src/algorithm/type4_convert_to_fft.rs:79-87, 91-99, 102-110, 113-121 (DCT4) and 181-189,
193-201, 204-212, 215-223 (DST4) with different `value` expressions. -/
def fillWhileInput (len : Nat) (value : Nat → Run (Cx (Cn T))) (inputIndex fftIndex : Nat)
    (fftBuffer : List (Cx T)) : Run (Nat × Nat × List (Cx T)) :=
  if inputIndex < len then do
    let v ← value inputIndex
    let fftBuffer ← wr fftBuffer fftIndex v
    fillWhileInput len value (inputIndex + 4) (fftIndex + 1) fftBuffer
  else pure (inputIndex, fftIndex, fftBuffer)
termination_by len - inputIndex

/-- `while fft_index < len { ... }` with the same body, src/algorithm/type4_convert_to_fft.rs:124-132, 226-234. -/
def fillWhileFft (len : Nat) (value : Nat → Run (Cx (Cn T))) (inputIndex fftIndex : Nat)
    (fftBuffer : List (Cx T)) : Run (List (Cx T)) :=
  if fftIndex < len then do
    let v ← value inputIndex
    let fftBuffer ← wr fftBuffer fftIndex v
    fillWhileFft len value (inputIndex + 4) (fftIndex + 1) fftBuffer
  else pure fftBuffer
termination_by len - fftIndex

/-- `buffer[len - input_index - 1]`. -/
def rdMirror (buffer : List T) (len i : Nat) : Run (Cn T) := do
  let a ← csub len i
  let j ← csub a 1
  rd buffer j

/-- src/algorithm/type4_convert_to_fft.rs:66-165. -/
def Type4ConvertToFftOdd.dct4 (cost : Fft T → Nat) (self : Type4ConvertToFftOdd T) : CProc T := fun m =>
  validateBuffers m self.len self.scratchLen fun buffer scratch => do
    let len := self.len
    let halfLen := len / 2
    let quarterLen := len / 4
    let complexScratch := intoComplex scratch
    let (fftBuffer, fftScratch) ← splitAtMut complexScratch len
    -- 77-87
    let (ii, fi, fftBuffer) ← fillWhileInput len (fun i => do
      let x ← rd buffer i
      pure (Cx.ofRe x)) halfLen 0 fftBuffer
    -- 90-99
    let ii ← csub ii len
    let (ii, fi, fftBuffer) ← fillWhileInput len (fun i => do
      let x ← rdMirror buffer len i
      pure (Cx.ofRe (-x))) ii fi fftBuffer
    -- 101-110
    let ii ← csub ii len
    let (ii, fi, fftBuffer) ← fillWhileInput len (fun i => do
      let x ← rd buffer i
      pure (Cx.ofRe (-x))) ii fi fftBuffer
    -- 112-121
    let ii ← csub ii len
    let (ii, fi, fftBuffer) ← fillWhileInput len (fun i => do
      let x ← rdMirror buffer len i
      pure (Cx.ofRe x)) ii fi fftBuffer
    -- 123-132
    let ii ← csub ii len
    let fftBuffer ← fillWhileFft len (fun i => do
      let x ← rd buffer i
      pure (Cx.ofRe x)) ii fi fftBuffer
    -- 135
    let (fftBuffer, fftScratch) ← fftCall cost self.fft fftBuffer fftScratch
    let resultScale ← arith (DctNum.sqrt2 * thalf (Cn T))
    let secondHalfSign ← arith (if len % 4 = 1 then 1 else -1)
    -- 141-153
    let (buffer, outputSign) ← forRange 0 quarterLen (buffer, (1 : Cn T)) fun i st => do
      let (buffer, outputSign) := st
      let a ← rd fftBuffer (4 * i + 1)
      let fftResult ← arithC (Cx.scale a (outputSign * resultScale))
      let b ← rd fftBuffer (4 * i + 3)
      let nextResult ← arithC (Cx.scale b (outputSign * resultScale))
      let buffer ← wr buffer (i * 2) (fftResult.re + fftResult.im)
      let buffer ← wr buffer (i * 2 + 1) (-nextResult.re + nextResult.im)
      let j ← csub len (i * 2)
      let j2 ← csub j 2
      let buffer ← wr buffer j2 ((nextResult.re + nextResult.im) * secondHalfSign)
      let j1 ← csub j 1
      let buffer ← wr buffer j1 ((fftResult.re - fftResult.im) * secondHalfSign)
      let outputSign ← arith (-outputSign)
      pure (buffer, outputSign)
    -- 156-164
    if len % 4 = 1 then do
      let c ← rd fftBuffer 0
      let buffer ← wr buffer halfLen (c.re * outputSign * resultScale)
      pure (buffer, fromComplex (fftBuffer ++ fftScratch) scratch)
    else do
      let j ← csub len 2
      let a ← rd fftBuffer j
      let fftResult ← arithC (Cx.scale a (outputSign * resultScale))
      let h1 ← csub halfLen 1
      let buffer ← wr buffer h1 (fftResult.re + fftResult.im)
      let buffer ← wr buffer (halfLen + 1) (-fftResult.re + fftResult.im)
      let c ← rd fftBuffer 0
      let buffer ← wr buffer halfLen (-c.re * outputSign * resultScale)
      pure (buffer, fromComplex (fftBuffer ++ fftScratch) scratch)

/-- src/algorithm/type4_convert_to_fft.rs:168-267. -/
def Type4ConvertToFftOdd.dst4 (cost : Fft T → Nat) (self : Type4ConvertToFftOdd T) : CProc T := fun m =>
  validateBuffers m self.len self.scratchLen fun buffer scratch => do
    let len := self.len
    let halfLen := len / 2
    let quarterLen := len / 4
    let complexScratch := intoComplex scratch
    let (fftBuffer, fftScratch) ← splitAtMut complexScratch len
    -- 179-189
    let (ii, fi, fftBuffer) ← fillWhileInput len (fun i => do
      let x ← rdMirror buffer len i
      pure (Cx.ofRe x)) halfLen 0 fftBuffer
    -- 192-201
    let ii ← csub ii len
    let (ii, fi, fftBuffer) ← fillWhileInput len (fun i => do
      let x ← rd buffer i
      pure (Cx.ofRe (-x))) ii fi fftBuffer
    -- 203-212
    let ii ← csub ii len
    let (ii, fi, fftBuffer) ← fillWhileInput len (fun i => do
      let x ← rdMirror buffer len i
      pure (Cx.ofRe (-x))) ii fi fftBuffer
    -- 214-223
    let ii ← csub ii len
    let (ii, fi, fftBuffer) ← fillWhileInput len (fun i => do
      let x ← rd buffer i
      pure (Cx.ofRe x)) ii fi fftBuffer
    -- 225-234
    let ii ← csub ii len
    let fftBuffer ← fillWhileFft len (fun i => do
      let x ← rdMirror buffer len i
      pure (Cx.ofRe x)) ii fi fftBuffer
    -- 237
    let (fftBuffer, fftScratch) ← fftCall cost self.fft fftBuffer fftScratch
    let resultScale ← arith (DctNum.sqrt2 * thalf (Cn T))
    let secondHalfSign ← arith (if len % 4 = 1 then 1 else -1)
    -- 243-255
    let (buffer, outputSign) ← forRange 0 quarterLen (buffer, (1 : Cn T)) fun i st => do
      let (buffer, outputSign) := st
      let a ← rd fftBuffer (4 * i + 1)
      let fftResult ← arithC (Cx.scale a (outputSign * resultScale))
      let b ← rd fftBuffer (4 * i + 3)
      let nextResult ← arithC (Cx.scale b (outputSign * resultScale))
      let buffer ← wr buffer (i * 2) (fftResult.re + fftResult.im)
      let buffer ← wr buffer (i * 2 + 1) (nextResult.re - nextResult.im)
      let j ← csub len (i * 2)
      let j2 ← csub j 2
      let buffer ← wr buffer j2 (-(nextResult.re + nextResult.im) * secondHalfSign)
      let j1 ← csub j 1
      let buffer ← wr buffer j1 ((fftResult.re - fftResult.im) * secondHalfSign)
      let outputSign ← arith (-outputSign)
      pure (buffer, outputSign)
    -- 258-266
    if len % 4 = 1 then do
      let c ← rd fftBuffer 0
      let buffer ← wr buffer halfLen (c.re * outputSign * resultScale)
      pure (buffer, fromComplex (fftBuffer ++ fftScratch) scratch)
    else do
      let j ← csub len 2
      let a ← rd fftBuffer j
      let fftResult ← arithC (Cx.scale a (outputSign * resultScale))
      let h1 ← csub halfLen 1
      let buffer ← wr buffer h1 (fftResult.re + fftResult.im)
      let buffer ← wr buffer (halfLen + 1) (-fftResult.re + fftResult.im)
      let c ← rd fftBuffer 0
      let buffer ← wr buffer halfLen (c.re * outputSign * resultScale)
      pure (buffer, fromComplex (fftBuffer ++ fftScratch) scratch)

/-- src/algorithm/type6and7_convert_to_fft.rs:62-89. -/
def Dst6And7ConvertToFft.dst6 (cost : Fft T → Nat) (self : Dst6And7ConvertToFft T) : CProc T := fun m =>
  validateBuffers m self.len self.scratchLen fun buffer scratch => do
    let complexScratch := intoComplex scratch
    let (fftBuffer, fftScratch) ← splitAtMut complexScratch self.innerFftLen
    -- 69-71: only the imaginary part is assigned
    let fftBuffer ← forRange 0 buffer.length fftBuffer fun i fftBuffer => do
      let x ← rd buffer i
      let c ← rd fftBuffer (i * 2 + 1)
      wr fftBuffer (i * 2 + 1) ⟨c.re, x⟩
    let (fftBuffer, fftScratch) ← fftCall cost self.fft fftBuffer fftScratch
    let evenCount := (buffer.length + 1) / 2
    let oddCount ← csub buffer.length evenCount
    let buffer ← forRange 0 oddCount buffer fun i buffer => do
      let c ← rd fftBuffer (i + 1)
      wr buffer (i * 2 + 1) c.re
    let buffer ← forRange 0 evenCount buffer fun i buffer => do
      let a ← csub evenCount i
      let b ← csub a 1
      let c ← rd fftBuffer (i + oddCount + 1)
      wr buffer (2 * b) c.re
    pure (buffer, fromComplex (fftBuffer ++ fftScratch) scratch)

/-- src/algorithm/type6and7_convert_to_fft.rs:92-130. -/
def Dst6And7ConvertToFft.dst7 (cost : Fft T → Nat) (self : Dst6And7ConvertToFft T) : CProc T := fun m =>
  validateBuffers m self.len self.scratchLen fun buffer scratch => do
    let complexScratch := intoComplex scratch
    let (fftBuffer, fftScratch) ← splitAtMut complexScratch self.innerFftLen
    let evenCount := (buffer.length + 1) / 2
    let fftBuffer ← forRange 0 evenCount fftBuffer fun i fftBuffer => do
      let x ← rd buffer (i * 2)
      wr fftBuffer (buffer.length + 1 + i) (Cx.ofRe x)
    let oddCount ← csub buffer.length evenCount
    let fftBuffer ← forRange 0 oddCount fftBuffer fun i fftBuffer => do
      let a ← csub oddCount i
      let inputIndex ← csub (2 * a) 1
      let x ← rd buffer inputIndex
      wr fftBuffer (buffer.length + evenCount + 1 + i) (Cx.ofRe x)
    let fftBuffer ← forRange 0 buffer.length fftBuffer fun i fftBuffer => do
      let a ← csub fftBuffer.length 1
      let j ← csub a i
      let c ← rd fftBuffer j
      wr fftBuffer (i + 1) (Cx.neg c)
    let (fftBuffer, fftScratch) ← fftCall cost self.fft fftBuffer fftScratch
    let buffer ← forRange 0 buffer.length buffer fun i buffer => do
      let c ← rd fftBuffer (i * 2 + 1)
      wr buffer i (c.im * thalf (Cn T))
    pure (buffer, fromComplex (fftBuffer ++ fftScratch) scratch)


/-! ## `Verif/Model/Butterflies.lean` -/

/-- src/algorithm/type2and3_butterflies.rs:71-76. -/
def Type2And3Butterfly2.inplaceDct2 (_self : Type2And3Butterfly2 T) (buffer : List T) : Run (List T) := do
  let sum ← arith ((← rdU buffer 0) + (← rdU buffer 1))
  let buffer ← wrU buffer 1 (((← rdU buffer 0) - (← rdU buffer 1)) * DctNum.fracSqrt2)
  let buffer ← wrU buffer 0 (sum)
  pure buffer

/-- src/algorithm/type2and3_butterflies.rs:77-82. -/
def Type2And3Butterfly2.scatteredDct2 (buffer : List T) (zero one : Nat) : Run (List T) := do
  let sum ← arith ((← rdU buffer zero) + (← rdU buffer one))
  let buffer ← wrU buffer one (((← rdU buffer zero) - (← rdU buffer one)) * DctNum.fracSqrt2)
  let buffer ← wrU buffer zero (sum)
  pure buffer

/-- src/algorithm/type2and3_butterflies.rs:84-90. -/
def Type2And3Butterfly2.inplaceDct3 (_self : Type2And3Butterfly2 T) (buffer : List T) : Run (List T) := do
  let half0 ← arith ((← rdU buffer 0) * thalf (Cn T))
  let frac1 ← arith ((← rdU buffer 1) * DctNum.fracSqrt2)
  let buffer ← wrU buffer 0 (half0 + frac1)
  let buffer ← wrU buffer 1 (half0 - frac1)
  pure buffer

/-- src/algorithm/type2and3_butterflies.rs:91-97. -/
def Type2And3Butterfly2.scatteredDct3 (buffer : List T) (zero one : Nat) : Run (List T) := do
  let half0 ← arith ((← rdU buffer zero) * thalf (Cn T))
  let frac1 ← arith ((← rdU buffer one) * DctNum.fracSqrt2)
  let buffer ← wrU buffer zero (half0 + frac1)
  let buffer ← wrU buffer one (half0 - frac1)
  pure buffer

/-- src/algorithm/type2and3_butterflies.rs:99-104. -/
def Type2And3Butterfly2.inplaceDst2 (_self : Type2And3Butterfly2 T) (buffer : List T) : Run (List T) := do
  let sum ← arith ((← rdU buffer 0) - (← rdU buffer 1))
  let buffer ← wrU buffer 0 (((← rdU buffer 0) + (← rdU buffer 1)) * DctNum.fracSqrt2)
  let buffer ← wrU buffer 1 (sum)
  pure buffer

/-- src/algorithm/type2and3_butterflies.rs:106-112. -/
def Type2And3Butterfly2.inplaceDst3 (_self : Type2And3Butterfly2 T) (buffer : List T) : Run (List T) := do
  let frac0 ← arith ((← rdU buffer 0) * DctNum.fracSqrt2)
  let half1 ← arith ((← rdU buffer 1) * thalf (Cn T))
  let buffer ← wrU buffer 0 (frac0 + half1)
  let buffer ← wrU buffer 1 (frac0 - half1)
  pure buffer

/-- src/algorithm/type2and3_butterflies.rs:115-121; size 2 does not use the macro. -/
def Type2And3Butterfly2.dct2 (_self : Type2And3Butterfly2 T) : CProc T := fun m =>
  validateBuffer m 2 fun buffer => do
    let sum ← arith ((← rd buffer 0) + (← rd buffer 1))
    let buffer ← wr buffer 1 (((← rd buffer 0) - (← rd buffer 1)) * DctNum.fracSqrt2)
    let buffer ← wr buffer 0 (sum)
    pure buffer

/-- src/algorithm/type2and3_butterflies.rs:124-132; size 2 does not use the macro. -/
def Type2And3Butterfly2.dct3 (_self : Type2And3Butterfly2 T) : CProc T := fun m =>
  validateBuffer m 2 fun buffer => do
    let half0 ← arith ((← rd buffer 0) * thalf (Cn T))
    let frac1 ← arith ((← rd buffer 1) * DctNum.fracSqrt2)
    let buffer ← wr buffer 0 (half0 + frac1)
    let buffer ← wr buffer 1 (half0 - frac1)
    pure buffer

/-- src/algorithm/type2and3_butterflies.rs:135-141; size 2 does not use the macro. -/
def Type2And3Butterfly2.dst2 (_self : Type2And3Butterfly2 T) : CProc T := fun m =>
  validateBuffer m 2 fun buffer => do
    let sum ← arith (((← rd buffer 0) + (← rd buffer 1)) * DctNum.fracSqrt2)
    let buffer ← wr buffer 1 ((← rd buffer 0) - (← rd buffer 1))
    let buffer ← wr buffer 0 (sum)
    pure buffer

/-- src/algorithm/type2and3_butterflies.rs:144-152; size 2 does not use the macro. -/
def Type2And3Butterfly2.dst3 (_self : Type2And3Butterfly2 T) : CProc T := fun m =>
  validateBuffer m 2 fun buffer => do
    let frac0 ← arith ((← rd buffer 0) * DctNum.fracSqrt2)
    let half1 ← arith ((← rd buffer 1) * thalf (Cn T))
    let buffer ← wr buffer 0 (frac0 + half1)
    let buffer ← wr buffer 1 (frac0 - half1)
    pure buffer

/-- src/algorithm/type2and3_butterflies.rs:175-184. -/
def Type2And3Butterfly3.inplaceDct2 (self : Type2And3Butterfly3 T) (buffer : List T) : Run (List T) := do
  let buffer0 ← arith ((← rdU buffer 0))
  let buffer1 ← arith ((← rdU buffer 1))
  let buffer2 ← arith ((← rdU buffer 2))
  let buffer ← wrU buffer 0 (buffer0 + buffer1 + buffer2)
  let buffer ← wrU buffer 1 ((buffer0 - buffer2) * (lit self.twiddle))
  let buffer ← wrU buffer 2 ((buffer0 + buffer2) * thalf (Cn T) - buffer1)
  pure buffer

/-- src/algorithm/type2and3_butterflies.rs:185-195. -/
def Type2And3Butterfly3.inplaceDct3 (self : Type2And3Butterfly3 T) (buffer : List T) : Run (List T) := do
  let buffer0Half ← arith ((← rdU buffer 0) * thalf (Cn T))
  let buffer1 ← arith ((← rdU buffer 1))
  let buffer2 ← arith ((← rdU buffer 2))
  let buffer2Half ← arith (buffer2 * thalf (Cn T))
  let buffer ← wrU buffer 0 (buffer0Half + buffer1 * (lit self.twiddle) + buffer2Half)
  let buffer ← wrU buffer 1 (buffer0Half - buffer2)
  let buffer ← wrU buffer 2 (buffer0Half + buffer1 * (-(lit self.twiddle)) + buffer2Half)
  pure buffer

/-- src/algorithm/type2and3_butterflies.rs:196-205. -/
def Type2And3Butterfly3.inplaceDst2 (self : Type2And3Butterfly3 T) (buffer : List T) : Run (List T) := do
  let buffer0 ← arith ((← rdU buffer 0))
  let buffer1 ← arith ((← rdU buffer 1))
  let buffer2 ← arith ((← rdU buffer 2))
  let buffer ← wrU buffer 2 (buffer0 - buffer1 + buffer2)
  let buffer ← wrU buffer 1 ((buffer0 - buffer2) * (lit self.twiddle))
  let buffer ← wrU buffer 0 ((buffer0 + buffer2) * thalf (Cn T) + buffer1)
  pure buffer

/-- src/algorithm/type2and3_butterflies.rs:206-216. -/
def Type2And3Butterfly3.inplaceDst3 (self : Type2And3Butterfly3 T) (buffer : List T) : Run (List T) := do
  let buffer0Half ← arith ((← rdU buffer 2) * thalf (Cn T))
  let buffer1 ← arith ((← rdU buffer 1))
  let buffer2 ← arith ((← rdU buffer 0))
  let buffer2Half ← arith (buffer2 * thalf (Cn T))
  let buffer ← wrU buffer 0 (buffer0Half + buffer1 * (lit self.twiddle) + buffer2Half)
  let buffer ← wrU buffer 1 (buffer2 - buffer0Half)
  let buffer ← wrU buffer 2 (buffer0Half + buffer1 * (-(lit self.twiddle)) + buffer2Half)
  pure buffer

/-- src/algorithm/type2and3_butterflies.rs:12-20 (macro, instantiated with 3). -/
def Type2And3Butterfly3.dct2 (self : Type2And3Butterfly3 T) : CProc T := fun m =>
  validateBuffer m 3 (Type2And3Butterfly3.inplaceDct2 self)

/-- src/algorithm/type2and3_butterflies.rs:21-29 (macro, instantiated with 3). -/
def Type2And3Butterfly3.dct3 (self : Type2And3Butterfly3 T) : CProc T := fun m =>
  validateBuffer m 3 (Type2And3Butterfly3.inplaceDct3 self)

/-- src/algorithm/type2and3_butterflies.rs:30-38 (macro, instantiated with 3). -/
def Type2And3Butterfly3.dst2 (self : Type2And3Butterfly3 T) : CProc T := fun m =>
  validateBuffer m 3 (Type2And3Butterfly3.inplaceDst2 self)

/-- src/algorithm/type2and3_butterflies.rs:39-47 (macro, instantiated with 3). -/
def Type2And3Butterfly3.dst3 (self : Type2And3Butterfly3 T) : CProc T := fun m =>
  validateBuffer m 3 (Type2And3Butterfly3.inplaceDst3 self)

/-- src/algorithm/type2and3_butterflies.rs:229-242. -/
def Type2And3Butterfly4.inplaceDct2 (self : Type2And3Butterfly4 T) (buffer : List T) : Run (List T) := do
  let lowerDct4 ← arith ((← rdU buffer 0) - (← rdU buffer 3))
  let upperDct4 ← arith ((← rdU buffer 2) - (← rdU buffer 1))
  let buffer ← wrU buffer 0 ((← rdU buffer 0) + (← rdU buffer 3))
  let buffer ← wrU buffer 2 ((← rdU buffer 2) + (← rdU buffer 1))
  let buffer ← Type2And3Butterfly2.scatteredDct2 buffer 0 2
  let buffer ← wrU buffer 1 (lowerDct4 * (lit self.twiddle.re) - upperDct4 * (lit self.twiddle.im))
  let buffer ← wrU buffer 3 (upperDct4 * (lit self.twiddle.re) + lowerDct4 * (lit self.twiddle.im))
  pure buffer

/-- src/algorithm/type2and3_butterflies.rs:243-260. -/
def Type2And3Butterfly4.inplaceDct3 (self : Type2And3Butterfly4 T) (buffer : List T) : Run (List T) := do
  let buffer ← Type2And3Butterfly2.scatteredDct3 buffer 0 2
  let lowerDct4 ← arith ((← rdU buffer 1) * (lit self.twiddle.re) + (← rdU buffer 3) * (lit self.twiddle.im))
  let upperDct4 ← arith ((← rdU buffer 1) * (lit self.twiddle.im) - (← rdU buffer 3) * (lit self.twiddle.re))
  let buffer ← wrU buffer 1 ((← rdU buffer 2) + upperDct4)
  let buffer ← wrU buffer 3 ((← rdU buffer 0) - lowerDct4)
  let buffer ← wrU buffer 0 ((← rdU buffer 0) + lowerDct4)
  let buffer ← wrU buffer 2 ((← rdU buffer 2) - upperDct4)
  pure buffer

/-- src/algorithm/type2and3_butterflies.rs:261-274. -/
def Type2And3Butterfly4.inplaceDst2 (self : Type2And3Butterfly4 T) (buffer : List T) : Run (List T) := do
  let lowerDct4 ← arith ((← rdU buffer 0) + (← rdU buffer 3))
  let upperDct4 ← arith ((← rdU buffer 2) + (← rdU buffer 1))
  let buffer ← wrU buffer 3 ((← rdU buffer 0) - (← rdU buffer 3))
  let buffer ← wrU buffer 1 ((← rdU buffer 2) - (← rdU buffer 1))
  let buffer ← Type2And3Butterfly2.scatteredDct2 buffer 3 1
  let buffer ← wrU buffer 2 (lowerDct4 * (lit self.twiddle.re) - upperDct4 * (lit self.twiddle.im))
  let buffer ← wrU buffer 0 (upperDct4 * (lit self.twiddle.re) + lowerDct4 * (lit self.twiddle.im))
  pure buffer

/-- src/algorithm/type2and3_butterflies.rs:275-292. -/
def Type2And3Butterfly4.inplaceDst3 (self : Type2And3Butterfly4 T) (buffer : List T) : Run (List T) := do
  let buffer ← Type2And3Butterfly2.scatteredDct3 buffer 3 1
  let lowerDct4 ← arith ((← rdU buffer 2) * (lit self.twiddle.re) + (← rdU buffer 0) * (lit self.twiddle.im))
  let upperDct4 ← arith ((← rdU buffer 2) * (lit self.twiddle.im) - (← rdU buffer 0) * (lit self.twiddle.re))
  let buffer ← wrU buffer 0 ((← rdU buffer 3) + lowerDct4)
  let buffer ← wrU buffer 2 ((← rdU buffer 1) - upperDct4)
  let buffer ← wrU buffer 1 (-((← rdU buffer 1) + upperDct4))
  let buffer ← wrU buffer 3 (lowerDct4 - (← rdU buffer 3))
  pure buffer

/-- src/algorithm/type2and3_butterflies.rs:12-20 (macro, instantiated with 4). -/
def Type2And3Butterfly4.dct2 (self : Type2And3Butterfly4 T) : CProc T := fun m =>
  validateBuffer m 4 (Type2And3Butterfly4.inplaceDct2 self)

/-- src/algorithm/type2and3_butterflies.rs:21-29 (macro, instantiated with 4). -/
def Type2And3Butterfly4.dct3 (self : Type2And3Butterfly4 T) : CProc T := fun m =>
  validateBuffer m 4 (Type2And3Butterfly4.inplaceDct3 self)

/-- src/algorithm/type2and3_butterflies.rs:30-38 (macro, instantiated with 4). -/
def Type2And3Butterfly4.dst2 (self : Type2And3Butterfly4 T) : CProc T := fun m =>
  validateBuffer m 4 (Type2And3Butterfly4.inplaceDst2 self)

/-- src/algorithm/type2and3_butterflies.rs:39-47 (macro, instantiated with 4). -/
def Type2And3Butterfly4.dst3 (self : Type2And3Butterfly4 T) : CProc T := fun m =>
  validateBuffer m 4 (Type2And3Butterfly4.inplaceDst3 self)

/-- src/algorithm/type2and3_butterflies.rs:312-353. -/
def Type2And3Butterfly8.inplaceDct2 (self : Type2And3Butterfly8 T) (buffer : List T) : Run (List T) := do
  let dct2Buffer ← arr [(← rdU buffer 0) + (← rdU buffer 7),
      (← rdU buffer 1) + (← rdU buffer 6),
      (← rdU buffer 2) + (← rdU buffer 5),
      (← rdU buffer 3) + (← rdU buffer 4)]
  let dct2Buffer ← Type2And3Butterfly4.inplaceDct2 self.butterfly4 dct2Buffer
  let differences ← arr [(← rdU buffer 0) - (← rdU buffer 7),
      (← rdU buffer 3) - (← rdU buffer 4),
      (← rdU buffer 1) - (← rdU buffer 6),
      (← rdU buffer 2) - (← rdU buffer 5)]
  let dct4EvenBuffer ← arr [(← rd differences 0) * (← rd self.twiddles 0).re + (← rd differences 1) * (← rd self.twiddles 0).im,
      (← rd differences 2) * (← rd self.twiddles 1).re + (← rd differences 3) * (← rd self.twiddles 1).im]
  let dct4OddBuffer ← arr [(← rd differences 3) * (← rd self.twiddles 1).re - (← rd differences 2) * (← rd self.twiddles 1).im,
      (← rd differences 1) * (← rd self.twiddles 0).re - (← rd differences 0) * (← rd self.twiddles 0).im]
  let dct4EvenBuffer ← Type2And3Butterfly2.inplaceDct2 self.butterfly2 dct4EvenBuffer
  let dct4OddBuffer ← Type2And3Butterfly2.inplaceDst2 self.butterfly2 dct4OddBuffer
  let buffer ← wrU buffer 0 ((← rd dct2Buffer 0))
  let buffer ← wrU buffer 1 ((← rd dct4EvenBuffer 0))
  let buffer ← wrU buffer 2 ((← rd dct2Buffer 1))
  let buffer ← wrU buffer 3 ((← rd dct4EvenBuffer 1) - (← rd dct4OddBuffer 0))
  let buffer ← wrU buffer 4 ((← rd dct2Buffer 2))
  let buffer ← wrU buffer 5 ((← rd dct4EvenBuffer 1) + (← rd dct4OddBuffer 0))
  let buffer ← wrU buffer 6 ((← rd dct2Buffer 3))
  let buffer ← wrU buffer 7 ((← rd dct4OddBuffer 1))
  pure buffer

/-- src/algorithm/type2and3_butterflies.rs:355-399. -/
def Type2And3Butterfly8.inplaceDct3 (self : Type2And3Butterfly8 T) (buffer : List T) : Run (List T) := do
  let dct3Buffer ← arr [(← rdU buffer 0),
      (← rdU buffer 2),
      (← rdU buffer 4),
      (← rdU buffer 6)]
  let dct3Buffer ← Type2And3Butterfly4.inplaceDct3 self.butterfly4 dct3Buffer
  let recursiveBufferN1 ← arr [(← rdU buffer 1) * ttwo (Cn T),
      (← rdU buffer 3) + (← rdU buffer 5)]
  let recursiveBufferN3 ← arr [(← rdU buffer 3) - (← rdU buffer 5),
      (← rdU buffer 7) * ttwo (Cn T)]
  let recursiveBufferN1 ← Type2And3Butterfly2.inplaceDct3 self.butterfly2 recursiveBufferN1
  let recursiveBufferN3 ← Type2And3Butterfly2.inplaceDst3 self.butterfly2 recursiveBufferN3
  let buffer ← forRange 0 2 buffer fun i buffer => do
    let twiddle ← arithC ((← rd self.twiddles i))
    let lowerDct4 ← arith ((← rd recursiveBufferN1 i) * twiddle.re + (← rd recursiveBufferN3 i) * twiddle.im)
    let upperDct4 ← arith ((← rd recursiveBufferN1 i) * twiddle.im - (← rd recursiveBufferN3 i) * twiddle.re)
    let lowerDct3 ← arith ((← rd dct3Buffer i))
    let upperDct3 ← arith ((← rd dct3Buffer (3 - i)))
    let buffer ← wrU buffer i (lowerDct3 + lowerDct4)
    let buffer ← wrU buffer (7 - i) (lowerDct3 - lowerDct4)
    let buffer ← wrU buffer (3 - i) (upperDct3 + upperDct4)
    let buffer ← wrU buffer (4 + i) (upperDct3 - upperDct4)
    pure buffer
  pure buffer

/-- src/algorithm/type2and3_butterflies.rs:401-442. -/
def Type2And3Butterfly8.inplaceDst2 (self : Type2And3Butterfly8 T) (buffer : List T) : Run (List T) := do
  let dct2Buffer ← arr [(← rdU buffer 0) - (← rdU buffer 7),
      (← rdU buffer 6) - (← rdU buffer 1),
      (← rdU buffer 2) - (← rdU buffer 5),
      (← rdU buffer 4) - (← rdU buffer 3)]
  let dct2Buffer ← Type2And3Butterfly4.inplaceDct2 self.butterfly4 dct2Buffer
  let differences ← arr [(← rdU buffer 0) + (← rdU buffer 7),
      -(← rdU buffer 3) - (← rdU buffer 4),
      -(← rdU buffer 1) - (← rdU buffer 6),
      (← rdU buffer 2) + (← rdU buffer 5)]
  let dct4EvenBuffer ← arr [(← rd differences 0) * (← rd self.twiddles 0).re + (← rd differences 1) * (← rd self.twiddles 0).im,
      (← rd differences 2) * (← rd self.twiddles 1).re + (← rd differences 3) * (← rd self.twiddles 1).im]
  let dct4OddBuffer ← arr [(← rd differences 3) * (← rd self.twiddles 1).re - (← rd differences 2) * (← rd self.twiddles 1).im,
      (← rd differences 1) * (← rd self.twiddles 0).re - (← rd differences 0) * (← rd self.twiddles 0).im]
  let dct4EvenBuffer ← Type2And3Butterfly2.inplaceDct2 self.butterfly2 dct4EvenBuffer
  let dct4OddBuffer ← Type2And3Butterfly2.inplaceDst2 self.butterfly2 dct4OddBuffer
  let buffer ← wrU buffer 7 ((← rd dct2Buffer 0))
  let buffer ← wrU buffer 6 ((← rd dct4EvenBuffer 0))
  let buffer ← wrU buffer 5 ((← rd dct2Buffer 1))
  let buffer ← wrU buffer 4 ((← rd dct4EvenBuffer 1) - (← rd dct4OddBuffer 0))
  let buffer ← wrU buffer 3 ((← rd dct2Buffer 2))
  let buffer ← wrU buffer 2 ((← rd dct4EvenBuffer 1) + (← rd dct4OddBuffer 0))
  let buffer ← wrU buffer 1 ((← rd dct2Buffer 3))
  let buffer ← wrU buffer 0 ((← rd dct4OddBuffer 1))
  pure buffer

/-- src/algorithm/type2and3_butterflies.rs:444-493. -/
def Type2And3Butterfly8.inplaceDst3 (self : Type2And3Butterfly8 T) (buffer : List T) : Run (List T) := do
  let dct3Buffer ← arr [(← rdU buffer 7),
      (← rdU buffer 5),
      (← rdU buffer 3),
      (← rdU buffer 1)]
  let dct3Buffer ← Type2And3Butterfly4.inplaceDct3 self.butterfly4 dct3Buffer
  let recursiveBufferN1 ← arr [(← rdU buffer 6) * ttwo (Cn T),
      (← rdU buffer 4) + (← rdU buffer 2)]
  let recursiveBufferN3 ← arr [(← rdU buffer 4) - (← rdU buffer 2),
      (← rdU buffer 0) * ttwo (Cn T)]
  let recursiveBufferN1 ← Type2And3Butterfly2.inplaceDct3 self.butterfly2 recursiveBufferN1
  let recursiveBufferN3 ← Type2And3Butterfly2.inplaceDst3 self.butterfly2 recursiveBufferN3
  let mergedOdds ← arr [(← rd recursiveBufferN1 0) * (← rd self.twiddles 0).re + (← rd recursiveBufferN3 0) * (← rd self.twiddles 0).im,
      (← rd recursiveBufferN1 0) * (← rd self.twiddles 0).im - (← rd recursiveBufferN3 0) * (← rd self.twiddles 0).re,
      (← rd recursiveBufferN1 1) * (← rd self.twiddles 1).re + (← rd recursiveBufferN3 1) * (← rd self.twiddles 1).im,
      (← rd recursiveBufferN1 1) * (← rd self.twiddles 1).im - (← rd recursiveBufferN3 1) * (← rd self.twiddles 1).re]
  let buffer ← wrU buffer 0 ((← rd dct3Buffer 0) + (← rd mergedOdds 0))
  let buffer ← wrU buffer 7 ((← rd mergedOdds 0) - (← rd dct3Buffer 0))
  let buffer ← wrU buffer 3 (-((← rd dct3Buffer 3) + (← rd mergedOdds 1)))
  let buffer ← wrU buffer 4 ((← rd dct3Buffer 3) - (← rd mergedOdds 1))
  let buffer ← wrU buffer 1 (-((← rd dct3Buffer 1) + (← rd mergedOdds 2)))
  let buffer ← wrU buffer 6 ((← rd dct3Buffer 1) - (← rd mergedOdds 2))
  let buffer ← wrU buffer 2 ((← rd dct3Buffer 2) + (← rd mergedOdds 3))
  let buffer ← wrU buffer 5 ((← rd mergedOdds 3) - (← rd dct3Buffer 2))
  pure buffer

/-- src/algorithm/type2and3_butterflies.rs:12-20 (macro, instantiated with 8). -/
def Type2And3Butterfly8.dct2 (self : Type2And3Butterfly8 T) : CProc T := fun m =>
  validateBuffer m 8 (Type2And3Butterfly8.inplaceDct2 self)

/-- src/algorithm/type2and3_butterflies.rs:21-29 (macro, instantiated with 8). -/
def Type2And3Butterfly8.dct3 (self : Type2And3Butterfly8 T) : CProc T := fun m =>
  validateBuffer m 8 (Type2And3Butterfly8.inplaceDct3 self)

/-- src/algorithm/type2and3_butterflies.rs:30-38 (macro, instantiated with 8). -/
def Type2And3Butterfly8.dst2 (self : Type2And3Butterfly8 T) : CProc T := fun m =>
  validateBuffer m 8 (Type2And3Butterfly8.inplaceDst2 self)

/-- src/algorithm/type2and3_butterflies.rs:39-47 (macro, instantiated with 8). -/
def Type2And3Butterfly8.dst3 (self : Type2And3Butterfly8 T) : CProc T := fun m =>
  validateBuffer m 8 (Type2And3Butterfly8.inplaceDst3 self)

/-- src/algorithm/type2and3_butterflies.rs:515-576. -/
def Type2And3Butterfly16.inplaceDct2 (self : Type2And3Butterfly16 T) (buffer : List T) : Run (List T) := do
  let dct2Buffer ← arr [(← rdU buffer 0) + (← rdU buffer 15),
      (← rdU buffer 1) + (← rdU buffer 14),
      (← rdU buffer 2) + (← rdU buffer 13),
      (← rdU buffer 3) + (← rdU buffer 12),
      (← rdU buffer 4) + (← rdU buffer 11),
      (← rdU buffer 5) + (← rdU buffer 10),
      (← rdU buffer 6) + (← rdU buffer 9),
      (← rdU buffer 7) + (← rdU buffer 8)]
  let dct2Buffer ← Type2And3Butterfly8.inplaceDct2 self.butterfly8 dct2Buffer
  let differences ← arr [(← rdU buffer 0) - (← rdU buffer 15),
      (← rdU buffer 7) - (← rdU buffer 8),
      (← rdU buffer 1) - (← rdU buffer 14),
      (← rdU buffer 6) - (← rdU buffer 9),
      (← rdU buffer 2) - (← rdU buffer 13),
      (← rdU buffer 5) - (← rdU buffer 10),
      (← rdU buffer 3) - (← rdU buffer 12),
      (← rdU buffer 4) - (← rdU buffer 11)]
  let dct4EvenBuffer ← arr [(← rd differences 0) * (← rd self.twiddles 0).re + (← rd differences 1) * (← rd self.twiddles 0).im,
      (← rd differences 2) * (← rd self.twiddles 1).re + (← rd differences 3) * (← rd self.twiddles 1).im,
      (← rd differences 4) * (← rd self.twiddles 2).re + (← rd differences 5) * (← rd self.twiddles 2).im,
      (← rd differences 6) * (← rd self.twiddles 3).re + (← rd differences 7) * (← rd self.twiddles 3).im]
  let dct4OddBuffer ← arr [(← rd differences 7) * (← rd self.twiddles 3).re - (← rd differences 6) * (← rd self.twiddles 3).im,
      (← rd differences 5) * (← rd self.twiddles 2).re - (← rd differences 4) * (← rd self.twiddles 2).im,
      (← rd differences 3) * (← rd self.twiddles 1).re - (← rd differences 2) * (← rd self.twiddles 1).im,
      (← rd differences 1) * (← rd self.twiddles 0).re - (← rd differences 0) * (← rd self.twiddles 0).im]
  let dct4EvenBuffer ← Type2And3Butterfly4.inplaceDct2 self.butterfly4 dct4EvenBuffer
  let dct4OddBuffer ← Type2And3Butterfly4.inplaceDst2 self.butterfly4 dct4OddBuffer
  let buffer ← wrU buffer 0 ((← rd dct2Buffer 0))
  let buffer ← wrU buffer 1 ((← rd dct4EvenBuffer 0))
  let buffer ← wrU buffer 2 ((← rd dct2Buffer 1))
  let buffer ← wrU buffer 3 ((← rd dct4EvenBuffer 1) - (← rd dct4OddBuffer 0))
  let buffer ← wrU buffer 4 ((← rd dct2Buffer 2))
  let buffer ← wrU buffer 5 ((← rd dct4EvenBuffer 1) + (← rd dct4OddBuffer 0))
  let buffer ← wrU buffer 6 ((← rd dct2Buffer 3))
  let buffer ← wrU buffer 7 ((← rd dct4EvenBuffer 2) + (← rd dct4OddBuffer 1))
  let buffer ← wrU buffer 8 ((← rd dct2Buffer 4))
  let buffer ← wrU buffer 9 ((← rd dct4EvenBuffer 2) - (← rd dct4OddBuffer 1))
  let buffer ← wrU buffer 10 ((← rd dct2Buffer 5))
  let buffer ← wrU buffer 11 ((← rd dct4EvenBuffer 3) - (← rd dct4OddBuffer 2))
  let buffer ← wrU buffer 12 ((← rd dct2Buffer 6))
  let buffer ← wrU buffer 13 ((← rd dct4EvenBuffer 3) + (← rd dct4OddBuffer 2))
  let buffer ← wrU buffer 14 ((← rd dct2Buffer 7))
  let buffer ← wrU buffer 15 ((← rd dct4OddBuffer 3))
  pure buffer

/-- src/algorithm/type2and3_butterflies.rs:577-638. -/
def Type2And3Butterfly16.inplaceDst2 (self : Type2And3Butterfly16 T) (buffer : List T) : Run (List T) := do
  let dct2Buffer ← arr [(← rdU buffer 0) - (← rdU buffer 15),
      -(← rdU buffer 1) + (← rdU buffer 14),
      (← rdU buffer 2) - (← rdU buffer 13),
      -(← rdU buffer 3) + (← rdU buffer 12),
      (← rdU buffer 4) - (← rdU buffer 11),
      -(← rdU buffer 5) + (← rdU buffer 10),
      (← rdU buffer 6) - (← rdU buffer 9),
      -(← rdU buffer 7) + (← rdU buffer 8)]
  let dct2Buffer ← Type2And3Butterfly8.inplaceDct2 self.butterfly8 dct2Buffer
  let differences ← arr [(← rdU buffer 0) + (← rdU buffer 15),
      -(← rdU buffer 7) - (← rdU buffer 8),
      -(← rdU buffer 1) - (← rdU buffer 14),
      (← rdU buffer 6) + (← rdU buffer 9),
      (← rdU buffer 2) + (← rdU buffer 13),
      -(← rdU buffer 5) - (← rdU buffer 10),
      -(← rdU buffer 3) - (← rdU buffer 12),
      (← rdU buffer 4) + (← rdU buffer 11)]
  let dct4EvenBuffer ← arr [(← rd differences 0) * (← rd self.twiddles 0).re + (← rd differences 1) * (← rd self.twiddles 0).im,
      (← rd differences 2) * (← rd self.twiddles 1).re + (← rd differences 3) * (← rd self.twiddles 1).im,
      (← rd differences 4) * (← rd self.twiddles 2).re + (← rd differences 5) * (← rd self.twiddles 2).im,
      (← rd differences 6) * (← rd self.twiddles 3).re + (← rd differences 7) * (← rd self.twiddles 3).im]
  let dct4OddBuffer ← arr [(← rd differences 7) * (← rd self.twiddles 3).re - (← rd differences 6) * (← rd self.twiddles 3).im,
      (← rd differences 5) * (← rd self.twiddles 2).re - (← rd differences 4) * (← rd self.twiddles 2).im,
      (← rd differences 3) * (← rd self.twiddles 1).re - (← rd differences 2) * (← rd self.twiddles 1).im,
      (← rd differences 1) * (← rd self.twiddles 0).re - (← rd differences 0) * (← rd self.twiddles 0).im]
  let dct4EvenBuffer ← Type2And3Butterfly4.inplaceDct2 self.butterfly4 dct4EvenBuffer
  let dct4OddBuffer ← Type2And3Butterfly4.inplaceDst2 self.butterfly4 dct4OddBuffer
  let buffer ← wrU buffer 15 ((← rd dct2Buffer 0))
  let buffer ← wrU buffer 14 ((← rd dct4EvenBuffer 0))
  let buffer ← wrU buffer 13 ((← rd dct2Buffer 1))
  let buffer ← wrU buffer 12 ((← rd dct4EvenBuffer 1) - (← rd dct4OddBuffer 0))
  let buffer ← wrU buffer 11 ((← rd dct2Buffer 2))
  let buffer ← wrU buffer 10 ((← rd dct4EvenBuffer 1) + (← rd dct4OddBuffer 0))
  let buffer ← wrU buffer 9 ((← rd dct2Buffer 3))
  let buffer ← wrU buffer 8 ((← rd dct4EvenBuffer 2) + (← rd dct4OddBuffer 1))
  let buffer ← wrU buffer 7 ((← rd dct2Buffer 4))
  let buffer ← wrU buffer 6 ((← rd dct4EvenBuffer 2) - (← rd dct4OddBuffer 1))
  let buffer ← wrU buffer 5 ((← rd dct2Buffer 5))
  let buffer ← wrU buffer 4 ((← rd dct4EvenBuffer 3) - (← rd dct4OddBuffer 2))
  let buffer ← wrU buffer 3 ((← rd dct2Buffer 6))
  let buffer ← wrU buffer 2 ((← rd dct4EvenBuffer 3) + (← rd dct4OddBuffer 2))
  let buffer ← wrU buffer 1 ((← rd dct2Buffer 7))
  let buffer ← wrU buffer 0 ((← rd dct4OddBuffer 3))
  pure buffer

/-- src/algorithm/type2and3_butterflies.rs:639-689. -/
def Type2And3Butterfly16.inplaceDct3 (self : Type2And3Butterfly16 T) (buffer : List T) : Run (List T) := do
  let dct3Buffer ← arr [(← rdU buffer 0),
      (← rdU buffer 2),
      (← rdU buffer 4),
      (← rdU buffer 6),
      (← rdU buffer 8),
      (← rdU buffer 10),
      (← rdU buffer 12),
      (← rdU buffer 14)]
  let dct3Buffer ← Type2And3Butterfly8.inplaceDct3 self.butterfly8 dct3Buffer
  let recursiveBufferN1 ← arr [(← rdU buffer 1) * ttwo (Cn T),
      (← rdU buffer 3) + (← rdU buffer 5),
      (← rdU buffer 7) + (← rdU buffer 9),
      (← rdU buffer 11) + (← rdU buffer 13)]
  let recursiveBufferN3 ← arr [(← rdU buffer 3) - (← rdU buffer 5),
      (← rdU buffer 7) - (← rdU buffer 9),
      (← rdU buffer 11) - (← rdU buffer 13),
      (← rdU buffer 15) * ttwo (Cn T)]
  let recursiveBufferN1 ← Type2And3Butterfly4.inplaceDct3 self.butterfly4 recursiveBufferN1
  let recursiveBufferN3 ← Type2And3Butterfly4.inplaceDst3 self.butterfly4 recursiveBufferN3
  let buffer ← forRange 0 4 buffer fun i buffer => do
    let lowerDct4 ← arith ((← rd recursiveBufferN1 i) * (← rd self.twiddles i).re + (← rd recursiveBufferN3 i) * (← rd self.twiddles i).im)
    let upperDct4 ← arith ((← rd recursiveBufferN1 i) * (← rd self.twiddles i).im - (← rd recursiveBufferN3 i) * (← rd self.twiddles i).re)
    let lowerDct3 ← arith ((← rd dct3Buffer i))
    let upperDct3 ← arith ((← rd dct3Buffer (7 - i)))
    let buffer ← wrU buffer i (lowerDct3 + lowerDct4)
    let buffer ← wrU buffer (15 - i) (lowerDct3 - lowerDct4)
    let buffer ← wrU buffer (7 - i) (upperDct3 + upperDct4)
    let buffer ← wrU buffer (8 + i) (upperDct3 - upperDct4)
    pure buffer
  pure buffer

/-- src/algorithm/type2and3_butterflies.rs:690-767. -/
def Type2And3Butterfly16.inplaceDst3 (self : Type2And3Butterfly16 T) (buffer : List T) : Run (List T) := do
  let dct3Buffer ← arr [(← rdU buffer 15),
      (← rdU buffer 13),
      (← rdU buffer 11),
      (← rdU buffer 9),
      (← rdU buffer 7),
      (← rdU buffer 5),
      (← rdU buffer 3),
      (← rdU buffer 1)]
  let dct3Buffer ← Type2And3Butterfly8.inplaceDct3 self.butterfly8 dct3Buffer
  let recursiveBufferN1 ← arr [(← rdU buffer 14) * ttwo (Cn T),
      (← rdU buffer 12) + (← rdU buffer 10),
      (← rdU buffer 8) + (← rdU buffer 6),
      (← rdU buffer 4) + (← rdU buffer 2)]
  let recursiveBufferN3 ← arr [(← rdU buffer 12) - (← rdU buffer 10),
      (← rdU buffer 8) - (← rdU buffer 6),
      (← rdU buffer 4) - (← rdU buffer 2),
      (← rdU buffer 0) * ttwo (Cn T)]
  let recursiveBufferN1 ← Type2And3Butterfly4.inplaceDct3 self.butterfly4 recursiveBufferN1
  let recursiveBufferN3 ← Type2And3Butterfly4.inplaceDst3 self.butterfly4 recursiveBufferN3
  let mergedOdds ← arr [(← rd recursiveBufferN1 0) * (← rd self.twiddles 0).re + (← rd recursiveBufferN3 0) * (← rd self.twiddles 0).im,
      (← rd recursiveBufferN1 0) * (← rd self.twiddles 0).im - (← rd recursiveBufferN3 0) * (← rd self.twiddles 0).re,
      (← rd recursiveBufferN1 1) * (← rd self.twiddles 1).re + (← rd recursiveBufferN3 1) * (← rd self.twiddles 1).im,
      (← rd recursiveBufferN1 1) * (← rd self.twiddles 1).im - (← rd recursiveBufferN3 1) * (← rd self.twiddles 1).re,
      (← rd recursiveBufferN1 2) * (← rd self.twiddles 2).re + (← rd recursiveBufferN3 2) * (← rd self.twiddles 2).im,
      (← rd recursiveBufferN1 2) * (← rd self.twiddles 2).im - (← rd recursiveBufferN3 2) * (← rd self.twiddles 2).re,
      (← rd recursiveBufferN1 3) * (← rd self.twiddles 3).re + (← rd recursiveBufferN3 3) * (← rd self.twiddles 3).im,
      (← rd recursiveBufferN1 3) * (← rd self.twiddles 3).im - (← rd recursiveBufferN3 3) * (← rd self.twiddles 3).re]
  let buffer ← wrU buffer 0 ((← rd dct3Buffer 0) + (← rd mergedOdds 0))
  let buffer ← wrU buffer 15 ((← rd mergedOdds 0) - (← rd dct3Buffer 0))
  let buffer ← wrU buffer 7 (-((← rd dct3Buffer 7) + (← rd mergedOdds 1)))
  let buffer ← wrU buffer 8 ((← rd dct3Buffer 7) - (← rd mergedOdds 1))
  let buffer ← wrU buffer 1 (-((← rd dct3Buffer 1) + (← rd mergedOdds 2)))
  let buffer ← wrU buffer 14 ((← rd dct3Buffer 1) - (← rd mergedOdds 2))
  let buffer ← wrU buffer 6 ((← rd dct3Buffer 6) + (← rd mergedOdds 3))
  let buffer ← wrU buffer 9 ((← rd mergedOdds 3) - (← rd dct3Buffer 6))
  let buffer ← wrU buffer 2 ((← rd dct3Buffer 2) + (← rd mergedOdds 4))
  let buffer ← wrU buffer 13 ((← rd mergedOdds 4) - (← rd dct3Buffer 2))
  let buffer ← wrU buffer 5 (-((← rd dct3Buffer 5) + (← rd mergedOdds 5)))
  let buffer ← wrU buffer 10 ((← rd dct3Buffer 5) - (← rd mergedOdds 5))
  let buffer ← wrU buffer 3 (-((← rd dct3Buffer 3) + (← rd mergedOdds 6)))
  let buffer ← wrU buffer 12 ((← rd dct3Buffer 3) - (← rd mergedOdds 6))
  let buffer ← wrU buffer 4 ((← rd dct3Buffer 4) + (← rd mergedOdds 7))
  let buffer ← wrU buffer 11 ((← rd mergedOdds 7) - (← rd dct3Buffer 4))
  pure buffer

/-- src/algorithm/type2and3_butterflies.rs:12-20 (macro, instantiated with 16). -/
def Type2And3Butterfly16.dct2 (self : Type2And3Butterfly16 T) : CProc T := fun m =>
  validateBuffer m 16 (Type2And3Butterfly16.inplaceDct2 self)

/-- src/algorithm/type2and3_butterflies.rs:21-29 (macro, instantiated with 16). -/
def Type2And3Butterfly16.dct3 (self : Type2And3Butterfly16 T) : CProc T := fun m =>
  validateBuffer m 16 (Type2And3Butterfly16.inplaceDct3 self)

/-- src/algorithm/type2and3_butterflies.rs:30-38 (macro, instantiated with 16). -/
def Type2And3Butterfly16.dst2 (self : Type2And3Butterfly16 T) : CProc T := fun m =>
  validateBuffer m 16 (Type2And3Butterfly16.inplaceDst2 self)

/-- src/algorithm/type2and3_butterflies.rs:39-47 (macro, instantiated with 16). -/
def Type2And3Butterfly16.dst3 (self : Type2And3Butterfly16 T) : CProc T := fun m =>
  validateBuffer m 16 (Type2And3Butterfly16.inplaceDst3 self)


/-! ## `Verif/Model/SplitRadix.lean` -/

/-- src/algorithm/type2and3_splitradix.rs:68-136. -/
def Type2And3SplitRadix.dct2 (half quarter : CObj23 T) (self : Type2And3SplitRadix T) : CProc T := fun m =>
  validateBuffers m self.len self.scratchLen fun buffer scratch => do
    let len := self.len
    let halfLen := len / 2
    let quarterLen := len / 4
    let (inputDct2, inputDct4) ← splitAtMut scratch halfLen
    let (inputDct4Even, inputDct4Odd) ← splitAtMut inputDct4 quarterLen
    -- 79-104
    let (inputDct2, inputDct4Even, inputDct4Odd) ←
      forRange 0 quarterLen (inputDct2, inputDct4Even, inputDct4Odd) fun i st => do
        let (inputDct2, inputDct4Even, inputDct4Odd) := st
        let inputBottom ← rdU buffer i
        let a ← csub len i
        let top ← csub a 1
        let inputTop ← rdU buffer top
        let b ← csub halfLen i
        let hb ← csub b 1
        let inputHalfBottom ← rdU buffer hb
        let inputHalfTop ← rdU buffer (halfLen + i)
        let inputDct2 ← wrU inputDct2 i (inputTop + inputBottom)
        let inputDct2 ← wrU inputDct2 hb (inputHalfBottom + inputHalfTop)
        let lowerDct4 ← arith (inputBottom - inputTop)
        let upperDct4 ← arith (inputHalfBottom - inputHalfTop)
        let twiddle ← rdU self.twiddles i
        let cosInput ← arith (lowerDct4 * twiddle.re + upperDct4 * twiddle.im)
        let sinInput ← arith (upperDct4 * twiddle.re - lowerDct4 * twiddle.im)
        let inputDct4Even ← wrU inputDct4Even i cosInput
        let c ← csub quarterLen i
        let q ← csub c 1
        let inputDct4Odd ← wrU inputDct4Odd q (if i % 2 = 0 then sinInput else -sinInput)
        pure (inputDct2, inputDct4Even, inputDct4Odd)
    -- 107-111: the original buffer serves as scratch space
    let (inputDct2, buffer) ← callProc half.dct2 inputDct2 buffer
    let (inputDct4Even, buffer) ← callProc quarter.dct2 inputDct4Even buffer
    let (inputDct4Odd, buffer) ← callProc quarter.dct2 inputDct4Odd buffer
    -- 115-117
    let x ← rdU inputDct2 0
    let buffer ← wrU buffer 0 x
    let x ← rdU inputDct4Even 0
    let buffer ← wrU buffer 1 x
    let x ← rdU inputDct2 1
    let buffer ← wrU buffer 2 x
    -- 119-132
    let buffer ← forRange 1 quarterLen buffer fun i buffer => do
      let dct4CosOutput ← rdU inputDct4Even i
      let q ← csub quarterLen i
      let o ← rdU inputDct4Odd q
      let dct4SinOutput ← arith (if (i + quarterLen) % 2 = 0 then -o else o)
      let k1 ← csub (i * 4) 1
      let buffer ← wrU buffer k1 (dct4CosOutput + dct4SinOutput)
      let x ← rdU inputDct2 (i * 2)
      let buffer ← wrU buffer (i * 4) x
      let buffer ← wrU buffer (i * 4 + 1) (dct4CosOutput - dct4SinOutput)
      let x ← rdU inputDct2 (i * 2 + 1)
      wrU buffer (i * 4 + 2) x
    -- 134
    let last ← csub len 1
    let x ← rdU inputDct4Odd 0
    let buffer ← wrU buffer last (-x)
    pure (buffer, inputDct2 ++ (inputDct4Even ++ inputDct4Odd))

/-- src/algorithm/type2and3_splitradix.rs:150-222. -/
def Type2And3SplitRadix.dct3 (half quarter : CObj23 T) (self : Type2And3SplitRadix T) : CProc T := fun m =>
  validateBuffers m self.len self.scratchLen fun buffer scratch => do
    let len := buffer.length
    let halfLen := len / 2
    let quarterLen := len / 4
    let (evens, odds) ← splitAtMut scratch halfLen
    let (n1, n3) ← splitAtMut odds quarterLen
    -- 164-167
    let b0 ← rd buffer 0
    let evens ← wr evens 0 b0
    let b2 ← rd buffer 2
    let evens ← wr evens 1 b2
    let b1 ← rd buffer 1
    let n1 ← wr n1 0 (b1 * ttwo (Cn T))
    let last ← csub len 1
    let bl ← rd buffer last
    let n3 ← wr n3 0 (bl * ttwo (Cn T))
    -- 170-184
    let (evens, n1, n3) ← forRange 1 quarterLen (evens, n1, n3) fun i st => do
      let (evens, n1, n3) := st
      let k := 4 * i
      let x ← rdU buffer k
      let evens ← wrU evens (i * 2) x
      let x ← rdU buffer (k + 2)
      let evens ← wrU evens (i * 2 + 1) x
      let km1 ← csub k 1
      let x ← rdU buffer km1
      let y ← rdU buffer (k + 1)
      let n1 ← wrU n1 i (x + y)
      let q ← csub quarterLen i
      let n3 ← wrU n3 q (x - y)
      pure (evens, n1, n3)
    -- 187-192
    let (evens, buffer) ← callProc half.dct3 evens buffer
    let (n1, buffer) ← callProc quarter.dct3 n1 buffer
    let (n3, buffer) ← callProc quarter.dct3 n3 buffer
    -- 197-221
    let buffer ← forRange 0 quarterLen buffer fun i buffer => do
      let twiddle ← rd self.twiddles i
      let cosineValue ← rd n1 i
      let s ← rd n3 i
      let sineValue ← arith (if i % 2 = 0 then s else -s)
      let lowerDct4 ← arith (cosineValue * twiddle.re + sineValue * twiddle.im)
      let upperDct4 ← arith (cosineValue * twiddle.im - sineValue * twiddle.re)
      let lowerDct3 ← rdU evens i
      let a ← csub halfLen i
      let hb ← csub a 1
      let upperDct3 ← rdU evens hb
      let buffer ← wrU buffer i (lowerDct3 + lowerDct4)
      let b ← csub len i
      let top ← csub b 1
      let buffer ← wrU buffer top (lowerDct3 - lowerDct4)
      let buffer ← wrU buffer hb (upperDct3 + upperDct4)
      wrU buffer (halfLen + i) (upperDct3 - upperDct4)
    pure (buffer, evens ++ (n1 ++ n3))

/-- `for i in 0..cnt { buffer[2 * i + 1] = buffer[2 * i + 1].neg(); }`
(src/algorithm/type2and3_splitradix.rs:140-142 and 230-232): a read, a negation and a write per iteration. -/
def negOdds (cnt : Nat) (buf : List T) : Except (Err × List T) (List T) × Nat := (RustDct.negOdds cnt buf, 3 * cnt)

/-- src/algorithm/type2and3_splitradix.rs:139-147; `reverse()` reads and writes every element. -/
def Type2And3SplitRadix.dst2 (half quarter : CObj23 T) (self : Type2And3SplitRadix T) : CProc T := fun m =>
  match negOdds (self.len / 2) m.buf with
  | (.error (e, b), k) => (.panic e (some ⟨b, m.scr⟩), k)
  | (.ok b, k) =>
    match Type2And3SplitRadix.dct2 half quarter self ⟨b, m.scr⟩ with
    | (.ok m', l) => (.ok ⟨m'.buf.reverse, m'.scr⟩, k + l + 2 * m'.buf.length)
    | (.panic e m', l) => (.panic e m', k + l)

/-- src/algorithm/type2and3_splitradix.rs:225-233. -/
def Type2And3SplitRadix.dst3 (half quarter : CObj23 T) (self : Type2And3SplitRadix T) : CProc T := fun m =>
  match Type2And3SplitRadix.dct3 half quarter self ⟨m.buf.reverse, m.scr⟩ with
  | (.ok m', l) =>
    match negOdds (self.len / 2) m'.buf with
    | (.error (e, b), k) => (.panic e (some ⟨b, m'.scr⟩), 2 * m.buf.length + l + k)
    | (.ok b, k) => (.ok ⟨b, m'.scr⟩, 2 * m.buf.length + l + k)
  | (.panic e m', l) => (.panic e m', 2 * m.buf.length + l)

/-- Lines 79-88 and 121-130 of src/algorithm/type4_convert_to_type3.rs: the two inner transforms run one
after the other on `first` and `second`, both using `extra_scratch` as scratch space if it is non-empty and the
buffer otherwise.  Returns (first, second, buffer, extra_scratch). -/
def runInnerPair (p1 p2 : CProc T) (first second buffer extra : List T) :
    Run (List T × List T × List T × List T) := do
  if extra.length > 0 then do
    let (first, extra) ← callProc p1 first extra
    let (second, extra) ← callProc p2 second extra
    pure (first, second, buffer, extra)
  else do
    let (first, buffer) ← callProc p1 first buffer
    let (second, buffer) ← callProc p2 second buffer
    pure (first, second, buffer, extra)

/-- src/algorithm/type4_convert_to_type3.rs:60-99. -/
def Type4ConvertToType3Even.dct4 (inner : CObj23 T) (self : Type4ConvertToType3Even T) : CProc T := fun m =>
  validateBuffers m self.len self.scratchLen fun buffer scratch => do
    let (selfScratch, extraScratch) ← splitAtMut scratch self.len
    let len := self.len
    let innerLen := len / 2
    let (outputLeft, outputRight) ← splitAtMut selfScratch innerLen
    let b0 ← rd buffer 0
    let outputLeft ← wr outputLeft 0 (b0 * ttwo (Cn T))
    let (outputLeft, outputRight) ← forRange 1 innerLen (outputLeft, outputRight) fun k st => do
      let (outputLeft, outputRight) := st
      let k1 ← csub (2 * k) 1
      let x ← rd buffer k1
      let y ← rd buffer (2 * k)
      let outputLeft ← wr outputLeft k (x + y)
      let r ← csub k 1
      let outputRight ← wr outputRight r (x - y)
      pure (outputLeft, outputRight)
    let il ← csub innerLen 1
    let l1 ← csub len 1
    let bl ← rd buffer l1
    let outputRight ← wr outputRight il (bl * ttwo (Cn T))
    let (outputLeft, outputRight, buffer, extraScratch) ←
      runInnerPair inner.dct3 inner.dst3 outputLeft outputRight buffer extraScratch
    let buffer ← forRange 0 innerLen buffer fun k buffer => do
      let twiddle ← rd self.twiddles k
      let cosValue ← rd outputLeft k
      let sinValue ← rd outputRight k
      let buffer ← wr buffer k (cosValue * twiddle.re + sinValue * twiddle.im)
      let a ← csub len 1
      let j ← csub a k
      wr buffer j (cosValue * twiddle.im - sinValue * twiddle.re)
    pure (buffer, (outputLeft ++ outputRight) ++ extraScratch)

/-- src/algorithm/type4_convert_to_type3.rs:102-141. -/
def Type4ConvertToType3Even.dst4 (inner : CObj23 T) (self : Type4ConvertToType3Even T) : CProc T := fun m =>
  validateBuffers m self.len self.scratchLen fun buffer scratch => do
    let (selfScratch, extraScratch) ← splitAtMut scratch self.len
    let len := self.len
    let innerLen := len / 2
    let (outputLeft, outputRight) ← splitAtMut selfScratch innerLen
    let b0 ← rd buffer 0
    let outputRight ← wr outputRight 0 (b0 * ttwo (Cn T))
    let (outputLeft, outputRight) ← forRange 1 innerLen (outputLeft, outputRight) fun k st => do
      let (outputLeft, outputRight) := st
      let k1 ← csub (2 * k) 1
      let x ← rd buffer k1
      let y ← rd buffer (2 * k)
      let r ← csub k 1
      let outputLeft ← wr outputLeft r (x + y)
      let outputRight ← wr outputRight k (y - x)
      pure (outputLeft, outputRight)
    let il ← csub innerLen 1
    let l1 ← csub len 1
    let bl ← rd buffer l1
    let outputLeft ← wr outputLeft il (bl * ttwo (Cn T))
    let (outputLeft, outputRight, buffer, extraScratch) ←
      runInnerPair inner.dst3 inner.dct3 outputLeft outputRight buffer extraScratch
    let buffer ← forRange 0 innerLen buffer fun k buffer => do
      let twiddle ← rd self.twiddles k
      let cosValue ← rd outputLeft k
      let sinValue ← rd outputRight k
      let buffer ← wr buffer k (cosValue * twiddle.re + sinValue * twiddle.im)
      let a ← csub len 1
      let j ← csub a k
      wr buffer j (sinValue * twiddle.re - cosValue * twiddle.im)
    pure (buffer, (outputLeft ++ outputRight) ++ extraScratch)


/-! ## `Verif/Model/Mdct.lean` -/

/-- One accumulation loop of src/mdct/mdct_naive.rs (99-108, 110-119, 147-156, 173-182): the state is the
accumulator and the twiddle index; `term i twiddle` is the added value. -/
def mdctLoop (twiddles : List T) (cnt twiddleStride : Nat) (term : Nat → Cn T → Run (Cn T))
    (acc : Cn T) (twiddleIndex : Nat) : Run (Cn T × Nat) :=
  forRange 0 cnt (acc, twiddleIndex) fun i st => do
    let twiddle ← rd twiddles st.2
    let v ← term i twiddle
    let acc ← arith (st.1 + v)
    let twiddleIndex := st.2 + twiddleStride
    if twiddleIndex ≥ twiddles.length then
      pure (acc, twiddleIndex - twiddles.length)
    else
      pure (acc, twiddleIndex)

/-- src/mdct/mdct_naive.rs:73-121.  (`output_cell` is kept in a local until its loop ends.) -/
def MdctNaive.mdct (self : MdctNaive T) (inputA inputB : List T) : Mem T → Outcome (Mem T) × Nat := fun m =>
  validateMdct inputA inputB m self.len self.scratchLen fun output scratch => do
    let outputLen := output.length
    let halfOutput := output.length / 2
    let output ← forRange 0 outputLen output fun k output => do
      let twiddleIndex := (halfOutput + k * (outputLen + 1)) % self.twiddles.length
      let twiddleStride := k * 2 + 1
      let st ← mdctLoop self.twiddles inputA.length twiddleStride (fun i twiddle => do
        let a ← rd inputA i
        let w ← rd self.window i
        pure (a * w * twiddle)) 0 twiddleIndex
      let st ← mdctLoop self.twiddles inputB.length twiddleStride (fun i twiddle => do
        let b ← rd inputB i
        let w ← rd self.window (i + outputLen)
        pure (b * w * twiddle)) st.1 st.2
      wr output k st.1
    pure (output, scratch)

/-- src/mdct/mdct_naive.rs:122-185. -/
def MdctNaive.imdct (self : MdctNaive T) (input : List T) : IMem T → Outcome (IMem T) × Nat := fun m =>
  validateImdct input m self.len self.scratchLen fun outputA outputB scratch => do
    let inputLen := input.length
    let halfInput := inputLen / 2
    let outputA ← forRange 0 inputLen outputA fun k outputA => do
      let twiddleIndex := halfInput + k
      let twiddleStride := inputLen + k * 2 + 1
      let st ← mdctLoop self.twiddles input.length twiddleStride (fun i twiddle => do
        let x ← rd input i
        pure (x * twiddle)) 0 twiddleIndex
      let a ← rd outputA k
      let w ← rd self.window k
      wr outputA k (a + st.1 * w)
    let outputB ← forRange 0 inputLen outputB fun k outputB => do
      let twiddleK ← if k < inputLen / 2 then pure k else do
        let a ← csub inputLen k
        csub a 1
      let a ← csub self.twiddles.length (inputLen * 2)
      let b ← csub (a + halfInput) twiddleK
      let twiddleIndex ← csub b 1
      let c ← csub inputLen 1
      let twiddleStride ← csub c (twiddleK * 2)
      let st ← mdctLoop self.twiddles input.length twiddleStride (fun i twiddle => do
        let x ← rd input i
        pure (x * twiddle)) 0 twiddleIndex
      let o ← rd outputB k
      let w ← rd self.window (k + inputLen)
      wr outputB k (o + st.1 * w)
    pure (outputA, outputB, scratch)

/-- src/mdct/mdct_via_dct4.rs:70-128.  The four iterators are counted in full; the code runs each at most that far. -/
def MdctViaDct4.mdct (inner : CObj4 T) (self : MdctViaDct4 T) (inputA inputB : List T) : Mem T → Outcome (Mem T) × Nat := fun m =>
  validateMdct inputA inputB m self.len self.scratchLen fun output scratch => do
    let groupSize := self.len / 2
    -- 90-111
    let groupAIter ← (fun l : List T => l.take groupSize) <$> zipWith (fun (a w : Cn T) => a * w) inputA self.window
    let groupBRevIter ← (fun l : List T => l.reverse.take groupSize) <$> zipWith (fun (b w : Cn T) => b * w) inputA self.window
    let (_, windowTail) ← splitAtMut self.window self.len
    let groupCRevIter ← (fun l : List T => l.reverse.drop groupSize) <$> zipWith (fun (c w : Cn T) => c * w) inputB windowTail
    let groupDIter ← (fun l : List T => l.drop groupSize) <$> zipWith (fun (d w : Cn T) => d * w) inputB windowTail
    -- 114-117
    let output ← assignZip (fun p : Cn T × Cn T => -p.1 - p.2) output (groupCRevIter.zip groupDIter)
    -- 120-125
    let (front, back) ← splitAtMut output groupSize
    let back ← assignZip (fun p : Cn T × Cn T => p.1 - p.2) back (groupAIter.zip groupBRevIter)
    -- 127
    callProc inner.dct4 (front ++ back) scratch

/-- `for ((output, window_val), val) in out.iter_mut().zip(window).skip(k).zip(vals) { *output = f(..) }`:
the cells from `k` on are updated with the window values from `k` on. -/
def zipUpdate (f : Cn T → Cn T → Cn T → Cn T) (k : Nat) (out window vals : List T) : Run (List T) :=
  (fun l => out.take k ++ l) <$> updZip (fun o (p : Cn T × Cn T) => f o p.1 p.2) (out.drop k) ((window.drop k).zip vals)

/-- src/mdct/mdct_via_dct4.rs:130-190. -/
def MdctViaDct4.imdct (inner : CObj4 T) (self : MdctViaDct4 T) (input : List T) : IMem T → Outcome (IMem T) × Nat := fun m =>
  validateImdct input m self.len self.scratchLen fun outputA outputB scratch => do
    let (dctBuffer, dctScratch) ← splitAtMut scratch self.len
    let dctBuffer ← copyFromSlice dctBuffer input
    let (dctBuffer, dctScratch) ← callProc inner.dct4 dctBuffer dctScratch
    let groupSize := self.len / 2
    let (front, back) ← splitAtMut dctBuffer groupSize
    let (_, windowTail) ← splitAtMut self.window self.len
    -- 154-160
    let outputA ← zipUpdate (fun o w v => o + v * w) 0 outputA self.window back
    -- 163-170
    let outputA ← zipUpdate (fun o w v => o - v * w) groupSize outputA self.window back.reverse
    -- 173-179
    let outputB ← zipUpdate (fun o w v => o - v * w) 0 outputB windowTail front.reverse
    -- 182-189
    let outputB ← zipUpdate (fun o w v => o - v * w) groupSize outputB windowTail front
    pure (outputA, outputB, dctBuffer ++ dctScratch)

end RustDct.Counted
