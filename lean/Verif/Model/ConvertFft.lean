import Verif.Model.Num
/-!
# Algorithms that convert the problem to a complex FFT

Every method starts with `into_complex_mut(scratch).split_at_mut(k)`; the bodies below return the new scratch
as `fromComplex (fft_buffer ++ fft_scratch) scratch`.
-/

namespace RustDct

variable {T : Type} {F : Type} [F64 F] [DctNum T F]

/-! ## Type 1 -/

/-- src/algorithm/type1_convert_to_fft.rs:28-34. -/
structure Dct1ConvertToFft (T : Type) where
  fft : Fft T
  len : Nat
  scratchLen : Nat
  innerFftLen : Nat

/-- src/algorithm/type1_convert_to_fft.rs:38-61. -/
def Dct1ConvertToFft.new (innerFft : Fft T) : Except Err (Dct1ConvertToFft T) :=
  if ¬ innerFft.len % 2 = 0 then .error .assertion
  else if innerFft.direction ≠ .forward then .error .assertion
  else
    .ok { scratchLen := 2 * (innerFft.len + innerFft.inplaceScratchLen)
          innerFftLen := innerFft.len
          fft := innerFft
          len := innerFft.len / 2 + 1 }

/-- src/algorithm/type1_convert_to_fft.rs:65-97. -/
def Dct1ConvertToFft.dct1 (self : Dct1ConvertToFft T) : Proc T := fun m =>
  validateBuffers m self.len self.scratchLen fun buffer scratch => do
    let complexScratch := intoComplex scratch
    let (fftBuffer, fftScratch) ← splitAtMut complexScratch self.innerFftLen
    -- 71-76: buffer.iter().zip(&mut fft_buffer[..buffer.len()])
    let (front, back) ← splitAtMut fftBuffer buffer.length
    let front := assignZip Cx.ofRe front buffer
    -- 77-87: buffer.iter().rev().skip(1).zip(&mut fft_buffer[buffer.len()..])
    let back := assignZip Cx.ofRe back (buffer.reverse.drop 1)
    let (fftBuffer, fftScratch) ← self.fft.process (front ++ back) fftScratch
    -- 93-96
    let buffer := assignZip (fun c : Cx T => c.re * thalf T) buffer fftBuffer
    .ok (buffer, fromComplex (fftBuffer ++ fftScratch) scratch)

/-- `Dct1ConvertToFft` behind an `Arc<dyn Dct1>`. -/
def Dct1ConvertToFft.toObj (self : Dct1ConvertToFft T) : Obj1 T :=
  { len := self.len, scratchLen := self.scratchLen, run := self.dct1 }

/-- src/algorithm/type1_convert_to_fft.rs:128-134. -/
structure Dst1ConvertToFft (T : Type) where
  fft : Fft T
  len : Nat
  scratchLen : Nat
  innerFftLen : Nat

/-- src/algorithm/type1_convert_to_fft.rs:138-161. -/
def Dst1ConvertToFft.new (innerFft : Fft T) : Except Err (Dst1ConvertToFft T) :=
  if ¬ innerFft.len % 2 = 0 then .error .assertion
  else if innerFft.direction ≠ .forward then .error .assertion
  else do
    let len ← csub (innerFft.len / 2) 1
    .ok { scratchLen := 2 * (innerFft.len + innerFft.inplaceScratchLen)
          innerFftLen := innerFft.len
          fft := innerFft
          len := len }

/-- src/algorithm/type1_convert_to_fft.rs:165-189. -/
def Dst1ConvertToFft.dst1 (self : Dst1ConvertToFft T) : Proc T := fun m =>
  validateBuffers m self.len self.scratchLen fun buffer scratch => do
    let complexScratch := intoComplex scratch
    let (fftBuffer, fftScratch) ← splitAtMut complexScratch self.innerFftLen
    -- 172-174: buffer.iter().zip(fft_buffer.iter_mut().skip(1))
    let fftBuffer := fftBuffer.take 1 ++ assignZip Cx.ofRe (fftBuffer.drop 1) buffer
    -- 177-179: buffer.iter().zip(fft_buffer.iter_mut().rev())
    let fftBuffer := (assignZip (fun x => Cx.ofRe (-x)) fftBuffer.reverse buffer).reverse
    let (fftBuffer, fftScratch) ← self.fft.process fftBuffer fftScratch
    -- 185-188: fft_buffer.iter().rev().zip(buffer.iter_mut())
    let buffer := assignZip (fun c : Cx T => c.im * thalf T) buffer fftBuffer.reverse
    .ok (buffer, fromComplex (fftBuffer ++ fftScratch) scratch)

/-- `Dst1ConvertToFft` behind an `Arc<dyn Dst1>`. -/
def Dst1ConvertToFft.toObj (self : Dst1ConvertToFft T) : Obj1 T :=
  { len := self.len, scratchLen := self.scratchLen, run := self.dst1 }

/-! ## Types 2 and 3 -/

/-- src/algorithm/type2and3_convert_to_fft.rs:36-41. -/
structure Type2And3ConvertToFft (T : Type) where
  fft : Fft T
  twiddles : List (Cx T)
  scratchLen : Nat

/-- src/algorithm/type2and3_convert_to_fft.rs:45-65. -/
def Type2And3ConvertToFft.new (innerFft : Fft T) : Except Err (Type2And3ConvertToFft T) :=
  if innerFft.direction ≠ .forward then .error .assertion
  else
    let len := innerFft.len
    .ok { fft := innerFft
          twiddles := (List.range len).map fun i => singleTwiddle i (len * 4)
          scratchLen := 2 * (len + innerFft.inplaceScratchLen) }

/-- src/algorithm/type2and3_convert_to_fft.rs:227-231. -/
def Type2And3ConvertToFft.len (self : Type2And3ConvertToFft T) : Nat := self.twiddles.length

/-- src/algorithm/type2and3_convert_to_fft.rs:69-102. -/
def Type2And3ConvertToFft.dct2 (self : Type2And3ConvertToFft T) : Proc T := fun m =>
  validateBuffers m self.len self.scratchLen fun buffer scratch => do
    let complexScratch := intoComplex scratch
    let (fftBuffer, fftScratch) ← splitAtMut complexScratch self.len
    let evenEnd := (buffer.length + 1) / 2
    let fftBuffer ← forRange 0 evenEnd fftBuffer fun i fftBuffer => do
      let x ← rd buffer (i * 2)
      wr fftBuffer i (Cx.ofRe x)
    let fftBuffer ←
      if self.len > 1 then do
        let a ← csub self.len 1
        let oddEnd ← csub a (self.len % 2)
        forRange 0 (self.len / 2) fftBuffer fun i fftBuffer => do
          let j ← csub oddEnd (2 * i)
          let x ← rd buffer j
          wr fftBuffer (evenEnd + i) (Cx.ofRe x)
      else .ok fftBuffer
    let (fftBuffer, fftScratch) ← self.fft.process fftBuffer fftScratch
    let buffer := assignZip (fun p : Cx T × Cx T => (Cx.mul p.1 p.2).re) buffer (fftBuffer.zip self.twiddles)
    .ok (buffer, fromComplex (fftBuffer ++ fftScratch) scratch)

/-- src/algorithm/type2and3_convert_to_fft.rs:105-138. -/
def Type2And3ConvertToFft.dst2 (self : Type2And3ConvertToFft T) : Proc T := fun m =>
  validateBuffers m self.len self.scratchLen fun buffer scratch => do
    let complexScratch := intoComplex scratch
    let (fftBuffer, fftScratch) ← splitAtMut complexScratch self.len
    let evenEnd := (buffer.length + 1) / 2
    let fftBuffer ← forRange 0 evenEnd fftBuffer fun i fftBuffer => do
      let x ← rd buffer (i * 2)
      wr fftBuffer i (Cx.ofRe x)
    let fftBuffer ←
      if self.len > 1 then do
        let a ← csub self.len 1
        let oddEnd ← csub a (self.len % 2)
        forRange 0 (self.len / 2) fftBuffer fun i fftBuffer => do
          let j ← csub oddEnd (2 * i)
          let x ← rd buffer j
          wr fftBuffer (evenEnd + i) (Cx.ofRe (-x))
      else .ok fftBuffer
    let (fftBuffer, fftScratch) ← self.fft.process fftBuffer fftScratch
    let buffer := (assignZip (fun p : Cx T × Cx T => (Cx.mul p.1 p.2).re) buffer.reverse
      (fftBuffer.zip self.twiddles)).reverse
    .ok (buffer, fromComplex (fftBuffer ++ fftScratch) scratch)

/-- src/algorithm/type2and3_convert_to_fft.rs:141-181.  The loop at 152-163 runs over
`fft_buffer.iter_mut().zip(twiddles).enumerate().skip(1)`, i.e. over `i` from 1 to the shorter length. -/
def Type2And3ConvertToFft.dct3 (self : Type2And3ConvertToFft T) : Proc T := fun m =>
  validateBuffers m self.len self.scratchLen fun buffer scratch => do
    let complexScratch := intoComplex scratch
    let (fftBuffer, fftScratch) ← splitAtMut complexScratch self.len
    let b0 ← rd buffer 0
    let fftBuffer ← wr fftBuffer 0 (Cx.ofRe (b0 * thalf T))
    let fftBuffer ← forRange 1 (min fftBuffer.length self.twiddles.length) fftBuffer fun i fftBuffer => do
      let twiddle ← rd self.twiddles i
      let re ← rd buffer i
      let j ← csub buffer.length i
      let im ← rd buffer j
      wr fftBuffer i (Cx.scale (Cx.mul ⟨re, im⟩ twiddle) (thalf T))
    let (fftBuffer, fftScratch) ← self.fft.process fftBuffer fftScratch
    let evenEnd := (buffer.length + 1) / 2
    let buffer ← forRange 0 evenEnd buffer fun i buffer => do
      let c ← rd fftBuffer i
      wr buffer (i * 2) c.re
    let buffer ←
      if self.len > 1 then do
        let a ← csub self.len 1
        let oddEnd ← csub a (self.len % 2)
        forRange 0 (self.len / 2) buffer fun i buffer => do
          let c ← rd fftBuffer (i + evenEnd)
          let j ← csub oddEnd (2 * i)
          wr buffer j c.re
      else .ok buffer
    .ok (buffer, fromComplex (fftBuffer ++ fftScratch) scratch)

/-- src/algorithm/type2and3_convert_to_fft.rs:184-224. -/
def Type2And3ConvertToFft.dst3 (self : Type2And3ConvertToFft T) : Proc T := fun m =>
  validateBuffers m self.len self.scratchLen fun buffer scratch => do
    let complexScratch := intoComplex scratch
    let (fftBuffer, fftScratch) ← splitAtMut complexScratch self.len
    let last ← csub buffer.length 1
    let bl ← rd buffer last
    let fftBuffer ← wr fftBuffer 0 (Cx.ofRe (bl * thalf T))
    let fftBuffer ← forRange 1 (min fftBuffer.length self.twiddles.length) fftBuffer fun i fftBuffer => do
      let twiddle ← rd self.twiddles i
      let a ← csub buffer.length i
      let j ← csub a 1
      let re ← rd buffer j
      let i1 ← csub i 1
      let im ← rd buffer i1
      wr fftBuffer i (Cx.scale (Cx.mul ⟨re, im⟩ twiddle) (thalf T))
    let (fftBuffer, fftScratch) ← self.fft.process fftBuffer fftScratch
    let evenEnd := (self.len + 1) / 2
    let buffer ← forRange 0 evenEnd buffer fun i buffer => do
      let c ← rd fftBuffer i
      wr buffer (i * 2) c.re
    let buffer ←
      if self.len > 1 then do
        let a ← csub self.len 1
        let oddEnd ← csub a (self.len % 2)
        forRange 0 (self.len / 2) buffer fun i buffer => do
          let c ← rd fftBuffer (i + evenEnd)
          let j ← csub oddEnd (2 * i)
          wr buffer j (-c.re)
      else .ok buffer
    .ok (buffer, fromComplex (fftBuffer ++ fftScratch) scratch)

/-- `Type2And3ConvertToFft` behind an `Arc<dyn TransformType2And3>`. -/
def Type2And3ConvertToFft.toObj (self : Type2And3ConvertToFft T) : Obj23 T :=
  { len := self.len, scratchLen := self.scratchLen,
    dct2 := self.dct2, dct3 := self.dct3, dst2 := self.dst2, dst3 := self.dst3 }

/-! ## Type 4, odd length -/

/-- src/algorithm/type4_convert_to_fft.rs:33-38. -/
structure Type4ConvertToFftOdd (T : Type) where
  fft : Fft T
  len : Nat
  scratchLen : Nat

/-- src/algorithm/type4_convert_to_fft.rs:42-62. -/
def Type4ConvertToFftOdd.new (innerFft : Fft T) : Except Err (Type4ConvertToFftOdd T) :=
  if innerFft.direction ≠ .forward then .error .assertion
  else if ¬ innerFft.len % 2 = 1 then .error .assertion
  else
    .ok { scratchLen := 2 * (innerFft.len + innerFft.inplaceScratchLen)
          fft := innerFft
          len := innerFft.len }

/-- `while input_index < len { fft_buffer[fft_index] = value(input_index); input_index += 4; fft_index += 1; }`,
the loop repeated at src/algorithm/type4_convert_to_fft.rs:79-87, 91-99, 102-110, 113-121 (DCT4) and 181-189,
193-201, 204-212, 215-223 (DST4) with different `value` expressions. -/
def fillWhileInput (len : Nat) (value : Nat → Except Err (Cx T)) (inputIndex fftIndex : Nat)
    (fftBuffer : List (Cx T)) : Except Err (Nat × Nat × List (Cx T)) :=
  if inputIndex < len then do
    let v ← value inputIndex
    let fftBuffer ← wr fftBuffer fftIndex v
    fillWhileInput len value (inputIndex + 4) (fftIndex + 1) fftBuffer
  else .ok (inputIndex, fftIndex, fftBuffer)
termination_by len - inputIndex

/-- `while fft_index < len { ... }` with the same body, src/algorithm/type4_convert_to_fft.rs:124-132, 226-234. -/
def fillWhileFft (len : Nat) (value : Nat → Except Err (Cx T)) (inputIndex fftIndex : Nat)
    (fftBuffer : List (Cx T)) : Except Err (List (Cx T)) :=
  if fftIndex < len then do
    let v ← value inputIndex
    let fftBuffer ← wr fftBuffer fftIndex v
    fillWhileFft len value (inputIndex + 4) (fftIndex + 1) fftBuffer
  else .ok fftBuffer
termination_by len - fftIndex

/-- `buffer[len - input_index - 1]`. -/
def rdMirror (buffer : List T) (len i : Nat) : Except Err T := do
  let a ← csub len i
  let j ← csub a 1
  rd buffer j

/-- src/algorithm/type4_convert_to_fft.rs:66-165. -/
def Type4ConvertToFftOdd.dct4 (self : Type4ConvertToFftOdd T) : Proc T := fun m =>
  validateBuffers m self.len self.scratchLen fun buffer scratch => do
    let len := self.len
    let halfLen := len / 2
    let quarterLen := len / 4
    let complexScratch := intoComplex scratch
    let (fftBuffer, fftScratch) ← splitAtMut complexScratch len
    -- 77-87
    let (ii, fi, fftBuffer) ← fillWhileInput len (fun i => do
      let x ← rd buffer i
      .ok (Cx.ofRe x)) halfLen 0 fftBuffer
    -- 90-99
    let ii ← csub ii len
    let (ii, fi, fftBuffer) ← fillWhileInput len (fun i => do
      let x ← rdMirror buffer len i
      .ok (Cx.ofRe (-x))) ii fi fftBuffer
    -- 101-110
    let ii ← csub ii len
    let (ii, fi, fftBuffer) ← fillWhileInput len (fun i => do
      let x ← rd buffer i
      .ok (Cx.ofRe (-x))) ii fi fftBuffer
    -- 112-121
    let ii ← csub ii len
    let (ii, fi, fftBuffer) ← fillWhileInput len (fun i => do
      let x ← rdMirror buffer len i
      .ok (Cx.ofRe x)) ii fi fftBuffer
    -- 123-132
    let ii ← csub ii len
    let fftBuffer ← fillWhileFft len (fun i => do
      let x ← rd buffer i
      .ok (Cx.ofRe x)) ii fi fftBuffer
    -- 135
    let (fftBuffer, fftScratch) ← self.fft.process fftBuffer fftScratch
    let resultScale : T := DctNum.sqrt2 * thalf T
    let secondHalfSign : T := if len % 4 = 1 then 1 else -1
    -- 141-153
    let (buffer, outputSign) ← forRange 0 quarterLen (buffer, (1 : T)) fun i st => do
      let (buffer, outputSign) := st
      let a ← rd fftBuffer (4 * i + 1)
      let fftResult := Cx.scale a (outputSign * resultScale)
      let b ← rd fftBuffer (4 * i + 3)
      let nextResult := Cx.scale b (outputSign * resultScale)
      let buffer ← wr buffer (i * 2) (fftResult.re + fftResult.im)
      let buffer ← wr buffer (i * 2 + 1) (-nextResult.re + nextResult.im)
      let j ← csub len (i * 2)
      let j2 ← csub j 2
      let buffer ← wr buffer j2 ((nextResult.re + nextResult.im) * secondHalfSign)
      let j1 ← csub j 1
      let buffer ← wr buffer j1 ((fftResult.re - fftResult.im) * secondHalfSign)
      .ok (buffer, -outputSign)
    -- 156-164
    if len % 4 = 1 then do
      let c ← rd fftBuffer 0
      let buffer ← wr buffer halfLen (c.re * outputSign * resultScale)
      .ok (buffer, fromComplex (fftBuffer ++ fftScratch) scratch)
    else do
      let j ← csub len 2
      let a ← rd fftBuffer j
      let fftResult := Cx.scale a (outputSign * resultScale)
      let h1 ← csub halfLen 1
      let buffer ← wr buffer h1 (fftResult.re + fftResult.im)
      let buffer ← wr buffer (halfLen + 1) (-fftResult.re + fftResult.im)
      let c ← rd fftBuffer 0
      let buffer ← wr buffer halfLen (-c.re * outputSign * resultScale)
      .ok (buffer, fromComplex (fftBuffer ++ fftScratch) scratch)

/-- src/algorithm/type4_convert_to_fft.rs:168-267. -/
def Type4ConvertToFftOdd.dst4 (self : Type4ConvertToFftOdd T) : Proc T := fun m =>
  validateBuffers m self.len self.scratchLen fun buffer scratch => do
    let len := self.len
    let halfLen := len / 2
    let quarterLen := len / 4
    let complexScratch := intoComplex scratch
    let (fftBuffer, fftScratch) ← splitAtMut complexScratch len
    -- 179-189
    let (ii, fi, fftBuffer) ← fillWhileInput len (fun i => do
      let x ← rdMirror buffer len i
      .ok (Cx.ofRe x)) halfLen 0 fftBuffer
    -- 192-201
    let ii ← csub ii len
    let (ii, fi, fftBuffer) ← fillWhileInput len (fun i => do
      let x ← rd buffer i
      .ok (Cx.ofRe (-x))) ii fi fftBuffer
    -- 203-212
    let ii ← csub ii len
    let (ii, fi, fftBuffer) ← fillWhileInput len (fun i => do
      let x ← rdMirror buffer len i
      .ok (Cx.ofRe (-x))) ii fi fftBuffer
    -- 214-223
    let ii ← csub ii len
    let (ii, fi, fftBuffer) ← fillWhileInput len (fun i => do
      let x ← rd buffer i
      .ok (Cx.ofRe x)) ii fi fftBuffer
    -- 225-234
    let ii ← csub ii len
    let fftBuffer ← fillWhileFft len (fun i => do
      let x ← rdMirror buffer len i
      .ok (Cx.ofRe x)) ii fi fftBuffer
    -- 237
    let (fftBuffer, fftScratch) ← self.fft.process fftBuffer fftScratch
    let resultScale : T := DctNum.sqrt2 * thalf T
    let secondHalfSign : T := if len % 4 = 1 then 1 else -1
    -- 243-255
    let (buffer, outputSign) ← forRange 0 quarterLen (buffer, (1 : T)) fun i st => do
      let (buffer, outputSign) := st
      let a ← rd fftBuffer (4 * i + 1)
      let fftResult := Cx.scale a (outputSign * resultScale)
      let b ← rd fftBuffer (4 * i + 3)
      let nextResult := Cx.scale b (outputSign * resultScale)
      let buffer ← wr buffer (i * 2) (fftResult.re + fftResult.im)
      let buffer ← wr buffer (i * 2 + 1) (nextResult.re - nextResult.im)
      let j ← csub len (i * 2)
      let j2 ← csub j 2
      let buffer ← wr buffer j2 (-(nextResult.re + nextResult.im) * secondHalfSign)
      let j1 ← csub j 1
      let buffer ← wr buffer j1 ((fftResult.re - fftResult.im) * secondHalfSign)
      .ok (buffer, -outputSign)
    -- 258-266
    if len % 4 = 1 then do
      let c ← rd fftBuffer 0
      let buffer ← wr buffer halfLen (c.re * outputSign * resultScale)
      .ok (buffer, fromComplex (fftBuffer ++ fftScratch) scratch)
    else do
      let j ← csub len 2
      let a ← rd fftBuffer j
      let fftResult := Cx.scale a (outputSign * resultScale)
      let h1 ← csub halfLen 1
      let buffer ← wr buffer h1 (fftResult.re + fftResult.im)
      let buffer ← wr buffer (halfLen + 1) (-fftResult.re + fftResult.im)
      let c ← rd fftBuffer 0
      let buffer ← wr buffer halfLen (c.re * outputSign * resultScale)
      .ok (buffer, fromComplex (fftBuffer ++ fftScratch) scratch)

/-- `Type4ConvertToFftOdd` behind an `Arc<dyn TransformType4>`. -/
def Type4ConvertToFftOdd.toObj (self : Type4ConvertToFftOdd T) : Obj4 T :=
  { len := self.len, scratchLen := self.scratchLen, dct4 := self.dct4, dst4 := self.dst4 }

/-! ## DST types 6 and 7 -/

/-- src/algorithm/type6and7_convert_to_fft.rs:30-36. -/
structure Dst6And7ConvertToFft (T : Type) where
  fft : Fft T
  len : Nat
  scratchLen : Nat
  innerFftLen : Nat

/-- src/algorithm/type6and7_convert_to_fft.rs:40-59. -/
def Dst6And7ConvertToFft.new (innerFft : Fft T) : Except Err (Dst6And7ConvertToFft T) :=
  if ¬ innerFft.len % 2 = 1 then .error .assertion
  else if innerFft.direction ≠ .forward then .error .assertion
  else do
    let a ← csub innerFft.len 1
    .ok { scratchLen := 2 * (innerFft.len + innerFft.inplaceScratchLen)
          innerFftLen := innerFft.len
          fft := innerFft
          len := a / 2 }

/-- src/algorithm/type6and7_convert_to_fft.rs:62-89. -/
def Dst6And7ConvertToFft.dst6 (self : Dst6And7ConvertToFft T) : Proc T := fun m =>
  validateBuffers m self.len self.scratchLen fun buffer scratch => do
    let complexScratch := intoComplex scratch
    let (fftBuffer, fftScratch) ← splitAtMut complexScratch self.innerFftLen
    -- 69-71: only the imaginary part is assigned
    let fftBuffer ← forRange 0 buffer.length fftBuffer fun i fftBuffer => do
      let x ← rd buffer i
      let c ← rd fftBuffer (i * 2 + 1)
      wr fftBuffer (i * 2 + 1) ⟨c.re, x⟩
    let (fftBuffer, fftScratch) ← self.fft.process fftBuffer fftScratch
    let evenCount := (buffer.length + 1) / 2
    let oddCount ← csub buffer.length evenCount
    let buffer ← forRange 0 oddCount buffer fun i buffer => do
      let c ← rd fftBuffer (i + 1)
      wr buffer (i * 2 + 1) c.re
    let buffer ← forRange 0 evenCount buffer fun i buffer => do
      let a ← csub evenCount i
      let b ← csub a 1
      let c ← rd fftBuffer (i + oddCount + 1)
      wr buffer (2 * b) c.re
    .ok (buffer, fromComplex (fftBuffer ++ fftScratch) scratch)

/-- src/algorithm/type6and7_convert_to_fft.rs:92-130. -/
def Dst6And7ConvertToFft.dst7 (self : Dst6And7ConvertToFft T) : Proc T := fun m =>
  validateBuffers m self.len self.scratchLen fun buffer scratch => do
    let complexScratch := intoComplex scratch
    let (fftBuffer, fftScratch) ← splitAtMut complexScratch self.innerFftLen
    let evenCount := (buffer.length + 1) / 2
    let fftBuffer ← forRange 0 evenCount fftBuffer fun i fftBuffer => do
      let x ← rd buffer (i * 2)
      wr fftBuffer (buffer.length + 1 + i) (Cx.ofRe x)
    let oddCount ← csub buffer.length evenCount
    let fftBuffer ← forRange 0 oddCount fftBuffer fun i fftBuffer => do
      let a ← csub oddCount i
      let inputIndex ← csub (2 * a) 1
      let x ← rd buffer inputIndex
      wr fftBuffer (buffer.length + evenCount + 1 + i) (Cx.ofRe x)
    let fftBuffer ← forRange 0 buffer.length fftBuffer fun i fftBuffer => do
      let a ← csub fftBuffer.length 1
      let j ← csub a i
      let c ← rd fftBuffer j
      wr fftBuffer (i + 1) (Cx.neg c)
    let (fftBuffer, fftScratch) ← self.fft.process fftBuffer fftScratch
    let buffer ← forRange 0 buffer.length buffer fun i buffer => do
      let c ← rd fftBuffer (i * 2 + 1)
      wr buffer i (c.im * thalf T)
    .ok (buffer, fromComplex (fftBuffer ++ fftScratch) scratch)

/-- `Dst6And7ConvertToFft` behind an `Arc<dyn Dst6And7>`. -/
def Dst6And7ConvertToFft.toObj (self : Dst6And7ConvertToFft T) : Obj67 T :=
  { len := self.len, scratchLen := self.scratchLen, t6 := self.dst6, t7 := self.dst7 }

end RustDct
