import Verif.Model.Mdct
import Verif.Model.SplitRadix
import Verif.Model.ConvertFft
/-!
# What memory holds after a panic inside rustfft

The models of the methods that use an FFT, directly or through an inner instance, once more: here the panic of an FFT in the middle of
`process_with_scratch` is a crash point at which the contents of all slices are recorded.  `left` says what the FFT has written into its
two slices by then; it is arbitrary.  Panics before and after the FFT keep the mark `none` ("contents not recorded") of the basic model.

The methods that convert the problem to an FFT are cut in two: `pre` up to the call of the FFT, `post` after it.  That the pieces together
are the methods of `Verif/Model/ConvertFft.lean` and so on is a theorem (`C83_same`), not an assumption.
-/

namespace RustDct

variable {T : Type} {F : Type} [F64 F] [DctNum T F]

/-- What `fft.process_with_scratch(buffer, scratch)` leaves in `buffer` and `scratch` if it panics. -/
abbrev Left (T : Type) := Fft T → List (Cx T) → List (Cx T) → List (Cx T) × List (Cx T)

/-- A method with one call of an FFT.  `pre buffer scratch` is the method up to the call: it gives the contents of `buffer` at that point, and
the two parts of `scratch` handed to the FFT.  `post buffer fft_buffer` is the rest: it gives the final contents of `buffer`. -/
structure FftMethod (T : Type) where
  len : Nat
  scratchLen : Nat
  fft : Fft T
  pre : List T → List T → Except Err (List T × List (Cx T) × List (Cx T))
  post : List T → List (Cx T) → Except Err (List T)

/-- Running such a method: `validate_buffers!` (src/common.rs:30-53), `pre`, the FFT, `post`. -/
def FftMethod.run (x : FftMethod T) (left : Left T) : Proc T := fun m =>
  if m.buf.length ≠ x.len then
    afterErrorHelper (dctErrorInplace m.buf.length m.scr.length x.len x.scratchLen) m
  else if x.scratchLen ≤ m.scr.length then
    let scratch := m.scr.take x.scratchLen
    match x.pre m.buf scratch with
    | .error e => .panic e none
    | .ok (buffer, fftBuffer, fftScratch) =>
      match x.fft.process fftBuffer fftScratch with
      | .error e =>
        let (fftBuffer, fftScratch) := left x.fft fftBuffer fftScratch
        .panic e (some ⟨buffer, fromComplex (fftBuffer ++ fftScratch) scratch ++ m.scr.drop x.scratchLen⟩)
      | .ok (fftBuffer, fftScratch) =>
        match x.post buffer fftBuffer with
        | .error e => .panic e none
        | .ok buffer => .ok ⟨buffer, fromComplex (fftBuffer ++ fftScratch) scratch ++ m.scr.drop x.scratchLen⟩
  else
    afterErrorHelper (dctErrorInplace m.buf.length m.scr.length x.len x.scratchLen) m

/-! ## Types 1 to 3 -/

/-- src/algorithm/type1_convert_to_fft.rs:65-97; `pre` is 67-87, `post` is 92-96. -/
def Dct1ConvertToFft.dct1Cut (self : Dct1ConvertToFft T) : FftMethod T where
  len := self.len
  scratchLen := self.scratchLen
  fft := self.fft
  pre := fun buffer scratch => do
    let (fftBuffer, fftScratch) ← splitAtMut (intoComplex scratch) self.innerFftLen
    let (front, back) ← splitAtMut fftBuffer buffer.length
    let front := assignZip Cx.ofRe front buffer
    let back := assignZip Cx.ofRe back (buffer.reverse.drop 1)
    .ok (buffer, front ++ back, fftScratch)
  post := fun buffer fftBuffer => .ok (assignZip (fun c : Cx T => c.re * thalf T) buffer fftBuffer)

/-- src/algorithm/type1_convert_to_fft.rs:165-189; `pre` is 167-179, `post` is 184-188. -/
def Dst1ConvertToFft.dst1Cut (self : Dst1ConvertToFft T) : FftMethod T where
  len := self.len
  scratchLen := self.scratchLen
  fft := self.fft
  pre := fun buffer scratch => do
    let (fftBuffer, fftScratch) ← splitAtMut (intoComplex scratch) self.innerFftLen
    let fftBuffer := fftBuffer.take 1 ++ assignZip Cx.ofRe (fftBuffer.drop 1) buffer
    let fftBuffer := (assignZip (fun x => Cx.ofRe (-x)) fftBuffer.reverse buffer).reverse
    .ok (buffer, fftBuffer, fftScratch)
  post := fun buffer fftBuffer => .ok (assignZip (fun c : Cx T => c.im * thalf T) buffer fftBuffer.reverse)

/-- src/algorithm/type2and3_convert_to_fft.rs:69-102; `pre` is 71-89, `post` is 94-101. -/
def Type2And3ConvertToFft.dct2Cut (self : Type2And3ConvertToFft T) : FftMethod T where
  len := self.len
  scratchLen := self.scratchLen
  fft := self.fft
  pre := fun buffer scratch => do
    let (fftBuffer, fftScratch) ← splitAtMut (intoComplex scratch) self.len
    let evenEnd := (buffer.length + 1) / 2
    let fftBuffer ← forRange 0 evenEnd fftBuffer fun i fftBuffer => do
      let x ← rd buffer (i * 2)
      wr fftBuffer i (Cx.ofRe x)
    let fftBuffer ←
      if self.len > 1 then do
        let a ← csub self.len 1
        let oddEnd ← csub a (self.len % 2)
        forRange 0 (self.len / 2) fftBuffer fun i fftBuffer => do
          let j ← csub oddEnd (2 * i)
          let x ← rd buffer j
          wr fftBuffer (evenEnd + i) (Cx.ofRe x)
      else .ok fftBuffer
    .ok (buffer, fftBuffer, fftScratch)
  post := fun buffer fftBuffer =>
    .ok (assignZip (fun p : Cx T × Cx T => (Cx.mul p.1 p.2).re) buffer (fftBuffer.zip self.twiddles))

/-- src/algorithm/type2and3_convert_to_fft.rs:105-138; `pre` is 107-125, `post` is 130-137. -/
def Type2And3ConvertToFft.dst2Cut (self : Type2And3ConvertToFft T) : FftMethod T where
  len := self.len
  scratchLen := self.scratchLen
  fft := self.fft
  pre := fun buffer scratch => do
    let (fftBuffer, fftScratch) ← splitAtMut (intoComplex scratch) self.len
    let evenEnd := (buffer.length + 1) / 2
    let fftBuffer ← forRange 0 evenEnd fftBuffer fun i fftBuffer => do
      let x ← rd buffer (i * 2)
      wr fftBuffer i (Cx.ofRe x)
    let fftBuffer ←
      if self.len > 1 then do
        let a ← csub self.len 1
        let oddEnd ← csub a (self.len % 2)
        forRange 0 (self.len / 2) fftBuffer fun i fftBuffer => do
          let j ← csub oddEnd (2 * i)
          let x ← rd buffer j
          wr fftBuffer (evenEnd + i) (Cx.ofRe (-x))
      else .ok fftBuffer
    .ok (buffer, fftBuffer, fftScratch)
  post := fun buffer fftBuffer =>
    .ok (assignZip (fun p : Cx T × Cx T => (Cx.mul p.1 p.2).re) buffer.reverse (fftBuffer.zip self.twiddles)).reverse

/-- src/algorithm/type2and3_convert_to_fft.rs:141-181; `pre` is 143-163, `post` is 168-180. -/
def Type2And3ConvertToFft.dct3Cut (self : Type2And3ConvertToFft T) : FftMethod T where
  len := self.len
  scratchLen := self.scratchLen
  fft := self.fft
  pre := fun buffer scratch => do
    let (fftBuffer, fftScratch) ← splitAtMut (intoComplex scratch) self.len
    let b0 ← rd buffer 0
    let fftBuffer ← wr fftBuffer 0 (Cx.ofRe (b0 * thalf T))
    let fftBuffer ← forRange 1 (min fftBuffer.length self.twiddles.length) fftBuffer fun i fftBuffer => do
      let twiddle ← rd self.twiddles i
      let re ← rd buffer i
      let j ← csub buffer.length i
      let im ← rd buffer j
      wr fftBuffer i (Cx.scale (Cx.mul ⟨re, im⟩ twiddle) (thalf T))
    .ok (buffer, fftBuffer, fftScratch)
  post := fun buffer fftBuffer => do
    let evenEnd := (buffer.length + 1) / 2
    let buffer ← forRange 0 evenEnd buffer fun i buffer => do
      let c ← rd fftBuffer i
      wr buffer (i * 2) c.re
    if self.len > 1 then do
      let a ← csub self.len 1
      let oddEnd ← csub a (self.len % 2)
      forRange 0 (self.len / 2) buffer fun i buffer => do
        let c ← rd fftBuffer (i + evenEnd)
        let j ← csub oddEnd (2 * i)
        wr buffer j c.re
    else .ok buffer

/-- src/algorithm/type2and3_convert_to_fft.rs:184-224; `pre` is 186-206, `post` is 211-223. -/
def Type2And3ConvertToFft.dst3Cut (self : Type2And3ConvertToFft T) : FftMethod T where
  len := self.len
  scratchLen := self.scratchLen
  fft := self.fft
  pre := fun buffer scratch => do
    let (fftBuffer, fftScratch) ← splitAtMut (intoComplex scratch) self.len
    let last ← csub buffer.length 1
    let bl ← rd buffer last
    let fftBuffer ← wr fftBuffer 0 (Cx.ofRe (bl * thalf T))
    let fftBuffer ← forRange 1 (min fftBuffer.length self.twiddles.length) fftBuffer fun i fftBuffer => do
      let twiddle ← rd self.twiddles i
      let a ← csub buffer.length i
      let j ← csub a 1
      let re ← rd buffer j
      let i1 ← csub i 1
      let im ← rd buffer i1
      wr fftBuffer i (Cx.scale (Cx.mul ⟨re, im⟩ twiddle) (thalf T))
    .ok (buffer, fftBuffer, fftScratch)
  post := fun buffer fftBuffer => do
    let evenEnd := (self.len + 1) / 2
    let buffer ← forRange 0 evenEnd buffer fun i buffer => do
      let c ← rd fftBuffer i
      wr buffer (i * 2) c.re
    if self.len > 1 then do
      let a ← csub self.len 1
      let oddEnd ← csub a (self.len % 2)
      forRange 0 (self.len / 2) buffer fun i buffer => do
        let c ← rd fftBuffer (i + evenEnd)
        let j ← csub oddEnd (2 * i)
        wr buffer j (-c.re)
    else .ok buffer

/-- `Type2And3ConvertToFft` behind an `Arc<dyn TransformType2And3>`, with the contents of memory at a panic of the FFT. -/
def Type2And3ConvertToFft.toObjLeft (left : Left T) (self : Type2And3ConvertToFft T) : Obj23 T :=
  { len := self.len, scratchLen := self.scratchLen,
    dct2 := self.dct2Cut.run left, dct3 := self.dct3Cut.run left, dst2 := self.dst2Cut.run left, dst3 := self.dst3Cut.run left }

/-! ## Type 4 -/

/-- src/algorithm/type4_convert_to_fft.rs:66-165; `pre` is 68-132, `post` is 137-164. -/
def Type4ConvertToFftOdd.dct4Cut (self : Type4ConvertToFftOdd T) : FftMethod T where
  len := self.len
  scratchLen := self.scratchLen
  fft := self.fft
  pre := fun buffer scratch => do
    let len := self.len
    let halfLen := len / 2
    let (fftBuffer, fftScratch) ← splitAtMut (intoComplex scratch) len
    let (ii, fi, fftBuffer) ← fillWhileInput len (fun i => do
      let x ← rd buffer i
      .ok (Cx.ofRe x)) halfLen 0 fftBuffer
    let ii ← csub ii len
    let (ii, fi, fftBuffer) ← fillWhileInput len (fun i => do
      let x ← rdMirror buffer len i
      .ok (Cx.ofRe (-x))) ii fi fftBuffer
    let ii ← csub ii len
    let (ii, fi, fftBuffer) ← fillWhileInput len (fun i => do
      let x ← rd buffer i
      .ok (Cx.ofRe (-x))) ii fi fftBuffer
    let ii ← csub ii len
    let (ii, fi, fftBuffer) ← fillWhileInput len (fun i => do
      let x ← rdMirror buffer len i
      .ok (Cx.ofRe x)) ii fi fftBuffer
    let ii ← csub ii len
    let fftBuffer ← fillWhileFft len (fun i => do
      let x ← rd buffer i
      .ok (Cx.ofRe x)) ii fi fftBuffer
    .ok (buffer, fftBuffer, fftScratch)
  post := fun buffer fftBuffer => do
    let len := self.len
    let halfLen := len / 2
    let quarterLen := len / 4
    let resultScale : T := DctNum.sqrt2 * thalf T
    let secondHalfSign : T := if len % 4 = 1 then 1 else -1
    let (buffer, outputSign) ← forRange 0 quarterLen (buffer, (1 : T)) fun i st => do
      let (buffer, outputSign) := st
      let a ← rd fftBuffer (4 * i + 1)
      let fftResult := Cx.scale a (outputSign * resultScale)
      let b ← rd fftBuffer (4 * i + 3)
      let nextResult := Cx.scale b (outputSign * resultScale)
      let buffer ← wr buffer (i * 2) (fftResult.re + fftResult.im)
      let buffer ← wr buffer (i * 2 + 1) (-nextResult.re + nextResult.im)
      let j ← csub len (i * 2)
      let j2 ← csub j 2
      let buffer ← wr buffer j2 ((nextResult.re + nextResult.im) * secondHalfSign)
      let j1 ← csub j 1
      let buffer ← wr buffer j1 ((fftResult.re - fftResult.im) * secondHalfSign)
      .ok (buffer, -outputSign)
    if len % 4 = 1 then do
      let c ← rd fftBuffer 0
      wr buffer halfLen (c.re * outputSign * resultScale)
    else do
      let j ← csub len 2
      let a ← rd fftBuffer j
      let fftResult := Cx.scale a (outputSign * resultScale)
      let h1 ← csub halfLen 1
      let buffer ← wr buffer h1 (fftResult.re + fftResult.im)
      let buffer ← wr buffer (halfLen + 1) (-fftResult.re + fftResult.im)
      let c ← rd fftBuffer 0
      wr buffer halfLen (-c.re * outputSign * resultScale)

/-- src/algorithm/type4_convert_to_fft.rs:168-267; `pre` is 170-234, `post` is 239-266. -/
def Type4ConvertToFftOdd.dst4Cut (self : Type4ConvertToFftOdd T) : FftMethod T where
  len := self.len
  scratchLen := self.scratchLen
  fft := self.fft
  pre := fun buffer scratch => do
    let len := self.len
    let halfLen := len / 2
    let (fftBuffer, fftScratch) ← splitAtMut (intoComplex scratch) len
    let (ii, fi, fftBuffer) ← fillWhileInput len (fun i => do
      let x ← rdMirror buffer len i
      .ok (Cx.ofRe x)) halfLen 0 fftBuffer
    let ii ← csub ii len
    let (ii, fi, fftBuffer) ← fillWhileInput len (fun i => do
      let x ← rd buffer i
      .ok (Cx.ofRe (-x))) ii fi fftBuffer
    let ii ← csub ii len
    let (ii, fi, fftBuffer) ← fillWhileInput len (fun i => do
      let x ← rdMirror buffer len i
      .ok (Cx.ofRe (-x))) ii fi fftBuffer
    let ii ← csub ii len
    let (ii, fi, fftBuffer) ← fillWhileInput len (fun i => do
      let x ← rd buffer i
      .ok (Cx.ofRe x)) ii fi fftBuffer
    let ii ← csub ii len
    let fftBuffer ← fillWhileFft len (fun i => do
      let x ← rdMirror buffer len i
      .ok (Cx.ofRe x)) ii fi fftBuffer
    .ok (buffer, fftBuffer, fftScratch)
  post := fun buffer fftBuffer => do
    let len := self.len
    let halfLen := len / 2
    let quarterLen := len / 4
    let resultScale : T := DctNum.sqrt2 * thalf T
    let secondHalfSign : T := if len % 4 = 1 then 1 else -1
    let (buffer, outputSign) ← forRange 0 quarterLen (buffer, (1 : T)) fun i st => do
      let (buffer, outputSign) := st
      let a ← rd fftBuffer (4 * i + 1)
      let fftResult := Cx.scale a (outputSign * resultScale)
      let b ← rd fftBuffer (4 * i + 3)
      let nextResult := Cx.scale b (outputSign * resultScale)
      let buffer ← wr buffer (i * 2) (fftResult.re + fftResult.im)
      let buffer ← wr buffer (i * 2 + 1) (nextResult.re - nextResult.im)
      let j ← csub len (i * 2)
      let j2 ← csub j 2
      let buffer ← wr buffer j2 (-(nextResult.re + nextResult.im) * secondHalfSign)
      let j1 ← csub j 1
      let buffer ← wr buffer j1 ((fftResult.re - fftResult.im) * secondHalfSign)
      .ok (buffer, -outputSign)
    if len % 4 = 1 then do
      let c ← rd fftBuffer 0
      wr buffer halfLen (c.re * outputSign * resultScale)
    else do
      let j ← csub len 2
      let a ← rd fftBuffer j
      let fftResult := Cx.scale a (outputSign * resultScale)
      let h1 ← csub halfLen 1
      let buffer ← wr buffer h1 (fftResult.re + fftResult.im)
      let buffer ← wr buffer (halfLen + 1) (-fftResult.re + fftResult.im)
      let c ← rd fftBuffer 0
      wr buffer halfLen (c.re * outputSign * resultScale)

/-- `Type4ConvertToFftOdd` behind an `Arc<dyn TransformType4>`, with the contents of memory at a panic of the FFT. -/
def Type4ConvertToFftOdd.toObjLeft (left : Left T) (self : Type4ConvertToFftOdd T) : Obj4 T :=
  { len := self.len, scratchLen := self.scratchLen, dct4 := self.dct4Cut.run left, dst4 := self.dst4Cut.run left }

/-- A run of code that knows the contents of memory at some panics. -/
abbrev Trk (M α : Type) := Except (Err × Option M) α

/-- Code whose panics do not record memory. -/
def untracked {M α : Type} (x : Except Err α) : Trk M α :=
  match x with
  | .ok a => .ok a
  | .error e => .error (e, none)

/-- A call `p(buf, scr)` of a method from within another one.  `mem buf scr` is the memory of the caller when `buf` and `scr` hold these contents. -/
def callTrk {M : Type} (p : Proc T) (buf scr : List T) (mem : List T → List T → M) : Trk M (List T × List T) :=
  match p ⟨buf, scr⟩ with
  | .ok m => .ok (m.buf, m.scr)
  | .panic e none => .error (e, none)
  | .panic e (some m) => .error (e, some (mem m.buf m.scr))

/-- `validate_buffers!` (src/common.rs:30-53) followed by the rest of the method. -/
def validateBuffersTrk (m : Mem T) (expectedLen expectedScratch : Nat)
    (body : List T → List T → Trk (List T × List T) (List T × List T)) : Outcome (Mem T) :=
  if m.buf.length ≠ expectedLen then
    afterErrorHelper (dctErrorInplace m.buf.length m.scr.length expectedLen expectedScratch) m
  else if expectedScratch ≤ m.scr.length then
    match body m.buf (m.scr.take expectedScratch) with
    | .ok (b, s) => .ok ⟨b, s ++ m.scr.drop expectedScratch⟩
    | .error (e, none) => .panic e none
    | .error (e, some (b, s)) => .panic e (some ⟨b, s ++ m.scr.drop expectedScratch⟩)
  else
    afterErrorHelper (dctErrorInplace m.buf.length m.scr.length expectedLen expectedScratch) m

/-- Lines 79-88 and 121-130 of src/algorithm/type4_convert_to_type3.rs, as `runInnerPair`. -/
def runInnerPairTrk (p1 p2 : Proc T) (first second buffer extra : List T) : Trk (List T × List T) (List T × List T × List T × List T) := do
  if extra.length > 0 then do
    let (first, extra) ← callTrk p1 first extra fun first extra => (buffer, first ++ second ++ extra)
    let (second, extra) ← callTrk p2 second extra fun second extra => (buffer, first ++ second ++ extra)
    .ok (first, second, buffer, extra)
  else do
    let (first, buffer) ← callTrk p1 first buffer fun first buffer => (buffer, first ++ second ++ extra)
    let (second, buffer) ← callTrk p2 second buffer fun second buffer => (buffer, first ++ second ++ extra)
    .ok (first, second, buffer, extra)

/-- src/algorithm/type4_convert_to_type3.rs:61-76, up to the inner transforms: `buffer`, `output_left`, `output_right`, `extra_scratch`. -/
def Type4ConvertToType3Even.dct4Pre (self : Type4ConvertToType3Even T) (buffer scratch : List T) :
    Except Err (List T × List T × List T × List T) := do
  let (selfScratch, extraScratch) ← splitAtMut scratch self.len
  let len := self.len
  let innerLen := len / 2
  let (outputLeft, outputRight) ← splitAtMut selfScratch innerLen
  let b0 ← rd buffer 0
  let outputLeft ← wr outputLeft 0 (b0 * ttwo T)
  let (outputLeft, outputRight) ← forRange 1 innerLen (outputLeft, outputRight) fun k st => do
    let (outputLeft, outputRight) := st
    let k1 ← csub (2 * k) 1
    let x ← rd buffer k1
    let y ← rd buffer (2 * k)
    let outputLeft ← wr outputLeft k (x + y)
    let r ← csub k 1
    let outputRight ← wr outputRight r (x - y)
    .ok (outputLeft, outputRight)
  let il ← csub innerLen 1
  let l1 ← csub len 1
  let bl ← rd buffer l1
  let outputRight ← wr outputRight il (bl * ttwo T)
  .ok (buffer, outputLeft, outputRight, extraScratch)

/-- src/algorithm/type4_convert_to_type3.rs:90-98, after the inner transforms. -/
def Type4ConvertToType3Even.dct4Post (self : Type4ConvertToType3Even T) (buffer outputLeft outputRight : List T) : Except Err (List T) :=
  let len := self.len
  let innerLen := len / 2
  forRange 0 innerLen buffer fun k buffer => do
    let twiddle ← rd self.twiddles k
    let cosValue ← rd outputLeft k
    let sinValue ← rd outputRight k
    let buffer ← wr buffer k (cosValue * twiddle.re + sinValue * twiddle.im)
    let a ← csub len 1
    let j ← csub a k
    wr buffer j (cosValue * twiddle.im - sinValue * twiddle.re)

/-- src/algorithm/type4_convert_to_type3.rs:60-99.  `inner` is the inner instance. -/
def Type4ConvertToType3Even.dct4Trk (inner : Obj23 T) (self : Type4ConvertToType3Even T) : Proc T := fun m =>
  validateBuffersTrk m self.len self.scratchLen fun buffer scratch => do
    let (buffer, outputLeft, outputRight, extraScratch) ← untracked (self.dct4Pre buffer scratch)
    let (outputLeft, outputRight, buffer, extraScratch) ← runInnerPairTrk inner.dct3 inner.dst3 outputLeft outputRight buffer extraScratch
    let buffer ← untracked (self.dct4Post buffer outputLeft outputRight)
    .ok (buffer, (outputLeft ++ outputRight) ++ extraScratch)

/-- src/algorithm/type4_convert_to_type3.rs:103-118, up to the inner transforms. -/
def Type4ConvertToType3Even.dst4Pre (self : Type4ConvertToType3Even T) (buffer scratch : List T) :
    Except Err (List T × List T × List T × List T) := do
  let (selfScratch, extraScratch) ← splitAtMut scratch self.len
  let len := self.len
  let innerLen := len / 2
  let (outputLeft, outputRight) ← splitAtMut selfScratch innerLen
  let b0 ← rd buffer 0
  let outputRight ← wr outputRight 0 (b0 * ttwo T)
  let (outputLeft, outputRight) ← forRange 1 innerLen (outputLeft, outputRight) fun k st => do
    let (outputLeft, outputRight) := st
    let k1 ← csub (2 * k) 1
    let x ← rd buffer k1
    let y ← rd buffer (2 * k)
    let r ← csub k 1
    let outputLeft ← wr outputLeft r (x + y)
    let outputRight ← wr outputRight k (y - x)
    .ok (outputLeft, outputRight)
  let il ← csub innerLen 1
  let l1 ← csub len 1
  let bl ← rd buffer l1
  let outputLeft ← wr outputLeft il (bl * ttwo T)
  .ok (buffer, outputLeft, outputRight, extraScratch)

/-- src/algorithm/type4_convert_to_type3.rs:132-140, after the inner transforms. -/
def Type4ConvertToType3Even.dst4Post (self : Type4ConvertToType3Even T) (buffer outputLeft outputRight : List T) : Except Err (List T) :=
  let len := self.len
  let innerLen := len / 2
  forRange 0 innerLen buffer fun k buffer => do
    let twiddle ← rd self.twiddles k
    let cosValue ← rd outputLeft k
    let sinValue ← rd outputRight k
    let buffer ← wr buffer k (cosValue * twiddle.re + sinValue * twiddle.im)
    let a ← csub len 1
    let j ← csub a k
    wr buffer j (sinValue * twiddle.re - cosValue * twiddle.im)

/-- src/algorithm/type4_convert_to_type3.rs:102-141.  `inner` is the inner instance. -/
def Type4ConvertToType3Even.dst4Trk (inner : Obj23 T) (self : Type4ConvertToType3Even T) : Proc T := fun m =>
  validateBuffersTrk m self.len self.scratchLen fun buffer scratch => do
    let (buffer, outputLeft, outputRight, extraScratch) ← untracked (self.dst4Pre buffer scratch)
    let (outputLeft, outputRight, buffer, extraScratch) ← runInnerPairTrk inner.dst3 inner.dct3 outputLeft outputRight buffer extraScratch
    let buffer ← untracked (self.dst4Post buffer outputLeft outputRight)
    .ok (buffer, (outputLeft ++ outputRight) ++ extraScratch)

/-- `Type4ConvertToType3Even` behind an `Arc<dyn TransformType4>`. -/
def Type4ConvertToType3Even.toObjTrk (inner : Obj23 T) (self : Type4ConvertToType3Even T) : Obj4 T :=
  { len := self.len, scratchLen := self.scratchLen, dct4 := self.dct4Trk inner, dst4 := self.dst4Trk inner }

/-! ## DST types 6 and 7 -/

/-- src/algorithm/type6and7_convert_to_fft.rs:62-89; `pre` is 64-71, `post` is 76-88. -/
def Dst6And7ConvertToFft.dst6Cut (self : Dst6And7ConvertToFft T) : FftMethod T where
  len := self.len
  scratchLen := self.scratchLen
  fft := self.fft
  pre := fun buffer scratch => do
    let (fftBuffer, fftScratch) ← splitAtMut (intoComplex scratch) self.innerFftLen
    let fftBuffer ← forRange 0 buffer.length fftBuffer fun i fftBuffer => do
      let x ← rd buffer i
      let c ← rd fftBuffer (i * 2 + 1)
      wr fftBuffer (i * 2 + 1) ⟨c.re, x⟩
    .ok (buffer, fftBuffer, fftScratch)
  post := fun buffer fftBuffer => do
    let evenCount := (buffer.length + 1) / 2
    let oddCount ← csub buffer.length evenCount
    let buffer ← forRange 0 oddCount buffer fun i buffer => do
      let c ← rd fftBuffer (i + 1)
      wr buffer (i * 2 + 1) c.re
    forRange 0 evenCount buffer fun i buffer => do
      let a ← csub evenCount i
      let b ← csub a 1
      let c ← rd fftBuffer (i + oddCount + 1)
      wr buffer (2 * b) c.re

/-- src/algorithm/type6and7_convert_to_fft.rs:92-130; `pre` is 94-121, `post` is 127-129. -/
def Dst6And7ConvertToFft.dst7Cut (self : Dst6And7ConvertToFft T) : FftMethod T where
  len := self.len
  scratchLen := self.scratchLen
  fft := self.fft
  pre := fun buffer scratch => do
    let (fftBuffer, fftScratch) ← splitAtMut (intoComplex scratch) self.innerFftLen
    let evenCount := (buffer.length + 1) / 2
    let fftBuffer ← forRange 0 evenCount fftBuffer fun i fftBuffer => do
      let x ← rd buffer (i * 2)
      wr fftBuffer (buffer.length + 1 + i) (Cx.ofRe x)
    let oddCount ← csub buffer.length evenCount
    let fftBuffer ← forRange 0 oddCount fftBuffer fun i fftBuffer => do
      let a ← csub oddCount i
      let inputIndex ← csub (2 * a) 1
      let x ← rd buffer inputIndex
      wr fftBuffer (buffer.length + evenCount + 1 + i) (Cx.ofRe x)
    let fftBuffer ← forRange 0 buffer.length fftBuffer fun i fftBuffer => do
      let a ← csub fftBuffer.length 1
      let j ← csub a i
      let c ← rd fftBuffer j
      wr fftBuffer (i + 1) (Cx.neg c)
    .ok (buffer, fftBuffer, fftScratch)
  post := fun buffer fftBuffer =>
    forRange 0 buffer.length buffer fun i buffer => do
      let c ← rd fftBuffer (i * 2 + 1)
      wr buffer i (c.im * thalf T)

/-! ## MDCT -/

/-- src/mdct/mdct_via_dct4.rs:86-125, up to the inner DCT4: the contents of `output`. -/
def MdctViaDct4.mdctPre (self : MdctViaDct4 T) (inputA inputB output : List T) : Except Err (List T) := do
  let groupSize := self.len / 2
  let groupAIter := (List.zipWith (fun a w => a * w) inputA self.window).take groupSize
  let groupBRevIter := (List.zipWith (fun b w => b * w) inputA self.window).reverse.take groupSize
  let (_, windowTail) ← splitAtMut self.window self.len
  let groupCRevIter := (List.zipWith (fun c w => c * w) inputB windowTail).reverse.drop groupSize
  let groupDIter := (List.zipWith (fun d w => d * w) inputB windowTail).drop groupSize
  let output := assignZip (fun p : T × T => -p.1 - p.2) output (groupCRevIter.zip groupDIter)
  let (front, back) ← splitAtMut output groupSize
  let back := assignZip (fun p : T × T => p.1 - p.2) back (groupAIter.zip groupBRevIter)
  .ok (front ++ back)

/-- src/mdct/mdct_via_dct4.rs:70-128; the macro is src/common.rs:56-85.  `inner` is the inner DCT4. -/
def MdctViaDct4.mdctTrk (inner : Proc T) (self : MdctViaDct4 T) (inputA inputB : List T) : Mem T → Outcome (Mem T) := fun m =>
  if inputA.length ≠ self.len ∨ inputB.length ≠ self.len ∨ m.buf.length ≠ self.len then
    afterErrorHelper (mdctErrorInplace inputA.length inputB.length m.buf.length m.scr.length self.len self.scratchLen) m
  else if self.scratchLen ≤ m.scr.length then
    match (do
      let output ← untracked (self.mdctPre inputA inputB m.buf)
      callTrk inner output (m.scr.take self.scratchLen) fun output scratch => (output, scratch) : Trk (List T × List T) (List T × List T)) with
    | .ok (b, s) => .ok ⟨b, s ++ m.scr.drop self.scratchLen⟩
    | .error (e, none) => .panic e none
    | .error (e, some (b, s)) => .panic e (some ⟨b, s ++ m.scr.drop self.scratchLen⟩)
  else
    afterErrorHelper (mdctErrorInplace inputA.length inputB.length m.buf.length m.scr.length self.len self.scratchLen) m

/-- src/mdct/mdct_via_dct4.rs:151-189, after the inner DCT4. -/
def MdctViaDct4.imdctPost (self : MdctViaDct4 T) (outputA outputB dctBuffer : List T) : Except Err (List T × List T) := do
  let groupSize := self.len / 2
  let (front, back) ← splitAtMut dctBuffer groupSize
  let (_, windowTail) ← splitAtMut self.window self.len
  let outputA := zipUpdate (fun o w v => o + v * w) 0 outputA self.window back
  let outputA := zipUpdate (fun o w v => o - v * w) groupSize outputA self.window back.reverse
  let outputB := zipUpdate (fun o w v => o - v * w) 0 outputB windowTail front.reverse
  let outputB := zipUpdate (fun o w v => o - v * w) groupSize outputB windowTail front
  .ok (outputA, outputB)

/-- src/mdct/mdct_via_dct4.rs:130-190; the macro is src/common.rs:56-85.  `inner` is the inner DCT4. -/
def MdctViaDct4.imdctTrk (inner : Proc T) (self : MdctViaDct4 T) (input : List T) : IMem T → Outcome (IMem T) := fun m =>
  if input.length ≠ self.len ∨ m.outA.length ≠ self.len ∨ m.outB.length ≠ self.len then
    afterErrorHelper (mdctErrorInplace input.length m.outA.length m.outB.length m.scr.length self.len self.scratchLen) m
  else if self.scratchLen ≤ m.scr.length then
    match (do
      let (dctBuffer, dctScratch) ← untracked (splitAtMut (m.scr.take self.scratchLen) self.len)
      let dctBuffer ← untracked (copyFromSlice dctBuffer input)
      let (dctBuffer, dctScratch) ← callTrk inner dctBuffer dctScratch fun dctBuffer dctScratch => (m.outA, m.outB, dctBuffer ++ dctScratch)
      let (outputA, outputB) ← untracked (self.imdctPost m.outA m.outB dctBuffer)
      .ok (outputA, outputB, dctBuffer ++ dctScratch) : Trk (List T × List T × List T) (List T × List T × List T)) with
    | .ok (a, b, s) => .ok ⟨a, b, s ++ m.scr.drop self.scratchLen⟩
    | .error (e, none) => .panic e none
    | .error (e, some (a, b, s)) => .panic e (some ⟨a, b, s ++ m.scr.drop self.scratchLen⟩)
  else
    afterErrorHelper (mdctErrorInplace input.length m.outA.length m.outB.length m.scr.length self.len self.scratchLen) m

end RustDct
