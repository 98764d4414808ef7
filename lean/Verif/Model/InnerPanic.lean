import Verif.Model.FftPanic
/-!
# Memory at a panic inside an inner instance of a split radix instance

`Type2And3SplitRadix` of `Verif/Model/SplitRadix.lean`, cut at its three inner calls, with the contents of both slices at a panic within one of them.  The caller's
buffer is the scratch space of the inner calls.
-/

namespace RustDct

variable {T : Type} {F : Type} [F64 F] [DctNum T F]

/-- src/algorithm/type2and3_splitradix.rs:71-104, up to the inner transforms: `input_dct2`, `input_dct4_even`, `input_dct4_odd`. -/
def Type2And3SplitRadix.dct2Pre (self : Type2And3SplitRadix T) (buffer scratch : List T) : Except Err (List T × List T × List T) := do
  let len := self.len
  let halfLen := len / 2
  let quarterLen := len / 4
  let (inputDct2, inputDct4) ← splitAtMut scratch halfLen
  let (inputDct4Even, inputDct4Odd) ← splitAtMut inputDct4 quarterLen
  forRange 0 quarterLen (inputDct2, inputDct4Even, inputDct4Odd) fun i st => do
    let (inputDct2, inputDct4Even, inputDct4Odd) := st
    let inputBottom ← rdU buffer i
    let a ← csub len i
    let top ← csub a 1
    let inputTop ← rdU buffer top
    let b ← csub halfLen i
    let hb ← csub b 1
    let inputHalfBottom ← rdU buffer hb
    let inputHalfTop ← rdU buffer (halfLen + i)
    let inputDct2 ← wrU inputDct2 i (inputTop + inputBottom)
    let inputDct2 ← wrU inputDct2 hb (inputHalfBottom + inputHalfTop)
    let lowerDct4 := inputBottom - inputTop
    let upperDct4 := inputHalfBottom - inputHalfTop
    let twiddle ← rdU self.twiddles i
    let cosInput := lowerDct4 * twiddle.re + upperDct4 * twiddle.im
    let sinInput := upperDct4 * twiddle.re - lowerDct4 * twiddle.im
    let inputDct4Even ← wrU inputDct4Even i cosInput
    let c ← csub quarterLen i
    let q ← csub c 1
    let inputDct4Odd ← wrU inputDct4Odd q (if i % 2 = 0 then sinInput else -sinInput)
    .ok (inputDct2, inputDct4Even, inputDct4Odd)

/-- src/algorithm/type2and3_splitradix.rs:115-134, after the inner transforms. -/
def Type2And3SplitRadix.dct2Post (self : Type2And3SplitRadix T) (buffer inputDct2 inputDct4Even inputDct4Odd : List T) : Except Err (List T) := do
  let len := self.len
  let quarterLen := len / 4
  let x ← rdU inputDct2 0
  let buffer ← wrU buffer 0 x
  let x ← rdU inputDct4Even 0
  let buffer ← wrU buffer 1 x
  let x ← rdU inputDct2 1
  let buffer ← wrU buffer 2 x
  let buffer ← forRange 1 quarterLen buffer fun i buffer => do
    let dct4CosOutput ← rdU inputDct4Even i
    let q ← csub quarterLen i
    let o ← rdU inputDct4Odd q
    let dct4SinOutput := if (i + quarterLen) % 2 = 0 then -o else o
    let k1 ← csub (i * 4) 1
    let buffer ← wrU buffer k1 (dct4CosOutput + dct4SinOutput)
    let x ← rdU inputDct2 (i * 2)
    let buffer ← wrU buffer (i * 4) x
    let buffer ← wrU buffer (i * 4 + 1) (dct4CosOutput - dct4SinOutput)
    let x ← rdU inputDct2 (i * 2 + 1)
    wrU buffer (i * 4 + 2) x
  let last ← csub len 1
  let x ← rdU inputDct4Odd 0
  wrU buffer last (-x)

/-- src/algorithm/type2and3_splitradix.rs:153-184, up to the inner transforms: `recursive_input_evens`, `recursive_input_n1`, `recursive_input_n3`. -/
def Type2And3SplitRadix.dct3Pre (buffer scratch : List T) : Except Err (List T × List T × List T) := do
  let len := buffer.length
  let halfLen := len / 2
  let quarterLen := len / 4
  let (evens, odds) ← splitAtMut scratch halfLen
  let (n1, n3) ← splitAtMut odds quarterLen
  let b0 ← rd buffer 0
  let evens ← wr evens 0 b0
  let b2 ← rd buffer 2
  let evens ← wr evens 1 b2
  let b1 ← rd buffer 1
  let n1 ← wr n1 0 (b1 * ttwo T)
  let last ← csub len 1
  let bl ← rd buffer last
  let n3 ← wr n3 0 (bl * ttwo T)
  forRange 1 quarterLen (evens, n1, n3) fun i st => do
    let (evens, n1, n3) := st
    let k := 4 * i
    let x ← rdU buffer k
    let evens ← wrU evens (i * 2) x
    let x ← rdU buffer (k + 2)
    let evens ← wrU evens (i * 2 + 1) x
    let km1 ← csub k 1
    let x ← rdU buffer km1
    let y ← rdU buffer (k + 1)
    let n1 ← wrU n1 i (x + y)
    let q ← csub quarterLen i
    let n3 ← wrU n3 q (x - y)
    .ok (evens, n1, n3)

/-- src/algorithm/type2and3_splitradix.rs:197-221, after the inner transforms.  `len` is the length of the buffer. -/
def Type2And3SplitRadix.dct3Post (self : Type2And3SplitRadix T) (len : Nat) (buffer evens n1 n3 : List T) : Except Err (List T) :=
  let halfLen := len / 2
  let quarterLen := len / 4
  forRange 0 quarterLen buffer fun i buffer => do
    let twiddle ← rd self.twiddles i
    let cosineValue ← rd n1 i
    let s ← rd n3 i
    let sineValue := if i % 2 = 0 then s else -s
    let lowerDct4 := cosineValue * twiddle.re + sineValue * twiddle.im
    let upperDct4 := cosineValue * twiddle.im - sineValue * twiddle.re
    let lowerDct3 ← rdU evens i
    let a ← csub halfLen i
    let hb ← csub a 1
    let upperDct3 ← rdU evens hb
    let buffer ← wrU buffer i (lowerDct3 + lowerDct4)
    let b ← csub len i
    let top ← csub b 1
    let buffer ← wrU buffer top (lowerDct3 - lowerDct4)
    let buffer ← wrU buffer hb (upperDct3 + upperDct4)
    wrU buffer (halfLen + i) (upperDct3 - upperDct4)

/-- Lines 107-111 and 187-192 of src/algorithm/type2and3_splitradix.rs: the three inner transforms run one after the other, with the caller's buffer as scratch.
Scratch of the caller consists of the three slices `a`, `b` and `c`. -/
def runInnerTriple (half quarter : Proc T) (a b c buffer : List T) : Trk (List T × List T) (List T × List T × List T × List T) := do
  let (a, buffer) ← callTrk half a buffer fun a buffer => (buffer, a ++ (b ++ c))
  let (b, buffer) ← callTrk quarter b buffer fun b buffer => (buffer, a ++ (b ++ c))
  let (c, buffer) ← callTrk quarter c buffer fun c buffer => (buffer, a ++ (b ++ c))
  .ok (a, b, c, buffer)

/-- src/algorithm/type2and3_splitradix.rs:68-136.  `half` and `quarter` are the inner instances. -/
def Type2And3SplitRadix.dct2Trk (half quarter : Obj23 T) (self : Type2And3SplitRadix T) : Proc T := fun m =>
  validateBuffersTrk m self.len self.scratchLen fun buffer scratch => do
    let (inputDct2, inputDct4Even, inputDct4Odd) ← untracked (self.dct2Pre buffer scratch)
    let (inputDct2, inputDct4Even, inputDct4Odd, buffer) ← runInnerTriple half.dct2 quarter.dct2 inputDct2 inputDct4Even inputDct4Odd buffer
    let buffer ← untracked (self.dct2Post buffer inputDct2 inputDct4Even inputDct4Odd)
    .ok (buffer, inputDct2 ++ (inputDct4Even ++ inputDct4Odd))

/-- src/algorithm/type2and3_splitradix.rs:150-222. -/
def Type2And3SplitRadix.dct3Trk (half quarter : Obj23 T) (self : Type2And3SplitRadix T) : Proc T := fun m =>
  validateBuffersTrk m self.len self.scratchLen fun buffer scratch => do
    let len := buffer.length
    let (evens, n1, n3) ← untracked (Type2And3SplitRadix.dct3Pre buffer scratch)
    let (evens, n1, n3, buffer) ← runInnerTriple half.dct3 quarter.dct3 evens n1 n3 buffer
    let buffer ← untracked (self.dct3Post len buffer evens n1 n3)
    .ok (buffer, evens ++ (n1 ++ n3))

/-- src/algorithm/type2and3_splitradix.rs:139-147. -/
def Type2And3SplitRadix.dst2Trk (half quarter : Obj23 T) (self : Type2And3SplitRadix T) : Proc T := fun m =>
  match negOdds (self.len / 2) m.buf with
  | .error (e, b) => .panic e (some ⟨b, m.scr⟩)
  | .ok b =>
    match self.dct2Trk half quarter ⟨b, m.scr⟩ with
    | .ok m' => .ok ⟨m'.buf.reverse, m'.scr⟩
    | .panic e m' => .panic e m'

/-- src/algorithm/type2and3_splitradix.rs:225-233. -/
def Type2And3SplitRadix.dst3Trk (half quarter : Obj23 T) (self : Type2And3SplitRadix T) : Proc T := fun m =>
  match self.dct3Trk half quarter ⟨m.buf.reverse, m.scr⟩ with
  | .ok m' =>
    match negOdds (self.len / 2) m'.buf with
    | .error (e, b) => .panic e (some ⟨b, m'.scr⟩)
    | .ok b => .ok ⟨b, m'.scr⟩
  | .panic e m' => .panic e m'

/-- `Type2And3SplitRadix` behind an `Arc<dyn TransformType2And3>`. -/
def Type2And3SplitRadix.toObjTrk (half quarter : Obj23 T) (self : Type2And3SplitRadix T) : Obj23 T :=
  { len := self.len, scratchLen := self.scratchLen, dct2 := self.dct2Trk half quarter, dct3 := self.dct3Trk half quarter,
    dst2 := self.dst2Trk half quarter, dst3 := self.dst3Trk half quarter }

end RustDct
