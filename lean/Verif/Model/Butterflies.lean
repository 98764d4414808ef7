import Verif.Model.Num
/-!
# Fixed-size type 2 and 3 kernels (sizes 2, 3, 4, 8, 16)

Array literals `[a, b, ..]` are lists; `arr[i]` on such an array is the checked `rd`, `get_unchecked` the
unchecked `rdU`/`wrU`.  Index expressions such as `7 - i` inside `for i in 0..4` are plain `Nat` subtraction: the
loop bound is a literal, so they cannot wrap.
-/

namespace RustDct

set_option linter.constructorNameAsVariable false

variable {T : Type} {F : Type} [F64 F] [DctNum T F]

/-! ## Size 2 -/

/-- src/algorithm/type2and3_butterflies.rs:62-64 (only a `PhantomData` field). -/
structure Type2And3Butterfly2 (T : Type) where

/-- src/algorithm/type2and3_butterflies.rs:66-70. -/
def Type2And3Butterfly2.new : Type2And3Butterfly2 T :=
  {}

/-- src/algorithm/type2and3_butterflies.rs:71-76. -/
def Type2And3Butterfly2.inplaceDct2 (_self : Type2And3Butterfly2 T) (buffer : List T) : Except Err (List T) := do
  let sum := (← rdU buffer 0) + (← rdU buffer 1)
  let buffer ← wrU buffer 1 (((← rdU buffer 0) - (← rdU buffer 1)) * DctNum.fracSqrt2)
  let buffer ← wrU buffer 0 (sum)
  .ok buffer

/-- src/algorithm/type2and3_butterflies.rs:77-82. -/
def Type2And3Butterfly2.scatteredDct2 (buffer : List T) (zero one : Nat) : Except Err (List T) := do
  let sum := (← rdU buffer zero) + (← rdU buffer one)
  let buffer ← wrU buffer one (((← rdU buffer zero) - (← rdU buffer one)) * DctNum.fracSqrt2)
  let buffer ← wrU buffer zero (sum)
  .ok buffer

/-- src/algorithm/type2and3_butterflies.rs:84-90. -/
def Type2And3Butterfly2.inplaceDct3 (_self : Type2And3Butterfly2 T) (buffer : List T) : Except Err (List T) := do
  let half0 := (← rdU buffer 0) * thalf T
  let frac1 := (← rdU buffer 1) * DctNum.fracSqrt2
  let buffer ← wrU buffer 0 (half0 + frac1)
  let buffer ← wrU buffer 1 (half0 - frac1)
  .ok buffer

/-- src/algorithm/type2and3_butterflies.rs:91-97. -/
def Type2And3Butterfly2.scatteredDct3 (buffer : List T) (zero one : Nat) : Except Err (List T) := do
  let half0 := (← rdU buffer zero) * thalf T
  let frac1 := (← rdU buffer one) * DctNum.fracSqrt2
  let buffer ← wrU buffer zero (half0 + frac1)
  let buffer ← wrU buffer one (half0 - frac1)
  .ok buffer

/-- src/algorithm/type2and3_butterflies.rs:99-104. -/
def Type2And3Butterfly2.inplaceDst2 (_self : Type2And3Butterfly2 T) (buffer : List T) : Except Err (List T) := do
  let sum := (← rdU buffer 0) - (← rdU buffer 1)
  let buffer ← wrU buffer 0 (((← rdU buffer 0) + (← rdU buffer 1)) * DctNum.fracSqrt2)
  let buffer ← wrU buffer 1 (sum)
  .ok buffer

/-- src/algorithm/type2and3_butterflies.rs:106-112. -/
def Type2And3Butterfly2.inplaceDst3 (_self : Type2And3Butterfly2 T) (buffer : List T) : Except Err (List T) := do
  let frac0 := (← rdU buffer 0) * DctNum.fracSqrt2
  let half1 := (← rdU buffer 1) * thalf T
  let buffer ← wrU buffer 0 (frac0 + half1)
  let buffer ← wrU buffer 1 (frac0 - half1)
  .ok buffer

/-- src/algorithm/type2and3_butterflies.rs:115-121; size 2 does not use the macro. -/
def Type2And3Butterfly2.dct2 (_self : Type2And3Butterfly2 T) : Proc T := fun m =>
  validateBuffer m 2 fun buffer => do
    let sum := (← rd buffer 0) + (← rd buffer 1)
    let buffer ← wr buffer 1 (((← rd buffer 0) - (← rd buffer 1)) * DctNum.fracSqrt2)
    let buffer ← wr buffer 0 (sum)
    .ok buffer

/-- src/algorithm/type2and3_butterflies.rs:124-132; size 2 does not use the macro. -/
def Type2And3Butterfly2.dct3 (_self : Type2And3Butterfly2 T) : Proc T := fun m =>
  validateBuffer m 2 fun buffer => do
    let half0 := (← rd buffer 0) * thalf T
    let frac1 := (← rd buffer 1) * DctNum.fracSqrt2
    let buffer ← wr buffer 0 (half0 + frac1)
    let buffer ← wr buffer 1 (half0 - frac1)
    .ok buffer

/-- src/algorithm/type2and3_butterflies.rs:135-141; size 2 does not use the macro. -/
def Type2And3Butterfly2.dst2 (_self : Type2And3Butterfly2 T) : Proc T := fun m =>
  validateBuffer m 2 fun buffer => do
    let sum := ((← rd buffer 0) + (← rd buffer 1)) * DctNum.fracSqrt2
    let buffer ← wr buffer 1 ((← rd buffer 0) - (← rd buffer 1))
    let buffer ← wr buffer 0 (sum)
    .ok buffer

/-- src/algorithm/type2and3_butterflies.rs:144-152; size 2 does not use the macro. -/
def Type2And3Butterfly2.dst3 (_self : Type2And3Butterfly2 T) : Proc T := fun m =>
  validateBuffer m 2 fun buffer => do
    let frac0 := (← rd buffer 0) * DctNum.fracSqrt2
    let half1 := (← rd buffer 1) * thalf T
    let buffer ← wr buffer 0 (frac0 + half1)
    let buffer ← wr buffer 1 (frac0 - half1)
    .ok buffer

/-- `Type2And3Butterfly2` behind an `Arc<dyn TransformType2And3>`; `len`, `get_scratch_len`: src/algorithm/type2and3_butterflies.rs:154-164. -/
def Type2And3Butterfly2.toObj (self : Type2And3Butterfly2 T) : Obj23 T :=
  { len := 2, scratchLen := 0, dct2 := self.dct2, dct3 := self.dct3, dst2 := self.dst2, dst3 := self.dst3 }

/-! ## Size 3 -/

/-- src/algorithm/type2and3_butterflies.rs:166-168. -/
structure Type2And3Butterfly3 (T : Type) where
  twiddle : T

/-- src/algorithm/type2and3_butterflies.rs:170-174. -/
def Type2And3Butterfly3.new : Type2And3Butterfly3 T :=
  { twiddle := singleTwiddleRe 1 12 }

/-- src/algorithm/type2and3_butterflies.rs:175-184. -/
def Type2And3Butterfly3.inplaceDct2 (self : Type2And3Butterfly3 T) (buffer : List T) : Except Err (List T) := do
  let buffer0 := (← rdU buffer 0)
  let buffer1 := (← rdU buffer 1)
  let buffer2 := (← rdU buffer 2)
  let buffer ← wrU buffer 0 (buffer0 + buffer1 + buffer2)
  let buffer ← wrU buffer 1 ((buffer0 - buffer2) * self.twiddle)
  let buffer ← wrU buffer 2 ((buffer0 + buffer2) * thalf T - buffer1)
  .ok buffer

/-- src/algorithm/type2and3_butterflies.rs:185-195. -/
def Type2And3Butterfly3.inplaceDct3 (self : Type2And3Butterfly3 T) (buffer : List T) : Except Err (List T) := do
  let buffer0Half := (← rdU buffer 0) * thalf T
  let buffer1 := (← rdU buffer 1)
  let buffer2 := (← rdU buffer 2)
  let buffer2Half := buffer2 * thalf T
  let buffer ← wrU buffer 0 (buffer0Half + buffer1 * self.twiddle + buffer2Half)
  let buffer ← wrU buffer 1 (buffer0Half - buffer2)
  let buffer ← wrU buffer 2 (buffer0Half + buffer1 * (-self.twiddle) + buffer2Half)
  .ok buffer

/-- src/algorithm/type2and3_butterflies.rs:196-205. -/
def Type2And3Butterfly3.inplaceDst2 (self : Type2And3Butterfly3 T) (buffer : List T) : Except Err (List T) := do
  let buffer0 := (← rdU buffer 0)
  let buffer1 := (← rdU buffer 1)
  let buffer2 := (← rdU buffer 2)
  let buffer ← wrU buffer 2 (buffer0 - buffer1 + buffer2)
  let buffer ← wrU buffer 1 ((buffer0 - buffer2) * self.twiddle)
  let buffer ← wrU buffer 0 ((buffer0 + buffer2) * thalf T + buffer1)
  .ok buffer

/-- src/algorithm/type2and3_butterflies.rs:206-216. -/
def Type2And3Butterfly3.inplaceDst3 (self : Type2And3Butterfly3 T) (buffer : List T) : Except Err (List T) := do
  let buffer0Half := (← rdU buffer 2) * thalf T
  let buffer1 := (← rdU buffer 1)
  let buffer2 := (← rdU buffer 0)
  let buffer2Half := buffer2 * thalf T
  let buffer ← wrU buffer 0 (buffer0Half + buffer1 * self.twiddle + buffer2Half)
  let buffer ← wrU buffer 1 (buffer2 - buffer0Half)
  let buffer ← wrU buffer 2 (buffer0Half + buffer1 * (-self.twiddle) + buffer2Half)
  .ok buffer

/-- src/algorithm/type2and3_butterflies.rs:12-20 (macro, instantiated with 3). -/
def Type2And3Butterfly3.dct2 (self : Type2And3Butterfly3 T) : Proc T := fun m =>
  validateBuffer m 3 self.inplaceDct2

/-- src/algorithm/type2and3_butterflies.rs:21-29 (macro, instantiated with 3). -/
def Type2And3Butterfly3.dct3 (self : Type2And3Butterfly3 T) : Proc T := fun m =>
  validateBuffer m 3 self.inplaceDct3

/-- src/algorithm/type2and3_butterflies.rs:30-38 (macro, instantiated with 3). -/
def Type2And3Butterfly3.dst2 (self : Type2And3Butterfly3 T) : Proc T := fun m =>
  validateBuffer m 3 self.inplaceDst2

/-- src/algorithm/type2and3_butterflies.rs:39-47 (macro, instantiated with 3). -/
def Type2And3Butterfly3.dst3 (self : Type2And3Butterfly3 T) : Proc T := fun m =>
  validateBuffer m 3 self.inplaceDst3

/-- `Type2And3Butterfly3` behind an `Arc<dyn TransformType2And3>`; `len`, `get_scratch_len`: src/algorithm/type2and3_butterflies.rs:48-58. -/
def Type2And3Butterfly3.toObj (self : Type2And3Butterfly3 T) : Obj23 T :=
  { len := 3, scratchLen := 0, dct2 := self.dct2, dct3 := self.dct3, dst2 := self.dst2, dst3 := self.dst3 }

/-! ## Size 4 -/

/-- src/algorithm/type2and3_butterflies.rs:220-222. -/
structure Type2And3Butterfly4 (T : Type) where
  twiddle : Cx T

/-- src/algorithm/type2and3_butterflies.rs:224-228. -/
def Type2And3Butterfly4.new : Type2And3Butterfly4 T :=
  { twiddle := Cx.conj (singleTwiddle 1 16) }

/-- src/algorithm/type2and3_butterflies.rs:229-242. -/
def Type2And3Butterfly4.inplaceDct2 (self : Type2And3Butterfly4 T) (buffer : List T) : Except Err (List T) := do
  let lowerDct4 := (← rdU buffer 0) - (← rdU buffer 3)
  let upperDct4 := (← rdU buffer 2) - (← rdU buffer 1)
  let buffer ← wrU buffer 0 ((← rdU buffer 0) + (← rdU buffer 3))
  let buffer ← wrU buffer 2 ((← rdU buffer 2) + (← rdU buffer 1))
  let buffer ← Type2And3Butterfly2.scatteredDct2 buffer 0 2
  let buffer ← wrU buffer 1 (lowerDct4 * self.twiddle.re - upperDct4 * self.twiddle.im)
  let buffer ← wrU buffer 3 (upperDct4 * self.twiddle.re + lowerDct4 * self.twiddle.im)
  .ok buffer

/-- src/algorithm/type2and3_butterflies.rs:243-260. -/
def Type2And3Butterfly4.inplaceDct3 (self : Type2And3Butterfly4 T) (buffer : List T) : Except Err (List T) := do
  let buffer ← Type2And3Butterfly2.scatteredDct3 buffer 0 2
  let lowerDct4 := (← rdU buffer 1) * self.twiddle.re + (← rdU buffer 3) * self.twiddle.im
  let upperDct4 := (← rdU buffer 1) * self.twiddle.im - (← rdU buffer 3) * self.twiddle.re
  let buffer ← wrU buffer 1 ((← rdU buffer 2) + upperDct4)
  let buffer ← wrU buffer 3 ((← rdU buffer 0) - lowerDct4)
  let buffer ← wrU buffer 0 ((← rdU buffer 0) + lowerDct4)
  let buffer ← wrU buffer 2 ((← rdU buffer 2) - upperDct4)
  .ok buffer

/-- src/algorithm/type2and3_butterflies.rs:261-274. -/
def Type2And3Butterfly4.inplaceDst2 (self : Type2And3Butterfly4 T) (buffer : List T) : Except Err (List T) := do
  let lowerDct4 := (← rdU buffer 0) + (← rdU buffer 3)
  let upperDct4 := (← rdU buffer 2) + (← rdU buffer 1)
  let buffer ← wrU buffer 3 ((← rdU buffer 0) - (← rdU buffer 3))
  let buffer ← wrU buffer 1 ((← rdU buffer 2) - (← rdU buffer 1))
  let buffer ← Type2And3Butterfly2.scatteredDct2 buffer 3 1
  let buffer ← wrU buffer 2 (lowerDct4 * self.twiddle.re - upperDct4 * self.twiddle.im)
  let buffer ← wrU buffer 0 (upperDct4 * self.twiddle.re + lowerDct4 * self.twiddle.im)
  .ok buffer

/-- src/algorithm/type2and3_butterflies.rs:275-292. -/
def Type2And3Butterfly4.inplaceDst3 (self : Type2And3Butterfly4 T) (buffer : List T) : Except Err (List T) := do
  let buffer ← Type2And3Butterfly2.scatteredDct3 buffer 3 1
  let lowerDct4 := (← rdU buffer 2) * self.twiddle.re + (← rdU buffer 0) * self.twiddle.im
  let upperDct4 := (← rdU buffer 2) * self.twiddle.im - (← rdU buffer 0) * self.twiddle.re
  let buffer ← wrU buffer 0 ((← rdU buffer 3) + lowerDct4)
  let buffer ← wrU buffer 2 ((← rdU buffer 1) - upperDct4)
  let buffer ← wrU buffer 1 (-((← rdU buffer 1) + upperDct4))
  let buffer ← wrU buffer 3 (lowerDct4 - (← rdU buffer 3))
  .ok buffer

/-- src/algorithm/type2and3_butterflies.rs:12-20 (macro, instantiated with 4). -/
def Type2And3Butterfly4.dct2 (self : Type2And3Butterfly4 T) : Proc T := fun m =>
  validateBuffer m 4 self.inplaceDct2

/-- src/algorithm/type2and3_butterflies.rs:21-29 (macro, instantiated with 4). -/
def Type2And3Butterfly4.dct3 (self : Type2And3Butterfly4 T) : Proc T := fun m =>
  validateBuffer m 4 self.inplaceDct3

/-- src/algorithm/type2and3_butterflies.rs:30-38 (macro, instantiated with 4). -/
def Type2And3Butterfly4.dst2 (self : Type2And3Butterfly4 T) : Proc T := fun m =>
  validateBuffer m 4 self.inplaceDst2

/-- src/algorithm/type2and3_butterflies.rs:39-47 (macro, instantiated with 4). -/
def Type2And3Butterfly4.dst3 (self : Type2And3Butterfly4 T) : Proc T := fun m =>
  validateBuffer m 4 self.inplaceDst3

/-- `Type2And3Butterfly4` behind an `Arc<dyn TransformType2And3>`; `len`, `get_scratch_len`: src/algorithm/type2and3_butterflies.rs:48-58. -/
def Type2And3Butterfly4.toObj (self : Type2And3Butterfly4 T) : Obj23 T :=
  { len := 4, scratchLen := 0, dct2 := self.dct2, dct3 := self.dct3, dst2 := self.dst2, dst3 := self.dst3 }

/-! ## Size 8 -/

/-- src/algorithm/type2and3_butterflies.rs:296-300. -/
structure Type2And3Butterfly8 (T : Type) where
  butterfly4 : Type2And3Butterfly4 T
  butterfly2 : Type2And3Butterfly2 T
  twiddles : List (Cx T)

/-- src/algorithm/type2and3_butterflies.rs:302-311. -/
def Type2And3Butterfly8.new : Type2And3Butterfly8 T :=
  { butterfly4 := Type2And3Butterfly4.new
    butterfly2 := Type2And3Butterfly2.new
    twiddles := [Cx.conj (singleTwiddle 1 32), Cx.conj (singleTwiddle 3 32)] }

/-- src/algorithm/type2and3_butterflies.rs:312-353. -/
def Type2And3Butterfly8.inplaceDct2 (self : Type2And3Butterfly8 T) (buffer : List T) : Except Err (List T) := do
  let dct2Buffer : List T := [(← rdU buffer 0) + (← rdU buffer 7),
      (← rdU buffer 1) + (← rdU buffer 6),
      (← rdU buffer 2) + (← rdU buffer 5),
      (← rdU buffer 3) + (← rdU buffer 4)]
  let dct2Buffer ← self.butterfly4.inplaceDct2 dct2Buffer
  let differences : List T := [(← rdU buffer 0) - (← rdU buffer 7),
      (← rdU buffer 3) - (← rdU buffer 4),
      (← rdU buffer 1) - (← rdU buffer 6),
      (← rdU buffer 2) - (← rdU buffer 5)]
  let dct4EvenBuffer : List T := [(← rd differences 0) * (← rd self.twiddles 0).re + (← rd differences 1) * (← rd self.twiddles 0).im,
      (← rd differences 2) * (← rd self.twiddles 1).re + (← rd differences 3) * (← rd self.twiddles 1).im]
  let dct4OddBuffer : List T := [(← rd differences 3) * (← rd self.twiddles 1).re - (← rd differences 2) * (← rd self.twiddles 1).im,
      (← rd differences 1) * (← rd self.twiddles 0).re - (← rd differences 0) * (← rd self.twiddles 0).im]
  let dct4EvenBuffer ← self.butterfly2.inplaceDct2 dct4EvenBuffer
  let dct4OddBuffer ← self.butterfly2.inplaceDst2 dct4OddBuffer
  let buffer ← wrU buffer 0 ((← rd dct2Buffer 0))
  let buffer ← wrU buffer 1 ((← rd dct4EvenBuffer 0))
  let buffer ← wrU buffer 2 ((← rd dct2Buffer 1))
  let buffer ← wrU buffer 3 ((← rd dct4EvenBuffer 1) - (← rd dct4OddBuffer 0))
  let buffer ← wrU buffer 4 ((← rd dct2Buffer 2))
  let buffer ← wrU buffer 5 ((← rd dct4EvenBuffer 1) + (← rd dct4OddBuffer 0))
  let buffer ← wrU buffer 6 ((← rd dct2Buffer 3))
  let buffer ← wrU buffer 7 ((← rd dct4OddBuffer 1))
  .ok buffer

/-- src/algorithm/type2and3_butterflies.rs:355-399. -/
def Type2And3Butterfly8.inplaceDct3 (self : Type2And3Butterfly8 T) (buffer : List T) : Except Err (List T) := do
  let dct3Buffer : List T := [(← rdU buffer 0),
      (← rdU buffer 2),
      (← rdU buffer 4),
      (← rdU buffer 6)]
  let dct3Buffer ← self.butterfly4.inplaceDct3 dct3Buffer
  let recursiveBufferN1 : List T := [(← rdU buffer 1) * ttwo T,
      (← rdU buffer 3) + (← rdU buffer 5)]
  let recursiveBufferN3 : List T := [(← rdU buffer 3) - (← rdU buffer 5),
      (← rdU buffer 7) * ttwo T]
  let recursiveBufferN1 ← self.butterfly2.inplaceDct3 recursiveBufferN1
  let recursiveBufferN3 ← self.butterfly2.inplaceDst3 recursiveBufferN3
  let buffer ← forRange 0 2 buffer fun i buffer => do
    let twiddle := (← rd self.twiddles i)
    let lowerDct4 := (← rd recursiveBufferN1 i) * twiddle.re + (← rd recursiveBufferN3 i) * twiddle.im
    let upperDct4 := (← rd recursiveBufferN1 i) * twiddle.im - (← rd recursiveBufferN3 i) * twiddle.re
    let lowerDct3 := (← rd dct3Buffer i)
    let upperDct3 := (← rd dct3Buffer (3 - i))
    let buffer ← wrU buffer i (lowerDct3 + lowerDct4)
    let buffer ← wrU buffer (7 - i) (lowerDct3 - lowerDct4)
    let buffer ← wrU buffer (3 - i) (upperDct3 + upperDct4)
    let buffer ← wrU buffer (4 + i) (upperDct3 - upperDct4)
    .ok buffer
  .ok buffer

/-- src/algorithm/type2and3_butterflies.rs:401-442. -/
def Type2And3Butterfly8.inplaceDst2 (self : Type2And3Butterfly8 T) (buffer : List T) : Except Err (List T) := do
  let dct2Buffer : List T := [(← rdU buffer 0) - (← rdU buffer 7),
      (← rdU buffer 6) - (← rdU buffer 1),
      (← rdU buffer 2) - (← rdU buffer 5),
      (← rdU buffer 4) - (← rdU buffer 3)]
  let dct2Buffer ← self.butterfly4.inplaceDct2 dct2Buffer
  let differences : List T := [(← rdU buffer 0) + (← rdU buffer 7),
      -(← rdU buffer 3) - (← rdU buffer 4),
      -(← rdU buffer 1) - (← rdU buffer 6),
      (← rdU buffer 2) + (← rdU buffer 5)]
  let dct4EvenBuffer : List T := [(← rd differences 0) * (← rd self.twiddles 0).re + (← rd differences 1) * (← rd self.twiddles 0).im,
      (← rd differences 2) * (← rd self.twiddles 1).re + (← rd differences 3) * (← rd self.twiddles 1).im]
  let dct4OddBuffer : List T := [(← rd differences 3) * (← rd self.twiddles 1).re - (← rd differences 2) * (← rd self.twiddles 1).im,
      (← rd differences 1) * (← rd self.twiddles 0).re - (← rd differences 0) * (← rd self.twiddles 0).im]
  let dct4EvenBuffer ← self.butterfly2.inplaceDct2 dct4EvenBuffer
  let dct4OddBuffer ← self.butterfly2.inplaceDst2 dct4OddBuffer
  let buffer ← wrU buffer 7 ((← rd dct2Buffer 0))
  let buffer ← wrU buffer 6 ((← rd dct4EvenBuffer 0))
  let buffer ← wrU buffer 5 ((← rd dct2Buffer 1))
  let buffer ← wrU buffer 4 ((← rd dct4EvenBuffer 1) - (← rd dct4OddBuffer 0))
  let buffer ← wrU buffer 3 ((← rd dct2Buffer 2))
  let buffer ← wrU buffer 2 ((← rd dct4EvenBuffer 1) + (← rd dct4OddBuffer 0))
  let buffer ← wrU buffer 1 ((← rd dct2Buffer 3))
  let buffer ← wrU buffer 0 ((← rd dct4OddBuffer 1))
  .ok buffer

/-- src/algorithm/type2and3_butterflies.rs:444-493. -/
def Type2And3Butterfly8.inplaceDst3 (self : Type2And3Butterfly8 T) (buffer : List T) : Except Err (List T) := do
  let dct3Buffer : List T := [(← rdU buffer 7),
      (← rdU buffer 5),
      (← rdU buffer 3),
      (← rdU buffer 1)]
  let dct3Buffer ← self.butterfly4.inplaceDct3 dct3Buffer
  let recursiveBufferN1 : List T := [(← rdU buffer 6) * ttwo T,
      (← rdU buffer 4) + (← rdU buffer 2)]
  let recursiveBufferN3 : List T := [(← rdU buffer 4) - (← rdU buffer 2),
      (← rdU buffer 0) * ttwo T]
  let recursiveBufferN1 ← self.butterfly2.inplaceDct3 recursiveBufferN1
  let recursiveBufferN3 ← self.butterfly2.inplaceDst3 recursiveBufferN3
  let mergedOdds : List T := [(← rd recursiveBufferN1 0) * (← rd self.twiddles 0).re + (← rd recursiveBufferN3 0) * (← rd self.twiddles 0).im,
      (← rd recursiveBufferN1 0) * (← rd self.twiddles 0).im - (← rd recursiveBufferN3 0) * (← rd self.twiddles 0).re,
      (← rd recursiveBufferN1 1) * (← rd self.twiddles 1).re + (← rd recursiveBufferN3 1) * (← rd self.twiddles 1).im,
      (← rd recursiveBufferN1 1) * (← rd self.twiddles 1).im - (← rd recursiveBufferN3 1) * (← rd self.twiddles 1).re]
  let buffer ← wrU buffer 0 ((← rd dct3Buffer 0) + (← rd mergedOdds 0))
  let buffer ← wrU buffer 7 ((← rd mergedOdds 0) - (← rd dct3Buffer 0))
  let buffer ← wrU buffer 3 (-((← rd dct3Buffer 3) + (← rd mergedOdds 1)))
  let buffer ← wrU buffer 4 ((← rd dct3Buffer 3) - (← rd mergedOdds 1))
  let buffer ← wrU buffer 1 (-((← rd dct3Buffer 1) + (← rd mergedOdds 2)))
  let buffer ← wrU buffer 6 ((← rd dct3Buffer 1) - (← rd mergedOdds 2))
  let buffer ← wrU buffer 2 ((← rd dct3Buffer 2) + (← rd mergedOdds 3))
  let buffer ← wrU buffer 5 ((← rd mergedOdds 3) - (← rd dct3Buffer 2))
  .ok buffer

/-- src/algorithm/type2and3_butterflies.rs:12-20 (macro, instantiated with 8). -/
def Type2And3Butterfly8.dct2 (self : Type2And3Butterfly8 T) : Proc T := fun m =>
  validateBuffer m 8 self.inplaceDct2

/-- src/algorithm/type2and3_butterflies.rs:21-29 (macro, instantiated with 8). -/
def Type2And3Butterfly8.dct3 (self : Type2And3Butterfly8 T) : Proc T := fun m =>
  validateBuffer m 8 self.inplaceDct3

/-- src/algorithm/type2and3_butterflies.rs:30-38 (macro, instantiated with 8). -/
def Type2And3Butterfly8.dst2 (self : Type2And3Butterfly8 T) : Proc T := fun m =>
  validateBuffer m 8 self.inplaceDst2

/-- src/algorithm/type2and3_butterflies.rs:39-47 (macro, instantiated with 8). -/
def Type2And3Butterfly8.dst3 (self : Type2And3Butterfly8 T) : Proc T := fun m =>
  validateBuffer m 8 self.inplaceDst3

/-- `Type2And3Butterfly8` behind an `Arc<dyn TransformType2And3>`; `len`, `get_scratch_len`: src/algorithm/type2and3_butterflies.rs:48-58. -/
def Type2And3Butterfly8.toObj (self : Type2And3Butterfly8 T) : Obj23 T :=
  { len := 8, scratchLen := 0, dct2 := self.dct2, dct3 := self.dct3, dst2 := self.dst2, dst3 := self.dst3 }

/-! ## Size 16 -/

/-- src/algorithm/type2and3_butterflies.rs:497-501. -/
structure Type2And3Butterfly16 (T : Type) where
  butterfly8 : Type2And3Butterfly8 T
  butterfly4 : Type2And3Butterfly4 T
  twiddles : List (Cx T)

/-- src/algorithm/type2and3_butterflies.rs:503-514. -/
def Type2And3Butterfly16.new : Type2And3Butterfly16 T :=
  { butterfly8 := Type2And3Butterfly8.new
    butterfly4 := Type2And3Butterfly4.new
    twiddles := [Cx.conj (singleTwiddle 1 64), Cx.conj (singleTwiddle 3 64),
      Cx.conj (singleTwiddle 5 64), Cx.conj (singleTwiddle 7 64)] }

/-- src/algorithm/type2and3_butterflies.rs:515-576. -/
def Type2And3Butterfly16.inplaceDct2 (self : Type2And3Butterfly16 T) (buffer : List T) : Except Err (List T) := do
  let dct2Buffer : List T := [(← rdU buffer 0) + (← rdU buffer 15),
      (← rdU buffer 1) + (← rdU buffer 14),
      (← rdU buffer 2) + (← rdU buffer 13),
      (← rdU buffer 3) + (← rdU buffer 12),
      (← rdU buffer 4) + (← rdU buffer 11),
      (← rdU buffer 5) + (← rdU buffer 10),
      (← rdU buffer 6) + (← rdU buffer 9),
      (← rdU buffer 7) + (← rdU buffer 8)]
  let dct2Buffer ← self.butterfly8.inplaceDct2 dct2Buffer
  let differences : List T := [(← rdU buffer 0) - (← rdU buffer 15),
      (← rdU buffer 7) - (← rdU buffer 8),
      (← rdU buffer 1) - (← rdU buffer 14),
      (← rdU buffer 6) - (← rdU buffer 9),
      (← rdU buffer 2) - (← rdU buffer 13),
      (← rdU buffer 5) - (← rdU buffer 10),
      (← rdU buffer 3) - (← rdU buffer 12),
      (← rdU buffer 4) - (← rdU buffer 11)]
  let dct4EvenBuffer : List T := [(← rd differences 0) * (← rd self.twiddles 0).re + (← rd differences 1) * (← rd self.twiddles 0).im,
      (← rd differences 2) * (← rd self.twiddles 1).re + (← rd differences 3) * (← rd self.twiddles 1).im,
      (← rd differences 4) * (← rd self.twiddles 2).re + (← rd differences 5) * (← rd self.twiddles 2).im,
      (← rd differences 6) * (← rd self.twiddles 3).re + (← rd differences 7) * (← rd self.twiddles 3).im]
  let dct4OddBuffer : List T := [(← rd differences 7) * (← rd self.twiddles 3).re - (← rd differences 6) * (← rd self.twiddles 3).im,
      (← rd differences 5) * (← rd self.twiddles 2).re - (← rd differences 4) * (← rd self.twiddles 2).im,
      (← rd differences 3) * (← rd self.twiddles 1).re - (← rd differences 2) * (← rd self.twiddles 1).im,
      (← rd differences 1) * (← rd self.twiddles 0).re - (← rd differences 0) * (← rd self.twiddles 0).im]
  let dct4EvenBuffer ← self.butterfly4.inplaceDct2 dct4EvenBuffer
  let dct4OddBuffer ← self.butterfly4.inplaceDst2 dct4OddBuffer
  let buffer ← wrU buffer 0 ((← rd dct2Buffer 0))
  let buffer ← wrU buffer 1 ((← rd dct4EvenBuffer 0))
  let buffer ← wrU buffer 2 ((← rd dct2Buffer 1))
  let buffer ← wrU buffer 3 ((← rd dct4EvenBuffer 1) - (← rd dct4OddBuffer 0))
  let buffer ← wrU buffer 4 ((← rd dct2Buffer 2))
  let buffer ← wrU buffer 5 ((← rd dct4EvenBuffer 1) + (← rd dct4OddBuffer 0))
  let buffer ← wrU buffer 6 ((← rd dct2Buffer 3))
  let buffer ← wrU buffer 7 ((← rd dct4EvenBuffer 2) + (← rd dct4OddBuffer 1))
  let buffer ← wrU buffer 8 ((← rd dct2Buffer 4))
  let buffer ← wrU buffer 9 ((← rd dct4EvenBuffer 2) - (← rd dct4OddBuffer 1))
  let buffer ← wrU buffer 10 ((← rd dct2Buffer 5))
  let buffer ← wrU buffer 11 ((← rd dct4EvenBuffer 3) - (← rd dct4OddBuffer 2))
  let buffer ← wrU buffer 12 ((← rd dct2Buffer 6))
  let buffer ← wrU buffer 13 ((← rd dct4EvenBuffer 3) + (← rd dct4OddBuffer 2))
  let buffer ← wrU buffer 14 ((← rd dct2Buffer 7))
  let buffer ← wrU buffer 15 ((← rd dct4OddBuffer 3))
  .ok buffer

/-- src/algorithm/type2and3_butterflies.rs:577-638. -/
def Type2And3Butterfly16.inplaceDst2 (self : Type2And3Butterfly16 T) (buffer : List T) : Except Err (List T) := do
  let dct2Buffer : List T := [(← rdU buffer 0) - (← rdU buffer 15),
      -(← rdU buffer 1) + (← rdU buffer 14),
      (← rdU buffer 2) - (← rdU buffer 13),
      -(← rdU buffer 3) + (← rdU buffer 12),
      (← rdU buffer 4) - (← rdU buffer 11),
      -(← rdU buffer 5) + (← rdU buffer 10),
      (← rdU buffer 6) - (← rdU buffer 9),
      -(← rdU buffer 7) + (← rdU buffer 8)]
  let dct2Buffer ← self.butterfly8.inplaceDct2 dct2Buffer
  let differences : List T := [(← rdU buffer 0) + (← rdU buffer 15),
      -(← rdU buffer 7) - (← rdU buffer 8),
      -(← rdU buffer 1) - (← rdU buffer 14),
      (← rdU buffer 6) + (← rdU buffer 9),
      (← rdU buffer 2) + (← rdU buffer 13),
      -(← rdU buffer 5) - (← rdU buffer 10),
      -(← rdU buffer 3) - (← rdU buffer 12),
      (← rdU buffer 4) + (← rdU buffer 11)]
  let dct4EvenBuffer : List T := [(← rd differences 0) * (← rd self.twiddles 0).re + (← rd differences 1) * (← rd self.twiddles 0).im,
      (← rd differences 2) * (← rd self.twiddles 1).re + (← rd differences 3) * (← rd self.twiddles 1).im,
      (← rd differences 4) * (← rd self.twiddles 2).re + (← rd differences 5) * (← rd self.twiddles 2).im,
      (← rd differences 6) * (← rd self.twiddles 3).re + (← rd differences 7) * (← rd self.twiddles 3).im]
  let dct4OddBuffer : List T := [(← rd differences 7) * (← rd self.twiddles 3).re - (← rd differences 6) * (← rd self.twiddles 3).im,
      (← rd differences 5) * (← rd self.twiddles 2).re - (← rd differences 4) * (← rd self.twiddles 2).im,
      (← rd differences 3) * (← rd self.twiddles 1).re - (← rd differences 2) * (← rd self.twiddles 1).im,
      (← rd differences 1) * (← rd self.twiddles 0).re - (← rd differences 0) * (← rd self.twiddles 0).im]
  let dct4EvenBuffer ← self.butterfly4.inplaceDct2 dct4EvenBuffer
  let dct4OddBuffer ← self.butterfly4.inplaceDst2 dct4OddBuffer
  let buffer ← wrU buffer 15 ((← rd dct2Buffer 0))
  let buffer ← wrU buffer 14 ((← rd dct4EvenBuffer 0))
  let buffer ← wrU buffer 13 ((← rd dct2Buffer 1))
  let buffer ← wrU buffer 12 ((← rd dct4EvenBuffer 1) - (← rd dct4OddBuffer 0))
  let buffer ← wrU buffer 11 ((← rd dct2Buffer 2))
  let buffer ← wrU buffer 10 ((← rd dct4EvenBuffer 1) + (← rd dct4OddBuffer 0))
  let buffer ← wrU buffer 9 ((← rd dct2Buffer 3))
  let buffer ← wrU buffer 8 ((← rd dct4EvenBuffer 2) + (← rd dct4OddBuffer 1))
  let buffer ← wrU buffer 7 ((← rd dct2Buffer 4))
  let buffer ← wrU buffer 6 ((← rd dct4EvenBuffer 2) - (← rd dct4OddBuffer 1))
  let buffer ← wrU buffer 5 ((← rd dct2Buffer 5))
  let buffer ← wrU buffer 4 ((← rd dct4EvenBuffer 3) - (← rd dct4OddBuffer 2))
  let buffer ← wrU buffer 3 ((← rd dct2Buffer 6))
  let buffer ← wrU buffer 2 ((← rd dct4EvenBuffer 3) + (← rd dct4OddBuffer 2))
  let buffer ← wrU buffer 1 ((← rd dct2Buffer 7))
  let buffer ← wrU buffer 0 ((← rd dct4OddBuffer 3))
  .ok buffer

/-- src/algorithm/type2and3_butterflies.rs:639-689. -/
def Type2And3Butterfly16.inplaceDct3 (self : Type2And3Butterfly16 T) (buffer : List T) : Except Err (List T) := do
  let dct3Buffer : List T := [(← rdU buffer 0),
      (← rdU buffer 2),
      (← rdU buffer 4),
      (← rdU buffer 6),
      (← rdU buffer 8),
      (← rdU buffer 10),
      (← rdU buffer 12),
      (← rdU buffer 14)]
  let dct3Buffer ← self.butterfly8.inplaceDct3 dct3Buffer
  let recursiveBufferN1 : List T := [(← rdU buffer 1) * ttwo T,
      (← rdU buffer 3) + (← rdU buffer 5),
      (← rdU buffer 7) + (← rdU buffer 9),
      (← rdU buffer 11) + (← rdU buffer 13)]
  let recursiveBufferN3 : List T := [(← rdU buffer 3) - (← rdU buffer 5),
      (← rdU buffer 7) - (← rdU buffer 9),
      (← rdU buffer 11) - (← rdU buffer 13),
      (← rdU buffer 15) * ttwo T]
  let recursiveBufferN1 ← self.butterfly4.inplaceDct3 recursiveBufferN1
  let recursiveBufferN3 ← self.butterfly4.inplaceDst3 recursiveBufferN3
  let buffer ← forRange 0 4 buffer fun i buffer => do
    let lowerDct4 := (← rd recursiveBufferN1 i) * (← rd self.twiddles i).re + (← rd recursiveBufferN3 i) * (← rd self.twiddles i).im
    let upperDct4 := (← rd recursiveBufferN1 i) * (← rd self.twiddles i).im - (← rd recursiveBufferN3 i) * (← rd self.twiddles i).re
    let lowerDct3 := (← rd dct3Buffer i)
    let upperDct3 := (← rd dct3Buffer (7 - i))
    let buffer ← wrU buffer i (lowerDct3 + lowerDct4)
    let buffer ← wrU buffer (15 - i) (lowerDct3 - lowerDct4)
    let buffer ← wrU buffer (7 - i) (upperDct3 + upperDct4)
    let buffer ← wrU buffer (8 + i) (upperDct3 - upperDct4)
    .ok buffer
  .ok buffer

/-- src/algorithm/type2and3_butterflies.rs:690-767. -/
def Type2And3Butterfly16.inplaceDst3 (self : Type2And3Butterfly16 T) (buffer : List T) : Except Err (List T) := do
  let dct3Buffer : List T := [(← rdU buffer 15),
      (← rdU buffer 13),
      (← rdU buffer 11),
      (← rdU buffer 9),
      (← rdU buffer 7),
      (← rdU buffer 5),
      (← rdU buffer 3),
      (← rdU buffer 1)]
  let dct3Buffer ← self.butterfly8.inplaceDct3 dct3Buffer
  let recursiveBufferN1 : List T := [(← rdU buffer 14) * ttwo T,
      (← rdU buffer 12) + (← rdU buffer 10),
      (← rdU buffer 8) + (← rdU buffer 6),
      (← rdU buffer 4) + (← rdU buffer 2)]
  let recursiveBufferN3 : List T := [(← rdU buffer 12) - (← rdU buffer 10),
      (← rdU buffer 8) - (← rdU buffer 6),
      (← rdU buffer 4) - (← rdU buffer 2),
      (← rdU buffer 0) * ttwo T]
  let recursiveBufferN1 ← self.butterfly4.inplaceDct3 recursiveBufferN1
  let recursiveBufferN3 ← self.butterfly4.inplaceDst3 recursiveBufferN3
  let mergedOdds : List T := [(← rd recursiveBufferN1 0) * (← rd self.twiddles 0).re + (← rd recursiveBufferN3 0) * (← rd self.twiddles 0).im,
      (← rd recursiveBufferN1 0) * (← rd self.twiddles 0).im - (← rd recursiveBufferN3 0) * (← rd self.twiddles 0).re,
      (← rd recursiveBufferN1 1) * (← rd self.twiddles 1).re + (← rd recursiveBufferN3 1) * (← rd self.twiddles 1).im,
      (← rd recursiveBufferN1 1) * (← rd self.twiddles 1).im - (← rd recursiveBufferN3 1) * (← rd self.twiddles 1).re,
      (← rd recursiveBufferN1 2) * (← rd self.twiddles 2).re + (← rd recursiveBufferN3 2) * (← rd self.twiddles 2).im,
      (← rd recursiveBufferN1 2) * (← rd self.twiddles 2).im - (← rd recursiveBufferN3 2) * (← rd self.twiddles 2).re,
      (← rd recursiveBufferN1 3) * (← rd self.twiddles 3).re + (← rd recursiveBufferN3 3) * (← rd self.twiddles 3).im,
      (← rd recursiveBufferN1 3) * (← rd self.twiddles 3).im - (← rd recursiveBufferN3 3) * (← rd self.twiddles 3).re]
  let buffer ← wrU buffer 0 ((← rd dct3Buffer 0) + (← rd mergedOdds 0))
  let buffer ← wrU buffer 15 ((← rd mergedOdds 0) - (← rd dct3Buffer 0))
  let buffer ← wrU buffer 7 (-((← rd dct3Buffer 7) + (← rd mergedOdds 1)))
  let buffer ← wrU buffer 8 ((← rd dct3Buffer 7) - (← rd mergedOdds 1))
  let buffer ← wrU buffer 1 (-((← rd dct3Buffer 1) + (← rd mergedOdds 2)))
  let buffer ← wrU buffer 14 ((← rd dct3Buffer 1) - (← rd mergedOdds 2))
  let buffer ← wrU buffer 6 ((← rd dct3Buffer 6) + (← rd mergedOdds 3))
  let buffer ← wrU buffer 9 ((← rd mergedOdds 3) - (← rd dct3Buffer 6))
  let buffer ← wrU buffer 2 ((← rd dct3Buffer 2) + (← rd mergedOdds 4))
  let buffer ← wrU buffer 13 ((← rd mergedOdds 4) - (← rd dct3Buffer 2))
  let buffer ← wrU buffer 5 (-((← rd dct3Buffer 5) + (← rd mergedOdds 5)))
  let buffer ← wrU buffer 10 ((← rd dct3Buffer 5) - (← rd mergedOdds 5))
  let buffer ← wrU buffer 3 (-((← rd dct3Buffer 3) + (← rd mergedOdds 6)))
  let buffer ← wrU buffer 12 ((← rd dct3Buffer 3) - (← rd mergedOdds 6))
  let buffer ← wrU buffer 4 ((← rd dct3Buffer 4) + (← rd mergedOdds 7))
  let buffer ← wrU buffer 11 ((← rd mergedOdds 7) - (← rd dct3Buffer 4))
  .ok buffer

/-- src/algorithm/type2and3_butterflies.rs:12-20 (macro, instantiated with 16). -/
def Type2And3Butterfly16.dct2 (self : Type2And3Butterfly16 T) : Proc T := fun m =>
  validateBuffer m 16 self.inplaceDct2

/-- src/algorithm/type2and3_butterflies.rs:21-29 (macro, instantiated with 16). -/
def Type2And3Butterfly16.dct3 (self : Type2And3Butterfly16 T) : Proc T := fun m =>
  validateBuffer m 16 self.inplaceDct3

/-- src/algorithm/type2and3_butterflies.rs:30-38 (macro, instantiated with 16). -/
def Type2And3Butterfly16.dst2 (self : Type2And3Butterfly16 T) : Proc T := fun m =>
  validateBuffer m 16 self.inplaceDst2

/-- src/algorithm/type2and3_butterflies.rs:39-47 (macro, instantiated with 16). -/
def Type2And3Butterfly16.dst3 (self : Type2And3Butterfly16 T) : Proc T := fun m =>
  validateBuffer m 16 self.inplaceDst3

/-- `Type2And3Butterfly16` behind an `Arc<dyn TransformType2And3>`; `len`, `get_scratch_len`: src/algorithm/type2and3_butterflies.rs:48-58. -/
def Type2And3Butterfly16.toObj (self : Type2And3Butterfly16 T) : Obj23 T :=
  { len := 16, scratchLen := 0, dct2 := self.dct2, dct3 := self.dct3, dst2 := self.dst2, dst3 := self.dst3 }

end RustDct
