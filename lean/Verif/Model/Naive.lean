import Verif.Model.Num
/-!
# The naive O(n²) algorithms, types 1 to 8
-/

namespace RustDct

/-- The inner accumulation loop of all naive algorithms.  The Rust text is repeated in every method
(e.g. src/algorithm/type1_naive.rs:63-72):
`for i in lo..scratch.len() { let twiddle = self.twiddles[twiddle_index]; *cell = f(*cell, scratch[i], twiddle);
twiddle_index += twiddle_stride; if twiddle_index >= self.twiddles.len() { twiddle_index -= self.twiddles.len(); } }`.
The loop state is (output cell, twiddle index). Simplification: the output cell is kept in a local and
stored into the buffer after the loop; nothing else reads the buffer meanwhile. -/
def strideLoop {T W : Type} (twiddles : List W) (scratch : List T) (twiddleStride : Nat)
    (f : T → T → W → T) (lo : Nat) (cell : T) (twiddleIndex : Nat) : Except Err (T × Nat) :=
  forRange lo scratch.length (cell, twiddleIndex) fun i st => do
    let twiddle ← rd twiddles st.2
    let x ← rd scratch i
    let cell := f st.1 x twiddle
    let twiddleIndex := st.2 + twiddleStride
    if twiddleIndex ≥ twiddles.length then
      .ok (cell, twiddleIndex - twiddles.length)
    else
      .ok (cell, twiddleIndex)

section
variable {T : Type} {F : Type} [F64 F] [DctNum T F]

/-! ## Type 1 -/

/-- src/algorithm/type1_naive.rs:26-28. -/
structure Dct1Naive (T : Type) where
  twiddles : List T

/-- src/algorithm/type1_naive.rs:31-44 `Dct1Naive::new`. -/
def Dct1Naive.new (len : Nat) : Except Err (Dct1Naive T) := do
  if len = 1 then .error .assertion
  else do
    let lenM1 ← csub len 1
    let constantFactor : F := F64.pi / F64.nat lenM1
    .ok ⟨(List.range (lenM1 * 2)).map fun i => fromF64 (F64.cos (constantFactor * F64.nat i))⟩

/-- src/algorithm/type1_naive.rs:76-80 `Length::len`. -/
def Dct1Naive.len (self : Dct1Naive T) : Nat := self.twiddles.length / 2 + 1

/-- src/algorithm/type1_naive.rs `get_scratch_len` is `self.len()`. -/
def Dct1Naive.scratchLen (self : Dct1Naive T) : Nat := self.len

/-- src/algorithm/type1_naive.rs:48-74. -/
def Dct1Naive.dct1 (self : Dct1Naive T) : Proc T := fun m =>
  validateBuffers m self.len self.scratchLen fun buffer scratch => do
    let scratch ← copyFromSlice scratch buffer
    let s0 ← rd scratch 0
    let scratch ← wr scratch 0 (s0 * thalf T)
    let last ← csub self.len 1
    let sl ← rd scratch last
    let scratch ← wr scratch last (sl * thalf T)
    let buffer ← forRange 0 buffer.length buffer fun k buffer => do
      let s0 ← rd scratch 0
      let twiddleStride := k
      let r ← strideLoop self.twiddles scratch twiddleStride (fun c x w => c + x * w) 1 s0 (twiddleStride)
      wr buffer k r.1
    .ok (buffer, scratch)

/-- `Dct1Naive` behind an `Arc<dyn _>`. -/
def Dct1Naive.toObj (self : Dct1Naive T) : Obj1 T :=
  { len := self.len, scratchLen := self.scratchLen, run := self.dct1 }

/-- src/algorithm/type1_naive.rs:103-105. -/
structure Dst1Naive (T : Type) where
  twiddles : List T

/-- src/algorithm/type1_naive.rs:109-120 `Dst1Naive::new`. -/
def Dst1Naive.new (len : Nat) : Except Err (Dst1Naive T) := do
  let constantFactor : F := F64.pi / F64.nat (len + 1)
  .ok ⟨(List.range ((len + 1) * 2)).map fun i => fromF64 (F64.sin (constantFactor * F64.nat i))⟩

/-- src/algorithm/type1_naive.rs:148-152 `Length::len`. -/
def Dst1Naive.len (self : Dst1Naive T) : Nat := self.twiddles.length / 2 - 1

/-- src/algorithm/type1_naive.rs `get_scratch_len` is `self.len()`. -/
def Dst1Naive.scratchLen (self : Dst1Naive T) : Nat := self.len

/-- src/algorithm/type1_naive.rs:124-146. -/
def Dst1Naive.dst1 (self : Dst1Naive T) : Proc T := fun m =>
  validateBuffers m self.len self.scratchLen fun buffer scratch => do
    let scratch ← copyFromSlice scratch buffer
    let buffer ← forRange 0 buffer.length buffer fun k buffer => do
      let twiddleStride := k + 1
      let r ← strideLoop self.twiddles scratch twiddleStride (fun c x w => c + x * w) 0 0 (twiddleStride)
      wr buffer k r.1
    .ok (buffer, scratch)

/-- `Dst1Naive` behind an `Arc<dyn _>`. -/
def Dst1Naive.toObj (self : Dst1Naive T) : Obj1 T :=
  { len := self.len, scratchLen := self.scratchLen, run := self.dst1 }

/-! ## Types 2 and 3 -/

/-- src/algorithm/type2and3_naive.rs:31-33. -/
structure Type2And3Naive (T : Type) where
  twiddles : List (Cx T)

/-- src/algorithm/type2and3_naive.rs:37-45 `Type2And3Naive::new`. -/
def Type2And3Naive.new (len : Nat) : Except Err (Type2And3Naive T) := do
  .ok ⟨(List.range (len * 4)).map fun i => singleTwiddle i (len * 4)⟩

/-- src/algorithm/type2and3_naive.rs:154-158 `Length::len`. -/
def Type2And3Naive.len (self : Type2And3Naive T) : Nat := self.twiddles.length / 4

/-- src/algorithm/type2and3_naive.rs `get_scratch_len` is `self.len()`. -/
def Type2And3Naive.scratchLen (self : Type2And3Naive T) : Nat := self.len

/-- src/algorithm/type2and3_naive.rs:49-71. -/
def Type2And3Naive.dct2 (self : Type2And3Naive T) : Proc T := fun m =>
  validateBuffers m self.len self.scratchLen fun buffer scratch => do
    let scratch ← copyFromSlice scratch buffer
    let buffer ← forRange 0 buffer.length buffer fun k buffer => do
      let twiddleStride := k * 2
      let r ← strideLoop self.twiddles scratch twiddleStride (fun c x w => c + x * w.re) 0 0 (k)
      wr buffer k r.1
    .ok (buffer, scratch)

/-- src/algorithm/type2and3_naive.rs:74-96. -/
def Type2And3Naive.dst2 (self : Type2And3Naive T) : Proc T := fun m =>
  validateBuffers m self.len self.scratchLen fun buffer scratch => do
    let scratch ← copyFromSlice scratch buffer
    let buffer ← forRange 0 buffer.length buffer fun k buffer => do
      let twiddleStride := (k + 1) * 2
      let r ← strideLoop self.twiddles scratch twiddleStride (fun c x w => c - x * w.im) 0 0 (k + 1)
      wr buffer k r.1
    .ok (buffer, scratch)

/-- src/algorithm/type2and3_naive.rs:99-123. -/
def Type2And3Naive.dct3 (self : Type2And3Naive T) : Proc T := fun m =>
  validateBuffers m self.len self.scratchLen fun buffer scratch => do
    let scratch ← copyFromSlice scratch buffer
    let s0 ← rd scratch 0
    let halfFirst := thalf T * s0
    let buffer ← forRange 0 buffer.length buffer fun k buffer => do
      let twiddleStride := k * 2 + 1
      let r ← strideLoop self.twiddles scratch twiddleStride (fun c x w => c + x * w.re) 1 halfFirst (twiddleStride)
      wr buffer k r.1
    .ok (buffer, scratch)

/-- src/algorithm/type2and3_naive.rs:126-151. -/
def Type2And3Naive.dst3 (self : Type2And3Naive T) : Proc T := fun m =>
  validateBuffers m self.len self.scratchLen fun buffer scratch => do
    let scratch ← copyFromSlice scratch buffer
    let last ← csub scratch.length 1
    let sl ← rd scratch last
    let scratch ← wr scratch last (sl * thalf T)
    let buffer ← forRange 0 buffer.length buffer fun k buffer => do
      let twiddleStride := k * 2 + 1
      let r ← strideLoop self.twiddles scratch twiddleStride (fun c x w => c - x * w.im) 0 0 (twiddleStride)
      wr buffer k r.1
    .ok (buffer, scratch)

/-- `Type2And3Naive` behind an `Arc<dyn _>`. -/
def Type2And3Naive.toObj (self : Type2And3Naive T) : Obj23 T :=
  { len := self.len, scratchLen := self.scratchLen, dct2 := self.dct2, dct3 := self.dct3, dst2 := self.dst2, dst3 := self.dst3 }

/-! ## Type 4 -/

/-- src/algorithm/type4_naive.rs:25-27. -/
structure Type4Naive (T : Type) where
  twiddles : List (Cx T)

/-- src/algorithm/type4_naive.rs:31-39 `Type4Naive::new`. -/
def Type4Naive.new (len : Nat) : Except Err (Type4Naive T) := do
  .ok ⟨(List.range (len * 4)).map fun i => singleTwiddleHalfoffset i (len * 4)⟩

/-- src/algorithm/type4_naive.rs:98-102 `Length::len`. -/
def Type4Naive.len (self : Type4Naive T) : Nat := self.twiddles.length / 4

/-- src/algorithm/type4_naive.rs `get_scratch_len` is `self.len()`. -/
def Type4Naive.scratchLen (self : Type4Naive T) : Nat := self.len

/-- src/algorithm/type4_naive.rs:43-65. -/
def Type4Naive.dct4 (self : Type4Naive T) : Proc T := fun m =>
  validateBuffers m self.len self.scratchLen fun buffer scratch => do
    let scratch ← copyFromSlice scratch buffer
    let buffer ← forRange 0 buffer.length buffer fun k buffer => do
      let twiddleStride := k * 2 + 1
      let r ← strideLoop self.twiddles scratch twiddleStride (fun c x w => c + x * w.re) 0 0 (k)
      wr buffer k r.1
    .ok (buffer, scratch)

/-- src/algorithm/type4_naive.rs:68-90. -/
def Type4Naive.dst4 (self : Type4Naive T) : Proc T := fun m =>
  validateBuffers m self.len self.scratchLen fun buffer scratch => do
    let scratch ← copyFromSlice scratch buffer
    let buffer ← forRange 0 buffer.length buffer fun k buffer => do
      let twiddleStride := k * 2 + 1
      let r ← strideLoop self.twiddles scratch twiddleStride (fun c x w => c - x * w.im) 0 0 (k)
      wr buffer k r.1
    .ok (buffer, scratch)

/-- `Type4Naive` behind an `Arc<dyn _>`. -/
def Type4Naive.toObj (self : Type4Naive T) : Obj4 T :=
  { len := self.len, scratchLen := self.scratchLen, dct4 := self.dct4, dst4 := self.dst4 }

/-! ## Type 5 -/

/-- src/algorithm/type5_naive.rs:24-26. -/
structure Dct5Naive (T : Type) where
  twiddles : List T

/-- src/algorithm/type5_naive.rs:29-40 `Dct5Naive::new`. -/
def Dct5Naive.new (len : Nat) : Except Err (Dct5Naive T) := do
  let constantFactor : F := F64.pi / (F64.nat len - F64.half)
  let count ← csub (len * 2) 1
  .ok ⟨(List.range count).map fun i => fromF64 (F64.cos (constantFactor * F64.nat i))⟩

/-- src/algorithm/type5_naive.rs:76-80 `Length::len`. -/
def Dct5Naive.len (self : Dct5Naive T) : Nat := (self.twiddles.length + 1) / 2

/-- src/algorithm/type5_naive.rs `get_scratch_len` is `self.len()`. -/
def Dct5Naive.scratchLen (self : Dct5Naive T) : Nat := self.len

/-- src/algorithm/type5_naive.rs:44-69. -/
def Dct5Naive.dct5 (self : Dct5Naive T) : Proc T := fun m =>
  validateBuffers m self.len self.scratchLen fun buffer scratch => do
    let scratch ← copyFromSlice scratch buffer
    let s0 ← rd scratch 0
    let scratch ← wr scratch 0 (s0 * thalf T)
    let buffer ← wr buffer 0 (scratch.foldl (fun acc e => acc + e) 0)
    let buffer ← forRange 1 buffer.length buffer fun k buffer => do
      let s0 ← rd scratch 0
      let twiddleStride := k
      let r ← strideLoop self.twiddles scratch twiddleStride (fun c x w => c + x * w) 1 s0 (twiddleStride)
      wr buffer k r.1
    .ok (buffer, scratch)

/-- `Dct5Naive` behind an `Arc<dyn _>`. -/
def Dct5Naive.toObj (self : Dct5Naive T) : Obj1 T :=
  { len := self.len, scratchLen := self.scratchLen, run := self.dct5 }

/-- src/algorithm/type5_naive.rs:97-99. -/
structure Dst5Naive (T : Type) where
  twiddles : List T

/-- src/algorithm/type5_naive.rs:103-114 `Dst5Naive::new`. -/
def Dst5Naive.new (len : Nat) : Except Err (Dst5Naive T) := do
  let constantFactor : F := F64.pi / (F64.nat len + F64.half)
  .ok ⟨(List.range (len * 2 + 1)).map fun i => fromF64 (F64.sin (constantFactor * F64.nat i))⟩

/-- src/algorithm/type5_naive.rs:147-151 `Length::len`. -/
def Dst5Naive.len (self : Dst5Naive T) : Nat := (self.twiddles.length - 1) / 2

/-- src/algorithm/type5_naive.rs `get_scratch_len` is `self.len()`. -/
def Dst5Naive.scratchLen (self : Dst5Naive T) : Nat := self.len

/-- src/algorithm/type5_naive.rs:118-140. -/
def Dst5Naive.dst5 (self : Dst5Naive T) : Proc T := fun m =>
  validateBuffers m self.len self.scratchLen fun buffer scratch => do
    let scratch ← copyFromSlice scratch buffer
    let buffer ← forRange 0 buffer.length buffer fun k buffer => do
      let twiddleStride := k + 1
      let r ← strideLoop self.twiddles scratch twiddleStride (fun c x w => c + x * w) 0 0 (twiddleStride)
      wr buffer k r.1
    .ok (buffer, scratch)

/-- `Dst5Naive` behind an `Arc<dyn _>`. -/
def Dst5Naive.toObj (self : Dst5Naive T) : Obj1 T :=
  { len := self.len, scratchLen := self.scratchLen, run := self.dst5 }

/-! ## Types 6 and 7 -/

/-- src/algorithm/type6and7_naive.rs:23-25. -/
structure Dct6And7Naive (T : Type) where
  twiddles : List T

/-- src/algorithm/type6and7_naive.rs:29-40 `Dct6And7Naive::new`. -/
def Dct6And7Naive.new (len : Nat) : Except Err (Dct6And7Naive T) := do
  let denom ← csub (len * 2) 1
  let constantFactor : F := F64.pi / F64.nat denom
  let count ← csub (len * 4) 2
  .ok ⟨(List.range count).map fun i => fromF64 (F64.cos (constantFactor * F64.nat i))⟩

/-- src/algorithm/type6and7_naive.rs:104-108 `Length::len`. -/
def Dct6And7Naive.len (self : Dct6And7Naive T) : Nat := (self.twiddles.length + 2) / 4

/-- src/algorithm/type6and7_naive.rs `get_scratch_len` is `self.len()`. -/
def Dct6And7Naive.scratchLen (self : Dct6And7Naive T) : Nat := self.len

/-- src/algorithm/type6and7_naive.rs:44-69. -/
def Dct6And7Naive.dct6 (self : Dct6And7Naive T) : Proc T := fun m =>
  validateBuffers m self.len self.scratchLen fun buffer scratch => do
    let scratch ← copyFromSlice scratch buffer
    let last ← csub scratch.length 1
    let sl ← rd scratch last
    let scratch ← wr scratch last (sl * thalf T)
    let buffer ← wr buffer 0 (scratch.foldl (fun acc e => acc + e) 0)
    let buffer ← forRange 1 buffer.length buffer fun k buffer => do
      let twiddleStride := k * 2
      let r ← strideLoop self.twiddles scratch twiddleStride (fun c x w => c + x * w) 0 0 (k)
      wr buffer k r.1
    .ok (buffer, scratch)

/-- src/algorithm/type6and7_naive.rs:72-96. -/
def Dct6And7Naive.dct7 (self : Dct6And7Naive T) : Proc T := fun m =>
  validateBuffers m self.len self.scratchLen fun buffer scratch => do
    let scratch ← copyFromSlice scratch buffer
    let s0 ← rd scratch 0
    let scratch ← wr scratch 0 (s0 * thalf T)
    let buffer ← forRange 0 buffer.length buffer fun k buffer => do
      let s0 ← rd scratch 0
      let twiddleStride := k * 2 + 1
      let r ← strideLoop self.twiddles scratch twiddleStride (fun c x w => c + x * w) 1 s0 (twiddleStride)
      wr buffer k r.1
    .ok (buffer, scratch)

/-- `Dct6And7Naive` behind an `Arc<dyn _>`. -/
def Dct6And7Naive.toObj (self : Dct6And7Naive T) : Obj67 T :=
  { len := self.len, scratchLen := self.scratchLen, t6 := self.dct6, t7 := self.dct7 }

/-- src/algorithm/type6and7_naive.rs:126-128. -/
structure Dst6And7Naive (T : Type) where
  twiddles : List T

/-- src/algorithm/type6and7_naive.rs:132-143 `Dst6And7Naive::new`. -/
def Dst6And7Naive.new (len : Nat) : Except Err (Dst6And7Naive T) := do
  let constantFactor : F := F64.pi / F64.nat (len * 2 + 1)
  .ok ⟨(List.range (len * 4 + 2)).map fun i => fromF64 (F64.sin (constantFactor * F64.nat i))⟩

/-- src/algorithm/type6and7_naive.rs:202-206 `Length::len`. -/
def Dst6And7Naive.len (self : Dst6And7Naive T) : Nat := (self.twiddles.length - 2) / 4

/-- src/algorithm/type6and7_naive.rs `get_scratch_len` is `self.len()`. -/
def Dst6And7Naive.scratchLen (self : Dst6And7Naive T) : Nat := self.len

/-- src/algorithm/type6and7_naive.rs:147-169. -/
def Dst6And7Naive.dst6 (self : Dst6And7Naive T) : Proc T := fun m =>
  validateBuffers m self.len self.scratchLen fun buffer scratch => do
    let scratch ← copyFromSlice scratch buffer
    let buffer ← forRange 0 buffer.length buffer fun k buffer => do
      let twiddleStride := (k + 1) * 2
      let r ← strideLoop self.twiddles scratch twiddleStride (fun c x w => c + x * w) 0 0 (k + 1)
      wr buffer k r.1
    .ok (buffer, scratch)

/-- src/algorithm/type6and7_naive.rs:172-194. -/
def Dst6And7Naive.dst7 (self : Dst6And7Naive T) : Proc T := fun m =>
  validateBuffers m self.len self.scratchLen fun buffer scratch => do
    let scratch ← copyFromSlice scratch buffer
    let buffer ← forRange 0 buffer.length buffer fun k buffer => do
      let twiddleStride := k * 2 + 1
      let r ← strideLoop self.twiddles scratch twiddleStride (fun c x w => c + x * w) 0 0 (twiddleStride)
      wr buffer k r.1
    .ok (buffer, scratch)

/-- `Dst6And7Naive` behind an `Arc<dyn _>`. -/
def Dst6And7Naive.toObj (self : Dst6And7Naive T) : Obj67 T :=
  { len := self.len, scratchLen := self.scratchLen, t6 := self.dst6, t7 := self.dst7 }

/-! ## Type 8 -/

/-- src/algorithm/type8_naive.rs:20-22. -/
structure Dct8Naive (T : Type) where
  twiddles : List T

/-- src/algorithm/type8_naive.rs:25-36 `Dct8Naive::new`. -/
def Dct8Naive.new (len : Nat) : Except Err (Dct8Naive T) := do
  let constantFactor : F := F64.pi / F64.nat (len * 2 + 1)
  .ok ⟨(List.range (len * 4 + 2)).map fun i => fromF64 (F64.cos (constantFactor * (F64.nat i + F64.half)))⟩

/-- src/algorithm/type8_naive.rs:68-72 `Length::len`. -/
def Dct8Naive.len (self : Dct8Naive T) : Nat := (self.twiddles.length - 2) / 4

/-- src/algorithm/type8_naive.rs `get_scratch_len` is `self.len()`. -/
def Dct8Naive.scratchLen (self : Dct8Naive T) : Nat := self.len

/-- src/algorithm/type8_naive.rs:39-61. -/
def Dct8Naive.dct8 (self : Dct8Naive T) : Proc T := fun m =>
  validateBuffers m self.len self.scratchLen fun buffer scratch => do
    let scratch ← copyFromSlice scratch buffer
    let buffer ← forRange 0 buffer.length buffer fun k buffer => do
      let twiddleStride := k * 2 + 1
      let r ← strideLoop self.twiddles scratch twiddleStride (fun c x w => c + x * w) 0 0 (k)
      wr buffer k r.1
    .ok (buffer, scratch)

/-- `Dct8Naive` behind an `Arc<dyn _>`. -/
def Dct8Naive.toObj (self : Dct8Naive T) : Obj1 T :=
  { len := self.len, scratchLen := self.scratchLen, run := self.dct8 }

/-- src/algorithm/type8_naive.rs:87-89. -/
structure Dst8Naive (T : Type) where
  twiddles : List T

/-- src/algorithm/type8_naive.rs:93-104 `Dst8Naive::new`. -/
def Dst8Naive.new (len : Nat) : Except Err (Dst8Naive T) := do
  let denom ← csub (len * 2) 1
  let constantFactor : F := F64.pi / F64.nat denom
  let count ← csub (len * 4) 2
  .ok ⟨(List.range count).map fun i => fromF64 (F64.sin (constantFactor * (F64.nat i + F64.half)))⟩

/-- src/algorithm/type8_naive.rs:139-143 `Length::len`. -/
def Dst8Naive.len (self : Dst8Naive T) : Nat := (self.twiddles.length + 2) / 4

/-- src/algorithm/type8_naive.rs `get_scratch_len` is `self.len()`. -/
def Dst8Naive.scratchLen (self : Dst8Naive T) : Nat := self.len

/-- src/algorithm/type8_naive.rs:108-132. -/
def Dst8Naive.dst8 (self : Dst8Naive T) : Proc T := fun m =>
  validateBuffers m self.len self.scratchLen fun buffer scratch => do
    let scratch ← copyFromSlice scratch buffer
    let last ← csub scratch.length 1
    let sl ← rd scratch last
    let scratch ← wr scratch last (sl * thalf T)
    let buffer ← forRange 0 buffer.length buffer fun k buffer => do
      let twiddleStride := k * 2 + 1
      let r ← strideLoop self.twiddles scratch twiddleStride (fun c x w => c + x * w) 0 0 (k)
      wr buffer k r.1
    .ok (buffer, scratch)

/-- `Dst8Naive` behind an `Arc<dyn _>`. -/
def Dst8Naive.toObj (self : Dst8Naive T) : Obj1 T :=
  { len := self.len, scratchLen := self.scratchLen, run := self.dst8 }

end

end RustDct
