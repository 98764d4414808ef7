import Verif.Model.Num
/-!
# MDCT: the naive algorithm, the DCT4-based algorithm, the window functions
-/

namespace RustDct

variable {T : Type} {F : Type} [F64 F] [DctNum T F]

/-! ## Size validation -/

/-- src/common.rs:56-86 `validate_buffers_mdct!` in `process_mdct_with_scratch`, where the three buffers are
`input_a`, `input_b` and `output`, followed by the rest of the method. -/
def validateMdct (inputA inputB : List T) (m : Mem T) (expectedLen expectedScratch : Nat)
    (body : List T → List T → Except Err (List T × List T)) : Outcome (Mem T) :=
  if inputA.length ≠ expectedLen ∨ inputB.length ≠ expectedLen ∨ m.buf.length ≠ expectedLen then
    afterErrorHelper (mdctErrorInplace inputA.length inputB.length m.buf.length m.scr.length
      expectedLen expectedScratch) m
  else if expectedScratch ≤ m.scr.length then
    match body m.buf (m.scr.take expectedScratch) with
    | .ok (b, s) => .ok ⟨b, s ++ m.scr.drop expectedScratch⟩
    | .error e => .panic e none
  else
    afterErrorHelper (mdctErrorInplace inputA.length inputB.length m.buf.length m.scr.length
      expectedLen expectedScratch) m

/-- src/common.rs:56-86 `validate_buffers_mdct!` in `process_imdct_with_scratch`, where the three buffers are
`input`, `output_a` and `output_b`, followed by the rest of the method. -/
def validateImdct (input : List T) (m : IMem T) (expectedLen expectedScratch : Nat)
    (body : List T → List T → List T → Except Err (List T × List T × List T)) : Outcome (IMem T) :=
  if input.length ≠ expectedLen ∨ m.outA.length ≠ expectedLen ∨ m.outB.length ≠ expectedLen then
    afterErrorHelper (mdctErrorInplace input.length m.outA.length m.outB.length m.scr.length
      expectedLen expectedScratch) m
  else if expectedScratch ≤ m.scr.length then
    match body m.outA m.outB (m.scr.take expectedScratch) with
    | .ok (a, b, s) => .ok ⟨a, b, s ++ m.scr.drop expectedScratch⟩
    | .error e => .panic e none
  else
    afterErrorHelper (mdctErrorInplace input.length m.outA.length m.outB.length m.scr.length
      expectedLen expectedScratch) m

/-! ## MdctNaive -/

/-- src/mdct/mdct_naive.rs:29-32. -/
structure MdctNaive (T : Type) where
  twiddles : List T
  window : List T

/-- src/mdct/mdct_naive.rs:42-69.  Simplification: a window function is a total function (closures that
panic or have side effects are in `Verif/Model/WindowEffects.lean`). -/
def MdctNaive.new (outputLen : Nat) (windowFn : Nat → List T) : Except Err (MdctNaive T) :=
  if ¬ outputLen % 2 = 0 then .error .assertion
  else
    let constantFactor : F := F64.half * F64.pi / F64.nat outputLen
    let twiddles : List T := (List.range (outputLen * 4)).map fun i =>
      fromF64 (F64.cos (constantFactor * (F64.nat i + F64.half)))
    let window := windowFn (outputLen * 2)
    if window.length ≠ outputLen * 2 then .error .assertion
    else .ok { twiddles, window }

/-- src/mdct/mdct_naive.rs:187-191. -/
def MdctNaive.len (self : MdctNaive T) : Nat := self.twiddles.length / 4

/-- src/mdct/mdct_naive.rs:192-196. -/
def MdctNaive.scratchLen (_self : MdctNaive T) : Nat := 0

/-- One accumulation loop of src/mdct/mdct_naive.rs (99-108, 110-119, 147-156, 173-182): the state is the
accumulator and the twiddle index; `term i twiddle` is the added value. -/
def mdctLoop (twiddles : List T) (cnt twiddleStride : Nat) (term : Nat → T → Except Err T)
    (acc : T) (twiddleIndex : Nat) : Except Err (T × Nat) :=
  forRange 0 cnt (acc, twiddleIndex) fun i st => do
    let twiddle ← rd twiddles st.2
    let v ← term i twiddle
    let acc := st.1 + v
    let twiddleIndex := st.2 + twiddleStride
    if twiddleIndex ≥ twiddles.length then
      .ok (acc, twiddleIndex - twiddles.length)
    else
      .ok (acc, twiddleIndex)

/-- src/mdct/mdct_naive.rs:73-121.  (`output_cell` is kept in a local until its loop ends.) -/
def MdctNaive.mdct (self : MdctNaive T) (inputA inputB : List T) : Mem T → Outcome (Mem T) := fun m =>
  validateMdct inputA inputB m self.len self.scratchLen fun output scratch => do
    let outputLen := output.length
    let halfOutput := output.length / 2
    let output ← forRange 0 outputLen output fun k output => do
      let twiddleIndex := (halfOutput + k * (outputLen + 1)) % self.twiddles.length
      let twiddleStride := k * 2 + 1
      let st ← mdctLoop self.twiddles inputA.length twiddleStride (fun i twiddle => do
        let a ← rd inputA i
        let w ← rd self.window i
        .ok (a * w * twiddle)) 0 twiddleIndex
      let st ← mdctLoop self.twiddles inputB.length twiddleStride (fun i twiddle => do
        let b ← rd inputB i
        let w ← rd self.window (i + outputLen)
        .ok (b * w * twiddle)) st.1 st.2
      wr output k st.1
    .ok (output, scratch)

/-- src/mdct/mdct_naive.rs:122-185. -/
def MdctNaive.imdct (self : MdctNaive T) (input : List T) : IMem T → Outcome (IMem T) := fun m =>
  validateImdct input m self.len self.scratchLen fun outputA outputB scratch => do
    let inputLen := input.length
    let halfInput := inputLen / 2
    let outputA ← forRange 0 inputLen outputA fun k outputA => do
      let twiddleIndex := halfInput + k
      let twiddleStride := inputLen + k * 2 + 1
      let st ← mdctLoop self.twiddles input.length twiddleStride (fun i twiddle => do
        let x ← rd input i
        .ok (x * twiddle)) 0 twiddleIndex
      let a ← rd outputA k
      let w ← rd self.window k
      wr outputA k (a + st.1 * w)
    let outputB ← forRange 0 inputLen outputB fun k outputB => do
      let twiddleK ← if k < inputLen / 2 then .ok k else do
        let a ← csub inputLen k
        csub a 1
      let a ← csub self.twiddles.length (inputLen * 2)
      let b ← csub (a + halfInput) twiddleK
      let twiddleIndex ← csub b 1
      let c ← csub inputLen 1
      let twiddleStride ← csub c (twiddleK * 2)
      let st ← mdctLoop self.twiddles input.length twiddleStride (fun i twiddle => do
        let x ← rd input i
        .ok (x * twiddle)) 0 twiddleIndex
      let o ← rd outputB k
      let w ← rd self.window (k + inputLen)
      wr outputB k (o + st.1 * w)
    .ok (outputA, outputB, scratch)

/-- `MdctNaive` behind an `Arc<dyn Mdct>`. -/
def MdctNaive.toObj (self : MdctNaive T) : MdctObj T :=
  { len := self.len, scratchLen := self.scratchLen, mdct := self.mdct, imdct := self.imdct }

/-! ## MdctViaDct4 -/

/-- src/mdct/mdct_via_dct4.rs:34-38. -/
structure MdctViaDct4 (T : Type) where
  dct : Obj4 T
  window : List T
  scratchLen : Nat

/-- src/mdct/mdct_via_dct4.rs:47-67. -/
def MdctViaDct4.new (innerDct : Obj4 T) (windowFn : Nat → List T) : Except Err (MdctViaDct4 T) :=
  let len := innerDct.len
  if ¬ len % 2 = 0 then .error .assertion
  else
    let window := windowFn (len * 2)
    if window.length ≠ len * 2 then .error .assertion
    else .ok { scratchLen := len + innerDct.scratchLen, dct := innerDct, window }

/-- src/mdct/mdct_via_dct4.rs:192-196. -/
def MdctViaDct4.len (self : MdctViaDct4 T) : Nat := self.dct.len

/-- src/mdct/mdct_via_dct4.rs:70-128. -/
def MdctViaDct4.mdct (self : MdctViaDct4 T) (inputA inputB : List T) : Mem T → Outcome (Mem T) := fun m =>
  validateMdct inputA inputB m self.len self.scratchLen fun output scratch => do
    let groupSize := self.len / 2
    -- 90-111
    let groupAIter := (List.zipWith (fun a w => a * w) inputA self.window).take groupSize
    let groupBRevIter := (List.zipWith (fun b w => b * w) inputA self.window).reverse.take groupSize
    let (_, windowTail) ← splitAtMut self.window self.len
    let groupCRevIter := (List.zipWith (fun c w => c * w) inputB windowTail).reverse.drop groupSize
    let groupDIter := (List.zipWith (fun d w => d * w) inputB windowTail).drop groupSize
    -- 114-117
    let output := assignZip (fun p : T × T => -p.1 - p.2) output (groupCRevIter.zip groupDIter)
    -- 120-125
    let (front, back) ← splitAtMut output groupSize
    let back := assignZip (fun p : T × T => p.1 - p.2) back (groupAIter.zip groupBRevIter)
    -- 127
    callProc self.dct.dct4 (front ++ back) scratch

/-- `for ((output, window_val), val) in out.iter_mut().zip(window).skip(k).zip(vals) { *output = f(..) }`:
the cells from `k` on are updated with the window values from `k` on. -/
def zipUpdate (f : T → T → T → T) (k : Nat) (out window vals : List T) : List T :=
  out.take k ++ updZip (fun o p => f o p.1 p.2) (out.drop k) ((window.drop k).zip vals)

/-- src/mdct/mdct_via_dct4.rs:130-190. -/
def MdctViaDct4.imdct (self : MdctViaDct4 T) (input : List T) : IMem T → Outcome (IMem T) := fun m =>
  validateImdct input m self.len self.scratchLen fun outputA outputB scratch => do
    let (dctBuffer, dctScratch) ← splitAtMut scratch self.len
    let dctBuffer ← copyFromSlice dctBuffer input
    let (dctBuffer, dctScratch) ← callProc self.dct.dct4 dctBuffer dctScratch
    let groupSize := self.len / 2
    let (front, back) ← splitAtMut dctBuffer groupSize
    let (_, windowTail) ← splitAtMut self.window self.len
    -- 154-160
    let outputA := zipUpdate (fun o w v => o + v * w) 0 outputA self.window back
    -- 163-170
    let outputA := zipUpdate (fun o w v => o - v * w) groupSize outputA self.window back.reverse
    -- 173-179
    let outputB := zipUpdate (fun o w v => o - v * w) 0 outputB windowTail front.reverse
    -- 182-189
    let outputB := zipUpdate (fun o w v => o - v * w) groupSize outputB windowTail front
    .ok (outputA, outputB, dctBuffer ++ dctScratch)

/-- `MdctViaDct4` behind an `Arc<dyn Mdct>`. -/
def MdctViaDct4.toObj (self : MdctViaDct4 T) : MdctObj T :=
  { len := self.len, scratchLen := self.scratchLen, mdct := self.mdct, imdct := self.imdct }

/-! ## Window functions -/

namespace WindowFn

/-- src/mdct/window_fn.rs:6-13. -/
def mp3 (len : Nat) : List T :=
  let constantTerm : F := F64.pi / F64.nat len
  (List.range len).map fun n => fromF64 (F64.sin (constantTerm * (F64.nat n + F64.half)))

/-- src/mdct/window_fn.rs:16-24. -/
def mp3Invertible (len : Nat) : List T :=
  let outerScale : F := F64.sqrt (F64.nat 4 / F64.nat len)
  let constantTerm : F := F64.pi / F64.nat len
  (List.range len).map fun n => fromF64 (F64.sin (constantTerm * (F64.nat n + F64.half)) * outerScale)

/-- src/mdct/window_fn.rs:27-38. -/
def vorbis (len : Nat) : List T :=
  let constantTerm : F := F64.pi / F64.nat len
  (List.range len).map fun n =>
    let innerSin := F64.sin (constantTerm * (F64.nat n + F64.half))
    fromF64 (F64.sin (F64.pi * F64.half * innerSin * innerSin))

/-- src/mdct/window_fn.rs:41-53. -/
def vorbisInvertible (len : Nat) : List T :=
  let outerScale : F := F64.sqrt (F64.nat 4 / F64.nat len)
  let constantTerm : F := F64.pi / F64.nat len
  (List.range len).map fun n =>
    let innerSin := F64.sin (constantTerm * (F64.nat n + F64.half))
    fromF64 (F64.sin (F64.pi * F64.half * innerSin * innerSin) * outerScale)

/-- src/mdct/window_fn.rs:56-58. -/
def one (len : Nat) : List T := (List.range len).map fun _ => 1

/-- src/mdct/window_fn.rs:61-67. -/
def invertible (len : Nat) : List T :=
  let constantTerm : F := F64.sqrt (F64.nat 2 / F64.nat len)
  (List.range len).map fun _ => fromF64 constantTerm

end WindowFn

end RustDct
