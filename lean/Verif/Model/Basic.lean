/-!
# Execution model: errors, memory, slices, loops, size validation

No Mathlib here: everything is a small total computable function.
-/

namespace RustDct

/-- What can go wrong while running the code.  All constructors except `ub` are Rust panics;
`ub` is undefined behaviour (`get_unchecked` with an index out of bounds). -/
inductive Err
  /-- src/common.rs:98-103, "Provided buffer must be equal to the transform size. Expected len = .., got len = .." -/
  | bufferLen (expected actual : Nat)
  /-- src/common.rs:124-141, "All three MDCT buffers must be equal to the transform size. Expected len = .., but first (second, third)
  buffer was len = .." -/
  | mdctLen (position expected actual : Nat)
  /-- src/common.rs:104-109 / 142-147, "Not enough scratch space was provided. Expected scratch len >= .., got scratch len = .." -/
  | scratchLen (expected actual : Nat)
  /-- checked slice indexing or slicing out of bounds, also `get_mut(k).unwrap()` -/
  | index
  /-- `usize` subtraction below zero (debug-build semantics) -/
  | overflow
  /-- `assert!`/`assert_eq!` in a constructor, and the explicit `panic!` in src/plan.rs:132 -/
  | assertion
  /-- `copy_from_slice` with different lengths -/
  | sliceLen
  /-- undefined behaviour: unchecked access out of bounds -/
  | ub
  deriving DecidableEq, Repr

/-- The two mutable slices handed to a `process_*_with_scratch` call. -/
structure Mem (T : Type) where
  buf : List T
  scr : List T

/-- Result of a call: it returns, leaving the memory `m`, or it panics.  A panic carries the memory at the
panic point when the model tracks it (`some`), which is the case for all panics of the size validation. -/
inductive Outcome (M : Type)
  | ok (m : M)
  | panic (e : Err) (m : Option M)

/-- A `process_*_with_scratch(&self, buffer, scratch)` method of one fixed instance. -/
abbrev Proc (T : Type) := Mem T → Outcome (Mem T)

/-- Checked indexing `l[i]` (read). -/
def rd {α : Type} (l : List α) (i : Nat) : Except Err α :=
  match l[i]? with
  | some v => .ok v
  | none => .error .index

/-- Checked indexing `l[i] = v`, and `*l.get_mut(i).unwrap() = v`. -/
def wr {α : Type} (l : List α) (i : Nat) (v : α) : Except Err (List α) :=
  if i < l.length then .ok (l.set i v) else .error .index

/-- `*l.get_unchecked(i)`. -/
def rdU {α : Type} (l : List α) (i : Nat) : Except Err α :=
  match l[i]? with
  | some v => .ok v
  | none => .error .ub

/-- `*l.get_unchecked_mut(i) = v`. -/
def wrU {α : Type} (l : List α) (i : Nat) (v : α) : Except Err (List α) :=
  if i < l.length then .ok (l.set i v) else .error .ub

/-- Checked `usize` subtraction. -/
def csub (a b : Nat) : Except Err Nat :=
  if b ≤ a then .ok (a - b) else .error .overflow

/-- `l.split_at_mut(k)`, and the pair of `l[..k]` and `l[k..]`. -/
def splitAtMut {α : Type} (l : List α) (k : Nat) : Except Err (List α × List α) :=
  if k ≤ l.length then .ok (l.take k, l.drop k) else .error .index

/-- `dst.copy_from_slice(src)`. -/
def copyFromSlice {α : Type} (dst src : List α) : Except Err (List α) :=
  if dst.length = src.length then .ok src else .error .sliceLen

/-- `for i in lo..hi { s = f(i, s) }`. -/
def forRange {σ : Type} (lo hi : Nat) (s : σ) (f : Nat → σ → Except Err σ) : Except Err σ :=
  (List.range' lo (hi - lo)).foldlM (fun s i => f i s) s

/-- `for (src, cell) in srcs.zip(dst.iter_mut()) { *cell = f(*cell, src) }`: updates the common prefix. -/
def updZip {α β : Type} (f : α → β → α) (dst : List α) (srcs : List β) : List α :=
  List.zipWith f dst srcs ++ dst.drop srcs.length

/-- As `updZip` when the old cell value is ignored: `*cell = g(src)`. -/
def assignZip {α β : Type} (g : β → α) (dst : List α) (srcs : List β) : List α :=
  updZip (fun _ b => g b) dst srcs

/-- src/common.rs:92-110 `dct_error_inplace`: returns normally when both assertions hold. -/
def dctErrorInplace (actualLen actualScratch expectedLen expectedScratch : Nat) : Except Err Unit :=
  if actualLen ≠ expectedLen then .error (.bufferLen expectedLen actualLen)
  else if ¬ expectedScratch ≤ actualScratch then .error (.scratchLen expectedScratch actualScratch)
  else .ok ()

/-- src/common.rs:116-148 `mdct_error_inplace`. -/
def mdctErrorInplace (lenA lenB lenC actualScratch expectedLen expectedScratch : Nat) : Except Err Unit :=
  if lenA ≠ expectedLen then .error (.mdctLen 1 expectedLen lenA)
  else if lenB ≠ expectedLen then .error (.mdctLen 2 expectedLen lenB)
  else if lenC ≠ expectedLen then .error (.mdctLen 3 expectedLen lenC)
  else if ¬ expectedScratch ≤ actualScratch then .error (.scratchLen expectedScratch actualScratch)
  else .ok ()

/-- What a call does after one of the error helpers: it panics with the memory as it is, or, if the helper
returned, the macro executes `return;` and the call ends silently without having done anything. -/
def afterErrorHelper {M : Type} (r : Except Err Unit) (m : M) : Outcome M :=
  match r with
  | .error e => .panic e (some m)
  | .ok () => .ok m

/-- src/common.rs:20-27 `validate_buffer!` followed by the rest of the method (`body`), used by the
butterflies, which ignore the scratch slice. -/
def validateBuffer {T : Type} (m : Mem T) (expectedLen : Nat)
    (body : List T → Except Err (List T)) : Outcome (Mem T) :=
  if m.buf.length ≠ expectedLen then
    afterErrorHelper (dctErrorInplace m.buf.length 0 expectedLen 0) m
  else
    match body m.buf with
    | .ok b => .ok ⟨b, m.scr⟩
    | .error e => .panic e none

/-- src/common.rs:30-53 `validate_buffers!` followed by the rest of the method (`body`), which only sees the
first `expectedScratch` elements of scratch (`scratch.get_mut(0..expected)`); the elements beyond stay. -/
def validateBuffers {T : Type} (m : Mem T) (expectedLen expectedScratch : Nat)
    (body : List T → List T → Except Err (List T × List T)) : Outcome (Mem T) :=
  if m.buf.length ≠ expectedLen then
    afterErrorHelper (dctErrorInplace m.buf.length m.scr.length expectedLen expectedScratch) m
  else if expectedScratch ≤ m.scr.length then
    match body m.buf (m.scr.take expectedScratch) with
    | .ok (b, s) => .ok ⟨b, s ++ m.scr.drop expectedScratch⟩
    | .error e => .panic e none
  else
    afterErrorHelper (dctErrorInplace m.buf.length m.scr.length expectedLen expectedScratch) m

/-- A call of an inner transform from within a method body. -/
def callProc {T : Type} (p : Proc T) (buf scr : List T) : Except Err (List T × List T) :=
  match p ⟨buf, scr⟩ with
  | .ok m => .ok (m.buf, m.scr)
  | .panic e _ => .error e

end RustDct
