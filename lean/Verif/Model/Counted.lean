import Verif.Model.Planner
/-!
# Counting steps: the execution model with a counter

The methods of the crate once more, in an execution model that counts the steps.  A step is

* one addition, subtraction, multiplication or negation of two numbers of the element type,
* one element read from a slice or array (a real or a complex number), or one element written.

A call of rustfft takes as many steps as a given function `cost` says; index arithmetic, comparisons of indices and the
control flow of the loops are not counted: per step that is counted there is only a bounded amount of it.

This file has the counting versions of the primitives of `Verif/Model/Basic.lean`; the methods in
`Verif/Model/CountedMethods.lean` are the text of the models of the methods with these primitives.
That the counting versions compute what the models compute is a theorem (`Verif/Props/Cost.lean`), not an assumption.
-/

namespace RustDct.Counted

/-- A result together with the number of steps it took to arrive there (also if there is a panic). -/
def Run (α : Type) : Type := Except Err α × Nat

instance : Monad Run where
  pure a := (.ok a, 0)
  bind x f := match x with
    | (.error e, k) => (.error e, k)
    | (.ok a, k) => ((f a).1, k + (f a).2)

/-- A local number: its value and the number of operations since its operands were in memory or in variables. -/
structure Cn (T : Type) where
  val : T
  cnt : Nat

/-- Each operation counts one. -/
instance {T F : Type} [DctNum T F] : DctNum (Cn T) F where
  zero := ⟨0, 0⟩
  one := ⟨1, 0⟩
  add a b := ⟨a.val + b.val, a.cnt + b.cnt + 1⟩
  sub a b := ⟨a.val - b.val, a.cnt + b.cnt + 1⟩
  mul a b := ⟨a.val * b.val, a.cnt + b.cnt + 1⟩
  neg a := ⟨-a.val, a.cnt + 1⟩
  fromF64 x := ⟨fromF64 x, 0⟩
  sqrt2 := ⟨DctNum.sqrt2, 0⟩
  fracSqrt2 := ⟨DctNum.fracSqrt2, 0⟩

/-- A number that is at hand, such as a field of `self`. -/
def lit {T : Type} (x : T) : Cn T := ⟨x, 0⟩

/-- What is stored in a slice (`α`) and what is computed with (`β`). -/
class Cell (α : Type) (β : outParam Type) where
  load : α → β
  store : β → α
  /-- the number of operations that produced the value -/
  ops : β → Nat
  store_load : ∀ a, store (load a) = a
  ops_load : ∀ a, ops (load a) = 0

instance (priority := low) {T : Type} : Cell T (Cn T) where
  load x := ⟨x, 0⟩
  store x := x.val
  ops x := x.cnt
  store_load _ := rfl
  ops_load _ := rfl

instance {T : Type} : Cell (Cx T) (Cx (Cn T)) where
  load c := ⟨⟨c.re, 0⟩, ⟨c.im, 0⟩⟩
  store c := ⟨c.re.val, c.im.val⟩
  ops c := c.re.cnt + c.im.cnt
  store_load _ := rfl
  ops_load _ := rfl

instance {α β α' β' : Type} [Cell α β] [Cell α' β'] : Cell (α × α') (β × β') where
  load p := (Cell.load p.1, Cell.load p.2)
  store p := (Cell.store p.1, Cell.store p.2)
  ops p := Cell.ops α p.1 + Cell.ops α' p.2
  store_load p := by simp [Cell.store_load]
  ops_load p := by simp [Cell.ops_load]

/-- `let x = e;`: the operations in `e` are executed once, here. -/
def arith {T : Type} (x : Cn T) : Run (Cn T) := (.ok ⟨x.val, 0⟩, x.cnt)

/-- The same for a complex number. -/
def arithC {T : Type} (x : Cx (Cn T)) : Run (Cx (Cn T)) := (.ok ⟨⟨x.re.val, 0⟩, ⟨x.im.val, 0⟩⟩, x.re.cnt + x.im.cnt)

/-- The real part of a complex number both parts of which have been computed. -/
def reOf {T : Type} (x : Cx (Cn T)) : Cn T := ⟨x.re.val, x.re.cnt + x.im.cnt⟩

/-- `let x = [e1, e2, ..];`. -/
def arr {T : Type} (l : List (Cn T)) : Run (List T) := (.ok (l.map (·.val)), (l.map (·.cnt)).sum + l.length)

section
variable {α β : Type} [Cell α β]

/-- `l[i]` (read), `RustDct.rd`. -/
def rd (l : List α) (i : Nat) : Run β := ((RustDct.rd l i).map Cell.load, 1)

/-- `*l.get_unchecked(i)`, `RustDct.rdU`. -/
def rdU (l : List α) (i : Nat) : Run β := ((RustDct.rdU l i).map Cell.load, 1)

/-- `l[i] = e`, `RustDct.wr`. -/
def wr (l : List α) (i : Nat) (v : β) : Run (List α) := (RustDct.wr l i (Cell.store v), Cell.ops α v + 1)

/-- `*l.get_unchecked_mut(i) = e`, `RustDct.wrU`. -/
def wrU (l : List α) (i : Nat) (v : β) : Run (List α) := (RustDct.wrU l i (Cell.store v), Cell.ops α v + 1)

end

/-- `RustDct.csub`. -/
def csub (a b : Nat) : Run Nat := (RustDct.csub a b, 0)

/-- `RustDct.splitAtMut`: no element is touched. -/
def splitAtMut {α : Type} (l : List α) (k : Nat) : Run (List α × List α) := (RustDct.splitAtMut l k, 0)

/-- `RustDct.copyFromSlice`: every element is read and written. -/
def copyFromSlice {α : Type} (dst src : List α) : Run (List α) := (RustDct.copyFromSlice dst src, 2 * src.length)

/-- `RustDct.forRange`. -/
def forRange {σ : Type} (lo hi : Nat) (s : σ) (f : Nat → σ → Run σ) : Run σ :=
  (List.range' lo (hi - lo)).foldlM (fun s i => f i s) s

section
variable {α β γ δ ε ζ : Type} [Cell α β] [Cell γ δ] [Cell ε ζ]

/-- `RustDct.updZip`: for each updated cell, it and the source are read, the cell is written. -/
def updZip (f : β → δ → β) (dst : List α) (srcs : List γ) : Run (List α) :=
  (.ok (RustDct.updZip (fun a b => Cell.store (f (Cell.load a) (Cell.load b))) dst srcs),
    ((dst.zip srcs).map fun p => Cell.ops α (f (Cell.load p.1) (Cell.load p.2)) + 3).sum)

/-- `RustDct.assignZip`. -/
def assignZip (g : δ → β) (dst : List α) (srcs : List γ) : Run (List α) :=
  updZip (fun _ b => g b) dst srcs

/-- `l.iter().zip(m).map(f)`, counting all of the elements although the iterator may not be run to its end. -/
def zipWith (f : β → δ → ζ) (l : List α) (m : List γ) : Run (List ε) :=
  (.ok (List.zipWith (fun a b => Cell.store (f (Cell.load a) (Cell.load b))) l m),
    ((l.zip m).map fun p => Cell.ops ε (f (Cell.load p.1) (Cell.load p.2)) + 2).sum)

end

/-- `slice.iter().fold(T::zero(), |acc, e| acc + *e)`. -/
def sumSlice {T F : Type} [DctNum T F] (l : List T) : Run (Cn T) :=
  (.ok ⟨l.foldl (fun acc e => acc + e) 0, 0⟩, 2 * l.length)

/-- A `process_*_with_scratch` method with the number of steps it takes. -/
abbrev CProc (T : Type) := Mem T → Outcome (Mem T) × Nat

/-- `RustDct.validateBuffer`. -/
def validateBuffer {T : Type} (m : Mem T) (expectedLen : Nat) (body : List T → Run (List T)) : Outcome (Mem T) × Nat :=
  (RustDct.validateBuffer m expectedLen fun b => (body b).1, if m.buf.length = expectedLen then (body m.buf).2 else 0)

/-- `RustDct.validateBuffers`. -/
def validateBuffers {T : Type} (m : Mem T) (expectedLen expectedScratch : Nat)
    (body : List T → List T → Run (List T × List T)) : Outcome (Mem T) × Nat :=
  (RustDct.validateBuffers m expectedLen expectedScratch fun b s => (body b s).1,
    if m.buf.length = expectedLen ∧ expectedScratch ≤ m.scr.length then (body m.buf (m.scr.take expectedScratch)).2 else 0)

/-- `RustDct.callProc`. -/
def callProc {T : Type} (p : CProc T) (buf scr : List T) : Run (List T × List T) :=
  (RustDct.callProc (fun m => (p m).1) buf scr, (p ⟨buf, scr⟩).2)

/-- A call of rustfft: `cost fft` steps. -/
def fftCall {T : Type} (cost : Fft T → Nat) (fft : Fft T) (buf scr : List (Cx T)) : Run (List (Cx T) × List (Cx T)) :=
  (fft.process buf scr, cost fft)

/-! ## Trait objects -/

/-- `Obj1` with counters. -/
structure CObj1 (T : Type) where
  run : CProc T

/-- `Obj23` with counters. -/
structure CObj23 (T : Type) where
  dct2 : CProc T
  dct3 : CProc T
  dst2 : CProc T
  dst3 : CProc T

/-- `Obj4` with counters. -/
structure CObj4 (T : Type) where
  dct4 : CProc T
  dst4 : CProc T

/-- `Obj67` with counters. -/
structure CObj67 (T : Type) where
  t6 : CProc T
  t7 : CProc T

/-- `MdctObj` with counters. -/
structure CMdct (T : Type) where
  mdct : List T → List T → Mem T → Outcome (Mem T) × Nat
  imdct : List T → IMem T → Outcome (IMem T) × Nat

/-- `RustDct.validateMdct`. -/
def validateMdct {T : Type} (inputA inputB : List T) (m : Mem T) (expectedLen expectedScratch : Nat)
    (body : List T → List T → Run (List T × List T)) : Outcome (Mem T) × Nat :=
  (RustDct.validateMdct inputA inputB m expectedLen expectedScratch fun b s => (body b s).1,
    if inputA.length = expectedLen ∧ inputB.length = expectedLen ∧ m.buf.length = expectedLen ∧ expectedScratch ≤ m.scr.length then
      (body m.buf (m.scr.take expectedScratch)).2 else 0)

/-- `RustDct.validateImdct`. -/
def validateImdct {T : Type} (input : List T) (m : IMem T) (expectedLen expectedScratch : Nat)
    (body : List T → List T → List T → Run (List T × List T × List T)) : Outcome (IMem T) × Nat :=
  (RustDct.validateImdct input m expectedLen expectedScratch fun a b s => (body a b s).1,
    if input.length = expectedLen ∧ m.outA.length = expectedLen ∧ m.outB.length = expectedLen ∧ expectedScratch ≤ m.scr.length then
      (body m.outA m.outB (m.scr.take expectedScratch)).2 else 0)

end RustDct.Counted
