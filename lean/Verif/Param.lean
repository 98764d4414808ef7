import Mathlib.Data.List.Forall2
import Verif.Methods
/-!
# Relating runs of the code over two number types

A `Param T T'` relates the numbers of two element types: `d` relates data (what comes from the caller's buffers), `c` relates constants
(what comes from tables), `f` relates `f64` numbers.  The code only combines data in ways under which such relations are closed: it
adds, subtracts and negates data, multiplies data with constants, and never looks at the value of a number.
-/

namespace RustDct

variable {T T' F F' : Type} [F64 F] [DctNum T F] [F64 F'] [DctNum T' F']

/-- Relations between two number types which the operations the code uses preserve. -/
structure Param (T T' : Type) {F F' : Type} [F64 F] [DctNum T F] [F64 F'] [DctNum T' F'] where
  /-- data -/
  d : T → T' → Prop
  /-- constants -/
  c : T → T' → Prop
  /-- `f64` numbers -/
  f : F → F' → Prop
  d_zero : d 0 0
  d_add {x x' y y'} : d x x' → d y y' → d (x + y) (x' + y')
  d_sub {x x' y y'} : d x x' → d y y' → d (x - y) (x' - y')
  d_neg {x x'} : d x x' → d (-x) (-x')
  d_mul {x x' y y'} : d x x' → c y y' → d (x * y) (x' * y')
  d_mul' {x x' y y'} : c x x' → d y y' → d (x * y) (x' * y')
  c_zero : c 0 0
  c_one : c 1 1
  c_neg {x x'} : c x x' → c (-x) (-x')
  c_mul {x x' y y'} : c x x' → c y y' → c (x * y) (x' * y')
  c_sqrt2 : c DctNum.sqrt2 DctNum.sqrt2
  c_fracSqrt2 : c DctNum.fracSqrt2 DctNum.fracSqrt2
  c_from {x x'} : f x x' → c (fromF64 x) (fromF64 x')
  f_nat n : f (F64.nat n) (F64.nat n)
  f_half : f F64.half F64.half
  f_pi : f F64.pi F64.pi
  f_add {x x' y y'} : f x x' → f y y' → f (x + y) (x' + y')
  f_sub {x x' y y'} : f x x' → f y y' → f (x - y) (x' - y')
  f_mul {x x' y y'} : f x x' → f y y' → f (x * y) (x' * y')
  f_div {x x' y y'} : f x x' → f y y' → f (x / y) (x' / y')
  f_neg {x x'} : f x x' → f (-x) (-x')
  f_sin {x x'} : f x x' → f (F64.sin x) (F64.sin x')
  f_cos {x x'} : f x x' → f (F64.cos x) (F64.cos x')
  f_sqrt {x x'} : f x x' → f (F64.sqrt x) (F64.sqrt x')

/-- Two complex numbers are related if their parts are. -/
def CxRel {α β : Type} (r : α → β → Prop) (x : Cx α) (y : Cx β) : Prop := r x.re y.re ∧ r x.im y.im

/-- Two lists are related if they have the same length and related entries. -/
abbrev LRel {α β : Type} (r : α → β → Prop) (l : List α) (l' : List β) : Prop := List.Forall₂ r l l'

/-- Two pairs. -/
def PRl {α β α' β' : Type} (r : α → α' → Prop) (s : β → β' → Prop) (x : α × β) (y : α' × β') : Prop := r x.1 y.1 ∧ s x.2 y.2

/-- Two computations are related if both succeed with related results, or both fail with the same error. -/
inductive ERel {α β : Type} (r : α → β → Prop) : Except Err α → Except Err β → Prop
  | ok {a b} : r a b → ERel r (.ok a) (.ok b)
  | error {e} : ERel r (.error e) (.error e)

/-- Two memories. -/
def MemRel {α β : Type} (r : α → β → Prop) (m : Mem α) (m' : Mem β) : Prop := LRel r m.buf m'.buf ∧ LRel r m.scr m'.scr

/-- Two memories of an IMDCT. -/
def IMemRel {α β : Type} (r : α → β → Prop) (m : IMem α) (m' : IMem β) : Prop := LRel r m.outA m'.outA ∧ LRel r m.outB m'.outB ∧ LRel r m.scr m'.scr

/-- Two calls end alike: both return, or both panic with the same message; the memories they leave are related. -/
inductive ORel {M M' : Type} (r : M → M' → Prop) : Outcome M → Outcome M' → Prop
  | ok {m m'} : r m m' → ORel r (.ok m) (.ok m')
  | panic {e} : ORel r (.panic e none) (.panic e none)
  | panicMem {e m m'} : r m m' → ORel r (.panic e (some m)) (.panic e (some m'))

/-- Two methods take related memories to related outcomes. -/
def ProcRel {α β : Type} (r : α → β → Prop) (p : Proc α) (p' : Proc β) : Prop := ∀ m m', MemRel r m m' → ORel (MemRel r) (p m) (p' m')

/-- Two FFT instances. -/
structure FftRel {α β : Type} (r : α → β → Prop) (fft : Fft α) (fft' : Fft β) : Prop where
  len : fft.len = fft'.len
  direction : fft.direction = fft'.direction
  scratchLen : fft.inplaceScratchLen = fft'.inplaceScratchLen
  process : ∀ {b b' s s'}, LRel (CxRel r) b b' → LRel (CxRel r) s s' → ERel (PRl (LRel (CxRel r)) (LRel (CxRel r))) (fft.process b s) (fft'.process b' s')

structure Obj1Rel {α β : Type} (r : α → β → Prop) (o : Obj1 α) (o' : Obj1 β) : Prop where
  len : o.len = o'.len
  scratchLen : o.scratchLen = o'.scratchLen
  run : ProcRel r o.run o'.run

structure Obj23Rel {α β : Type} (r : α → β → Prop) (o : Obj23 α) (o' : Obj23 β) : Prop where
  len : o.len = o'.len
  scratchLen : o.scratchLen = o'.scratchLen
  dct2 : ProcRel r o.dct2 o'.dct2
  dct3 : ProcRel r o.dct3 o'.dct3
  dst2 : ProcRel r o.dst2 o'.dst2
  dst3 : ProcRel r o.dst3 o'.dst3

structure Obj4Rel {α β : Type} (r : α → β → Prop) (o : Obj4 α) (o' : Obj4 β) : Prop where
  len : o.len = o'.len
  scratchLen : o.scratchLen = o'.scratchLen
  dct4 : ProcRel r o.dct4 o'.dct4
  dst4 : ProcRel r o.dst4 o'.dst4

structure Obj67Rel {α β : Type} (r : α → β → Prop) (o : Obj67 α) (o' : Obj67 β) : Prop where
  len : o.len = o'.len
  scratchLen : o.scratchLen = o'.scratchLen
  t6 : ProcRel r o.t6 o'.t6
  t7 : ProcRel r o.t7 o'.t7

structure MdctObjRel {α β : Type} (r : α → β → Prop) (o : MdctObj α) (o' : MdctObj β) : Prop where
  len : o.len = o'.len
  scratchLen : o.scratchLen = o'.scratchLen
  mdct : ∀ {a a' b b' m m'}, LRel r a a' → LRel r b b' → MemRel r m m' → ORel (MemRel r) (o.mdct a b m) (o'.mdct a' b' m')
  imdct : ∀ {a a' m m'}, LRel r a a' → IMemRel r m m' → ORel (IMemRel r) (o.imdct a m) (o'.imdct a' m')

end RustDct
