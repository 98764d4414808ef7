import Verif.Scratch
/-!
# Specification: exact symmetries, and the formulas an instance evaluates

`ExactSymmetry h`: the map `h` of numbers commutes with the operations that the code applies to data.  In floating-point arithmetic negation
is such a map, and so is multiplication with a power of two as long as nothing overflows or underflows.

`Formula`: what the code computes from the entries of its buffers, seen as a term: which operations are applied, in which order and with which
constants, before any number is known.
-/

namespace RustDct

/-! ### Changing all numbers of a buffer -/

def Cx.map {α β : Type} (h : α → β) (z : Cx α) : Cx β := ⟨h z.re, h z.im⟩
def Mem.map {α β : Type} (h : α → β) (m : Mem α) : Mem β := ⟨m.buf.map h, m.scr.map h⟩
def IMem.map {α β : Type} (h : α → β) (m : IMem α) : IMem β := ⟨m.outA.map h, m.outB.map h, m.scr.map h⟩
/-- The outcome of a call, with the memory it leaves changed. -/
def Outcome.map {M N : Type} (g : M → N) : Outcome M → Outcome N
  | .ok m => .ok (g m)
  | .panic e m => .panic e (m.map g)

section
variable {T F : Type} [F64 F] [DctNum T F]

/-- `h` commutes with the operations on data. -/
structure ExactSymmetry (h : T → T) : Prop where
  zero : h 0 = 0
  add (a b : T) : h (a + b) = h a + h b
  sub (a b : T) : h (a - b) = h a - h b
  neg (a : T) : h (-a) = -h a
  mul_const (a c : T) : h (a * c) = h a * c
  const_mul (c a : T) : h (c * a) = c * h a

/-- An FFT that has the symmetry. -/
def FftCommutes (h : T → T) (fft : Fft T) : Prop :=
  ∀ buf scr, fft.process (buf.map (Cx.map h)) (scr.map (Cx.map h)) =
    (fft.process buf scr).map fun r => (r.1.map (Cx.map h), r.2.map (Cx.map h))

end

/-! ### Which FFT a planned instance uses -/

def fftLen23 (n : Nat) : Option Nat := if straightLine n ∨ 2 < n ∧ n = 2 ^ Nat.log 2 n then none else some n

/-- The length of the FFT inside a planned instance of length `n`, if there is one. -/
def Kind.fftLen : Kind → Nat → Option Nat
  | .dct1, n => if n < 10 then none else some (2 * (n - 1))
  | .dst1, n => if n < 25 then none else some (2 * (n + 1))
  | .dct2, n | .dct3, n | .dst2, n | .dst3, n => fftLen23 n
  | .dct4, n | .dst4, n => if n % 2 = 0 then if n < 6 then none else fftLen23 (n / 2) else if n < 7 then none else some n
  | .dst6, n | .dst7, n => if n < 45 then none else some (2 * n + 1)
  | .dct5, _ | .dct6, _ | .dct7, _ | .dct8, _ | .dst5, _ | .dst8, _ => none

/-! ### Formulas -/

/-- What is computed in `f64` while building tables. -/
inductive Formula64
  | nat (n : Nat) | half | pi
  | add (a b : Formula64) | sub (a b : Formula64) | mul (a b : Formula64) | div (a b : Formula64) | neg (a : Formula64)
  | sin (a : Formula64) | cos (a : Formula64) | sqrt (a : Formula64)

/-- What is computed in the element type: from inputs, entries of a window and constants. -/
inductive Formula
  | input (i : Nat) | window (i : Nat)
  | zero | one | sqrt2 | fracSqrt2 | fromF64 (a : Formula64)
  | add (a b : Formula) | sub (a b : Formula) | mul (a b : Formula) | neg (a : Formula)

/-- Running the code on formulas records its operations. -/
instance : F64 Formula64 where
  add := .add
  sub := .sub
  mul := .mul
  div := .div
  neg := .neg
  nat := .nat
  half := .half
  pi := .pi
  sin := .sin
  cos := .cos
  sqrt := .sqrt

instance : DctNum Formula Formula64 where
  zero := .zero
  one := .one
  add := .add
  sub := .sub
  mul := .mul
  neg := .neg
  fromF64 := .fromF64
  sqrt2 := .sqrt2
  fracSqrt2 := .fracSqrt2

section
variable {T F : Type} [F64 F] [DctNum T F]

/-- The value of a formula in a number type. -/
def Formula64.eval : Formula64 → F
  | .nat n => F64.nat n
  | .half => F64.half
  | .pi => F64.pi
  | .add a b => a.eval + b.eval
  | .sub a b => a.eval - b.eval
  | .mul a b => a.eval * b.eval
  | .div a b => a.eval / b.eval
  | .neg a => -a.eval
  | .sin a => F64.sin a.eval
  | .cos a => F64.cos a.eval
  | .sqrt a => F64.sqrt a.eval

/-- The value of a formula, for the inputs `x` and the window `w`. -/
def Formula.eval (x w : List T) : Formula → T
  | .input i => x.getD i 0
  | .window i => w.getD i 0
  | .zero => 0
  | .one => 1
  | .sqrt2 => DctNum.sqrt2
  | .fracSqrt2 => DctNum.fracSqrt2
  | .fromF64 a => DctNum.fromF64 a.eval
  | .add a b => a.eval x w + b.eval x w
  | .sub a b => a.eval x w - b.eval x w
  | .mul a b => a.eval x w * b.eval x w
  | .neg a => -a.eval x w

end

/-- A formula without inputs. -/
def Formula.Constant : Formula → Prop
  | .input _ => False
  | .window _ | .zero | .one | .sqrt2 | .fracSqrt2 | .fromF64 _ => True
  | .add a b | .sub a b | .mul a b => a.Constant ∧ b.Constant
  | .neg a => a.Constant

/-- A formula built from the inputs below `n` and zero by addition, subtraction, negation and multiplication with constant formulas. -/
inductive Formula.LinearIn (n : Nat) : Formula → Prop
  | input {i} (h : i < n) : LinearIn n (.input i)
  | zero : LinearIn n .zero
  | add {a b} (ha : LinearIn n a) (hb : LinearIn n b) : LinearIn n (.add a b)
  | sub {a b} (ha : LinearIn n a) (hb : LinearIn n b) : LinearIn n (.sub a b)
  | neg {a} (ha : LinearIn n a) : LinearIn n (.neg a)
  | mul_const {a c} (ha : LinearIn n a) (hc : c.Constant) : LinearIn n (.mul a c)
  | const_mul {c a} (hc : c.Constant) (ha : LinearIn n a) : LinearIn n (.mul c a)

/-- Complex numbers whose parts are such formulas. -/
def Formula.LinearCx (n : Nat) (z : Cx Formula) : Prop := Formula.LinearIn n z.re ∧ Formula.LinearIn n z.im

/-- The FFT combines data in the same restricted way. -/
def FftLinear (fft : Fft Formula) : Prop :=
  ∀ n buf scr buf' scr', (∀ z ∈ buf, Formula.LinearCx n z) → (∀ z ∈ scr, Formula.LinearCx n z) → fft.process buf scr = .ok (buf', scr') →
    (∀ z ∈ buf', Formula.LinearCx n z) ∧ ∀ z ∈ scr', Formula.LinearCx n z

/-- The FFT `fft` over the number type `T` evaluates the formulas of `fft₀`: what it does depends on the sizes of its arguments only. -/
structure FftEvaluates {T F : Type} [F64 F] [DctNum T F] (fft₀ : Fft Formula) (fft : Fft T) : Prop where
  len : fft.len = fft₀.len
  direction : fft.direction = fft₀.direction
  scratchLen : fft.inplaceScratchLen = fft₀.inplaceScratchLen
  process : ∀ x w buf scr, fft.process (buf.map (Cx.map (Formula.eval x w))) (scr.map (Cx.map (Formula.eval x w))) =
    (fft₀.process buf scr).map fun r => (r.1.map (Cx.map (Formula.eval x w)), r.2.map (Cx.map (Formula.eval x w)))

/-- Every valid call returns with the values of the formulas `G` of the buffer, whatever scratch contained. -/
def Evaluates {T F : Type} [F64 F] [DctNum T F] (p : Proc T) (n s : Nat) (G : List Formula) : Prop :=
  ∀ m, ValidCall n s m → ∃ scr', p m = .ok ⟨G.map (Formula.eval m.buf []), scr'⟩

/-- The same for the methods that allocate scratch themselves. -/
def EvaluatesZeroed {T F : Type} [F64 F] [DctNum T F] (p : Proc T) (n s : Nat) (G : List Formula) : Prop :=
  ∀ buf, buf.length = n → processDefault s p buf = .ok (G.map (Formula.eval buf []))

/-- The same for `process_mdct_with_scratch` (the inputs of `G` are `a ++ b`) and `process_imdct_with_scratch` (the inputs of `GA` and `GB` are `x` and the
previous contents of the two outputs) of an instance with window `win`. -/
def EvaluatesMdct {T F : Type} [F64 F] [DctNum T F] (o : MdctObj T) (n : Nat) (win : List T) (G GA GB : List Formula) : Prop :=
  (∀ a b m, ValidMdct n o.scratchLen a b m → ∃ scr', o.mdct a b m = .ok ⟨G.map (Formula.eval (a ++ b) win), scr'⟩) ∧
  ∀ x m, ValidImdct n o.scratchLen x m →
    ∃ scr', o.imdct x m = .ok ⟨GA.map (Formula.eval (x ++ m.outA ++ m.outB) win), GB.map (Formula.eval (x ++ m.outA ++ m.outB) win), scr'⟩

end RustDct
