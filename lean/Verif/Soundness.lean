import Verif.Instances
/-!
# Memory safety

The crate uses unchecked indexing inside safe methods of instances that may be built on trait objects supplied by the user.  Such trait objects
need not honour any contract: they may compute nonsense, panic, or lie about their length and scratch size.  All that Rust guarantees of them, if
they are written in safe code, is that slices keep their lengths and that there is no undefined behaviour.
-/

namespace RustDct

section
variable {T : Type}

/-- Whatever slices the method is called with, of whatever sizes: it returns, with slices of the same lengths, or it panics.  There is no undefined
behaviour. -/
def MemorySafe (p : Proc T) : Prop :=
  ∀ m, match p m with
    | .ok m' => m'.buf.length = m.buf.length ∧ m'.scr.length = m.scr.length
    | .panic e _ => e ≠ .ub

/-- As `MemorySafe`. -/
def MemorySafeMdct (p : List T → List T → Mem T → Outcome (Mem T)) : Prop :=
  ∀ a b m, match p a b m with
    | .ok m' => m'.buf.length = m.buf.length ∧ m'.scr.length = m.scr.length
    | .panic e _ => e ≠ .ub

/-- As `MemorySafe`. -/
def MemorySafeImdct (p : List T → IMem T → Outcome (IMem T)) : Prop :=
  ∀ x m, match p x m with
    | .ok m' => m'.outA.length = m.outA.length ∧ m'.outB.length = m.outB.length ∧ m'.scr.length = m.scr.length
    | .panic e _ => e ≠ .ub

/-- As `MemorySafe`, for an implementation of `rustfft::Fft`. -/
def Fft.MemorySafe (fft : Fft T) : Prop :=
  ∀ buf scr, match fft.process buf scr with
    | .ok r => r.1.length = buf.length ∧ r.2.length = scr.length
    | .error e => e ≠ .ub

/-- The method does not panic because of a `usize` subtraction below zero.  In a build without overflow checks, where such a subtraction wraps around
instead, it therefore behaves in the same way. -/
def NoWrap (p : Proc T) : Prop := ∀ m e m', p m = .panic e m' → e ≠ .overflow

def Obj1.MemorySafe (o : Obj1 T) : Prop := RustDct.MemorySafe o.run

def Obj23.MemorySafe (o : Obj23 T) : Prop :=
  RustDct.MemorySafe o.dct2 ∧ RustDct.MemorySafe o.dct3 ∧ RustDct.MemorySafe o.dst2 ∧ RustDct.MemorySafe o.dst3

def Obj23.NoWrap (o : Obj23 T) : Prop := RustDct.NoWrap o.dct2 ∧ RustDct.NoWrap o.dct3 ∧ RustDct.NoWrap o.dst2 ∧ RustDct.NoWrap o.dst3

def Obj4.MemorySafe (o : Obj4 T) : Prop := RustDct.MemorySafe o.dct4 ∧ RustDct.MemorySafe o.dst4

def Obj67.MemorySafe (o : Obj67 T) : Prop := RustDct.MemorySafe o.t6 ∧ RustDct.MemorySafe o.t7

def MdctObj.MemorySafe (o : MdctObj T) : Prop := MemorySafeMdct o.mdct ∧ MemorySafeImdct o.imdct

end

variable {T : Type} {F : Type} [F64 F] [DctNum T F]

/-! What safe code can build: `user` is any implementation outside of the crate, the other constructors are the constructors of the crate, whatever is
passed to them.  (`MadeX` in `Verif/Instances.lean` is the part of it that is built by this crate only and fits together.) -/

/-- `dyn TransformType2And3`. -/
inductive Built23 : Obj23 T → Prop
  | user {o : Obj23 T} (h : o.MemorySafe) : Built23 o
  | naive {len : Nat} {x : Type2And3Naive T} (h : Type2And3Naive.new len = .ok x) : Built23 x.toObj
  | butterfly2 : Built23 (Type2And3Butterfly2.new (T := T)).toObj
  | butterfly3 : Built23 (Type2And3Butterfly3.new (T := T)).toObj
  | butterfly4 : Built23 (Type2And3Butterfly4.new (T := T)).toObj
  | butterfly8 : Built23 (Type2And3Butterfly8.new (T := T)).toObj
  | butterfly16 : Built23 (Type2And3Butterfly16.new (T := T)).toObj
  | fft {fft : Fft T} {x : Type2And3ConvertToFft T} (hf : fft.MemorySafe) (h : Type2And3ConvertToFft.new fft = .ok x) : Built23 x.toObj
  | splitRadix {half quarter : Obj23 T} {x : Type2And3SplitRadix T} (hh : Built23 half) (hq : Built23 quarter)
      (h : Type2And3SplitRadix.new half quarter = .ok x) : Built23 x.toObj

/-- `dyn TransformType4`. -/
inductive Built4 : Obj4 T → Prop
  | user {o : Obj4 T} (h : o.MemorySafe) : Built4 o
  | naive {len : Nat} {x : Type4Naive T} (h : Type4Naive.new len = .ok x) : Built4 x.toObj
  | fft {fft : Fft T} {x : Type4ConvertToFftOdd T} (hf : fft.MemorySafe) (h : Type4ConvertToFftOdd.new fft = .ok x) : Built4 x.toObj
  | type3 {inner : Obj23 T} {x : Type4ConvertToType3Even T} (hi : Built23 inner) (h : Type4ConvertToType3Even.new inner = .ok x) : Built4 x.toObj

/-- `dyn Mdct`. -/
inductive BuiltMdct : MdctObj T → Prop
  | user {o : MdctObj T} (h : o.MemorySafe) : BuiltMdct o
  | naive {len : Nat} {w : Nat → List T} {x : MdctNaive T} (h : MdctNaive.new len w = .ok x) : BuiltMdct x.toObj
  | viaDct4 {inner : Obj4 T} {w : Nat → List T} {x : MdctViaDct4 T} (hi : Built4 inner) (h : MdctViaDct4.new inner w = .ok x) : BuiltMdct x.toObj

end RustDct
