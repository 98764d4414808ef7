import Mathlib.Data.Nat.Log
import Verif.Methods
import Verif.Model.CountedMethods
/-!
# The running times of the instances a user can have

`CountsX okFft cost o c`: `o` comes out of the crate's public constructors (as in `MadeX okFft o`) and `c` is the counting version
of its methods, in which a call of rustfft takes `cost fft` steps.  What a step is: `Verif/Model/Counted.lean`.
Each constructor pairs one public `new` with the counting versions of the methods of the struct it returns; a struct that contains
another instance gets the counting version of that one.

`Times okFft cost k p c n s`: `c` is the counting version of the method `p` of transform `k` of an instance with `len()` `n` and
`get_scratch_len()` `s`, as in `Method okFft k p n s`.

`c.within n k`: every call with a buffer of length `n` takes at most `k` steps, whatever is in the buffer and whether it returns or panics.
-/

namespace RustDct.Counted

variable {T : Type} {F : Type} [F64 F] [DctNum T F]

/-- At most `k` steps for any buffer of length `n` and any scratch. -/
def CProc.within (c : CProc T) (n k : Nat) : Prop := ∀ m : Mem T, m.buf.length = n → (c m).2 ≤ k

/-- At most `k` steps of an MDCT, whatever the arguments. -/
def CMdct.mdctWithin (c : CMdct T) (k : Nat) : Prop := ∀ a b m, (c.mdct a b m).2 ≤ k

/-- At most `k` steps of an IMDCT, whatever the arguments. -/
def CMdct.imdctWithin (c : CMdct T) (k : Nat) : Prop := ∀ a m, (c.imdct a m).2 ≤ k

/-- `dyn Dct1`. -/
inductive CountsDct1 (okFft : Fft T → Prop) (cost : Fft T → Nat) : Obj1 T → CObj1 T → Prop
  | naive {len : Nat} {x : RustDct.Dct1Naive T} (h : RustDct.Dct1Naive.new len = .ok x) :
      CountsDct1 okFft cost x.toObj ⟨Dct1Naive.dct1 x⟩
  | fft {fft : Fft T} {x : RustDct.Dct1ConvertToFft T} (hf : okFft fft) (h : RustDct.Dct1ConvertToFft.new fft = .ok x) :
      CountsDct1 okFft cost x.toObj ⟨Dct1ConvertToFft.dct1 cost x⟩

/-- `dyn Dst1`. -/
inductive CountsDst1 (okFft : Fft T → Prop) (cost : Fft T → Nat) : Obj1 T → CObj1 T → Prop
  | naive {len : Nat} {x : RustDct.Dst1Naive T} (h : RustDct.Dst1Naive.new len = .ok x) :
      CountsDst1 okFft cost x.toObj ⟨Dst1Naive.dst1 x⟩
  | fft {fft : Fft T} {x : RustDct.Dst1ConvertToFft T} (hf : okFft fft) (h : RustDct.Dst1ConvertToFft.new fft = .ok x) :
      CountsDst1 okFft cost x.toObj ⟨Dst1ConvertToFft.dst1 cost x⟩

/-- `dyn TransformType2And3`. -/
inductive Counts23 (okFft : Fft T → Prop) (cost : Fft T → Nat) : Obj23 T → CObj23 T → Prop
  | naive {len : Nat} {x : RustDct.Type2And3Naive T} (h : RustDct.Type2And3Naive.new len = .ok x) :
      Counts23 okFft cost x.toObj ⟨Type2And3Naive.dct2 x, Type2And3Naive.dct3 x, Type2And3Naive.dst2 x, Type2And3Naive.dst3 x⟩
  | butterfly2 : Counts23 okFft cost (RustDct.Type2And3Butterfly2.new (T := T)).toObj
      ⟨Type2And3Butterfly2.dct2 RustDct.Type2And3Butterfly2.new, Type2And3Butterfly2.dct3 RustDct.Type2And3Butterfly2.new, Type2And3Butterfly2.dst2 RustDct.Type2And3Butterfly2.new, Type2And3Butterfly2.dst3 RustDct.Type2And3Butterfly2.new⟩
  | butterfly3 : Counts23 okFft cost (RustDct.Type2And3Butterfly3.new (T := T)).toObj
      ⟨Type2And3Butterfly3.dct2 RustDct.Type2And3Butterfly3.new, Type2And3Butterfly3.dct3 RustDct.Type2And3Butterfly3.new, Type2And3Butterfly3.dst2 RustDct.Type2And3Butterfly3.new, Type2And3Butterfly3.dst3 RustDct.Type2And3Butterfly3.new⟩
  | butterfly4 : Counts23 okFft cost (RustDct.Type2And3Butterfly4.new (T := T)).toObj
      ⟨Type2And3Butterfly4.dct2 RustDct.Type2And3Butterfly4.new, Type2And3Butterfly4.dct3 RustDct.Type2And3Butterfly4.new, Type2And3Butterfly4.dst2 RustDct.Type2And3Butterfly4.new, Type2And3Butterfly4.dst3 RustDct.Type2And3Butterfly4.new⟩
  | butterfly8 : Counts23 okFft cost (RustDct.Type2And3Butterfly8.new (T := T)).toObj
      ⟨Type2And3Butterfly8.dct2 RustDct.Type2And3Butterfly8.new, Type2And3Butterfly8.dct3 RustDct.Type2And3Butterfly8.new, Type2And3Butterfly8.dst2 RustDct.Type2And3Butterfly8.new, Type2And3Butterfly8.dst3 RustDct.Type2And3Butterfly8.new⟩
  | butterfly16 : Counts23 okFft cost (RustDct.Type2And3Butterfly16.new (T := T)).toObj
      ⟨Type2And3Butterfly16.dct2 RustDct.Type2And3Butterfly16.new, Type2And3Butterfly16.dct3 RustDct.Type2And3Butterfly16.new, Type2And3Butterfly16.dst2 RustDct.Type2And3Butterfly16.new, Type2And3Butterfly16.dst3 RustDct.Type2And3Butterfly16.new⟩
  | fft {fft : Fft T} {x : RustDct.Type2And3ConvertToFft T} (hf : okFft fft) (h : RustDct.Type2And3ConvertToFft.new fft = .ok x) :
      Counts23 okFft cost x.toObj ⟨Type2And3ConvertToFft.dct2 cost x, Type2And3ConvertToFft.dct3 cost x, Type2And3ConvertToFft.dst2 cost x, Type2And3ConvertToFft.dst3 cost x⟩
  | splitRadix {half quarter : Obj23 T} {ch cq : CObj23 T} {x : RustDct.Type2And3SplitRadix T} (hh : Counts23 okFft cost half ch) (hq : Counts23 okFft cost quarter cq)
      (sh : half.scratchLen ≤ half.len * 2) (sq : quarter.scratchLen ≤ half.len * 2) (h : RustDct.Type2And3SplitRadix.new half quarter = .ok x) :
      Counts23 okFft cost x.toObj ⟨Type2And3SplitRadix.dct2 ch cq x, Type2And3SplitRadix.dct3 ch cq x, Type2And3SplitRadix.dst2 ch cq x, Type2And3SplitRadix.dst3 ch cq x⟩

/-- `dyn TransformType4`. -/
inductive Counts4 (okFft : Fft T → Prop) (cost : Fft T → Nat) : Obj4 T → CObj4 T → Prop
  | naive {len : Nat} {x : RustDct.Type4Naive T} (h : RustDct.Type4Naive.new len = .ok x) :
      Counts4 okFft cost x.toObj ⟨Type4Naive.dct4 x, Type4Naive.dst4 x⟩
  | fft {fft : Fft T} {x : RustDct.Type4ConvertToFftOdd T} (hf : okFft fft) (h : RustDct.Type4ConvertToFftOdd.new fft = .ok x) :
      Counts4 okFft cost x.toObj ⟨Type4ConvertToFftOdd.dct4 cost x, Type4ConvertToFftOdd.dst4 cost x⟩
  | type3 {inner : Obj23 T} {ci : CObj23 T} {x : RustDct.Type4ConvertToType3Even T} (hi : Counts23 okFft cost inner ci)
      (h : RustDct.Type4ConvertToType3Even.new inner = .ok x) :
      Counts4 okFft cost x.toObj ⟨Type4ConvertToType3Even.dct4 ci x, Type4ConvertToType3Even.dst4 ci x⟩

/-- `dyn Dct5`. -/
inductive CountsDct5 : Obj1 T → CObj1 T → Prop
  | naive {len : Nat} {x : RustDct.Dct5Naive T} (h : RustDct.Dct5Naive.new len = .ok x) :
      CountsDct5 x.toObj ⟨Dct5Naive.dct5 x⟩

/-- `dyn Dct8`. -/
inductive CountsDct8 : Obj1 T → CObj1 T → Prop
  | naive {len : Nat} {x : RustDct.Dct8Naive T} (h : RustDct.Dct8Naive.new len = .ok x) :
      CountsDct8 x.toObj ⟨Dct8Naive.dct8 x⟩

/-- `dyn Dst5`. -/
inductive CountsDst5 : Obj1 T → CObj1 T → Prop
  | naive {len : Nat} {x : RustDct.Dst5Naive T} (h : RustDct.Dst5Naive.new len = .ok x) :
      CountsDst5 x.toObj ⟨Dst5Naive.dst5 x⟩

/-- `dyn Dst8`. -/
inductive CountsDst8 : Obj1 T → CObj1 T → Prop
  | naive {len : Nat} {x : RustDct.Dst8Naive T} (h : RustDct.Dst8Naive.new len = .ok x) :
      CountsDst8 x.toObj ⟨Dst8Naive.dst8 x⟩

/-- `dyn Dct6And7`. -/
inductive CountsDct67 : Obj67 T → CObj67 T → Prop
  | naive {len : Nat} {x : RustDct.Dct6And7Naive T} (h : RustDct.Dct6And7Naive.new len = .ok x) :
      CountsDct67 x.toObj ⟨Dct6And7Naive.dct6 x, Dct6And7Naive.dct7 x⟩

/-- `dyn Dst6And7`. -/
inductive CountsDst67 (okFft : Fft T → Prop) (cost : Fft T → Nat) : Obj67 T → CObj67 T → Prop
  | naive {len : Nat} {x : RustDct.Dst6And7Naive T} (h : RustDct.Dst6And7Naive.new len = .ok x) :
      CountsDst67 okFft cost x.toObj ⟨Dst6And7Naive.dst6 x, Dst6And7Naive.dst7 x⟩
  | fft {fft : Fft T} {x : RustDct.Dst6And7ConvertToFft T} (hf : okFft fft) (h : RustDct.Dst6And7ConvertToFft.new fft = .ok x) :
      CountsDst67 okFft cost x.toObj ⟨Dst6And7ConvertToFft.dst6 cost x, Dst6And7ConvertToFft.dst7 cost x⟩

/-- `dyn Mdct`. -/
inductive CountsMdct (okFft : Fft T → Prop) (cost : Fft T → Nat) : MdctObj T → CMdct T → Prop
  | naive {len : Nat} {w : Nat → List T} {x : RustDct.MdctNaive T} (h : RustDct.MdctNaive.new len w = .ok x) :
      CountsMdct okFft cost x.toObj ⟨MdctNaive.mdct x, MdctNaive.imdct x⟩
  | viaDct4 {inner : Obj4 T} {ci : CObj4 T} {w : Nat → List T} {x : RustDct.MdctViaDct4 T} (hi : Counts4 okFft cost inner ci)
      (h : RustDct.MdctViaDct4.new inner w = .ok x) : CountsMdct okFft cost x.toObj ⟨MdctViaDct4.mdct ci x, MdctViaDct4.imdct ci x⟩

/-- The counting version of a method. -/
inductive Times (okFft : Fft T → Prop) (cost : Fft T → Nat) : Kind → Proc T → CProc T → Nat → Nat → Prop
  | dct1 {o c} (h : CountsDct1 okFft cost o c) : Times okFft cost .dct1 o.run c.run o.len o.scratchLen
  | dct2 {o c} (h : Counts23 okFft cost o c) : Times okFft cost .dct2 o.dct2 c.dct2 o.len o.scratchLen
  | dct3 {o c} (h : Counts23 okFft cost o c) : Times okFft cost .dct3 o.dct3 c.dct3 o.len o.scratchLen
  | dct4 {o c} (h : Counts4 okFft cost o c) : Times okFft cost .dct4 o.dct4 c.dct4 o.len o.scratchLen
  | dct5 {o c} (h : CountsDct5 o c) : Times okFft cost .dct5 o.run c.run o.len o.scratchLen
  | dct6 {o c} (h : CountsDct67 o c) : Times okFft cost .dct6 o.t6 c.t6 o.len o.scratchLen
  | dct7 {o c} (h : CountsDct67 o c) : Times okFft cost .dct7 o.t7 c.t7 o.len o.scratchLen
  | dct8 {o c} (h : CountsDct8 o c) : Times okFft cost .dct8 o.run c.run o.len o.scratchLen
  | dst1 {o c} (h : CountsDst1 okFft cost o c) : Times okFft cost .dst1 o.run c.run o.len o.scratchLen
  | dst2 {o c} (h : Counts23 okFft cost o c) : Times okFft cost .dst2 o.dst2 c.dst2 o.len o.scratchLen
  | dst3 {o c} (h : Counts23 okFft cost o c) : Times okFft cost .dst3 o.dst3 c.dst3 o.len o.scratchLen
  | dst4 {o c} (h : Counts4 okFft cost o c) : Times okFft cost .dst4 o.dst4 c.dst4 o.len o.scratchLen
  | dst5 {o c} (h : CountsDst5 o c) : Times okFft cost .dst5 o.run c.run o.len o.scratchLen
  | dst6 {o c} (h : CountsDst67 okFft cost o c) : Times okFft cost .dst6 o.t6 c.t6 o.len o.scratchLen
  | dst7 {o c} (h : CountsDst67 okFft cost o c) : Times okFft cost .dst7 o.t7 c.t7 o.len o.scratchLen
  | dst8 {o c} (h : CountsDst8 o c) : Times okFft cost .dst8 o.run c.run o.len o.scratchLen

/-! ## What the planner's choices cost -/

/-- What a naive instance may take. -/
def naiveSteps (n : Nat) : Nat := 4 * n * n + 6 * n + 6

/-- What a planned instance of types 2 and 3 may take, if an FFT of length `m` takes `fft m` steps: powers of two never use an FFT. -/
def steps23 (fft : Nat → Nat) (n : Nat) : Nat := if 2 ≤ n ∧ 2 ^ Nat.log 2 n = n then 16 * n * (Nat.log 2 n + 1) else fft n + 30 * n + 30

/-- What a planned instance of type 4 may take. -/
def steps4 (fft : Nat → Nat) (n : Nat) : Nat :=
  if n < 6 then naiveSteps n else if n % 2 = 0 then 2 * steps23 fft (n / 2) + 9 * n + 10 else fft n + 30 * n + 30

/-- What a planned instance may take, if an FFT of length `m` takes `fft m` steps. -/
def plannedSteps (fft : Nat → Nat) : Kind → Nat → Nat
  | .dct1, n => if n < 10 then naiveSteps n else fft ((n - 1) * 2) + 30 * n + 30
  | .dst1, n => if n < 25 then naiveSteps n else fft ((n + 1) * 2) + 30 * n + 30
  | .dct2, n | .dct3, n | .dst2, n | .dst3, n => steps23 fft n
  | .dct4, n | .dst4, n => steps4 fft n
  | .dst6, n | .dst7, n => if n < 45 then naiveSteps n else fft (n * 2 + 1) + 30 * n + 30
  | .dct5, n | .dct6, n | .dct7, n | .dct8, n | .dst5, n | .dst8, n => naiveSteps n

/-- The transforms for which the planner has a fast algorithm. -/
def _root_.RustDct.Kind.fast : Kind → Prop
  | .dct5 | .dct6 | .dct7 | .dct8 | .dst5 | .dst8 => False
  | _ => True

end RustDct.Counted
