import Verif.Model.Planner
import Verif.Statements
/-!
# The instances a user of the crate can have

One inductive predicate per trait: `MadeX okFft o` says that the trait object `o` comes out of the crate's public
constructors, the FFTs passed to them satisfying `okFft`.  Each constructor of a predicate is one public `new` of the
crate that returned normally.  The planner only returns such instances (see `Verif/Props/Planner.lean`).
-/

namespace RustDct

variable {T : Type} {F : Type} [F64 F] [DctNum T F]

/-- `dyn Dct1`. -/
inductive MadeDct1 (okFft : Fft T → Prop) : Obj1 T → Prop
  | naive {len : Nat} {x : Dct1Naive T} (h : Dct1Naive.new len = .ok x) : MadeDct1 okFft x.toObj
  | fft {fft : Fft T} {x : Dct1ConvertToFft T} (hf : okFft fft) (h : Dct1ConvertToFft.new fft = .ok x) :
      MadeDct1 okFft x.toObj

/-- `dyn Dst1`. -/
inductive MadeDst1 (okFft : Fft T → Prop) : Obj1 T → Prop
  | naive {len : Nat} {x : Dst1Naive T} (h : Dst1Naive.new len = .ok x) : MadeDst1 okFft x.toObj
  | fft {fft : Fft T} {x : Dst1ConvertToFft T} (hf : okFft fft) (h : Dst1ConvertToFft.new fft = .ok x) :
      MadeDst1 okFft x.toObj

/-- `dyn TransformType2And3`.  A split radix instance is only included if the scratch its inner instances ask for fits
into its buffer; without that it is accepted by the constructor but its calls panic (`splitRadix_scratch_finding`). -/
inductive Made23 (okFft : Fft T → Prop) : Obj23 T → Prop
  | naive {len : Nat} {x : Type2And3Naive T} (h : Type2And3Naive.new len = .ok x) : Made23 okFft x.toObj
  | butterfly2 : Made23 okFft (Type2And3Butterfly2.new (T := T)).toObj
  | butterfly3 : Made23 okFft (Type2And3Butterfly3.new (T := T)).toObj
  | butterfly4 : Made23 okFft (Type2And3Butterfly4.new (T := T)).toObj
  | butterfly8 : Made23 okFft (Type2And3Butterfly8.new (T := T)).toObj
  | butterfly16 : Made23 okFft (Type2And3Butterfly16.new (T := T)).toObj
  | fft {fft : Fft T} {x : Type2And3ConvertToFft T} (hf : okFft fft) (h : Type2And3ConvertToFft.new fft = .ok x) :
      Made23 okFft x.toObj
  | splitRadix {half quarter : Obj23 T} {x : Type2And3SplitRadix T} (hh : Made23 okFft half) (hq : Made23 okFft quarter)
      (sh : half.scratchLen ≤ half.len * 2) (sq : quarter.scratchLen ≤ half.len * 2)
      (h : Type2And3SplitRadix.new half quarter = .ok x) : Made23 okFft x.toObj

/-- `dyn TransformType4`. -/
inductive Made4 (okFft : Fft T → Prop) : Obj4 T → Prop
  | naive {len : Nat} {x : Type4Naive T} (h : Type4Naive.new len = .ok x) : Made4 okFft x.toObj
  | fft {fft : Fft T} {x : Type4ConvertToFftOdd T} (hf : okFft fft) (h : Type4ConvertToFftOdd.new fft = .ok x) :
      Made4 okFft x.toObj
  | type3 {inner : Obj23 T} {x : Type4ConvertToType3Even T} (hi : Made23 okFft inner)
      (h : Type4ConvertToType3Even.new inner = .ok x) : Made4 okFft x.toObj

/-- `dyn Dct5`. -/
inductive MadeDct5 : Obj1 T → Prop
  | naive {len : Nat} {x : Dct5Naive T} (h : Dct5Naive.new len = .ok x) : MadeDct5 x.toObj

/-- `dyn Dct8`. -/
inductive MadeDct8 : Obj1 T → Prop
  | naive {len : Nat} {x : Dct8Naive T} (h : Dct8Naive.new len = .ok x) : MadeDct8 x.toObj

/-- `dyn Dst5`. -/
inductive MadeDst5 : Obj1 T → Prop
  | naive {len : Nat} {x : Dst5Naive T} (h : Dst5Naive.new len = .ok x) : MadeDst5 x.toObj

/-- `dyn Dst8`. -/
inductive MadeDst8 : Obj1 T → Prop
  | naive {len : Nat} {x : Dst8Naive T} (h : Dst8Naive.new len = .ok x) : MadeDst8 x.toObj

/-- `dyn Dct6And7`. -/
inductive MadeDct67 : Obj67 T → Prop
  | naive {len : Nat} {x : Dct6And7Naive T} (h : Dct6And7Naive.new len = .ok x) : MadeDct67 x.toObj

/-- `dyn Dst6And7`. -/
inductive MadeDst67 (okFft : Fft T → Prop) : Obj67 T → Prop
  | naive {len : Nat} {x : Dst6And7Naive T} (h : Dst6And7Naive.new len = .ok x) : MadeDst67 okFft x.toObj
  | fft {fft : Fft T} {x : Dst6And7ConvertToFft T} (hf : okFft fft) (h : Dst6And7ConvertToFft.new fft = .ok x) :
      MadeDst67 okFft x.toObj

/-- `dyn Mdct`, built with a window function whose value at `2 * len` is `window`. -/
inductive MadeMdct (okFft : Fft T → Prop) : List T → MdctObj T → Prop
  | naive {len : Nat} {w : Nat → List T} {x : MdctNaive T} (h : MdctNaive.new len w = .ok x) :
      MadeMdct okFft (w (len * 2)) x.toObj
  | viaDct4 {inner : Obj4 T} {w : Nat → List T} {x : MdctViaDct4 T} (hi : Made4 okFft inner)
      (h : MdctViaDct4.new inner w = .ok x) : MadeMdct okFft (w (inner.len * 2)) x.toObj

end RustDct
