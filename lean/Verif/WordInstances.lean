import Verif.WordHistory
/-!
# Specification vocabulary: instances constructed on a machine with bounded `usize`

As `Verif/Instances.lean` and `Method` in `Verif/Methods.lean`, with the constructors and methods of the machine.  Lengths passed to constructors are
lengths that a buffer can have (for others see C66), and FFTs for the DST1 have a positive length.
-/

namespace RustDct

variable {T : Type} {F : Type} [F64 F] [DctNum T F]

/-- `dyn Dct1`. -/
inductive MadeDct1On (M : Target) (okFft : Fft T → Prop) : Obj1 T → Prop
  | naive {len : Nat} {x : Dct1Naive T} (hl : len ≤ M.maxVec) (h : Dct1Naive.newOn M len = .ok x) : MadeDct1On M okFft (x.toObjOn M.toMachine)
  | fft {fft : Fft T} {x : Dct1ConvertToFft T} (hf : okFft fft) (h : Dct1ConvertToFft.newOn M fft = .ok x) : MadeDct1On M okFft x.toObj

/-- `dyn Dst1`. -/
inductive MadeDst1On (M : Target) (okFft : Fft T → Prop) : Obj1 T → Prop
  | naive {len : Nat} {x : Dst1Naive T} (hl : len ≤ M.maxVec) (h : Dst1Naive.newOn M len = .ok x) : MadeDst1On M okFft (x.toObjOn M.toMachine)
  | fft {fft : Fft T} {x : Dst1ConvertToFft T} (hf : okFft fft) (h0 : fft.len ≠ 0) (h : Dst1ConvertToFft.newOn M fft = .ok x) : MadeDst1On M okFft x.toObj

/-- `dyn TransformType2And3`. -/
inductive Made23On (M : Target) (okFft : Fft T → Prop) : Obj23 T → Prop
  | naive {len : Nat} {x : Type2And3Naive T} (hl : len ≤ M.maxVec) (h : Type2And3Naive.newOn M len = .ok x) : Made23On M okFft (x.toObjOn M.toMachine)
  | butterfly2 : Made23On M okFft (Type2And3Butterfly2.new (T := T)).toObj
  | butterfly3 : Made23On M okFft (Type2And3Butterfly3.new (T := T)).toObj
  | butterfly4 : Made23On M okFft (Type2And3Butterfly4.new (T := T)).toObj
  | butterfly8 : Made23On M okFft (Type2And3Butterfly8.new (T := T)).toObj
  | butterfly16 : Made23On M okFft (Type2And3Butterfly16.new (T := T)).toObj
  | fft {fft : Fft T} {x : Type2And3ConvertToFft T} (hf : okFft fft) (h : Type2And3ConvertToFft.newOn M fft = .ok x) :
      Made23On M okFft (x.toObjOn M.toMachine)
  | splitRadix {half quarter : Obj23 T} {x : Type2And3SplitRadix T} (hh : Made23On M okFft half) (hq : Made23On M okFft quarter)
      (sh : half.scratchLen ≤ half.len * 2) (sq : quarter.scratchLen ≤ half.len * 2)
      (h : Type2And3SplitRadix.newOn M half quarter = .ok x) : Made23On M okFft (x.toObjOn M.toMachine)

/-- `dyn TransformType4`. -/
inductive Made4On (M : Target) (okFft : Fft T → Prop) : Obj4 T → Prop
  | naive {len : Nat} {x : Type4Naive T} (hl : len ≤ M.maxVec) (h : Type4Naive.newOn M len = .ok x) : Made4On M okFft (x.toObjOn M.toMachine)
  | fft {fft : Fft T} {x : Type4ConvertToFftOdd T} (hf : okFft fft) (h : Type4ConvertToFftOdd.newOn M fft = .ok x) : Made4On M okFft (x.toObjOn M.toMachine)
  | type3 {inner : Obj23 T} {x : Type4ConvertToType3Even T} (hi : Made23On M okFft inner)
      (h : Type4ConvertToType3Even.newOn M inner = .ok x) : Made4On M okFft (x.toObjOn M.toMachine)

/-- `dyn Dct5`. -/
inductive MadeDct5On (M : Target) : Obj1 T → Prop
  | naive {len : Nat} {x : Dct5Naive T} (hl : len ≤ M.maxVec) (h : Dct5Naive.newOn M len = .ok x) : MadeDct5On M (x.toObjOn M.toMachine)

/-- `dyn Dct8`. -/
inductive MadeDct8On (M : Target) : Obj1 T → Prop
  | naive {len : Nat} {x : Dct8Naive T} (hl : len ≤ M.maxVec) (h : Dct8Naive.newOn M len = .ok x) : MadeDct8On M (x.toObjOn M.toMachine)

/-- `dyn Dst5`. -/
inductive MadeDst5On (M : Target) : Obj1 T → Prop
  | naive {len : Nat} {x : Dst5Naive T} (hl : len ≤ M.maxVec) (h : Dst5Naive.newOn M len = .ok x) : MadeDst5On M (x.toObjOn M.toMachine)

/-- `dyn Dst8`. -/
inductive MadeDst8On (M : Target) : Obj1 T → Prop
  | naive {len : Nat} {x : Dst8Naive T} (hl : len ≤ M.maxVec) (h : Dst8Naive.newOn M len = .ok x) : MadeDst8On M (x.toObjOn M.toMachine)

/-- `dyn Dct6And7`. -/
inductive MadeDct67On (M : Target) : Obj67 T → Prop
  | naive {len : Nat} {x : Dct6And7Naive T} (hl : len ≤ M.maxVec) (h : Dct6And7Naive.newOn M len = .ok x) : MadeDct67On M (x.toObjOn M.toMachine)

/-- `dyn Dst6And7`. -/
inductive MadeDst67On (M : Target) (okFft : Fft T → Prop) : Obj67 T → Prop
  | naive {len : Nat} {x : Dst6And7Naive T} (hl : len ≤ M.maxVec) (h : Dst6And7Naive.newOn M len = .ok x) : MadeDst67On M okFft (x.toObjOn M.toMachine)
  | fft {fft : Fft T} {x : Dst6And7ConvertToFft T} (hf : okFft fft) (h : Dst6And7ConvertToFft.newOn M fft = .ok x) :
      MadeDst67On M okFft (x.toObjOn M.toMachine)

/-- `dyn Mdct`.  A `MdctNaive` is only included if the squares of lengths up to its own are values of `usize` (for others see C58). -/
inductive MadeMdctOn (M : Target) (okFft : Fft T → Prop) : List T → MdctObj T → Prop
  | naive {len : Nat} {w : Nat → List T} {x : MdctNaive T} (hl : len ≤ M.maxVec) (hq : (len + 1) * (len + 1) ≤ M.values) (h : MdctNaive.newOn M len w = .ok x) :
      MadeMdctOn M okFft (w (len * 2)) (x.toObjOn M.toMachine)
  | viaDct4 {inner : Obj4 T} {w : Nat → List T} {x : MdctViaDct4 T} (hi : Made4On M okFft inner)
      (h : MdctViaDct4.newOn M inner w = .ok x) : MadeMdctOn M okFft (w (inner.len * 2)) x.toObj

/-- A method of an instance constructed on the machine `M`. -/
inductive MethodOn (M : Target) (okFft : Fft T → Prop) : Kind → Proc T → Nat → Nat → Prop
  | dct1 {o} (h : MadeDct1On M okFft o) (hn : 2 ≤ o.len) : MethodOn M okFft .dct1 o.run o.len o.scratchLen
  | dct2 {o} (h : Made23On M okFft o) (hn : 1 ≤ o.len) : MethodOn M okFft .dct2 o.dct2 o.len o.scratchLen
  | dct3 {o} (h : Made23On M okFft o) (hn : 1 ≤ o.len) : MethodOn M okFft .dct3 o.dct3 o.len o.scratchLen
  | dct4 {o} (h : Made4On M okFft o) (hn : 1 ≤ o.len) : MethodOn M okFft .dct4 o.dct4 o.len o.scratchLen
  | dct5 {o} (h : MadeDct5On M o) : MethodOn M okFft .dct5 o.run o.len o.scratchLen
  | dct6 {o} (h : MadeDct67On M o) : MethodOn M okFft .dct6 o.t6 o.len o.scratchLen
  | dct7 {o} (h : MadeDct67On M o) : MethodOn M okFft .dct7 o.t7 o.len o.scratchLen
  | dct8 {o} (h : MadeDct8On M o) : MethodOn M okFft .dct8 o.run o.len o.scratchLen
  | dst1 {o} (h : MadeDst1On M okFft o) : MethodOn M okFft .dst1 o.run o.len o.scratchLen
  | dst2 {o} (h : Made23On M okFft o) (hn : 1 ≤ o.len) : MethodOn M okFft .dst2 o.dst2 o.len o.scratchLen
  | dst3 {o} (h : Made23On M okFft o) (hn : 1 ≤ o.len) : MethodOn M okFft .dst3 o.dst3 o.len o.scratchLen
  | dst4 {o} (h : Made4On M okFft o) (hn : 1 ≤ o.len) : MethodOn M okFft .dst4 o.dst4 o.len o.scratchLen
  | dst5 {o} (h : MadeDst5On M o) : MethodOn M okFft .dst5 o.run o.len o.scratchLen
  | dst6 {o} (h : MadeDst67On M okFft o) : MethodOn M okFft .dst6 o.t6 o.len o.scratchLen
  | dst7 {o} (h : MadeDst67On M okFft o) : MethodOn M okFft .dst7 o.t7 o.len o.scratchLen
  | dst8 {o} (h : MadeDst8On M o) : MethodOn M okFft .dst8 o.run o.len o.scratchLen

end RustDct
