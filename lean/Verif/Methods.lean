import Verif.History
/-!
# All methods of all instances

`Method okFft k p n s`: `p` is the `process_*_with_scratch` method for transform `k` of an instance that the public constructors
produced, whose `len()` is `n` and whose `get_scratch_len()` is `s`.  `Planned planFft calls k p n s`: the same for
the instance the planner returns after the history `calls`.

The degenerate lengths for which an instance exists but the transform is not defined or its method cannot be called
are left out: DCT1 of length 1 (from an FFT of length 0), types 3 and 4 of length 0.  `Verif/Props/Findings.lean`
shows what happens there.
-/

namespace RustDct

variable {T : Type} {F : Type} [F64 F] [DctNum T F]

/-- The sixteen transforms. -/
inductive Kind
  | dct1 | dct2 | dct3 | dct4 | dct5 | dct6 | dct7 | dct8
  | dst1 | dst2 | dst3 | dst4 | dst5 | dst6 | dst7 | dst8
  deriving DecidableEq

/-- A method of an instance made by the public constructors. -/
inductive Method (okFft : Fft T → Prop) : Kind → Proc T → Nat → Nat → Prop
  | dct1 {o} (h : MadeDct1 okFft o) (hn : 2 ≤ o.len) : Method okFft .dct1 o.run o.len o.scratchLen
  | dct2 {o} (h : Made23 okFft o) : Method okFft .dct2 o.dct2 o.len o.scratchLen
  | dct3 {o} (h : Made23 okFft o) (hn : 1 ≤ o.len) : Method okFft .dct3 o.dct3 o.len o.scratchLen
  | dct4 {o} (h : Made4 okFft o) (hn : 1 ≤ o.len) : Method okFft .dct4 o.dct4 o.len o.scratchLen
  | dct5 {o} (h : MadeDct5 o) : Method okFft .dct5 o.run o.len o.scratchLen
  | dct6 {o} (h : MadeDct67 o) : Method okFft .dct6 o.t6 o.len o.scratchLen
  | dct7 {o} (h : MadeDct67 o) : Method okFft .dct7 o.t7 o.len o.scratchLen
  | dct8 {o} (h : MadeDct8 o) : Method okFft .dct8 o.run o.len o.scratchLen
  | dst1 {o} (h : MadeDst1 okFft o) : Method okFft .dst1 o.run o.len o.scratchLen
  | dst2 {o} (h : Made23 okFft o) : Method okFft .dst2 o.dst2 o.len o.scratchLen
  | dst3 {o} (h : Made23 okFft o) (hn : 1 ≤ o.len) : Method okFft .dst3 o.dst3 o.len o.scratchLen
  | dst4 {o} (h : Made4 okFft o) (hn : 1 ≤ o.len) : Method okFft .dst4 o.dst4 o.len o.scratchLen
  | dst5 {o} (h : MadeDst5 o) : Method okFft .dst5 o.run o.len o.scratchLen
  | dst6 {o} (h : MadeDst67 okFft o) : Method okFft .dst6 o.t6 o.len o.scratchLen
  | dst7 {o} (h : MadeDst67 okFft o) : Method okFft .dst7 o.t7 o.len o.scratchLen
  | dst8 {o} (h : MadeDst8 o) : Method okFft .dst8 o.run o.len o.scratchLen

/-- A method of the instance that the planner returned, for the requested length `n`, after the history `calls`. -/
inductive Planned (planFft : Nat → Fft T) (calls : List (PlanCall T)) : Kind → Proc T → Nat → Nat → Prop
  | dct1 {n a s'} (h : planDct1 planFft n (plannerAfter planFft calls) = .ok a s') : Planned planFft calls .dct1 a.val.run n a.val.scratchLen
  | dct2 {n a s'} (h : planDct2 planFft n (plannerAfter planFft calls) = .ok a s') : Planned planFft calls .dct2 a.val.dct2 n a.val.scratchLen
  | dct3 {n a s'} (h : planDct3 planFft n (plannerAfter planFft calls) = .ok a s') (hn : 1 ≤ n) : Planned planFft calls .dct3 a.val.dct3 n a.val.scratchLen
  | dct4 {n a s'} (h : planDct4 planFft n (plannerAfter planFft calls) = .ok a s') (hn : 1 ≤ n) : Planned planFft calls .dct4 a.val.dct4 n a.val.scratchLen
  | dct5 {n a s'} (h : planDct5 n (plannerAfter planFft calls) = .ok a s') : Planned planFft calls .dct5 a.val.run n a.val.scratchLen
  | dct6 {n a s'} (h : planDct6 n (plannerAfter planFft calls) = .ok a s') : Planned planFft calls .dct6 a.val.t6 n a.val.scratchLen
  | dct7 {n a s'} (h : planDct7 n (plannerAfter planFft calls) = .ok a s') : Planned planFft calls .dct7 a.val.t7 n a.val.scratchLen
  | dct8 {n a s'} (h : planDct8 n (plannerAfter planFft calls) = .ok a s') : Planned planFft calls .dct8 a.val.run n a.val.scratchLen
  | dst1 {n a s'} (h : planDst1 planFft n (plannerAfter planFft calls) = .ok a s') : Planned planFft calls .dst1 a.val.run n a.val.scratchLen
  | dst2 {n a s'} (h : planDst2 planFft n (plannerAfter planFft calls) = .ok a s') : Planned planFft calls .dst2 a.val.dst2 n a.val.scratchLen
  | dst3 {n a s'} (h : planDst3 planFft n (plannerAfter planFft calls) = .ok a s') (hn : 1 ≤ n) : Planned planFft calls .dst3 a.val.dst3 n a.val.scratchLen
  | dst4 {n a s'} (h : planDst4 planFft n (plannerAfter planFft calls) = .ok a s') (hn : 1 ≤ n) : Planned planFft calls .dst4 a.val.dst4 n a.val.scratchLen
  | dst5 {n a s'} (h : planDst5 n (plannerAfter planFft calls) = .ok a s') : Planned planFft calls .dst5 a.val.run n a.val.scratchLen
  | dst6 {n a s'} (h : planDst6 planFft n (plannerAfter planFft calls) = .ok a s') : Planned planFft calls .dst6 a.val.t6 n a.val.scratchLen
  | dst7 {n a s'} (h : planDst7 planFft n (plannerAfter planFft calls) = .ok a s') : Planned planFft calls .dst7 a.val.t7 n a.val.scratchLen
  | dst8 {n a s'} (h : planDst8 n (plannerAfter planFft calls) = .ok a s') : Planned planFft calls .dst8 a.val.run n a.val.scratchLen

/-- The instance the planner returned for `plan_mdct(n, w)` after the history `calls`. -/
def PlannedMdct (planFft : Nat → Fft T) (calls : List (PlanCall T)) (n : Nat) (w : Nat → List T) (o : MdctObj T) : Prop :=
  ∃ a s', planMdct planFft n w (plannerAfter planFft calls) = .ok a s' ∧ a.val = o

/-- A transform some of whose instances (those converting to an FFT) let scratch contents leak into the result:
see `Verif/Props/Findings.lean`. -/
def Kind.leaky : Kind → Prop
  | .dst1 | .dst6 | .dst7 => True
  | _ => False

/-- The lengths for which the *planned* instance of a leaky transform is one converting to an FFT. -/
def Kind.leakyAt : Kind → Nat → Prop
  | .dst1, n => 25 ≤ n
  | .dst6, n => 45 ≤ n
  | .dst7, n => 45 ≤ n
  | _, _ => False

/-- A transform some of whose instances (split radix) change the buffer before they look at the sizes: see
`Verif/Props/Findings.lean`. -/
def Kind.eager : Kind → Prop
  | .dst2 | .dst3 => True
  | _ => False

/-- The lengths for which the *planned* instance of an eager transform is a split radix one. -/
def Kind.eagerAt : Kind → Nat → Prop
  | .dst2, n => ∃ j, n = 2 ^ (j + 5)
  | .dst3, n => ∃ j, n = 2 ^ (j + 5)
  | _, _ => False

end RustDct
