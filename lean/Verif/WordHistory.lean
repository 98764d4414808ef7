import Verif.Model.WordPlan
import Verif.Methods
import Verif.Formula
/-!
# Specification vocabulary: histories of a planner on a machine with bounded `usize`
-/

namespace RustDct

variable {T : Type} {F : Type} [F64 F] [DctNum T F]

/-- The planner after one call on the machine `M`; also after one that panicked. -/
def PlanCall.runOn (M : Target) (planFft : Nat → Fft T) (c : PlanCall T) (s : Planner T) : Planner T :=
  match c with
  | dct1 n => finalState (planDct1On M planFft n s)
  | dct2 n | dct3 n | dst2 n | dst3 n => finalState (planDct2On M planFft n s)
  | dct4 n | dst4 n => finalState (planDct4On M planFft n s)
  | dct5 n => finalState (planDct5On M n s)
  | dct6 n | dct7 n => finalState (planDct6On M n s)
  | dct8 n => finalState (planDct8On M n s)
  | dst1 n => finalState (planDst1On M planFft n s)
  | dst5 n => finalState (planDst5On M n s)
  | dst6 n | dst7 n => finalState (planDst6On M planFft n s)
  | dst8 n => finalState (planDst8On M n s)
  | mdct n w => finalState (planMdctOn M planFft n w s)

/-- A new planner after the calls `calls` on the machine `M`. -/
def plannerAfterOn (M : Target) (planFft : Nat → Fft T) (calls : List (PlanCall T)) : Planner T :=
  calls.foldl (fun s c => c.runOn M planFft s) (Planner.new 0)

/-- On the machine `M`, after the history `calls`, the planner was asked for a transform of length `n` and returned an instance; the
relevant method of that instance is `p`, its reported length is `l` and its reported scratch length `s`. -/
inductive PlannedOn (M : Target) (planFft : Nat → Fft T) (calls : List (PlanCall T)) : Kind → Proc T → Nat → Nat → Nat → Prop
  | dct1 {n a s'} (h : planDct1On M planFft n (plannerAfterOn M planFft calls) = .ok a s') : PlannedOn M planFft calls .dct1 a.val.run n a.val.len a.val.scratchLen
  | dct2 {n a s'} (h : planDct2On M planFft n (plannerAfterOn M planFft calls) = .ok a s') : PlannedOn M planFft calls .dct2 a.val.dct2 n a.val.len a.val.scratchLen
  | dct3 {n a s'} (h : planDct2On M planFft n (plannerAfterOn M planFft calls) = .ok a s') (hn : 1 ≤ n) : PlannedOn M planFft calls .dct3 a.val.dct3 n a.val.len a.val.scratchLen
  | dct4 {n a s'} (h : planDct4On M planFft n (plannerAfterOn M planFft calls) = .ok a s') (hn : 1 ≤ n) : PlannedOn M planFft calls .dct4 a.val.dct4 n a.val.len a.val.scratchLen
  | dct5 {n a s'} (h : planDct5On M n (plannerAfterOn M planFft calls) = .ok a s') : PlannedOn M planFft calls .dct5 a.val.run n a.val.len a.val.scratchLen
  | dct6 {n a s'} (h : planDct6On M n (plannerAfterOn M planFft calls) = .ok a s') : PlannedOn M planFft calls .dct6 a.val.t6 n a.val.len a.val.scratchLen
  | dct7 {n a s'} (h : planDct6On M n (plannerAfterOn M planFft calls) = .ok a s') : PlannedOn M planFft calls .dct7 a.val.t7 n a.val.len a.val.scratchLen
  | dct8 {n a s'} (h : planDct8On M n (plannerAfterOn M planFft calls) = .ok a s') : PlannedOn M planFft calls .dct8 a.val.run n a.val.len a.val.scratchLen
  | dst1 {n a s'} (h : planDst1On M planFft n (plannerAfterOn M planFft calls) = .ok a s') : PlannedOn M planFft calls .dst1 a.val.run n a.val.len a.val.scratchLen
  | dst2 {n a s'} (h : planDct2On M planFft n (plannerAfterOn M planFft calls) = .ok a s') : PlannedOn M planFft calls .dst2 a.val.dst2 n a.val.len a.val.scratchLen
  | dst3 {n a s'} (h : planDct2On M planFft n (plannerAfterOn M planFft calls) = .ok a s') (hn : 1 ≤ n) : PlannedOn M planFft calls .dst3 a.val.dst3 n a.val.len a.val.scratchLen
  | dst4 {n a s'} (h : planDct4On M planFft n (plannerAfterOn M planFft calls) = .ok a s') (hn : 1 ≤ n) : PlannedOn M planFft calls .dst4 a.val.dst4 n a.val.len a.val.scratchLen
  | dst5 {n a s'} (h : planDst5On M n (plannerAfterOn M planFft calls) = .ok a s') : PlannedOn M planFft calls .dst5 a.val.run n a.val.len a.val.scratchLen
  | dst6 {n a s'} (h : planDst6On M planFft n (plannerAfterOn M planFft calls) = .ok a s') : PlannedOn M planFft calls .dst6 a.val.t6 n a.val.len a.val.scratchLen
  | dst7 {n a s'} (h : planDst6On M planFft n (plannerAfterOn M planFft calls) = .ok a s') : PlannedOn M planFft calls .dst7 a.val.t7 n a.val.len a.val.scratchLen
  | dst8 {n a s'} (h : planDst8On M n (plannerAfterOn M planFft calls) = .ok a s') : PlannedOn M planFft calls .dst8 a.val.run n a.val.len a.val.scratchLen

/-- The instance the planner returned for `plan_mdct(n, w)` on the machine `M` after the history `calls`. -/
def PlannedMdctOn (M : Target) (planFft : Nat → Fft T) (calls : List (PlanCall T)) (n : Nat) (w : Nat → List T) (o : MdctObj T) : Prop :=
  ∃ a s', planMdctOn M planFft n w (plannerAfterOn M planFft calls) = .ok a s' ∧ a.val = o

/-- What is true of 32- and 64-bit targets and elements of at least four bytes: a `Vec` has fewer than `values / 8` elements. -/
structure Target.Realistic (M : Target) : Prop where
  room : 8 * M.maxVec < M.values
  large : 64 ≤ M.maxVec
  word : 4 ∣ M.values

/-- The FFT can be used at all: its buffer and its scratch space (of complex numbers) can be allocated. -/
def Target.Usable (M : Target) (f : Fft T) : Prop := 2 * f.len ≤ M.maxVec ∧ 2 * f.inplaceScratchLen ≤ M.maxVec

/-- A release build on a machine whose `usize` has `W` values: the length of the instance returned for the requested length `n`. -/
def Kind.lengthGot (W : Nat) : Kind → Nat → Nat
  | .dct1, n => if n < 10 then n else (n - 1) % (W / 2) + 1
  | .dst1, n => if n < 25 then n else ((n + 1) % (W / 2) + W - 1) % W
  | .dct5, n | .dst5, n | .dst6, n | .dst7, n => n % (W / 2)
  | .dct6, n | .dct7, n | .dct8, n | .dst8, n => n % (W / 4)
  | .dct2, n | .dct3, n | .dct4, n | .dst2, n | .dst3, n | .dst4, n => n

/-- 64-bit targets and `f32` in a release build. -/
def release64 : Target := { values := 2 ^ 64, wraps := true, maxVec := 2 ^ 61 - 1 }

/-- 64-bit targets and `f32` in a debug build. -/
def debug64 : Target := { values := 2 ^ 64, wraps := false, maxVec := 2 ^ 61 - 1 }

end RustDct
