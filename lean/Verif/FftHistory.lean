import Verif.Model.FftEffects
import Verif.WindowHistory
import Verif.Formula
/-!
# Histories of planner calls with an FFT planner that has state

Vocabulary of C82: as `Verif/History.lean` and `Verif/WindowHistory.lean`.
-/

namespace RustDct

variable {T F S : Type} [F64 F] [DctNum T F]

/-- The `process_*_with_scratch` method of an instance for a kind of transform, with what `get_scratch_len()` returns. -/
def Inst.method : Inst T → Kind → Option (Proc T × Nat)
  | .single a, .dct1 | .single a, .dct5 | .single a, .dct8 | .single a, .dst1 | .single a, .dst5 | .single a, .dst8 => some (a.val.run, a.val.scratchLen)
  | .t23 a, .dct2 => some (a.val.dct2, a.val.scratchLen)
  | .t23 a, .dct3 => some (a.val.dct3, a.val.scratchLen)
  | .t23 a, .dst2 => some (a.val.dst2, a.val.scratchLen)
  | .t23 a, .dst3 => some (a.val.dst3, a.val.scratchLen)
  | .t4 a, .dct4 => some (a.val.dct4, a.val.scratchLen)
  | .t4 a, .dst4 => some (a.val.dst4, a.val.scratchLen)
  | .t67 a, .dct6 | .t67 a, .dst6 => some (a.val.t6, a.val.scratchLen)
  | .t67 a, .dct7 | .t67 a, .dst7 => some (a.val.t7, a.val.scratchLen)
  | _, _ => none

/-- Planner, FFT planner and world after a call: also after one that panicked. -/
def FxCall.runSt (planFft : FftFn S T) : FxCall S T → Planner T × S → Planner T × S
  | .transform k n, s =>
    match k.planSt planFft n s with
    | .ok _ s' => s'
    | .error _ s' => s'
  | .mdct n w, s =>
    match planMdctSt planFft n w s with
    | .ok _ s' => s'
    | .error _ s' => s'

/-- The state after the sequence of calls `calls`, first call first. -/
def afterSt (planFft : FftFn S T) (calls : List (FxCall S T)) (s : Planner T × S) : Planner T × S :=
  calls.foldl (fun s c => c.runSt planFft s) s

/-- The state after a sequence of calls on a new planner. -/
def plannerAfterSt (planFft : FftFn S T) (calls : List (FxCall S T)) (s : S) : Planner T × S := afterSt planFft calls (Planner.new 0, s)

/-- A method of the instance that the planner returned, for the requested length `n`, after the history `calls`. -/
def PlannedSt (planFft : FftFn S T) (calls : List (FxCall S T)) (s : S) (k : Kind) (p : Proc T) (n scratch : Nat) : Prop :=
  ∃ i s', k.planSt planFft n (plannerAfterSt planFft calls s) = .ok i s' ∧ i.method k = some (p, scratch)

/-- One of the calls was a `plan_mdct` of length `n` with the window function `w`, and returned (did not panic). -/
def ReturnedMdctSt (planFft : FftFn S T) (calls : List (FxCall S T)) (s : S) (n : Nat) (w : WindowFn S T) : Prop :=
  ∃ pre post a s', calls = pre ++ .mdct n w :: post ∧ planMdctSt planFft n w (plannerAfterSt planFft pre s) = .ok a s'

/-- The FFT planner was asked at most once, for the length `L`, and for nothing if `L` is `none`. -/
def AskedFor (planFft : FftFn S T) (L : Option Nat) (s s' : S) : Prop := s' = s ∨ ∃ m, L = some m ∧ s' = (planFft m s).2

/-- A choice of FFTs, one for each length, all of which satisfy `G`. -/
def AllFfts (G : Nat → Fft T → Prop) (pf : Nat → Fft T) : Prop := ∀ m, G m (pf m)

/-- What is assumed of the FFT planner: all FFTs it returns satisfy `G`, which makes them forward FFTs of the requested length; and `G` can be
satisfied. -/
structure FftOk (planFft : FftFn S T) (G : Nat → Fft T → Prop) : Prop where
  gives : ∀ m s f s', planFft m s = (some f, s') → G m f
  some : ∀ m, ∃ f, G m f
  shape : ∀ m f, G m f → f.len = m ∧ f.direction = .forward

end RustDct
