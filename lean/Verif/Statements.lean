import Verif.Model.Num
/-!
# Vocabulary of the property theorems

Everything here speaks only of calls and their observable effects: a method `p : Proc T` of an instance is a function
from the two caller-supplied slices to the outcome of the call.  `n` is what `len()` reports and `s` what
`get_scratch_len()` reports.
-/

namespace RustDct
variable {T : Type}

/-- The caller respects the documented sizes: buffer of length `len()`, scratch at least `get_scratch_len()`. -/
def ValidCall (n s : Nat) (m : Mem T) : Prop := m.buf.length = n ∧ s ≤ m.scr.length

/-- Every valid call returns (no panic of any kind, no undefined behaviour), keeps both slice lengths, and leaves the
scratch elements beyond `get_scratch_len()` alone. -/
def Safe (p : Proc T) (n s : Nat) : Prop :=
  ∀ m, ValidCall n s m → ∃ m', p m = .ok m' ∧ m'.buf.length = n ∧ m'.scr.length = m.scr.length ∧ m'.scr.drop s = m.scr.drop s

/-- The buffer after a valid call does not depend on what scratch contained nor on how long it was. -/
def ScratchFree (p : Proc T) (n s : Nat) : Prop :=
  ∀ buf scr₁ scr₂, ValidCall n s ⟨buf, scr₁⟩ → ValidCall n s ⟨buf, scr₂⟩ →
    ∃ out s₁ s₂, p ⟨buf, scr₁⟩ = .ok ⟨out, s₁⟩ ∧ p ⟨buf, scr₂⟩ = .ok ⟨out, s₂⟩

/-- Scratch longer than needed changes nothing: same result as with exactly `get_scratch_len()` elements, and the
excess elements are left alone. -/
def OversizeHarmless (p : Proc T) (n s : Nat) : Prop :=
  ∀ buf scr extra, buf.length = n → scr.length = s →
    ∃ out scr₁ scr₂, p ⟨buf, scr⟩ = .ok ⟨out, scr₁⟩ ∧ p ⟨buf, scr ++ extra⟩ = .ok ⟨out, scr₂ ++ extra⟩ ∧ scr₂.length = s

/-- Every call that violates the documented sizes panics (and is not undefined behaviour); the panic is not one for an arithmetic overflow, which a
release build would not have. -/
def Panics (p : Proc T) (n s : Nat) : Prop :=
  ∀ m, ¬ ValidCall n s m → ∃ e m', p m = .panic e m' ∧ e ≠ .ub ∧ e ≠ .overflow

/-- Every call that violates the documented sizes panics with the message of the size check, which tells the size expected and the
size given (of the buffer, or of scratch if the buffer has the right size); buffer and scratch are as the caller passed them. -/
def Rejects (p : Proc T) (n s : Nat) : Prop :=
  ∀ m, ¬ ValidCall n s m → p m = .panic (if m.buf.length = n then .scratchLen s m.scr.length else .bufferLen n m.buf.length) (some m)

/-- Every valid call returns with the buffer replaced by `F` of it, whatever scratch contained. -/
def Computes (p : Proc T) (n s : Nat) (F : List T → List T) : Prop :=
  ∀ m, ValidCall n s m → ∃ scr', p m = .ok ⟨F m.buf, scr'⟩

/-- A call with a buffer of length `len()` and *zeroed* scratch of exactly `get_scratch_len()` elements returns with
the buffer replaced by `F` of it. -/
def ComputesZeroed [Zero T] (p : Proc T) (n s : Nat) (F : List T → List T) : Prop :=
  ∀ buf, buf.length = n → ∃ scr', p ⟨buf, List.replicate s 0⟩ = .ok ⟨F buf, scr'⟩

/-- The two ways of running a transform, with scratch supplied by the caller (whatever it contains) and with scratch
allocated by the default method, both replace the buffer by `F` of it. -/
def Performs [Zero T] (p : Proc T) (n s : Nat) (F : List T → List T) : Prop :=
  Computes p n s F ∧ ∀ buf, buf.length = n → processDefault s p buf = .ok (F buf)

/-- As `Performs`, but scratch supplied by the caller must be zeroed. -/
def PerformsZeroed [Zero T] (p : Proc T) (n s : Nat) (F : List T → List T) : Prop :=
  ComputesZeroed p n s F ∧ ∀ buf, buf.length = n → processDefault s p buf = .ok (F buf)

/-- Running the transform `p` and then the transform `q` on the same buffer multiplies every element by `c`. -/
def Scales [Zero T] [Mul T] (p q : Proc T) (n s t : Nat) (c : T) : Prop :=
  ∀ buf, buf.length = n → ∃ mid, processDefault s p buf = .ok mid ∧ processDefault t q mid = .ok (buf.map (c * ·))

/-- The transform of a linear combination of two buffers is the same linear combination of their transforms. -/
def Linear [Zero T] [Mul T] [Add T] (p : Proc T) (n s : Nat) : Prop :=
  ∀ (a b : T) (x y : List T), x.length = n → y.length = n → ∃ X Y, processDefault s p x = .ok X ∧ processDefault s p y = .ok Y ∧
    processDefault s p (List.zipWith (fun u v => a * u + b * v) x y) = .ok (List.zipWith (fun u v => a * u + b * v) X Y)

/-- The energy (sum of squares) after the transform is `c` times the energy before. -/
def ScalesEnergy [Zero T] [Mul T] [Add T] (p : Proc T) (n s : Nat) (c : T) : Prop :=
  ∀ buf, buf.length = n → ∃ out, processDefault s p buf = .ok out ∧
    (out.map fun v => v * v).sum = c * (buf.map fun v => v * v).sum

/-! ## The MDCT methods

`p inA inB ⟨out, scr⟩` is a call of `process_mdct_with_scratch`, `p input ⟨outA, outB, scr⟩` one of
`process_imdct_with_scratch`. -/

/-- The caller respects the documented sizes of an MDCT call. -/
def ValidMdct (n s : Nat) (a b : List T) (m : Mem T) : Prop :=
  a.length = n ∧ b.length = n ∧ m.buf.length = n ∧ s ≤ m.scr.length

/-- The caller respects the documented sizes of an IMDCT call. -/
def ValidImdct (n s : Nat) (x : List T) (m : IMem T) : Prop :=
  x.length = n ∧ m.outA.length = n ∧ m.outB.length = n ∧ s ≤ m.scr.length

/-- Every valid MDCT call returns with the output buffer replaced by `F` of the two inputs, whatever the output buffer and scratch
contained. -/
def ComputesMdct (p : List T → List T → Mem T → Outcome (Mem T)) (n s : Nat) (F : List T → List T → List T) : Prop :=
  ∀ a b m, ValidMdct n s a b m → ∃ scr', p a b m = .ok ⟨F a b, scr'⟩

/-- Every valid IMDCT call returns with the `2n` values `Y` of the input added to the two output buffers, whatever scratch
contained. -/
def AccumulatesImdct [Add T] (p : List T → IMem T → Outcome (IMem T)) (n s : Nat) (Y : List T → List T) : Prop :=
  ∀ x m, ValidImdct n s x m → ∃ scr', p x m =
    .ok ⟨List.zipWith (· + ·) m.outA ((Y x).take n), List.zipWith (· + ·) m.outB ((Y x).drop n), scr'⟩

def SafeMdct (p : List T → List T → Mem T → Outcome (Mem T)) (n s : Nat) : Prop :=
  ∀ a b m, ValidMdct n s a b m → ∃ m', p a b m = .ok m' ∧ m'.buf.length = n ∧ m'.scr.length = m.scr.length ∧
    m'.scr.drop s = m.scr.drop s

def SafeImdct (p : List T → IMem T → Outcome (IMem T)) (n s : Nat) : Prop :=
  ∀ x m, ValidImdct n s x m → ∃ m', p x m = .ok m' ∧ m'.outA.length = n ∧ m'.outB.length = n ∧
    m'.scr.length = m.scr.length ∧ m'.scr.drop s = m.scr.drop s

/-- Neither scratch nor the previous contents of the output buffer matter. -/
def ScratchFreeMdct (p : List T → List T → Mem T → Outcome (Mem T)) (n s : Nat) : Prop :=
  ∀ a b o₁ o₂ scr₁ scr₂, ValidMdct n s a b ⟨o₁, scr₁⟩ → ValidMdct n s a b ⟨o₂, scr₂⟩ →
    ∃ out s₁ s₂, p a b ⟨o₁, scr₁⟩ = .ok ⟨out, s₁⟩ ∧ p a b ⟨o₂, scr₂⟩ = .ok ⟨out, s₂⟩

/-- Scratch does not matter (the previous contents of the outputs do: IMDCT adds to them). -/
def ScratchFreeImdct (p : List T → IMem T → Outcome (IMem T)) (n s : Nat) : Prop :=
  ∀ x oa ob scr₁ scr₂, ValidImdct n s x ⟨oa, ob, scr₁⟩ → ValidImdct n s x ⟨oa, ob, scr₂⟩ →
    ∃ a b s₁ s₂, p x ⟨oa, ob, scr₁⟩ = .ok ⟨a, b, s₁⟩ ∧ p x ⟨oa, ob, scr₂⟩ = .ok ⟨a, b, s₂⟩

/-- As `OversizeHarmless`. -/
def OversizeHarmlessMdct (p : List T → List T → Mem T → Outcome (Mem T)) (n s : Nat) : Prop :=
  ∀ a b o scr extra, ValidMdct n s a b ⟨o, scr⟩ → scr.length = s →
    ∃ out scr₁ scr₂, p a b ⟨o, scr⟩ = .ok ⟨out, scr₁⟩ ∧ p a b ⟨o, scr ++ extra⟩ = .ok ⟨out, scr₂ ++ extra⟩ ∧ scr₂.length = s

/-- As `OversizeHarmless`. -/
def OversizeHarmlessImdct (p : List T → IMem T → Outcome (IMem T)) (n s : Nat) : Prop :=
  ∀ x oa ob scr extra, ValidImdct n s x ⟨oa, ob, scr⟩ → scr.length = s →
    ∃ a b scr₁ scr₂, p x ⟨oa, ob, scr⟩ = .ok ⟨a, b, scr₁⟩ ∧ p x ⟨oa, ob, scr ++ extra⟩ = .ok ⟨a, b, scr₂ ++ extra⟩ ∧ scr₂.length = s

/-- As `Rejects`; the message tells the first buffer with a wrong size. -/
def RejectsMdct (p : List T → List T → Mem T → Outcome (Mem T)) (n s : Nat) : Prop :=
  ∀ a b m, ¬ ValidMdct n s a b m →
    p a b m = .panic (if a.length ≠ n then .mdctLen 1 n a.length else if b.length ≠ n then .mdctLen 2 n b.length
      else if m.buf.length ≠ n then .mdctLen 3 n m.buf.length else .scratchLen s m.scr.length) (some m)

/-- As `RejectsMdct`. -/
def RejectsImdct (p : List T → IMem T → Outcome (IMem T)) (n s : Nat) : Prop :=
  ∀ x m, ¬ ValidImdct n s x m →
    p x m = .panic (if x.length ≠ n then .mdctLen 1 n x.length else if m.outA.length ≠ n then .mdctLen 2 n m.outA.length
      else if m.outB.length ≠ n then .mdctLen 3 n m.outB.length else .scratchLen s m.scr.length) (some m)

/-! ## Constructors, and inner instances supplied by the user -/

/-- A constructor that returns an instance exactly for the arguments with `P`, and panics for all others. -/
def AcceptsIff {X : Type} (r : Except Err X) (P : Prop) : Prop :=
  (P → ∃ x, r = .ok x) ∧ (¬ P → ∃ e, r = .error e ∧ e ≠ .ub)

/-- The contract of the public traits, as an implementation outside this crate would have to meet it: every valid call returns
with the buffer replaced by `F` of it.  (Slices cannot change length in Rust, hence the last conjunct.) -/
def Honours (p : Proc T) (n s : Nat) (F : List T → List T) : Prop :=
  ∀ m, ValidCall n s m → ∃ scr', p m = .ok ⟨F m.buf, scr'⟩ ∧ scr'.length = m.scr.length

/-- As `Honours`, for an element type on which the transform itself has no exact meaning: the result is some function of the
buffer. -/
def HonoursSome (p : Proc T) (n s : Nat) : Prop :=
  ∃ F : List T → List T, (∀ l, l.length = n → (F l).length = n) ∧ Honours p n s F

/-! ## rustfft, for a general element type

rustfft is external code.  Over ℝ its contract is `FftContract` in `Verif/FftSpec.lean`; the following weaker contract makes
sense for every element type, floats included. -/

/-- What the code relies on from an FFT instance, besides the values it computes: a call with a buffer of its length
and enough scratch returns, the result depends on the buffer only, and lengths are kept. -/
def FftSane (fft : Fft T) : Prop :=
  ∃ G : List (Cx T) → List (Cx T), (∀ l, l.length = fft.len → (G l).length = fft.len) ∧
    ∀ buf scr, buf.length = fft.len → fft.inplaceScratchLen ≤ scr.length →
      ∃ scr', fft.process buf scr = .ok (G buf, scr') ∧ scr'.length = scr.length

/-- `FftPlanner::plan_fft_forward` returns forward FFTs of the requested size. -/
def PlanFftShape (planFft : Nat → Fft T) : Prop := ∀ n, (planFft n).len = n ∧ (planFft n).direction = .forward

/-- What the planner relies on from `FftPlanner::plan_fft_forward`. -/
def PlanFftSane (planFft : Nat → Fft T) : Prop :=
  ∀ n, (planFft n).len = n ∧ (planFft n).direction = .forward ∧ FftSane (planFft n)

end RustDct
