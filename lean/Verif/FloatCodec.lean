import Verif.Switching
import Verif.Rounding
/-!
# A codec in floating-point arithmetic

Vocabulary of C92: the client program of `Verif/Switching.lean` with a change of the coefficients between the two transforms, as a lossy codec makes it, and
what is asked of its results when the samples are rounded numbers.
-/

namespace RustDct
open Real

variable {T : Type}

/-- One step: as `LapStep`, with what the client does to the coefficients (quantise them, for example) before they are transformed back. -/
structure CodecStep (T : Type) extends LapStep T where
  change : List T → List T

/-- As `lappedSwitching`, with the changes of the steps. Returns the coefficients, as computed by `process_mdct_with_scratch`, and the decoded blocks. -/
def codec [Zero T] (a : List T) : List (CodecStep T) → List T → Mem T → Outcome (List (List T) × List (List T))
  | [], acc, _ => .ok ([], [acc])
  | s :: rest, acc, m =>
    match s.analysis.mdct a s.block m with
    | .panic e _ => .panic e none
    | .ok m₁ =>
      match s.synthesis.imdct (s.change m₁.buf) ⟨acc, List.replicate s.synthesis.len 0, m₁.scr⟩ with
      | .panic e _ => .panic e none
      | .ok m₂ =>
        match codec s.block rest m₂.outB ⟨m₁.buf, m₂.scr⟩ with
        | .panic e _ => .panic e none
        | .ok r => .ok (m₁.buf :: r.1, m₂.outA :: r.2)

variable {F : Type} [F64 F] [DctNum T F]

/-- How much a change of coefficients changes them. -/
noncomputable def Rounding.changed (R : Rounding T F) (s : CodecStep T) (X : List T) : ℝ :=
  Spec.norm2 (List.zipWith (· - ·) ((s.change X).map R.val) (X.map R.val))

/-- The signal consists of `a` and the blocks of the steps. The coefficients `Xs` of every two neighbouring blocks are those of the MDCT with the window `w t`, up to `K η` times
the norm of the blocks. Every interior block comes out (in `outs`) as `Spec.seamOutput`, up to `K L` times the error of overlapping and the norms of the two pairs of
blocks, and `L` times the changes of the two coefficient vectors it went into, up to roundings. -/
def CodecNearly (R : Rounding T F) (n : ℕ) (K L η : ℝ) (w v : ℕ → List ℝ) (a : List T) (steps : List (CodecStep T)) (Xs outs : List (List T)) : Prop :=
  Xs.length = steps.length ∧ outs.length = steps.length + 1 ∧
  (∀ t x s X, (a :: steps.map (·.block))[t]? = some x → steps[t]? = some s → Xs[t]? = some X →
    X.length = n ∧ Spec.norm2 (List.zipWith (· - ·) (X.map R.val) (Spec.mdct n (w t) ((x ++ s.block).map R.val))) ≤ K * η * Spec.norm2 ((x ++ s.block).map R.val)) ∧
  ∀ t x s s' X X' out, (a :: steps.map (·.block))[t]? = some x → steps[t]? = some s → steps[t + 1]? = some s' → Xs[t]? = some X → Xs[t + 1]? = some X' →
    outs[t + 1]? = some out →
    out.length = n ∧ Spec.norm2 (List.zipWith (· - ·) (out.map R.val) (Spec.seamOutput n (w t) (v t) (w (t + 1)) (v (t + 1)) (s.block.map R.val))) ≤
      K * L * R.overlap η * (Spec.norm2 ((x ++ s.block).map R.val) + Spec.norm2 ((s.block ++ s'.block).map R.val)) +
      L * (1 + η) * (1 + R.u) * (R.changed s X + R.changed s' X')

end RustDct
