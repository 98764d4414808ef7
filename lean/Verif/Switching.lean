import Verif.Client
import Verif.Spec
/-!
# Overlapped MDCT with a different window for every block

Vocabulary of C86: the client program of `Verif/Client.lean` with other instances for every pair of blocks, as an audio codec does that
switches between window shapes, and the condition on the windows.
-/

namespace RustDct

variable {T : Type}

/-- One step of the program: the instance that transforms the current block and the next one, the instance that transforms the coefficients back,
and the next block. -/
structure LapStep (T : Type) where
  analysis : MdctObj T
  synthesis : MdctObj T
  block : List T

/-- As `lapped`, with the instances of the steps. `a` is the first block. -/
def lappedSwitching [Zero T] (a : List T) : List (LapStep T) → List T → Mem T → Outcome (List (List T))
  | [], acc, _ => .ok [acc]
  | s :: rest, acc, m =>
    match s.analysis.mdct a s.block m with
    | .panic e _ => .panic e none
    | .ok m₁ =>
      match s.synthesis.imdct m₁.buf ⟨acc, List.replicate s.synthesis.len 0, m₁.scr⟩ with
      | .panic e _ => .panic e none
      | .ok m₂ =>
        match lappedSwitching s.block rest m₂.outB ⟨m₁.buf, m₂.scr⟩ with
        | .panic e _ => .panic e none
        | .ok outs => .ok (m₂.outA :: outs)

namespace Spec

/-- What comes out for a block `x` that is transformed first as the second block of a pair, with the windows `w` (analysis) and `v` (synthesis), and then
as the first block of a pair, with the windows `w'` and `v'`: each sample with a gain of its own, and with some of its mirror image. -/
noncomputable def seamOutput (n : ℕ) (w v w' v' x : List ℝ) : List ℝ :=
  (List.range n).map fun i => (n : ℝ) / 2 *
    ((v.getD (n + i) 0 * w.getD (n + i) 0 + v'.getD i 0 * w'.getD i 0) * x.getD i 0 +
     (v.getD (n + i) 0 * w.getD (2 * n - 1 - i) 0 - v'.getD i 0 * w'.getD (n - 1 - i) 0) * x.getD (n - 1 - i) 0)

/-- The windows fit together: the gains add up to `c` and the mirror images cancel. -/
def Seam (n : ℕ) (c : ℝ) (w v w' v' : List ℝ) : Prop :=
  ∀ i, i < n → v.getD (n + i) 0 * w.getD (n + i) 0 + v'.getD i 0 * w'.getD i 0 = c ∧
    v.getD (n + i) 0 * w.getD (2 * n - 1 - i) 0 = v'.getD i 0 * w'.getD (n - 1 - i) 0

end Spec

end RustDct
