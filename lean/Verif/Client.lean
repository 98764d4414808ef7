import Verif.Statements
/-!
# Client programs

Programs a user of the crate would write, in terms of the API only.  They are not part of /repo; properties about sequences of
calls are stated about them.
-/

namespace RustDct

variable {T : Type}

/-- Overlapped MDCT/IMDCT of a signal cut into blocks, the standard use of an MDCT: every pair of consecutive blocks is transformed
with `process_mdct_with_scratch`, the coefficients are transformed back with `process_imdct_with_scratch`, which adds the result
to the output blocks of the two input blocks.  `a` is the first block and `rest` are the others; `acc` is what the output
block of `a` holds so far; the other output blocks start zeroed.  The coefficient buffer and the scratch buffer (`m`) are
reused, uncleared, from call to call. -/
def lapped [Zero T] (o : MdctObj T) (a : List T) : List (List T) → List T → Mem T → Outcome (List (List T))
  | [], acc, _ => .ok [acc]
  | b :: rest, acc, m =>
    match o.mdct a b m with
    | .panic e _ => .panic e none
    | .ok m₁ =>
      match o.imdct m₁.buf ⟨acc, List.replicate o.len 0, m₁.scr⟩ with
      | .panic e _ => .panic e none
      | .ok m₂ =>
        match lapped o b rest m₂.outB ⟨m₁.buf, m₂.scr⟩ with
        | .panic e _ => .panic e none
        | .ok outs => .ok (m₂.outA :: outs)

/-- `lapped` returns, and every interior block of the signal comes out multiplied by `g`: for every number of blocks, whatever the
reused buffers contain. -/
def Reconstructs [Zero T] [Mul T] (o : MdctObj T) (n : Nat) (g : T) : Prop :=
  ∀ (a : List T) (rest : List (List T)) (acc : List T) (m : Mem T), (∀ b ∈ a :: rest, b.length = n) → acc.length = n →
    m.buf.length = n → o.scratchLen ≤ m.scr.length →
    ∃ outs, lapped o a rest acc m = .ok outs ∧ outs.length = (a :: rest).length ∧
      ∀ t, 0 < t → t + 1 < (a :: rest).length → outs[t]? = ((a :: rest)[t]?).map fun b => b.map (g * ·)

end RustDct
