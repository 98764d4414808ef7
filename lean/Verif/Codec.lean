import Verif.Client
import Verif.Spec
/-!
# Analysis and synthesis with the overlapped MDCT

Vocabulary of C87: the two halves of the client program of `Verif/Client.lean`, as an audio encoder and an audio decoder run them, and the energy of a
sequence of blocks.
-/

namespace RustDct

variable {T : Type}

/-- The encoder: `process_mdct_with_scratch` on every two neighbouring blocks, the first of which is `a`, with one reused output buffer and one reused scratch. -/
def analyse (o : MdctObj T) : List T → List (List T) → Mem T → Outcome (List (List T))
  | _, [], _ => .ok []
  | a, b :: rest, m =>
    match o.mdct a b m with
    | .panic e _ => .panic e none
    | .ok m₁ =>
      match analyse o b rest m₁ with
      | .panic e _ => .panic e none
      | .ok Xs => .ok (m₁.buf :: Xs)

/-- The decoder: `process_imdct_with_scratch` on every coefficient vector, into the block left over from the previous call and a block of zeros. The last block
is what the last call leaves over. -/
def synthesise [Zero T] (o : MdctObj T) : List (List T) → List T → List T → Outcome (List (List T))
  | [], acc, _ => .ok [acc]
  | X :: Xs, acc, scr =>
    match o.imdct X ⟨acc, List.replicate o.len 0, scr⟩ with
    | .panic e _ => .panic e none
    | .ok m =>
      match synthesise o Xs m.outB m.scr with
      | .panic e _ => .panic e none
      | .ok outs => .ok (m.outA :: outs)

namespace Spec

/-- The energy of a sequence of blocks: the sum of the squares of all samples. -/
noncomputable def energy (xs : List (List ℝ)) : ℝ := (xs.map fun x => (x.map fun v => v ^ 2).sum).sum

/-- The energy of the difference of two sequences of blocks. -/
noncomputable def distance (xs ys : List (List ℝ)) : ℝ :=
  (List.zipWith (fun x y => (List.zipWith (fun u v => (u - v) ^ 2) x y).sum) xs ys).sum

end Spec

/-- The encoder returns one coefficient vector for every two neighbouring blocks, for every signal and whatever the reused buffers contain. Their energy is at most
`g` times that of the signal, and exactly that if the signal begins and ends with a block of zeros. -/
def EncodesEnergy (o : MdctObj ℝ) (n : ℕ) (g : ℝ) : Prop :=
  ∀ (a : List ℝ) (rest : List (List ℝ)) (m : Mem ℝ), (∀ b ∈ a :: rest, b.length = n) → m.buf.length = n → o.scratchLen ≤ m.scr.length →
    ∃ Xs, analyse o a rest m = .ok Xs ∧ Xs.length = rest.length ∧ (∀ X ∈ Xs, X.length = n) ∧ Spec.energy Xs ≤ g * Spec.energy (a :: rest) ∧
      (a = List.replicate n 0 → rest.getLast? = some (List.replicate n 0) → Spec.energy Xs = g * Spec.energy (a :: rest))

/-- The decoder returns, for all coefficients. The energy of the difference between what it returns for two coefficient sequences is `g` times that of the difference
of the sequences; from a zeroed first block, the energy of what it returns is `g` times that of the coefficients. -/
def DecodesEnergy (o : MdctObj ℝ) (n : ℕ) (g : ℝ) : Prop :=
  ∀ (Xs Ys : List (List ℝ)) (acc scr scr' : List ℝ), (∀ X ∈ Xs, X.length = n) → (∀ Y ∈ Ys, Y.length = n) → Xs.length = Ys.length → acc.length = n →
    o.scratchLen ≤ scr.length → o.scratchLen ≤ scr'.length →
    ∃ outs outs', synthesise o Xs acc scr = .ok outs ∧ synthesise o Ys acc scr' = .ok outs' ∧ outs.length = Xs.length + 1 ∧ outs'.length = Ys.length + 1 ∧
      Spec.distance outs outs' = g * Spec.distance Xs Ys ∧ (acc = List.replicate n 0 → Spec.energy outs = g * Spec.energy Xs)

/-- Encoding a signal (`a :: rest`), replacing the coefficients (`Xs`) by any others (`Ys`), and decoding: compared with the signal multiplied by `g`, the energy of the
error of all interior blocks (`rest.dropLast`) is at most `g` times the energy of the change, and that of the error of one interior block at most `g` times the energy of the
change of the two coefficient vectors it went into. -/
def ToleratesQuantisation (o : MdctObj ℝ) (n : ℕ) (g : ℝ) : Prop :=
  ∀ (a acc : List ℝ) (rest Ys : List (List ℝ)) (m : Mem ℝ) (scr : List ℝ), (∀ b ∈ a :: rest, b.length = n) → (∀ Y ∈ Ys, Y.length = n) → Ys.length = rest.length →
    acc.length = n → m.buf.length = n → o.scratchLen ≤ m.scr.length → o.scratchLen ≤ scr.length →
    ∃ Xs outs, analyse o a rest m = .ok Xs ∧ synthesise o Ys acc scr = .ok outs ∧ outs.length = (a :: rest).length ∧
      Spec.distance outs.tail.dropLast (rest.dropLast.map fun b => b.map (g * ·)) ≤ g * Spec.distance Ys Xs ∧
      ∀ t b X X' Y Y', t + 1 < rest.length → rest[t]? = some b → Xs[t]? = some X → Xs[t + 1]? = some X' → Ys[t]? = some Y → Ys[t + 1]? = some Y' →
        ∃ out, outs[t + 1]? = some out ∧ Spec.distance [out] [b.map (g * ·)] ≤ g * Spec.distance [Y, Y'] [X, X']

end RustDct
