import Mathlib.Analysis.SpecialFunctions.Trigonometric.Basic
/-!
# Specification: the textbook transforms on real sequences

Read this file, not the model, to see what the correctness theorems say.  Formulas are those of the crate's own
documentation (src/lib.rs) and of its test references (tests/common/reference_impls.rs): unnormalised transforms, the first
and/or last input halved where the type has a boundary sample.
-/

namespace Spec
open Real Finset

/-- A length-`n` transform given by the formula `F n x k` for output `k`, applied to a list. -/
noncomputable def onList (F : ℕ → (ℕ → ℝ) → ℕ → ℝ) (x : List ℝ) : List ℝ :=
  (List.range x.length).map fun k => F x.length (fun i => x.getD i 0) k

/-- Weight ½ at index `p`, 1 elsewhere. -/
noncomputable def halfAt (p i : ℕ) : ℝ := if i = p then 1 / 2 else 1

noncomputable def dct1At (n : ℕ) (x : ℕ → ℝ) (k : ℕ) : ℝ :=
  ∑ i ∈ range n, halfAt 0 i * halfAt (n - 1) i * x i * cos (k * i * π / (n - 1))
noncomputable def dct2At (n : ℕ) (x : ℕ → ℝ) (k : ℕ) : ℝ :=
  ∑ i ∈ range n, x i * cos (k * (i + 1 / 2) * π / n)
noncomputable def dct3At (n : ℕ) (x : ℕ → ℝ) (k : ℕ) : ℝ :=
  ∑ i ∈ range n, halfAt 0 i * x i * cos ((k + 1 / 2) * i * π / n)
noncomputable def dct4At (n : ℕ) (x : ℕ → ℝ) (k : ℕ) : ℝ :=
  ∑ i ∈ range n, x i * cos ((k + 1 / 2) * (i + 1 / 2) * π / n)
noncomputable def dct5At (n : ℕ) (x : ℕ → ℝ) (k : ℕ) : ℝ :=
  ∑ i ∈ range n, halfAt 0 i * x i * cos (k * i * π / (n - 1 / 2))
noncomputable def dct6At (n : ℕ) (x : ℕ → ℝ) (k : ℕ) : ℝ :=
  ∑ i ∈ range n, halfAt (n - 1) i * x i * cos (k * (i + 1 / 2) * π / (n - 1 / 2))
noncomputable def dct7At (n : ℕ) (x : ℕ → ℝ) (k : ℕ) : ℝ :=
  ∑ i ∈ range n, halfAt 0 i * x i * cos ((k + 1 / 2) * i * π / (n - 1 / 2))
noncomputable def dct8At (n : ℕ) (x : ℕ → ℝ) (k : ℕ) : ℝ :=
  ∑ i ∈ range n, x i * cos ((k + 1 / 2) * (i + 1 / 2) * π / (n + 1 / 2))

noncomputable def dst1At (n : ℕ) (x : ℕ → ℝ) (k : ℕ) : ℝ :=
  ∑ i ∈ range n, x i * sin ((k + 1) * (i + 1) * π / (n + 1))
noncomputable def dst2At (n : ℕ) (x : ℕ → ℝ) (k : ℕ) : ℝ :=
  ∑ i ∈ range n, x i * sin ((k + 1) * (i + 1 / 2) * π / n)
noncomputable def dst3At (n : ℕ) (x : ℕ → ℝ) (k : ℕ) : ℝ :=
  ∑ i ∈ range n, halfAt (n - 1) i * x i * sin ((k + 1 / 2) * (i + 1) * π / n)
noncomputable def dst4At (n : ℕ) (x : ℕ → ℝ) (k : ℕ) : ℝ :=
  ∑ i ∈ range n, x i * sin ((k + 1 / 2) * (i + 1 / 2) * π / n)
noncomputable def dst5At (n : ℕ) (x : ℕ → ℝ) (k : ℕ) : ℝ :=
  ∑ i ∈ range n, x i * sin ((k + 1) * (i + 1) * π / (n + 1 / 2))
noncomputable def dst6At (n : ℕ) (x : ℕ → ℝ) (k : ℕ) : ℝ :=
  ∑ i ∈ range n, x i * sin ((k + 1) * (i + 1 / 2) * π / (n + 1 / 2))
noncomputable def dst7At (n : ℕ) (x : ℕ → ℝ) (k : ℕ) : ℝ :=
  ∑ i ∈ range n, x i * sin ((k + 1 / 2) * (i + 1) * π / (n + 1 / 2))
noncomputable def dst8At (n : ℕ) (x : ℕ → ℝ) (k : ℕ) : ℝ :=
  ∑ i ∈ range n, halfAt (n - 1) i * x i * sin ((k + 1 / 2) * (i + 1 / 2) * π / (n - 1 / 2))

noncomputable def dct1 : List ℝ → List ℝ := onList dct1At
noncomputable def dct2 : List ℝ → List ℝ := onList dct2At
noncomputable def dct3 : List ℝ → List ℝ := onList dct3At
noncomputable def dct4 : List ℝ → List ℝ := onList dct4At
noncomputable def dct5 : List ℝ → List ℝ := onList dct5At
noncomputable def dct6 : List ℝ → List ℝ := onList dct6At
noncomputable def dct7 : List ℝ → List ℝ := onList dct7At
noncomputable def dct8 : List ℝ → List ℝ := onList dct8At
noncomputable def dst1 : List ℝ → List ℝ := onList dst1At
noncomputable def dst2 : List ℝ → List ℝ := onList dst2At
noncomputable def dst3 : List ℝ → List ℝ := onList dst3At
noncomputable def dst4 : List ℝ → List ℝ := onList dst4At
noncomputable def dst5 : List ℝ → List ℝ := onList dst5At
noncomputable def dst6 : List ℝ → List ℝ := onList dst6At
noncomputable def dst7 : List ℝ → List ℝ := onList dst7At
noncomputable def dst8 : List ℝ → List ℝ := onList dst8At

/-- MDCT coefficient `k` of the `2n` samples `x` under the window `w`. -/
noncomputable def mdctAt (n : ℕ) (w x : ℕ → ℝ) (k : ℕ) : ℝ :=
  ∑ i ∈ range (2 * n), w i * x i * cos (π / n * (i + 1 / 2 + n / 2) * (k + 1 / 2))
/-- IMDCT sample `i` (of `2n`) of the `n` coefficients `X` under the window `w`. -/
noncomputable def imdctAt (n : ℕ) (w X : ℕ → ℝ) (i : ℕ) : ℝ :=
  w i * ∑ k ∈ range n, X k * cos (π / n * (i + 1 / 2 + n / 2) * (k + 1 / 2))

/-- The `n` MDCT coefficients of `2n` samples under a window of `2n` values. -/
noncomputable def mdct (n : ℕ) (win x : List ℝ) : List ℝ :=
  (List.range n).map fun k => mdctAt n (fun i => win.getD i 0) (fun i => x.getD i 0) k
/-- The `2n` IMDCT samples of `n` coefficients under a window of `2n` values. -/
noncomputable def imdct (n : ℕ) (win X : List ℝ) : List ℝ :=
  (List.range (2 * n)).map fun i => imdctAt n (fun i => win.getD i 0) (fun k => X.getD k 0) i

/-- A window of `2n` values that is its own mirror image. -/
def Symmetric (n : ℕ) (win : List ℝ) : Prop := win.length = 2 * n ∧ ∀ i, i < n → win.getD (2 * n - 1 - i) 0 = win.getD i 0
/-- The Princen-Bradley condition, with the constant `c`, for a window of `2n` values. -/
def PrincenBradley (n : ℕ) (c : ℝ) (win : List ℝ) : Prop :=
  win.length = 2 * n ∧ ∀ i, i < n → win.getD i 0 ^ 2 + win.getD (i + n) 0 ^ 2 = c

/-- The sine window (the one of MP3). -/
noncomputable def sineWindow (len : ℕ) : List ℝ := (List.range len).map fun (i : ℕ) => sin (π / len * (i + 1 / 2))
/-- The power sine window of Vorbis. -/
noncomputable def vorbisWindow (len : ℕ) : List ℝ := (List.range len).map fun (i : ℕ) => sin (π / 2 * sin (π / len * (i + 1 / 2)) ^ 2)
/-- The rectangular window. -/
def flatWindow (len : ℕ) : List ℝ := List.replicate len 1

end Spec
