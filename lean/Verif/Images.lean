import Verif.Kinds
import Verif.Rounding
/-!
# Two-dimensional transforms

Vocabulary of C93: the client program that image codecs and solvers on rectangular grids build from this library, which transforms every row of an image with one
instance and every column with another; and the two-dimensional transforms it is meant to compute.
-/

namespace RustDct
open Real Finset

variable {T : Type}

/-- `for row in image { instance.process(row) }`, with the default method, which allocates its own scratch. -/
def eachRow [Zero T] (s : ℕ) (p : Proc T) : List (List T) → Outcome (List (List T))
  | [] => .ok []
  | row :: rest =>
    match processDefault s p row with
    | .panic e _ => .panic e none
    | .ok out =>
      match eachRow s p rest with
      | .panic e _ => .panic e none
      | .ok outs => .ok (out :: outs)

/-- `for row in image { instance.process_with_scratch(row, scratch) }`, with one scratch for all rows. -/
def eachRowWith (p : Proc T) : List (List T) → List T → Outcome (List (List T) × List T)
  | [], scr => .ok ([], scr)
  | row :: rest, scr =>
    match p ⟨row, scr⟩ with
    | .panic e _ => .panic e none
    | .ok m =>
      match eachRowWith p rest m.scr with
      | .panic e _ => .panic e none
      | .ok r => .ok (m.buf :: r.1, r.2)

/-- The columns of an image whose rows have `w` samples. -/
def transposed [Zero T] (w : ℕ) (img : List (List T)) : List (List T) :=
  (List.range w).map fun j => img.map fun row => row.getD j 0

/-- Rows, then columns: `p` has length `w`, the width of the image, and `q` has length `h`, its height. -/
def transformImage [Zero T] (w h s : ℕ) (p : Proc T) (t : ℕ) (q : Proc T) (img : List (List T)) : Outcome (List (List T)) :=
  match eachRow s p img with
  | .panic e _ => .panic e none
  | .ok rows =>
    match eachRow t q (transposed w rows) with
    | .panic e _ => .panic e none
    | .ok cols => .ok (transposed h cols)

/-- The same, with one scratch for all rows and all columns. -/
def transformImageWith [Zero T] (w h : ℕ) (p q : Proc T) (img : List (List T)) (scr : List T) : Outcome (List (List T) × List T) :=
  match eachRowWith p img scr with
  | .panic e _ => .panic e none
  | .ok rows =>
    match eachRowWith q (transposed w rows.1) rows.2 with
    | .panic e _ => .panic e none
    | .ok cols => .ok (transposed h cols.1, cols.2)

/-- An image of `h` rows of `w` samples. -/
def IsImage (h w : ℕ) (img : List (List T)) : Prop := img.length = h ∧ ∀ row ∈ img, row.length = w

/-- The sample in row `i` and column `j`. -/
def sample [Zero T] (img : List (List T)) (i j : ℕ) : T := (img.getD i []).getD j 0

/-- The image of `h` rows of `w` samples that has the sample `x i j` in row `i` and column `j`. -/
def imageOf (h w : ℕ) (x : ℕ → ℕ → T) : List (List T) := (List.range h).map fun i => (List.range w).map fun j => x i j

end RustDct

namespace Spec
open RustDct Real Finset

/-- The two-dimensional transform: kind `k` along the rows, kind `l` along the columns. -/
noncomputable def planeAt (k l : Kind) (h w : ℕ) (x : ℕ → ℕ → ℝ) (u v : ℕ) : ℝ := l.specAt h (fun i => k.specAt w (x i) v) u

/-- The two-dimensional transform of an image. -/
noncomputable def plane (k l : Kind) (h w : ℕ) (img : List (List ℝ)) : List (List ℝ) := imageOf h w (planeAt k l h w (sample img))

/-- The two-dimensional DCT2 of JPEG, unscaled. -/
noncomputable def jpegAt (h w : ℕ) (x : ℕ → ℕ → ℝ) (u v : ℕ) : ℝ :=
  ∑ i ∈ range h, ∑ j ∈ range w, x i j * cos (u * (i + 1 / 2) * π / h) * cos (v * (j + 1 / 2) * π / w)

/-- The Euclidean norm of all samples of an image. -/
noncomputable def norm2Image (img : List (List ℝ)) : ℝ := norm2 img.flatten

/-- The difference of two images. -/
def subImage (a b : List (List ℝ)) : List (List ℝ) := List.zipWith (List.zipWith (· - ·)) a b

end Spec

namespace RustDct

variable {T F : Type} [F64 F] [DctNum T F]

/-- The values of the samples of an image. -/
def Rounding.image (R : Rounding T F) (img : List (List T)) : List (List ℝ) := img.map fun row => row.map R.val

end RustDct
