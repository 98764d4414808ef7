import Verif.Kinds
import Verif.Images
/-!
# Specification: the boundary conditions of the sixteen transforms, and solvers built on them

Vocabulary of C94.  Each of the sixteen transforms belongs to one way of continuing a signal beyond its two ends, and turns the second difference of the signal so
continued into a multiplication.  This is what solvers of Poisson, diffusion and Helmholtz equations use the library for.
-/

namespace RustDct

/-- How a signal continues beyond one of its ends. -/
inductive Side
  /-- mirrored at the last sample -/
  | evenPoint
  /-- mirrored half a step beyond the last sample -/
  | evenHalf
  /-- zero one step beyond the last sample, and mirrored there with the sign changed -/
  | oddPoint
  /-- mirrored half a step beyond the last sample, with the sign changed -/
  | oddHalf

/-- The sample just beyond an end with the samples `x₀` (the last one) and `x₁` (the one before it). -/
def Side.beyond : Side → ℝ → ℝ → ℝ
  | .evenPoint, _, x₁ => x₁
  | .evenHalf, x₀, _ => x₀
  | .oddPoint, _, _ => 0
  | .oddHalf, x₀, _ => -x₀

/-- How the input of a transform continues to the left. -/
def Kind.left : Kind → Side
  | .dct1 | .dct3 | .dct5 | .dct7 => .evenPoint
  | .dct2 | .dct4 | .dct6 | .dct8 => .evenHalf
  | .dst1 | .dst3 | .dst5 | .dst7 => .oddPoint
  | .dst2 | .dst4 | .dst6 | .dst8 => .oddHalf

/-- How the input of a transform continues to the right. -/
def Kind.right : Kind → Side
  | .dct1 | .dct6 | .dst3 | .dst8 => .evenPoint
  | .dct2 | .dct5 | .dst4 | .dst7 => .evenHalf
  | .dct3 | .dct8 | .dst1 | .dst6 => .oddPoint
  | .dct4 | .dct7 | .dst2 | .dst5 => .oddHalf

/-- The second difference at sample `i` of a signal of `n` samples, continued as the transform of kind `k` continues it. -/
def Kind.laplaceAt (k : Kind) (n : ℕ) (x : ℕ → ℝ) (i : ℕ) : ℝ :=
  (if i = 0 then k.left.beyond (x 0) (x 1) else x (i - 1)) - 2 * x i + (if i + 1 = n then k.right.beyond (x (n - 1)) (x (n - 2)) else x (i + 1))

/-- The frequency of output `u` of a transform of length `n`, in radians per sample. -/
noncomputable def Kind.freq : Kind → ℕ → ℕ → ℝ
  | .dct1, n, u => u * Real.pi / (n - 1)
  | .dct2, n, u => u * Real.pi / n
  | .dct3, n, u | .dct4, n, u | .dst3, n, u | .dst4, n, u => (u + 1 / 2) * Real.pi / n
  | .dct5, n, u | .dct6, n, u => u * Real.pi / (n - 1 / 2)
  | .dct7, n, u | .dst8, n, u => (u + 1 / 2) * Real.pi / (n - 1 / 2)
  | .dct8, n, u | .dst7, n, u => (u + 1 / 2) * Real.pi / (n + 1 / 2)
  | .dst1, n, u => (u + 1) * Real.pi / (n + 1)
  | .dst2, n, u => (u + 1) * Real.pi / n
  | .dst5, n, u | .dst6, n, u => (u + 1) * Real.pi / (n + 1 / 2)

/-- The factor by which the second difference multiplies a wave of that frequency. -/
noncomputable def Kind.eig (k : Kind) (n u : ℕ) : ℝ := 2 * Real.cos (k.freq n u) - 2

/-- The second difference of a list. -/
noncomputable def Kind.laplace (k : Kind) (x : List ℝ) : List ℝ := Spec.onList k.laplaceAt x

/-- Transform, multiply output `u` by `c u`, transform back: a solver or a filter. -/
def filtered {T : Type} [Zero T] [Mul T] (s : ℕ) (p : Proc T) (c : ℕ → T) (t : ℕ) (q : Proc T) (x : List T) : Outcome (List T) :=
  match processDefault s p x with
  | .panic e m => .panic e m
  | .ok X => processDefault t q (X.mapIdx fun u v => v * c u)

/-- The same with an image: row `u` and column `v` of the transformed image is multiplied by `c u v`. -/
def filteredImage {T : Type} [Zero T] [Mul T] (w h s : ℕ) (p : Proc T) (t : ℕ) (q : Proc T) (c : ℕ → ℕ → T) (s' : ℕ) (p' : Proc T) (t' : ℕ) (q' : Proc T) (x : List (List T)) :
    Outcome (List (List T)) :=
  match transformImage w h s p t q x with
  | .panic e m => .panic e m
  | .ok X => transformImage w h s' p' t' q' (X.mapIdx fun u row => row.mapIdx fun v y => y * c u v)

/-- What a solver of `a y + b Δy = x` multiplies output `u` by: one over the factor of the operator and of the pair of transforms; nothing where the operator annihilates the wave. -/
noncomputable def Kind.solver (k : Kind) (n : ℕ) (a b : ℝ) (u : ℕ) : ℝ :=
  if a + b * k.eig n u = 0 then 0 else 1 / (k.scale n * (a + b * k.eig n u))

/-- The same for `a y + b Δ₁y + c Δ₂y = x`. -/
noncomputable def solverImage (k l : Kind) (h w : ℕ) (a b c : ℝ) (u v : ℕ) : ℝ :=
  if a + b * k.eig w v + c * l.eig h u = 0 then 0 else 1 / (k.scale w * l.scale h * (a + b * k.eig w v + c * l.eig h u))

/-- `a y + b Δy = x`, for signals continued as kind `k` continues them. -/
def Solves (k : Kind) (a b : ℝ) (x y : List ℝ) : Prop :=
  y.length = x.length ∧ List.zipWith (fun y d => a * y + b * d) y (k.laplace y) = x

/-- `a y + b Δ₁y + c Δ₂y = x` for images: `Δ₁` along the rows, continued as kind `k` continues them, and `Δ₂` along the columns, continued as kind `l` does. -/
def SolvesImage (k l : Kind) (h w : ℕ) (a b c : ℝ) (x y : List (List ℝ)) : Prop :=
  IsImage h w y ∧ ∀ i j, i < h → j < w → a * sample y i j + b * k.laplaceAt w (fun j => sample y i j) j + c * l.laplaceAt h (fun i => sample y i j) i = sample x i j

end RustDct
