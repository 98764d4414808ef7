import Verif.Model.Basic
/-!
# Numbers: `f64`, the generic element type, complex numbers, twiddle factors
-/

namespace RustDct

/-- The `f64` operations used while building tables (constructors, twiddles, windows).  No laws. -/
class F64 (F : Type) extends Add F, Sub F, Mul F, Div F, Neg F where
  /-- `n as f64` for `n : usize`, and integer-valued literals such as `2f64`, `4.0` -/
  nat : Nat → F
  /-- the literal `0.5` -/
  half : F
  /-- `f64::consts::PI` -/
  pi : F
  sin : F → F
  cos : F → F
  sqrt : F → F

/-- The generic element type: src/common.rs:5-17 `DctNum: FftNum + FloatConst`.  No laws.
`T::from_f64(x).unwrap()` is modelled as a total function (simplification: exotic `T` whose `from_f64`
returns `None` are in `Verif/Model/Convert.lean` only). -/
class DctNum (T : Type) (F : outParam Type) extends Zero T, One T, Add T, Sub T, Mul T, Neg T where
  fromF64 : F → T
  /-- `T::SQRT_2()` -/
  sqrt2 : T
  /-- `T::FRAC_1_SQRT_2()` -/
  fracSqrt2 : T

export DctNum (fromF64)

section
variable (T : Type) {F : Type} [F64 F] [DctNum T F]
/-- src/common.rs:11-13 `T::half()`. -/
def thalf : T := fromF64 (F64.half : F)
/-- src/common.rs:14-16 `T::two()`. -/
def ttwo : T := fromF64 (F64.nat 2 : F)
end

/-- `num_complex::Complex<T>`. -/
structure Cx (T : Type) where
  re : T
  im : T

namespace Cx
variable {T : Type} {F : Type} [DctNum T F]
/-- `Complex * Complex` of num_complex. -/
def mul (a b : Cx T) : Cx T := ⟨a.re * b.re - a.im * b.im, a.re * b.im + a.im * b.re⟩
/-- `Complex * T` of num_complex. -/
def scale (a : Cx T) (t : T) : Cx T := ⟨a.re * t, a.im * t⟩
/-- `-Complex`. -/
def neg (a : Cx T) : Cx T := ⟨-a.re, -a.im⟩
/-- `Complex::conj`. -/
def conj (a : Cx T) : Cx T := ⟨a.re, -a.im⟩
/-- `Complex::from(t)`, also `Complex { re: t, im: T::zero() }`. -/
def ofRe (t : T) : Cx T := ⟨t, 0⟩
end Cx

/-- src/array_utils.rs:10-14 `into_complex_mut`: the slice seen as `len / 2` complex numbers. -/
def intoComplex {T : Type} : List T → List (Cx T)
  | a :: b :: r => ⟨a, b⟩ :: intoComplex r
  | _ => []

/-- The memory layout of a complex slice (`re`, `im` alternating). -/
def flattenComplex {T : Type} : List (Cx T) → List T
  | c :: r => c.re :: c.im :: flattenComplex r
  | [] => []

/-- The scalar slice `orig` after its complex view has been overwritten by `cs`; an odd last element is not
covered by the view. -/
def fromComplex {T : Type} (cs : List (Cx T)) (orig : List T) : List T :=
  flattenComplex cs ++ orig.drop (2 * cs.length)

section twiddles
variable {T : Type} {F : Type} [F64 F] [DctNum T F]

/-- `f64::consts::PI * -2f64 / fft_len as f64`, src/twiddles.rs:8, 21, 31. -/
def angleConstant (fftLen : Nat) : F := F64.pi * (-(F64.nat 2)) / F64.nat fftLen

/-- src/twiddles.rs:7-16 `single_twiddle` (`Complex::from_polar(r, θ) = (r * cos θ, r * sin θ)`). -/
def singleTwiddle (i fftLen : Nat) : Cx T :=
  let θ : F := angleConstant fftLen * F64.nat i
  ⟨fromF64 (F64.nat 1 * F64.cos θ), fromF64 (F64.nat 1 * F64.sin θ)⟩

/-- src/twiddles.rs:20-26 `single_twiddle_re`. -/
def singleTwiddleRe (i fftLen : Nat) : T :=
  fromF64 (F64.cos (angleConstant fftLen * F64.nat i : F))

/-- src/twiddles.rs:30-39 `single_twiddle_halfoffset`. -/
def singleTwiddleHalfoffset (i fftLen : Nat) : Cx T :=
  let θ : F := angleConstant fftLen * (F64.nat i + F64.half)
  ⟨fromF64 (F64.nat 1 * F64.cos θ), fromF64 (F64.nat 1 * F64.sin θ)⟩

end twiddles

/-! ## Trait objects -/

/-- A trait object with one transform method: `dyn Dct1`, `dyn Dst1`, `dyn Dct5`, `dyn Dst5`, `dyn Dct8`,
`dyn Dst8` (src/lib.rs).  `len` is `Length::len`, `scratchLen` is `RequiredScratch::get_scratch_len`. -/
structure Obj1 (T : Type) where
  len : Nat
  scratchLen : Nat
  run : Proc T

/-- `dyn TransformType2And3<T>` (src/lib.rs). -/
structure Obj23 (T : Type) where
  len : Nat
  scratchLen : Nat
  dct2 : Proc T
  dct3 : Proc T
  dst2 : Proc T
  dst3 : Proc T

/-- `dyn TransformType4<T>` (src/lib.rs). -/
structure Obj4 (T : Type) where
  len : Nat
  scratchLen : Nat
  dct4 : Proc T
  dst4 : Proc T

/-- `dyn Dct6And7<T>` (fields are DCT6 and DCT7) and `dyn Dst6And7<T>` (DST6 and DST7) (src/lib.rs). -/
structure Obj67 (T : Type) where
  len : Nat
  scratchLen : Nat
  t6 : Proc T
  t7 : Proc T

/-- Memory of `process_mdct_with_scratch(input_a, input_b, output, scratch)` is `⟨output, scratch⟩` (the inputs
are shared references); memory of `process_imdct_with_scratch(input, output_a, output_b, scratch)`: -/
structure IMem (T : Type) where
  outA : List T
  outB : List T
  scr : List T

/-- `dyn Mdct<T>`, src/mdct/mod.rs:9-41. -/
structure MdctObj (T : Type) where
  len : Nat
  scratchLen : Nat
  mdct : List T → List T → Mem T → Outcome (Mem T)
  imdct : List T → IMem T → Outcome (IMem T)

/-- The default methods `process_x(buffer)` of src/lib.rs (all sixteen have the same text, e.g. 38-41):
allocate zeroed scratch of `get_scratch_len()` and call the `_with_scratch` method. Scratch is dropped. -/
def processDefault {T : Type} [Zero T] (scratchLen : Nat) (p : Proc T) (buf : List T) : Outcome (List T) :=
  match p ⟨buf, List.replicate scratchLen 0⟩ with
  | .ok m => .ok m.buf
  | .panic e m => .panic e (m.map (·.buf))

/-! ## rustfft -/

inductive FftDirection
  | forward
  | inverse
  deriving DecidableEq

/-- `dyn rustfft::Fft<T>`: external code, represented by its interface.  `process buffer scratch` is
`process_with_scratch`. -/
structure Fft (T : Type) where
  len : Nat
  direction : FftDirection
  inplaceScratchLen : Nat
  process : List (Cx T) → List (Cx T) → Except Err (List (Cx T) × List (Cx T))

end RustDct
