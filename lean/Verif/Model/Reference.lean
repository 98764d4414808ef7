import Verif.Model.Num
/-!
# The reference implementations of the project's own test suite

tests/common/reference_impls.rs and the helper functions of the tests in src/mdct/mdct_naive.rs. They are written there for `f64` and `f32`; here for any number type.
An index within bounds is `List.getD`.
-/

namespace RustDct.Reference

variable {F : Type} [F64 F]
open F64

/-- The two nested loops all functions of tests/common/reference_impls.rs consist of (for example 8-24). `n` is `input.len()`, `term k i` is what is added to
`entry` for `output_index = k` and `input_index = i`. -/
def loops (n : Nat) (term : Nat → Nat → F) : List F :=
  (List.range n).map fun k => (List.range n).foldl (fun entry i => entry + term k i) (nat 0)

/-- tests/common/reference_impls.rs:7-26 `reference_dct1`. -/
def dct1 (input : List F) : List F :=
  let n := input.length
  loops n fun k i => input.getD i (nat 0) * cos (nat k * nat i * pi / nat (n - 1)) * (if i = 0 ∨ i = n - 1 then half else nat 1)
/-- tests/common/reference_impls.rs:29-44 `reference_dct2`. -/
def dct2 (input : List F) : List F :=
  let n := input.length
  loops n fun k i => input.getD i (nat 0) * cos (nat k * (nat i + half) * pi / nat n)
/-- tests/common/reference_impls.rs:47-63 `reference_dct3`. -/
def dct3 (input : List F) : List F :=
  let n := input.length
  loops n fun k i => input.getD i (nat 0) * cos ((nat k + half) * nat i * pi / nat n) * (if i = 0 then half else nat 1)
/-- tests/common/reference_impls.rs:66-82 `reference_dct4`. -/
def dct4 (input : List F) : List F :=
  let n := input.length
  loops n fun k i => input.getD i (nat 0) * cos ((nat k + half) * (nat i + half) * pi / nat n)
/-- tests/common/reference_impls.rs:85-101 `reference_dct5`. -/
def dct5 (input : List F) : List F :=
  let n := input.length
  loops n fun k i => input.getD i (nat 0) * cos (nat k * nat i * pi / (nat n - half)) * (if i = 0 then half else nat 1)
/-- tests/common/reference_impls.rs:104-124 `reference_dct6`. -/
def dct6 (input : List F) : List F :=
  let n := input.length
  loops n fun k i => input.getD i (nat 0) * cos (nat k * (nat i + half) * pi / (nat n - half)) * (if i = n - 1 then half else nat 1)
/-- tests/common/reference_impls.rs:127-143 `reference_dct7`. -/
def dct7 (input : List F) : List F :=
  let n := input.length
  loops n fun k i => input.getD i (nat 0) * cos ((nat k + half) * nat i * pi / (nat n - half)) * (if i = 0 then half else nat 1)
/-- tests/common/reference_impls.rs:146-162 `reference_dct8`. -/
def dct8 (input : List F) : List F :=
  let n := input.length
  loops n fun k i => input.getD i (nat 0) * cos ((nat k + half) * (nat i + half) * pi / (nat n + half))
/-- tests/common/reference_impls.rs:165-179 `reference_dst1`. -/
def dst1 (input : List F) : List F :=
  let n := input.length
  loops n fun k i => input.getD i (nat 0) * sin ((nat k + nat 1) * (nat i + nat 1) * pi / nat (n + 1))
/-- tests/common/reference_impls.rs:182-196 `reference_dst2`. -/
def dst2 (input : List F) : List F :=
  let n := input.length
  loops n fun k i => input.getD i (nat 0) * sin ((nat k + nat 1) * (nat i + half) * pi / nat n)
/-- tests/common/reference_impls.rs:199-218 `reference_dst3`. -/
def dst3 (input : List F) : List F :=
  let n := input.length
  loops n fun k i => input.getD i (nat 0) * sin ((nat k + half) * (nat i + nat 1) * pi / nat n) * (if i = n - 1 then half else nat 1)
/-- tests/common/reference_impls.rs:221-237 `reference_dst4`. -/
def dst4 (input : List F) : List F :=
  let n := input.length
  loops n fun k i => input.getD i (nat 0) * sin ((nat k + half) * (nat i + half) * pi / nat n)
/-- tests/common/reference_impls.rs:240-254 `reference_dst5`. -/
def dst5 (input : List F) : List F :=
  let n := input.length
  loops n fun k i => input.getD i (nat 0) * sin ((nat k + nat 1) * (nat i + nat 1) * pi / (nat n + half))
/-- tests/common/reference_impls.rs:257-271 `reference_dst6`. -/
def dst6 (input : List F) : List F :=
  let n := input.length
  loops n fun k i => input.getD i (nat 0) * sin ((nat k + nat 1) * (nat i + half) * pi / (nat n + half))
/-- tests/common/reference_impls.rs:274-288 `reference_dst7`. -/
def dst7 (input : List F) : List F :=
  let n := input.length
  loops n fun k i => input.getD i (nat 0) * sin ((nat k + half) * (nat i + nat 1) * pi / (nat n + half))
/-- tests/common/reference_impls.rs:291-312 `reference_dst8`. -/
def dst8 (input : List F) : List F :=
  let n := input.length
  loops n fun k i => input.getD i (nat 0) * sin ((nat k + half) * (nat i + half) * pi / (nat n - half)) * (if i = n - 1 then half else nat 1)

/-- The cosine of src/mdct/mdct_naive.rs:320-324 and 477-481. -/
def mdctCos (size n k : Nat) : F := cos (pi * (nat n + half + nat size * half) * (nat k + half) / nat size)

/-- src/mdct/mdct_naive.rs:301-331 `slow_mdct`. The window function is called with `input.len()`. -/
def slowMdct (input : List F) (windowFn : Nat → List F) : List F :=
  let windowed := List.zipWith (· * ·) input (windowFn input.length)
  (List.range (input.length / 2)).map fun k =>
    (List.range input.length).foldl (fun current n => current + windowed.getD n (nat 0) * mdctCos (input.length / 2) n k) (nat 0)

/-- src/mdct/mdct_naive.rs:462-491 `slow_imdct`. -/
def slowImdct (input : List F) (windowFn : Nat → List F) : List F :=
  let output := (List.range (input.length * 2)).map fun n =>
    (List.range input.length).foldl (fun current k => current + input.getD k (nat 0) * mdctCos input.length n k) (nat 0)
  List.zipWith (· * ·) output (windowFn output.length)

end RustDct.Reference
