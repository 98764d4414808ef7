# Formal model of rust_dct in Lean 4 — design

Everything lives in `/verif/lean` (Lake project, Lean 4.33.0 + Mathlib). `/repo` is read as text only.

## 1. What is modelled and how

* **Element type.** All algorithms are modelled generically over a type `T` with a class `DctNum T F`
  (zero, one, +, -, *, neg, half, two, sqrt 2, 1/sqrt 2, `from_f64 : F -> T`) and a class `F64 F` for the
  `f64` arithmetic done at construction time (`as f64`, +, -, *, /, pi, sin, cos, sqrt). Neither class has any
  algebraic law. Three readings of the same code are used:
  * *every* `T`: structural theorems (no panic, no out-of-bounds access, scratch independence, untouched
    memory, planner behaviour) hold for every instance, hence also for IEEE floats, NaNs included;
  * `T = F = ℝ`: exact arithmetic, for "the transform computes its definition", inverses, TDAC;
  * `T`, `F` with a `Rounding T F`: the standard model of rounding errors, for the accuracy theorems;
  * `T`, `F` with an `Ieee T F`: rounding errors, bounded range, gradual underflow, infinities and NaN, for the range theorems.
* **Slices.** `&mut [T]` is a `List T`. Checked indexing returns the error `Err.index`; `get_unchecked` out of
  bounds returns `Err.ub` (undefined behaviour); checked `usize` subtraction below zero returns `Err.overflow`
  (debug-build semantics); `assert!` failures return their own error. Nothing is totalised away.
* **Calls.** `process_x_with_scratch` is a function `Mem T -> Outcome (Mem T)` on the pair (buffer, scratch).
  A panic outcome carries the memory at the panic point where it matters (size validation; panics inside an FFT: `Model/FftPanic`, C83; inside an inner instance: `Model/InnerPanic`, C91).
* **`into_complex_mut`.** A list of scalars is viewed as a list of pairs and written back (odd leftover kept).
* **Trait objects.** `Arc<dyn Trait>` is a record of the trait's methods; the planner adds an instance id
  (pointer identity).
* **rustfft** is outside the repository: an `Fft T` record (length, direction, scratch length, process) with an
  explicit contract as a hypothesis, in one of several strengths (see section 5).
* **Planner.** `DctPlanner` is a state machine: one association per cache, an id counter, and every `plan_*`
  method is a state transformer which also defines the state left behind by a panic. A *history* is any list of
  planner calls, panicking ones included. rustfft's planner is a function of the length, except in `Model/FftEffects` (C82), where it has state.
* **Threads.** `Verif/Threads.lean`: any number of threads share one instance, each has its own buffers; a call
  reads its arguments at one event and delivers at a later one, events interleave arbitrarily. That a call only
  reads the shared instance is the meaning of `&self` without interior mutability (no `Cell`, `RefCell`, `Mutex`
  or atomic occurs in `src/`), and is built into the model, not proved.

### Modules

| modules | content |
|---|---|
| `Model/*` | the code, definition by definition, each citing file and lines |
| `Spec`, `FftSpec`, `Kinds` | textbook definitions (from `tests/common/reference_impls.rs`), DFT, the tables of inverses and scales |
| `Scratch` | the table of scratch lengths (C62) |
| `Statements`, `Methods`, `History`, `Instances`, `Client`, `Threads`, `Rounding`, `RoundingMade`, `Range` | vocabulary of the property theorems: what a valid call is, what "computes", "safe", "planned after a history", "made by the public constructors", "accurate" mean |
| `Soundness` | memory safety; what safe code can build (C59) |
| `WordHistory`, `WordInstances` | planner histories, planned and constructed instances on a machine with bounded `usize` (C66, C68) |
| `NonFinite` | absorbing values, FFTs given by formulas, coefficients of the textbook transforms (C69) |
| `WindowHistory` | planner histories with window functions that panic or have effects (C71) |
| `Overflow` | formats with more exponents, accuracy of finite outputs (C70) |
| `Formula` | exact symmetries, formulas and their values, the FFT length of an instance (C63–C65) |
| `SignOfZero` | relations respected by the operations on data; equality up to the sign of zeros (C72) |
| `RangeMade` | gains and roundings of constructed instances, the contract `FiniteAs` for inner instances (C73) |
| `FormulaMade` | contracts for the FFTs inside constructed instances (C74) |
| `Model/Counted`, `Model/CountedMethods` | the methods once more in an execution model that counts arithmetic operations and element accesses (C75) |
| `Counting` | the counting version of an instance, bounds for planned instances (C75) |
| `Model/SplitRadixCalls` | the split radix methods with one parameter per call of an inner method (C59) |
| `Memory` | the numbers an instance keeps, what a planner keeps, what it was asked for (C78) |
| `Depth` | levels of inner instances, a planner with a bounded stack (C79) |
| `Model/WordLen` | `len()` with bounded `usize` (C80) |
| `Model/Convert` | twiddles, constructors and windows for a number type whose `from_f64` can fail (C81) |
| `Model/FftEffects`, `FftHistory` | the planner with an FFT planner that has state and may panic, and its histories (C82) |
| `Model/FftPanic`, `FftPanics` | the methods over an FFT cut at its call, with the contents of memory at a panic of the FFT (C83) |
| `Model/PlanFaults`, `FaultHistory` | the planner with panics at arbitrary crash points, histories (C84) |
| `Switching`, `Codec` | client programs: overlapped MDCT with changing windows (C86), encoder and decoder (C87) |
| `FloatCodec` | the same with changing windows and changed coefficients in rounded arithmetic (C92) |
| `Images` | two-dimensional transforms by rows and columns (C93) |
| `Laplace` | boundary conditions, second differences and solvers (C94) |
| `Fir` | continued signals and symmetric filters (C95) |
| `Chebyshev` | Chebyshev points and series, scaling before and after a call (C97) |
| `Model/Reference` | tests/common/reference_impls.rs and the `slow_*` helpers of src/mdct/mdct_naive.rs (C88) |
| `Silence` | what it means to keep silence (C89) |
| `ReferenceError` | the reference implementations side by side, and their error bound (C90) |
| `Model/InnerPanic`, `InnerPanics` | split radix cut at its inner calls, with the contents of memory at a panic of an inner instance (C91) |
| `Param`, `Param/*` | relations between runs of the code over two number types, preserved by every definition of the model (proofs of C63–C65) |
| `RealInst`, `Float/Flx`, `Range/Format` | instances: real numbers; p-bit floating-point numbers with unbounded exponent; binary IEEE formats |
| `Lib/*`, `Proofs/*`, `Float/*`, `Range/*`, `Cost/*` | proofs |
| `Props/*` | the property theorems and, beside them, examples meeting their hypotheses |
| `Sanity` | `#guard` runs of the model on floats against the reference definitions; no theorem uses it |

Proof layering: (1) for every `T`: running the code on valid sizes equals an explicit closed form of the input
(this yields absence of panics/UB and scratch independence); (2) over ℝ: the closed form equals the textbook
definition; (3) with rounding: each step of the closed form is compared with the exact step, errors are
composed in the norm in which the transform is a multiple of an isometry; (4) with a bounded range: each step of the closed form carries
a bound `c B (1+u)^m` of its magnitude and the error `c B ((1+u)^m - 1)` (`Bd` in `Range/Calc`), where `B` bounds the inputs.

## 2. Not modelled

* Constructors, planner and methods are modelled twice: with unbounded `usize` (`Model/*`) and with the bounded `usize` of debug and release builds
  (`Model/WordPlan`, `Model/WordProcess`, `Model/WordLen`, `Model/Word`). C66 and C68 carry everything proved of the former over to the latter; C58 treats the one method
  whose indices are quadratic in the length, C80 the method `len()`. For instances of length 0 the bounded version is covered by `C46_*_on` (the methods that panic). Allocation failure below the largest length of a `Vec`.
* Overflow and underflow of floating-point numbers in C51–C57 (C60 and C61 have them; all other theorems are either about every `T` or about ℝ).
* In the number formats `Fp f` of `Range/Format`: sign and payload of NaN. Zeros and infinities are signed; rounding is to nearest,
  ties to even, with gradual underflow and overflow as in IEEE 754. `sin` and `cos` of `f64` are correctly rounded there.
* `T::from_f64(..).unwrap()` failing for exotic `T` is in `Model/Convert` for constructors and windows only (C81), not in the methods, which convert 0.5 and 2; in the
  planner such panics are among the faults of C84. Arithmetic of `T` that panics. Effects of dropping a window closure that is not called (what closures do when called is in `Model/WindowEffects`, C71).
* rustfft internals (what a panicking FFT has written into its slices is a parameter in C83; split radix instances built by hand over an FFT are in C91); HashMap internals; `Arc` reference counting; the text of panic messages (the sizes they print are modelled, C85); Rust's aliasing
  rules (buffer and scratch are disjoint because they are distinct `&mut`).
* Interior mutability of user-supplied inner instances, except in C59 (`C59_changing`): elsewhere their `len` is fixed and their methods are functions.
* `src/test_utils.rs`, `tests/` (except the reference implementations, C88 and C90), `benches/`, `examples/`.

## 3. Properties (ids as in properties.jsonl)

"made" theorems range over everything the public constructors can build (inductive predicates in
`Verif/Instances.lean`), "planned" theorems over everything a planner returns after any history.

| id | theorems | model and proof |
|----|----|-----------------|
| C01–C16 | `Cxx_made`, `Cxx_planned` | per algorithm: loop -> closed form (generic), closed form = `Spec` (ℝ). Naive: modular twiddle index. FFT based: regrouping of the DFT sum. Split radix: even/odd output identities. Butterflies: straight-line code. Planned instance: planner invariant |
| C17–C20 | `Cxx_made`, `Cxx_planned` | orthogonality of the cosine/sine families through telescoping sums |
| C21, C22 | `Cxx_made`, `Cxx_planned` | folding identity of the MDCT into DCT4; loop -> closed form for both structs |
| C23, C25 | `Cxx_made`, `Cxx_planned` | induction over blocks of the client program `lapped`; two overlapping blocks cancel aliasing |
| C24 | `C24_windows`, `C24_values` | trigonometric identities per window |
| C26, C27, C29 | `Cxx_made`, `Cxx_planned`, `Cxx_mdct_*` | step (1) for every struct; planner invariant lifts it to planned instances |
| C28 | `C28_*_partial`, `C28_false` | **false** for DST2/DST3 of split radix; proved for every other method; C50 says where it fails |
| C30 | `C30_*_partial`, `C30_planned_exact`, `C30_false` | **false** for DST1/DST6/DST7 over an FFT; proved for everything else; C48 quantifies the failure |
| C31 | `C31_*_partial`, `C31_false` | **false** because C30 is; induction over call sequences for everything else |
| C32–C35, C43 | `C32_*`, `C33_domain`, `C33_mdct_domain`, `C34_history_independent`, `C35_*`, `C43_cost` | planner state machine, invariant over all histories |
| C36 | `C36_partial`, `C36_false` | **false**: the cache key ignores the window; C49 says which window is used |
| C37 | `C37_*` | case analysis of constructors |
| C38 | `C38_*` | inner objects are arbitrary implementations of the traits. Split radix needs the inner scratch to fit into `len`; without that it panics (C47) |
| C39, C41, C44 | `Cxx_made`, `Cxx_planned` | from C01–C20 |
| C40 | `C40_*` | definition of default methods + C30 |
| C42 | `C42_*` | interleaving semantics: by induction over the schedule each thread sees what it would see alone |
| C45 | `C45_*` | list pairing lemmas |
| C46 | `dct3_length_zero_panics`, … | evaluation of the constructors and methods at lengths 0 and 1 |
| C47 | `C47_half`, `C47_quarter`, `splitRadix_scratch_finding` | evaluation up to the inner call that panics, for the four methods |
| C48 | `planned_dst1_exact`, … | closed forms with the stale entries as parameters |
| C49 | `PlannedMdct.made_window`, … | planner invariant about the MDCT cache |
| C50 | `C50_dst2`, `C50_dst3`, … | closed form of the panic state, for every wrong size |
| C51–C53 | `C51_*`, `C52_*`, `C53_planned` | step (3) |
| C54–C57 | `C54_planned`, `C55_planned`, `C56_windows`, `C57_*` | step (3) for folding, unfolding and windowing; the overlapped chain in closed form, then one block |
| C58 | `C58_*`, `fits32`, `fits64` | the method once more with bounded `usize`; an impulse at 0 or 1 reveals a wrong start index |
| C59 | `C59_*` | a Hoare logic for method bodies (`Good`: returns with the lengths kept, or panics, but no undefined behaviour); induction over `Built23`; for inner instances that change from call to call, the same logic on the split radix methods with one parameter per inner call (`Model/SplitRadixCalls`; no other method calls an inner method twice) |
| C60 | `C60_*` | step (4) |
| C61 | `C61_*` | step (4); window tables as twiddle tables |
| C62 | `C62_*` | the instances the planner makes (`canon*`), by induction on the length for types 2/3; C26 and C27 for acceptance |
| C63 | `C63_*` | runs on `x` and on `h x` are related by `y = h x` at every step (`Param/*`); negation and scaling satisfy `ExactSymmetry` (in `Flx`) because rounding to nearest even commutes with them |
| C64 | `C64_*` | the code is run on formulas (`Formula` is a `DctNum`); evaluation relates that run to the run over `T`; linearity is preserved at every step |
| C65 | `C65_*` | the relation is equality; the canonical instances (`canon*`) ask for one FFT |
| C66 | `C66_*` | constructors and planner once more with the arithmetic of a machine; cache invariant as for C34; each constructor is compared with its unbounded version |
| C67 | `C67_*` | step (3), by cases on how the instance was made (`Method`); the step lemmas for split radix, even type 4 and MDCT take any inner instance that meets `AccurateAs` |
| C68 | `C68_*` | every method once more with the arithmetic of a machine; invariants of the index loops show that no index exceeds eight times the length of a table; C26 and C27 (whose panics are never overflow panics) turn agreement into equality |
| C69 | `C69_*` | outputs are fixed formulas (C64, extended to arbitrary scratch by `C64_scratch`); where the textbook coefficient is not zero the exact value of the formula depends on the variable, so the variable occurs in it, and an absorbing value spreads from any occurrence |
| C70 | `C70_*` | runs in a format and in one with more exponents are related (a `Param`): equal, or the first is not finite; C60 and C61 in a format wide enough for the inputs |
| C71 | `C71_*` | a second model of everything that takes a window function, over the planner and a world; each call is compared with a call without effects (`Step`), induction over histories |
| C72 | `C72_*` | the relation is a `Param`; IEEE operations are checked case by case on zeros, numbers, infinities and NaN |
| C73 | `C73_*` | as C60, by cases on how the instance was made (`Method`); the step lemmas for split radix, even type 4 and MDCT take any inner instance that meets `FiniteAs` |
| C74 | `C74_*` | an instance over `T` has a counterpart over formulas made by the same constructor calls, related by every evaluation (`Param.method_other`); that one has counterparts over ℝ and over wider formats |
| C75 | `C75_*` | a relation between a counting run and a run of the model (same outcome, at most `k` steps) with one rule per primitive; recurrences for split radix and type 4; lower bounds for naive instances by counting the reads of the inner loops. The counting methods are the text of the model with other primitives; that they end as the model does is proved (`C75_same`), that they execute the same operations is by reading. Allocation, index arithmetic and loop control are not counted |
| C76 | `C76_*` | a relation between a run on `l` and a run on `l ++ rest` (same result, `rest` kept) with one rule per primitive; for short slices, the first access outside of the slice is found by running the straight-line code |
| C77 | `C77_*` | triangle inequality with C51, C54, C55 and C67; the gain by Parseval (C44) |
| C78 | `C78_*` | invariant over histories: the caches are paid for by the distinct requests; the split-radix recursion keeps 2·(n/2) + 2·(n/4) + n/2 = 2n numbers |
| C79 | `C79_*` | induction over the construction and over the planner's recursion; a planner with a bounded stack equals the model's planner |
| C80 | `C80_*` | the constructors on a machine bound the length of the tables from which `len()` is computed; parity of wrapped values |
| C81 | `C81_*` | constructors and window functions with a partial conversion; filling a table succeeds iff every entry converts |
| C82 | `C82_*` | planner over the state of an arbitrary FFT planner; invariant: every cached instance is one of a stateless planner whose FFTs have the same properties; powers of two use no FFT |
| C83 | `C83_*` | each method cut at its call of the FFT, with the memory recorded if the FFT panics; `C83_same`: the pieces are the methods of the basic model; the part before the FFT writes only scratch; sizes by running the same code with an FFT that checks them |
| C84 | `C84_*` | the planner with a crash point at each construction of an instance and each insertion into a cache; an arbitrary function with state decides which of them panic; `C84_same`: without faults it is the planner of C82; invariant: every cached instance is one of a stateless planner |
| C85 | `C85_*` | errors carry the sizes the messages print; the size checks in closed form (C28), DST2/DST3 of split radix by hand |
| C86 | `C86_*` | induction over the steps of the client program `lappedSwitching`; one block is `Spec.seamOutput` of four windows; `C86_seam`: that is the block itself exactly if the windows fit together |
| C87 | `C87_*` | rows and columns of the MDCT matrix are orthogonal; overlapping halves of different coefficient vectors are orthogonal for symmetric windows; induction over the blocks of `analyse` and `synthesise` |
| C88 | `C88_*` | the reference functions of the test suite as loops over any number type; over ℝ they are `Spec` |
| C89 | `C89_*` | zero is its own negative: outputs for zeros are negatives of themselves (C72) and finite (C60, C73), hence zero; IMDCT by its closed form over any number type |
| C90 | `C90_*` | error analysis of the reference implementations' two nested loops term by term (`Ap`), and the triangle inequality with C51, C54, C55, C67 |
| C91 | `C91_*` | split radix cut at its three inner calls, with the memory recorded if one of them panics; `C91_same`: the pieces are the methods of the basic model; lengths through both loops; induction over the way the instance is put together |
| C92 | `C92_*` | induction over the steps of the client program `codec`: error of the leftover block, then of the block it is added to; `C92_unchanged`: without changes it is the program of C86 |
| C93 | `C93_*` | the client programs `transformImage` (default methods) and `transformImageWith` (one scratch): exact by C01–C16 row by row and exchange of sums; shared scratch by C31; floating point by C51/C67 and the gain of C77 applied to rows and columns |
| C94 | `C94_*` | summation by parts with the boundary terms of the four kinds of ends; the sixteen kernels are waves with those ends; solvers by C17–C20, C39 and injectivity; images by C93 |
| C95 | `C95_*` | induction over the distance of two taps (Chebyshev recursion) from C94; existence of the continuation from the waves of the inverse transform, uniqueness by induction outwards |
| C96 | `C96_*` | errors of the three stages (C51 or C67, one multiplication, C51 or C67) and the gain of C77; `C96_diffusion` and `C96_fir` with the bounds of their multipliers |
| C97 | `C97_*` | the client's scaling, the series and the points are in `Verif/Chebyshev.lean`; values by the inverse of C17 and C18, uniqueness by counting zeros (Mathlib's Lagrange interpolation) |
| C98 | `C98_*` | error of the transform (C51 or C67), one multiplication, the gain of C77; between -1 and 1 Chebyshev polynomials are at most 1, so the difference of two series is at most sqrt(n) times the norm of the differences of their coefficients |

## 4. Findings about the code

Established by theorems about the model (Props/Findings.lean and the `_false` theorems):

1. `Dst1ConvertToFft` never writes `fft_buffer[0]` and `fft_buffer[n+1]`; `Dst6And7ConvertToFft` leaves the real
   parts of some entries (DST6) and `fft_buffer[0]` (DST7) unwritten. With non-zero scratch supplied by the caller DST1 and
   DST7 return wrong results (C30, C48); planned instances are affected from length 25 (DST1) and 45 (DST6, DST7).
2. `plan_mdct` caches by length only: a second call with another window returns an instance with the first window (C36, C49).
3. `process_dst2/3_with_scratch` of `Type2And3SplitRadix` negates or reverses the buffer before checking the
   sizes, so a rejected call has already changed it (C28, C50).
4. `Type2And3SplitRadix::new` accepts inner instances that need more scratch than it hands them; every call then panics (C47).
5. Lengths 0 and 1: some constructors and methods panic with arithmetic underflow (C46).
6. `MdctNaive::process_mdct_with_scratch` computes its start index `half_output + k * (output_len + 1)` before reducing it: on 32-bit targets
   it overflows from length 65536 on (C58).
7. Release builds: constructors and planner let `2 * (n - 1)`, `4 * n` and the like wrap around, so that absurd lengths yield instances of another
   length instead of a panic: `plan_dct1(2^63 + 6)` has length 6 on 64-bit targets (C66).
8. `Dst1ConvertToFft::new` with an FFT of length 0 computes `0 - 1`: release builds return an instance of length `usize::MAX` (C68).

## 5. Trusted base

* Lean's kernel.
* Axioms: every theorem of MANIFEST.json depends on `propext`, `Classical.choice` and `Quot.sound` at most
  (`#print axioms`; no `sorry`, no `native_decide`, no `bv_decide`, no axioms of our own).
* The reading of the Rust source embodied in the model definitions (each cites file and lines).
* The contract of rustfft, always an explicit hypothesis:
  * `PlanFftShape` (C33–C35, C43, C52, C62, C60 and C61 for powers of two): instances have the requested length and direction;
  * `PlanFftSane` (C26–C32, C75), `FftSane` (C89, C91): moreover calls with correct sizes return, keep the sizes, and the result does not depend on scratch contents;
  * `FftFits` (C83, C91): it may panic at any time, but returning calls keep the sizes;
  * `PlanFftContract` (theorems over ℝ): moreover it is the forward DFT;
  * `PlanFftAccurate` (C51, C53–C55, C57, C77, C90): instead of that, it is the forward DFT up to a relative error in the Euclidean norm.

  * `PlanFftRange` (C60, C61, C89), `FftOfGain` (C73, C89): instead of that, in arithmetic of bounded range, finite and accurate entry by entry for inputs that leave room.

  * `FftCommutes` (C63), `FftRel` (C89), `FftEvaluates` and `FftLinear` (C64), `FftFormulas` (C69, C74), `FftLinearFormulas` (C74): instead of that, it has the symmetry, or evaluates fixed (linear) formulas.

  * `PlanFftInEveryRange` (C70), `FftOfGainInEveryRange` (C74): instead of that, it evaluates formulas that are accurate when evaluated in formats with more exponents.

  Concrete FFTs meeting each contract are given (`dftFft`, `sumFft`), so none of the hypotheses is vacuous.
* For C51–C57, C67, C77 and C90 the structure `Rounding` as a description of IEEE arithmetic without overflow and underflow;
  `Flx.rounding p` shows that p-bit round-to-nearest-even satisfies it.
* For C60, C61 and C73 the structure `Ieee` as a description of IEEE arithmetic; `Fp.ieee f` shows that correctly rounded binary formats satisfy it,
  `f32` and `f64` among them. Sine and cosine of `f64` are assumed to have an absolute error of at most `t` (a parameter) for every argument.
* For C75 what is counted as a step (`Model/Counted`), and that the counting methods execute the operations of the methods; the number of steps of an FFT call is a parameter.

## Reading seeded/LOG.jsonl

Each line is one edit of the model in a scratch copy, followed by a build.

* `first_failures`: declarations that no longer checked, as reported by the build.
* `theorems_failed`: theorems of MANIFEST.json whose proof uses one of these declarations, computed from the dependencies of the unedited development. It means that the proof is
  broken. It does not show, theorem by theorem, that the statement is false of the edited program.
* `not_reached`: theorems of the claimed property that use none of the declarations in `first_failures`. For these the build alone does not show that the edit is noticed.
* `isolated`: for some of the latter, the edit was repeated with every broken proof replaced by `sorry` (in the scratch copy), and the axioms of the claimed theorems were printed.
  `proof_broken` are those that depend on `sorryAx`, `still_hold` those that are proved of the edited program as well.
* `survived`: the whole development still builds. A `note` says why.
