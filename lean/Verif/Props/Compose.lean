import Verif.Props.Mdct
import Verif.Props.Findings
/-!
# Constructors: what they accept (C37), and instances composed by the user (C38)
-/

set_option linter.all false

namespace RustDct

section
variable {T : Type} {F : Type} [F64 F] [DctNum T F]

/-- From the two directions of a constructor's behaviour. -/
theorem acceptsIff_of {X : Type} {r : Except Err X} {P : Prop} (h1 : P → ∃ x, r = .ok x) (h2 : ∀ x, r = .ok x → P)
    (h3 : r ≠ .error .ub) : AcceptsIff r P := by
  refine ⟨h1, fun h => ?_⟩
  cases hr : r with
  | ok x => exact absurd (h2 x hr) h
  | error e => exact ⟨e, rfl, fun he => h3 (by rw [hr, he])⟩

/-! ### C37 -/

/-- The FFT-based structs accept exactly the forward FFTs of the right parity (and a DST1 needs room for one output). -/
theorem C37_fft (fft : Fft T) :
    AcceptsIff (Dct1ConvertToFft.new fft) (fft.direction = .forward ∧ Even fft.len) ∧
    AcceptsIff (Dst1ConvertToFft.new fft) (fft.direction = .forward ∧ Even fft.len ∧ fft.len ≠ 0) ∧
    AcceptsIff (Type2And3ConvertToFft.new fft) (fft.direction = .forward) ∧
    AcceptsIff (Type4ConvertToFftOdd.new fft) (fft.direction = .forward ∧ Odd fft.len) ∧
    AcceptsIff (Dst6And7ConvertToFft.new fft) (fft.direction = .forward ∧ Odd fft.len) := by
  simp only [Nat.even_iff, Nat.odd_iff]
  refine ⟨?_, ?_, ?_, ?_, ?_⟩
  · refine acceptsIff_of (fun h => ⟨_, Dct1ConvertToFft.new_eq h.2 h.1⟩) (fun x h => ?_) ?_
    · obtain ⟨a, b, -⟩ := Dct1ConvertToFft.new_shape h
      exact ⟨b, a⟩
    · unfold Dct1ConvertToFft.new; split <;> [simp; split <;> simp]
  · refine acceptsIff_of (fun h => ⟨_, Dst1ConvertToFft.new_eq h.2.1 h.1 (by omega)⟩) (fun x h => ?_) ?_
    · obtain ⟨a, b, c, -⟩ := Dst1ConvertToFft.new_shape h
      exact ⟨b, a, by omega⟩
    · unfold Dst1ConvertToFft.new csub; split <;> [simp; split <;> [simp; split <;> simp [bind, Except.bind]]]
  · refine acceptsIff_of (fun h => ⟨_, Type2And3ConvertToFft.new_eq h⟩) (fun x h => ?_) ?_
    · exact (Type2And3ConvertToFft.new_shape h).1
    · unfold Type2And3ConvertToFft.new; split <;> simp
  · refine acceptsIff_of (fun h => ⟨_, Type4ConvertToFftOdd.new_eq h.2 h.1⟩) (fun x h => ?_) ?_
    · obtain ⟨a, b, -⟩ := Type4ConvertToFftOdd.new_shape h
      exact ⟨b, a⟩
    · unfold Type4ConvertToFftOdd.new; split <;> [simp; split <;> simp]
  · refine acceptsIff_of (fun h => ⟨_, Dst6And7ConvertToFft.new_eq h.2 h.1⟩) (fun x h => ?_) ?_
    · obtain ⟨a, b, -⟩ := Dst6And7ConvertToFft.new_shape h
      exact ⟨b, a⟩
    · unfold Dst6And7ConvertToFft.new csub; split <;> [simp; split <;> [simp; split <;> simp [bind, Except.bind]]]

/-- `Type2And3SplitRadix` accepts exactly two inner instances of lengths `2q` and `q` with `q` a power of two;
`Type4ConvertToType3Even` accepts every inner instance. -/
theorem C37_composed (half quarter : Obj23 T) :
    AcceptsIff (Type2And3SplitRadix.new half quarter) (half.len = 2 * quarter.len ∧ ∃ k, quarter.len = 2 ^ k) ∧
    AcceptsIff (Type4ConvertToType3Even.new half) True := by
  refine ⟨acceptsIff_of ?_ (fun x h => ?_) ?_, acceptsIff_of (fun _ => ⟨_, Type4ConvertToType3Even.new_eq rfl⟩) (fun _ _ => trivial) ?_⟩
  · rintro ⟨h, k, hk⟩
    exact ⟨_, Type2And3SplitRadix.new_eq h rfl ((isPowerOfTwo_iff _).2 ⟨k + 2, by rw [hk]; ring⟩)⟩
  · obtain ⟨h1, h2, h3, -⟩ := Type2And3SplitRadix.new_shape h
    obtain ⟨k, hk⟩ := (isPowerOfTwo_iff _).1 h3
    refine ⟨h1, k - 2, ?_⟩
    rcases k with _ | _ | k
    · simp at hk
    · omega
    · rw [show k + 1 + 1 - 2 = k by omega]
      rw [show 2 ^ (k + 1 + 1) = 4 * 2 ^ k by ring] at hk
      omega
  · unfold Type2And3SplitRadix.new; dsimp only; split <;> [simp; split <;> simp]
  · unfold Type4ConvertToType3Even.new; simp

/-- The MDCT structs accept exactly the even lengths, with a window function that returns two values per output. -/
theorem C37_mdct (n : ℕ) (dct4 : Obj4 T) (windowFn : ℕ → List T) :
    AcceptsIff (MdctNaive.new n windowFn) (Even n ∧ (windowFn (2 * n)).length = 2 * n) ∧
    AcceptsIff (MdctViaDct4.new dct4 windowFn) (Even dct4.len ∧ (windowFn (2 * dct4.len)).length = 2 * dct4.len) := by
  simp only [Nat.even_iff, Nat.mul_comm 2 n, Nat.mul_comm 2 dct4.len]
  refine ⟨acceptsIff_of ?_ (fun x h => ?_) ?_, acceptsIff_of ?_ (fun x h => ?_) ?_⟩
  · rintro ⟨h1, h2⟩
    unfold MdctNaive.new
    simp [h1, h2]
  · obtain ⟨a, b, -⟩ := MdctNaive.new_shape h
    exact ⟨a, b⟩
  · unfold MdctNaive.new; dsimp only; split <;> [simp; split <;> simp]
  · rintro ⟨h1, h2⟩
    unfold MdctViaDct4.new
    simp [h1, h2]
  · obtain ⟨a, b, -⟩ := MdctViaDct4.new_shape h
    exact ⟨a, b⟩
  · unfold MdctViaDct4.new; dsimp only; split <;> [simp; split <;> simp]

/-- The naive structs accept every length, except 0 where the length minus something is needed and 1 for DCT1. -/
theorem C37_naive (n : ℕ) :
    AcceptsIff (Dct1Naive.new n : Except Err (Dct1Naive T)) (2 ≤ n) ∧ AcceptsIff (Dst1Naive.new n : Except Err (Dst1Naive T)) True ∧
    AcceptsIff (Type2And3Naive.new n : Except Err (Type2And3Naive T)) True ∧
    AcceptsIff (Type4Naive.new n : Except Err (Type4Naive T)) True ∧
    AcceptsIff (Dct5Naive.new n : Except Err (Dct5Naive T)) (1 ≤ n) ∧ AcceptsIff (Dst5Naive.new n : Except Err (Dst5Naive T)) True ∧
    AcceptsIff (Dct6And7Naive.new n : Except Err (Dct6And7Naive T)) (1 ≤ n) ∧
    AcceptsIff (Dst6And7Naive.new n : Except Err (Dst6And7Naive T)) True ∧
    AcceptsIff (Dct8Naive.new n : Except Err (Dct8Naive T)) True ∧ AcceptsIff (Dst8Naive.new n : Except Err (Dst8Naive T)) (1 ≤ n) := by
  have key : ∀ {X : Type} {r : Except Err X}, (∃ x, r = .ok x) → AcceptsIff r True :=
    fun h => ⟨fun _ => h, fun hn => absurd trivial hn⟩
  refine ⟨⟨fun h => ?_, fun h => ?_⟩, key ⟨_, rfl⟩, key ⟨_, rfl⟩, key ⟨_, rfl⟩, ⟨fun h => ?_, fun h => ?_⟩, key ⟨_, rfl⟩,
    ⟨fun h => ?_, fun h => ?_⟩, key ⟨_, rfl⟩, key ⟨_, rfl⟩, ⟨fun h => ?_, fun h => ?_⟩⟩
  · unfold Dct1Naive.new
    rw [if_neg (by omega)]
    simp (disch := omega) only [csub_ok, ok_bind]
    exact ⟨_, rfl⟩
  · unfold Dct1Naive.new
    rcases (by omega : n = 0 ∨ n = 1) with rfl | rfl
    · exact ⟨.overflow, by simp [csub, bind, Except.bind], by simp⟩
    · exact ⟨.assertion, by simp, by simp⟩
  · unfold Dct5Naive.new
    simp (disch := omega) only [csub_ok, ok_bind]
    exact ⟨_, rfl⟩
  · obtain rfl : n = 0 := by omega
    exact ⟨.overflow, by simp [Dct5Naive.new, csub, bind, Except.bind], by simp⟩
  · unfold Dct6And7Naive.new
    simp (disch := omega) only [csub_ok, ok_bind]
    exact ⟨_, rfl⟩
  · obtain rfl : n = 0 := by omega
    exact ⟨.overflow, by simp [Dct6And7Naive.new, csub, bind, Except.bind], by simp⟩
  · unfold Dst8Naive.new
    simp (disch := omega) only [csub_ok, ok_bind]
    exact ⟨_, rfl⟩
  · obtain rfl : n = 0 := by omega
    exact ⟨.overflow, by simp [Dst8Naive.new, csub, bind, Except.bind], by simp⟩

/-! ### C38 -/

theorem HonoursSome.runs [Zero T] {p : Proc T} {n s : ℕ} (h : HonoursSome p n s) : ∃ C, RunsW p n s C := by
  obtain ⟨G, h1, h2⟩ := h
  refine ⟨fun f i => (G (vec n f)).getD i 0, fun f scr hs => ?_⟩
  obtain ⟨scr', e, hl⟩ := h2 ⟨vec n f, scr⟩ ⟨by simp, hs⟩
  refine ⟨scr', ?_, hl⟩
  rw [e]
  obtain ⟨g, hg⟩ := exists_vec (h1 (vec n f) (by simp))
  congr 2
  dsimp only
  rw [hg]
  refine vec_congr fun i hi => ?_
  simp [List.getD, hi]

/-- For every element type: an accepted split radix instance is panic-free on valid calls, if the inner instances are, and need no
more scratch than the outer length. -/
theorem C38_splitRadix_safe [Zero T] {half quarter : Obj23 T} {x : Type2And3SplitRadix T} (h : Type2And3SplitRadix.new half quarter = .ok x)
    (hh2 : HonoursSome half.dct2 half.len half.scratchLen) (hh3 : HonoursSome half.dct3 half.len half.scratchLen)
    (hq2 : HonoursSome quarter.dct2 quarter.len quarter.scratchLen) (hq3 : HonoursSome quarter.dct3 quarter.len quarter.scratchLen)
    (hs : half.scratchLen ≤ x.len) (hs' : quarter.scratchLen ≤ x.len) :
    x.len = 2 * half.len ∧ x.scratchLen = x.len ∧
    Safe x.dct2 x.len x.scratchLen ∧ Safe x.dct3 x.len x.scratchLen ∧ Safe x.dst2 x.len x.scratchLen ∧ Safe x.dst3 x.len x.scratchLen := by
  obtain ⟨h1, h2, h3, rfl⟩ := Type2And3SplitRadix.new_shape h
  have e : (Type2And3SplitRadix.inst quarter.len half quarter).scratchLen = 4 * quarter.len := Type2And3SplitRadix.inst_len ..
  rw [Type2And3SplitRadix.inst_len] at *
  rw [h1] at hh2 hh3
  obtain ⟨A, hA⟩ := hh2.runs
  obtain ⟨B, hB⟩ := hh3.runs
  obtain ⟨C, hC⟩ := hq2.runs
  obtain ⟨D, hD⟩ := hq3.runs
  have r2 := Type2And3SplitRadix.dct2_inst h2 hs hs' hA hC
  have r3 := Type2And3SplitRadix.dct3_inst h2 hs hs' hB hD
  rw [e]
  exact ⟨by omega, rfl, r2.safe, r3.safe, (Type2And3SplitRadix.dst2_inst r2).safe, (Type2And3SplitRadix.dst3_inst r3).safe⟩

/-- For every element type: a `Type4ConvertToType3Even` is panic-free on valid calls, if the inner instance is. -/
theorem C38_type4_safe [Zero T] {inner : Obj23 T} {x : Type4ConvertToType3Even T} (h : Type4ConvertToType3Even.new inner = .ok x)
    (hl : inner.len ≠ 0) (h1 : HonoursSome inner.dct3 inner.len inner.scratchLen) (h2 : HonoursSome inner.dst3 inner.len inner.scratchLen) :
    x.len = 2 * inner.len ∧ Safe x.dct4 x.len x.scratchLen ∧ Safe x.dst4 x.len x.scratchLen := by
  rw [Type4ConvertToType3Even.new_eq rfl] at h
  injection h with h
  subst h
  obtain ⟨A, hA⟩ := h1.runs
  obtain ⟨B, hB⟩ := h2.runs
  rw [Type4ConvertToType3Even.inst_len]
  exact ⟨rfl, (Type4ConvertToType3Even.dct4_inst (by omega) hA hB).safe, (Type4ConvertToType3Even.dst4_inst (by omega) hA hB).safe⟩

/-- For every element type: an accepted `MdctViaDct4` is panic-free on valid calls, if the inner instance is. -/
theorem C38_mdct_safe [Zero T] {inner : Obj4 T} {windowFn : ℕ → List T} {x : MdctViaDct4 T} (h : MdctViaDct4.new inner windowFn = .ok x)
    (h1 : HonoursSome inner.dct4 inner.len inner.scratchLen) :
    x.len = inner.len ∧ SafeMdct x.mdct x.len x.scratchLen ∧ SafeImdct x.imdct x.len x.scratchLen := by
  obtain ⟨he, hw, rfl⟩ := MdctViaDct4.new_shape h
  obtain ⟨g, hg⟩ : ∃ g, inner.len = 2 * g := ⟨inner.len / 2, by omega⟩
  obtain ⟨A, hA⟩ := h1.runs
  rw [hg, show 2 * g * 2 = 4 * g by omega] at hw
  rw [hg] at hA
  rw [hg, show 2 * g * 2 = 4 * g by omega]
  obtain ⟨w, hw⟩ := exists_vec hw
  rw [hw]
  have e : MdctViaDct4.len (⟨inner, vec (4 * g) w, 2 * g + inner.scratchLen⟩ : MdctViaDct4 T) = 2 * g := hg
  rw [e]
  exact ⟨rfl, (MdctViaDct4.mdct_vec w hg hA rfl).safe, (MdctViaDct4.imdct_vec w hg hA rfl).safe⟩

end

theorem Honours.runs {p : Proc ℝ} {n s : ℕ} {F : ℕ → (ℕ → ℝ) → ℕ → ℝ} (hF : Local F) (h : Honours p n s (Spec.onList F)) :
    RunsW p n s (F n) := fun f scr hs => by
  obtain ⟨scr', e, hl⟩ := h ⟨vec n f, scr⟩ ⟨by simp, hs⟩
  exact ⟨scr', by rw [e, onList_vec_local F hF], hl⟩

/-- A split radix instance the user composed from any two type 2/3 instances (their own implementations included) which its
constructor accepts and which need no more scratch than the outer length, computes DCT2, DCT3, DST2 and DST3. -/
theorem C38_splitRadix {half quarter : Obj23 ℝ} {x : Type2And3SplitRadix ℝ} (h : Type2And3SplitRadix.new half quarter = .ok x)
    (hh2 : Honours half.dct2 half.len half.scratchLen Spec.dct2) (hh3 : Honours half.dct3 half.len half.scratchLen Spec.dct3)
    (hq2 : Honours quarter.dct2 quarter.len quarter.scratchLen Spec.dct2) (hq3 : Honours quarter.dct3 quarter.len quarter.scratchLen Spec.dct3)
    (hs : half.scratchLen ≤ 2 * half.len) (hs' : quarter.scratchLen ≤ 2 * half.len) :
    x.len = 2 * half.len ∧
    Performs x.dct2 x.len x.scratchLen Spec.dct2 ∧ Performs x.dct3 x.len x.scratchLen Spec.dct3 ∧
    Performs x.dst2 x.len x.scratchLen Spec.dst2 ∧ Performs x.dst3 x.len x.scratchLen Spec.dst3 := by
  obtain ⟨h1, h2, h3, rfl⟩ := Type2And3SplitRadix.new_shape h
  have e : (Type2And3SplitRadix.inst quarter.len half quarter).scratchLen = 4 * quarter.len := Type2And3SplitRadix.inst_len ..
  rw [e, Type2And3SplitRadix.inst_len]
  rw [h1] at hh2 hh3 hs hs' ⊢
  rw [show 2 * (2 * quarter.len) = 4 * quarter.len by omega] at hs hs' ⊢
  have a := hh2.runs local_dct2
  have b := hh3.runs local_dct3
  have c := hq2.runs local_dct2
  have d := hq3.runs local_dct3
  exact ⟨rfl, ((Type2And3SplitRadix.correct_dct2 h2 hs hs' a c).computes local_dct2).performs,
    ((Type2And3SplitRadix.correct_dct3 h2 hs hs' b d).computes local_dct3).performs,
    ((Type2And3SplitRadix.correct_dst2 h2 hs hs' a c).computes local_dst2).performs,
    ((Type2And3SplitRadix.correct_dst3 h2 hs hs' b d).computes local_dst3).performs⟩

/-- A `Type4ConvertToType3Even` composed from any type 3 instance of non-zero length computes DCT4 and DST4. -/
theorem C38_type4 {inner : Obj23 ℝ} {x : Type4ConvertToType3Even ℝ} (h : Type4ConvertToType3Even.new inner = .ok x) (hl : inner.len ≠ 0)
    (h1 : Honours inner.dct3 inner.len inner.scratchLen Spec.dct3) (h2 : Honours inner.dst3 inner.len inner.scratchLen Spec.dst3) :
    x.len = 2 * inner.len ∧ Performs x.dct4 x.len x.scratchLen Spec.dct4 ∧ Performs x.dst4 x.len x.scratchLen Spec.dst4 := by
  rw [Type4ConvertToType3Even.new_eq rfl] at h
  injection h with h
  subst h
  rw [Type4ConvertToType3Even.inst_len]
  have a := h1.runs local_dct3
  have b := h2.runs local_dst3
  exact ⟨rfl, ((Type4ConvertToType3Even.correct_dct4 (by omega) a b).computes local_dct4).performs,
    ((Type4ConvertToType3Even.correct_dst4 (by omega) a b).computes local_dst4).performs⟩

/-- An `MdctViaDct4` composed from any DCT4 instance its constructor accepts computes the MDCT and accumulates the IMDCT under the
window it was given. -/
theorem C38_mdct {inner : Obj4 ℝ} {windowFn : ℕ → List ℝ} {x : MdctViaDct4 ℝ} (h : MdctViaDct4.new inner windowFn = .ok x)
    (h1 : Honours inner.dct4 inner.len inner.scratchLen Spec.dct4) :
    x.len = inner.len ∧
    ComputesMdct x.mdct x.len x.scratchLen (fun a b => Spec.mdct x.len (windowFn (2 * x.len)) (a ++ b)) ∧
    AccumulatesImdct x.imdct x.len x.scratchLen (Spec.imdct x.len (windowFn (2 * x.len))) := by
  obtain ⟨he, hw, rfl⟩ := MdctViaDct4.new_shape h
  obtain ⟨g, hg⟩ : ∃ g, inner.len = 2 * g := ⟨inner.len / 2, by omega⟩
  have a := h1.runs local_dct4
  have e : MdctViaDct4.len (⟨inner, windowFn (inner.len * 2), inner.len + inner.scratchLen⟩ : MdctViaDct4 ℝ) = 2 * g := hg
  rw [e]
  rw [hg, show 2 * g * 2 = 4 * g by omega] at hw
  rw [hg] at a
  rw [show 2 * (2 * g) = 4 * g by omega]
  simp only [hg, show 2 * g * 2 = 4 * g by omega]
  obtain ⟨w, hw⟩ := exists_vec hw
  rw [hw]
  have r := (MdctViaDct4.correct_mdct w hg a rfl).computes
  have r' := (MdctViaDct4.correct_imdct w hg a rfl).accumulates
  rw [show 2 * (2 * g) = 4 * g by omega] at r r'
  exact ⟨trivial, r, r'⟩

/-! Non-vacuity: implementations of the traits that are not the crate's own. -/

/-- A user's own `TransformType2And3` of length `n` that asks for `s` scratch elements and fills scratch with zeros. -/
noncomputable def foreign23 (n s : ℕ) : Obj23 ℝ where
  len := n
  scratchLen := s
  dct2 m := .ok ⟨Spec.dct2 m.buf, m.scr.map fun _ => 0⟩
  dct3 m := .ok ⟨Spec.dct3 m.buf, m.scr.map fun _ => 0⟩
  dst2 m := .ok ⟨Spec.dst2 m.buf, m.scr.map fun _ => 0⟩
  dst3 m := .ok ⟨Spec.dst3 m.buf, m.scr.map fun _ => 0⟩

/-- A user's own `TransformType4`. -/
noncomputable def foreign4 (n s : ℕ) : Obj4 ℝ where
  len := n
  scratchLen := s
  dct4 m := .ok ⟨Spec.dct4 m.buf, m.scr.map fun _ => 0⟩
  dst4 m := .ok ⟨Spec.dst4 m.buf, m.scr.map fun _ => 0⟩

example : ∃ x, Type2And3SplitRadix.new (foreign23 8 5) (foreign23 4 16) = .ok x ∧ x.len = 16 ∧
    Performs x.dct2 x.len x.scratchLen Spec.dct2 ∧ Performs x.dst3 x.len x.scratchLen Spec.dst3 := by
  obtain ⟨x, hx⟩ := (C37_composed (foreign23 8 5) (foreign23 4 16)).1.1 ⟨rfl, 2, rfl⟩
  have h := C38_splitRadix hx (fun m _ => ⟨_, rfl, by simp⟩) (fun m _ => ⟨_, rfl, by simp⟩) (fun m _ => ⟨_, rfl, by simp⟩)
    (fun m _ => ⟨_, rfl, by simp⟩) (by simp [foreign23]) (by simp [foreign23])
  exact ⟨x, hx, h.1, h.2.1, h.2.2.2.2⟩

example : ∃ x, Type4ConvertToType3Even.new (foreign23 5 100) = .ok x ∧ x.len = 10 ∧ Performs x.dct4 x.len x.scratchLen Spec.dct4 := by
  obtain ⟨x, hx⟩ := (C37_composed (foreign23 5 100) (foreign23 0 0)).2.1 trivial
  have h := C38_type4 hx (by simp [foreign23]) (fun m _ => ⟨_, rfl, by simp⟩) (fun m _ => ⟨_, rfl, by simp⟩)
  exact ⟨x, hx, h.1, h.2.1⟩

example : ∃ x, MdctViaDct4.new (foreign4 6 3) (fun n => List.replicate n 1) = .ok x ∧ x.len = 6 ∧
    AccumulatesImdct x.imdct x.len x.scratchLen (Spec.imdct x.len (List.replicate (2 * x.len) 1)) := by
  obtain ⟨x, hx⟩ := (C37_mdct 0 (foreign4 6 3) (fun n => List.replicate n 1)).2.1 ⟨⟨3, rfl⟩, by simp⟩
  have h := C38_mdct hx (fun m _ => ⟨_, rfl, by simp⟩)
  exact ⟨x, hx, h.1, h.2.2⟩

end RustDct
