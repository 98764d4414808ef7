import Verif.ReferenceError
import Verif.Props.Reference
import Verif.Props.Agreement
/-!
# C90: in floating point too, instances agree with the project's reference implementations
-/

set_option linter.all false

namespace RustDct
open Real Finset

section
variable {T F : Type} [F64 F] [DctNum T F] (R : Rounding T F)

theorem Rounding.ap_addF {a b : F} {x y X Y g : ℝ} (ha : Ap (R.valF a) x X g) (hb : Ap (R.valF b) y Y g) : Ap (R.valF (a + b)) (x + y) (X + Y) ((1 + R.v) * g) :=
  (ha.add0 hb).round R.v_nonneg (R.f_add a b)

theorem Rounding.ap_nat2 (n : ℕ) : Ap (R.valF (F64.nat n)) n n ((1 + R.v) ^ 2) :=
  (R.ap_nat n).mono (by have := R.v_nonneg; nlinarith)
theorem Rounding.ap_natHalf (n : ℕ) : Ap (R.valF (F64.nat n + F64.half)) (n + 1 / 2) (n + 1 / 2) ((1 + R.v) ^ 2) :=
  (R.ap_addF (R.ap_nat n) R.ap_halfF).mono (le_of_eq (by ring))
theorem Rounding.ap_natOne (n : ℕ) : Ap (R.valF (F64.nat n + F64.nat 1)) (n + 1) (n + 1) ((1 + R.v) ^ 2) := by
  have := (R.ap_addF (R.ap_nat n) (R.ap_nat 1)).mono (le_of_eq (by ring : _ = (1 + R.v) ^ 2))
  simpa using this

theorem Rounding.nat_den (n : ℕ) : |R.valF (F64.nat n) - n| ≤ (3 * R.v + 2 * R.v ^ 2) * n := by
  refine (R.f_nat n).trans (mul_le_mul_of_nonneg_right ?_ (Nat.cast_nonneg n))
  have := R.v_nonneg
  nlinarith

/-- Dividing by a denominator computed with one subtraction. -/
theorem Rounding.div_den {j : ℕ} {c d : F} {x X y : ℝ} (hy : 0 < y) (h : Ap (R.valF c) x X ((1 + R.v) ^ j)) (hd : |R.valF d - y| ≤ (3 * R.v + 2 * R.v ^ 2) * y) :
    Ap (R.valF (c / d)) (x / y) (X / y) ((1 + R.v) ^ (j + 4) / (1 - R.v)) := by
  have h0 := R.v_nonneg
  have h1 := R.v_le
  have hlt : 3 * R.v + 2 * R.v ^ 2 < 1 := by nlinarith
  obtain ⟨hs, h4⟩ := h.div0 (by positivity) hlt hy hd
  have h5 := h4.round R.v_nonneg (R.f_div _ _ hs)
  refine h5.mono ?_
  rw [← mul_div_assoc, div_le_div_iff₀ (by linarith) (by linarith)]
  have h3 : 1 - R.v ≤ (1 + R.v) ^ 3 * (1 - (3 * R.v + 2 * R.v ^ 2)) := by
    have : (1 + R.v) ^ 3 * (1 - (3 * R.v + 2 * R.v ^ 2)) - (1 - R.v) = R.v * (1 - 8 * R.v - 14 * R.v ^ 2 - 9 * R.v ^ 3 - 2 * R.v ^ 4) := by ring
    have h6 : R.v ^ 2 ≤ (1 / 16) ^ 2 := pow_le_pow_left₀ h0 h1 2
    have h7 : R.v ^ 3 ≤ (1 / 16) ^ 3 := pow_le_pow_left₀ h0 h1 3
    have h8 : R.v ^ 4 ≤ (1 / 16) ^ 4 := pow_le_pow_left₀ h0 h1 4
    have : 0 ≤ R.v * (1 - 8 * R.v - 14 * R.v ^ 2 - 9 * R.v ^ 3 - 2 * R.v ^ 4) := mul_nonneg h0 (by norm_num at h6 h7 h8; linarith)
    linarith
  calc (1 + R.v) * (1 + R.v) ^ j * (1 - R.v) = (1 + R.v) ^ (j + 1) * (1 - R.v) := by ring
    _ ≤ (1 + R.v) ^ (j + 1) * ((1 + R.v) ^ 3 * (1 - (3 * R.v + 2 * R.v ^ 2))) := mul_le_mul_of_nonneg_left h3 (by positivity)
    _ = _ := by ring

/-- The angles of the reference implementations. -/
theorem Rounding.ap_refAngle {a b d : F} {x A y B z c : ℝ} (hz : 0 < z) (ha : Ap (R.valF a) x A ((1 + R.v) ^ 2)) (hb : Ap (R.valF b) y B ((1 + R.v) ^ 2))
    (hd : |R.valF d - z| ≤ (3 * R.v + 2 * R.v ^ 2) * z) (hc : A * B ≤ c * z) :
    Ap (R.valF (a * b * F64.pi / d)) (x * y * π / z) (c * π) ((1 + R.v) ^ 11 / (1 - R.v)) := by
  have h1 : Ap (R.valF (a * b * F64.pi)) (x * y * π) (A * B * π) ((1 + R.v) ^ 7) :=
    (R.ap_mulf (R.ap_mulf ha hb) R.ap_pi).mono (le_of_eq (by ring))
  refine (R.div_den hz h1 hd).monoX ?_
  rw [div_le_iff₀ hz]
  nlinarith [pi_pos]

/-- The factor of a sine or cosine. -/
theorem Rounding.ap_cosF {θ : F} {x c : ℝ} (h : Ap (R.valF θ) x (c * π) ((1 + R.v) ^ 11 / (1 - R.v))) :
    Ap (R.valF (F64.cos θ)) (cos x) 1 (1 + (R.t + c * π * ((1 + R.v) ^ 11 / (1 - R.v) - 1))) := by
  have h0 := R.one_le_ang 11
  refine ⟨by have := mul_nonneg h.X_nonneg (show 0 ≤ (1 + R.v) ^ 11 / (1 - R.v) - 1 by linarith); linarith [R.t_nonneg], abs_cos_le_one x, ?_⟩
  have h2 : |cos (R.valF θ) - cos x| ≤ |R.valF θ - x| := Real.abs_cos_sub_cos_le _ _
  have h3 := abs_sub_le (R.valF (F64.cos θ)) (cos (R.valF θ)) (cos x)
  linarith [h.err, R.f_cos θ]
theorem Rounding.ap_sinF {θ : F} {x c : ℝ} (h : Ap (R.valF θ) x (c * π) ((1 + R.v) ^ 11 / (1 - R.v))) :
    Ap (R.valF (F64.sin θ)) (sin x) 1 (1 + (R.t + c * π * ((1 + R.v) ^ 11 / (1 - R.v) - 1))) := by
  have h0 := R.one_le_ang 11
  refine ⟨by have := mul_nonneg h.X_nonneg (show 0 ≤ (1 + R.v) ^ 11 / (1 - R.v) - 1 by linarith); linarith [R.t_nonneg], abs_sin_le_one x, ?_⟩
  have h2 : |sin (R.valF θ) - sin x| ≤ |R.valF θ - x| := Real.abs_sin_sub_sin_le _ _
  have h3 := abs_sub_le (R.valF (F64.sin θ)) (sin (R.valF θ)) (sin x)
  linarith [h.err, R.f_sin θ]

variable {a c : F} {x τ g X : ℝ}

/-- A product without and with the factor for boundary samples. -/
theorem Rounding.ap_plain (ha : Ap (R.valF a) x X 1) (h : Ap (R.valF c) τ 1 g) : Ap (R.valF (a * c)) (x * τ) X ((1 + R.v) ^ 3 * g) := by
  have h1 := R.ap_mulf ha h
  rw [mul_one] at h1
  refine h1.mono ?_
  have := R.v_nonneg
  have := pow_le_pow_right₀ R.one_le_v (show 1 ≤ 3 by norm_num)
  nlinarith [h.one_le]
theorem Rounding.ap_boundary {p : Prop} [Decidable p] (ha : Ap (R.valF a) x X 1) (h : Ap (R.valF c) τ 1 g) :
    Ap (R.valF (a * c * (if p then F64.half else F64.nat 1))) (x * τ * (if p then F64.half else F64.nat 1 : ℝ)) X ((1 + R.v) ^ 3 * g) := by
  have hw : Ap (R.valF (if p then F64.half else F64.nat 1)) (if p then F64.half else F64.nat 1 : ℝ) 1 (1 + R.v) := by
    split
    · exact R.ap_halfF.monoX (by norm_num)
    · simpa using R.ap_nat 1
  have h1 := R.ap_mulf (R.ap_mulf ha h) hw
  rw [mul_one, mul_one] at h1
  exact h1.mono (le_of_eq (by ring))

theorem Rounding.valF_nat_zero : R.valF (F64.nat 0) = 0 := by
  have := R.f_nat 0
  simpa using this

/-- The inner loop. -/
theorem Rounding.ap_loop {n : ℕ} {f : ℕ → F} {fr X : ℕ → ℝ} {g : ℝ} (hg : 1 ≤ g) (h : ∀ i < n, Ap (R.valF (f i)) (fr i) (X i) g) :
    Ap (R.valF ((List.range n).foldl (fun s i => s + f i) (F64.nat 0))) ((List.range n).foldl (fun s i => s + fr i) (F64.nat 0)) (∑ i ∈ range n, X i) ((1 + R.v) ^ n * g) := by
  induction n with
  | zero =>
    have : Ap (R.valF (F64.nat 0)) (F64.nat 0 : ℝ) 0 g := by
      refine ⟨hg, by simp, ?_⟩
      rw [R.valF_nat_zero]; simp
    simpa using this
  | succ n ih =>
    rw [List.range_succ, List.foldl_append, List.foldl_append, sum_range_succ]
    have h1 := ih fun i hi => h i (by omega)
    have h2 := (h n (by omega)).mono (show g ≤ (1 + R.v) ^ n * g by have := one_le_pow₀ (n := n) R.one_le_v; nlinarith)
    exact (R.ap_addF h1 h2).mono (le_of_eq (by ring))

theorem Rounding.loops_near {n : ℕ} {f : ℕ → ℕ → F} {fr : ℕ → ℕ → ℝ} {X : ℕ → ℝ} {g : ℝ} (hg : 1 ≤ g) (h : ∀ k < n, ∀ i < n, Ap (R.valF (f k i)) (fr k i) (X i) g) :
    Spec.EntryNear (((1 + R.v) ^ n * g - 1) * ∑ i ∈ range n, X i) ((Reference.loops n f).map R.valF) (Reference.loops n fr) := by
  refine ⟨by simp [Reference.loops], fun p hp => ?_⟩
  obtain ⟨j, hj, rfl⟩ := List.mem_iff_getElem.1 hp
  simp only [Reference.loops, List.getElem_zip, List.getElem_map, List.getElem_range]
  exact (R.ap_loop hg (h j (by simpa [Reference.loops] using hj))).err

end

section
variable {T F : Type} [F64 F] [DctNum T F] {R : Rounding T F}

theorem ap_entry (x : List F) {i : ℕ} (hi : i < x.length) : Ap (R.valF (x.getD i (F64.nat 0))) ((x.map R.valF).getD i (F64.nat 0)) |R.valF (x.getD i (F64.nat 0))| 1 := by
  have e : (x.map R.valF).getD i (F64.nat 0) = R.valF (x.getD i (F64.nat 0)) := by
    simp [List.getD_eq_getElem?_getD, List.getElem?_eq_getElem hi]
  rw [e]
  exact Ap.exact _

theorem sum_entries (x : List F) : ∑ i ∈ range x.length, |R.valF (x.getD i (F64.nat 0))| = (x.map fun a => |R.valF a|).sum := by
  have e : x.map (fun a => |R.valF a|) = (List.range x.length).map fun i => |R.valF (x.getD i (F64.nat 0))| := by
    apply List.ext_getElem
    · simp
    · intro i h1 h2
      have hi : i < x.length := by simpa using h1
      simp [List.getD_eq_getElem?_getD, List.getElem?_eq_getElem hi]
  rw [e]
  generalize x.length = n
  induction n with
  | zero => simp
  | succ n ih => rw [sum_range_succ, List.range_succ, List.map_append, List.sum_append, ← ih]; simp

theorem Rounding.refErr_eq (R : Rounding T F) (n : ℕ) (c : ℝ) : (1 + R.v) ^ n * ((1 + R.v) ^ 3 * (1 + (R.t + c * π * ((1 + R.v) ^ 11 / (1 - R.v) - 1)))) - 1 = R.refErr n c := by
  unfold Rounding.refErr
  ring

theorem Rounding.one_le_trig (R : Rounding T F) {c : ℝ} (hc : 0 ≤ c) : 1 ≤ (1 + R.v) ^ 3 * (1 + (R.t + c * π * ((1 + R.v) ^ 11 / (1 - R.v) - 1))) := by
  have h0 := R.one_le_ang 11
  have h1 := one_le_pow₀ (n := 3) R.one_le_v
  have h2 := mul_nonneg (mul_nonneg hc pi_pos.le) (show 0 ≤ (1 + R.v) ^ 11 / (1 - R.v) - 1 by linarith)
  nlinarith [R.t_nonneg]

/-- Every term of the inner loop is accurate. -/
theorem near_of_terms (x : List F) {f : ℕ → ℕ → F} {fr : ℕ → ℕ → ℝ}
    (h : ∀ k < x.length, ∀ i < x.length, Ap (R.valF (f k i)) (fr k i) |R.valF (x.getD i (F64.nat 0))|
      ((1 + R.v) ^ 3 * (1 + (R.t + x.length * π * ((1 + R.v) ^ 11 / (1 - R.v) - 1))))) :
    Spec.EntryNear (R.refErr x.length x.length * (x.map fun a => |R.valF a|).sum) ((Reference.loops x.length f).map R.valF) (Reference.loops x.length fr) := by
  have := R.loops_near (R.one_le_trig (Nat.cast_nonneg x.length)) h
  rwa [sum_entries, R.refErr_eq] at this

/-- The reference implementations in `F` and in exact arithmetic. -/
theorem Kind.reference_near (k : Kind) (x : List F) (h1 : k = .dct1 → x.length ≠ 1) :
    Spec.EntryNear (R.refErr x.length x.length * (x.map fun a => |R.valF a|).sum) ((k.reference x).map R.valF) (k.reference (x.map R.valF)) := by
  cases k <;> simp only [Kind.reference, Reference.dct1, Reference.dct2, Reference.dct3, Reference.dct4, Reference.dct5, Reference.dct6, Reference.dct7, Reference.dct8,
    Reference.dst1, Reference.dst2, Reference.dst3, Reference.dst4, Reference.dst5, Reference.dst6, Reference.dst7, Reference.dst8, List.length_map] <;>
    refine near_of_terms x fun k hk i hi => ?_ <;> have hn : 1 ≤ x.length := by omega
  all_goals
    have hk' : (k : ℝ) + 1 ≤ x.length := by exact_mod_cast hk
    have hi' : (i : ℝ) + 1 ≤ x.length := by exact_mod_cast hi
    have hk0 : (0 : ℝ) ≤ k := Nat.cast_nonneg k
    have hi0 : (0 : ℝ) ≤ i := Nat.cast_nonneg i
    have hn' : (1 : ℝ) ≤ x.length := by exact_mod_cast hn
    first
      | refine R.ap_boundary (ap_entry x hi) ?_
      | refine R.ap_plain (ap_entry x hi) ?_
    first
      | refine R.ap_cosF ?_
      | refine R.ap_sinF ?_
    simp only [f64_nat, f64_pi, f64_half]
    refine R.ap_refAngle ?_ (by first | exact R.ap_nat2 _ | exact R.ap_natHalf _ | simpa using R.ap_natOne _) (by first | exact R.ap_nat2 _ | exact R.ap_natHalf _ | simpa using R.ap_natOne _)
      (by first | exact R.nat_den _ | exact R.nat_sub_half hn | exact R.nat_add_half _) ?_
  case dct1.refine_1 =>
    have := h1 rfl
    exact_mod_cast (show 0 < x.length - 1 by omega)
  all_goals try push_cast [hn]
  all_goals first | linarith | positivity | nlinarith

/-- In exact arithmetic the reference implementations are the textbook transforms (C88). -/
theorem Kind.reference_eq (k : Kind) {x : List ℝ} (h1 : k = .dct1 → x.length ≠ 1) : k.reference x = k.spec x := by
  cases k <;> simp only [Kind.reference, Kind.spec, Reference.dct2_eq, Reference.dct3_eq, Reference.dct4_eq, Reference.dct5_eq, Reference.dct6_eq, Reference.dct7_eq, Reference.dct8_eq,
    Reference.dst1_eq, Reference.dst2_eq, Reference.dst3_eq, Reference.dst4_eq, Reference.dst5_eq, Reference.dst6_eq, Reference.dst7_eq, Reference.dst8_eq]
  exact Reference.dct1_eq (h1 rfl)

/-- C90: each entry the reference implementation of a transform computes differs from the textbook transform by at most `refErr` times the sum of the absolute values of the
input. (`reference_dct1` of a single number is `0 / 0`.) -/
theorem C90_reference (R : Rounding T F) (k : Kind) (x : List F) (h1 : k = .dct1 → x.length ≠ 1) :
    Spec.EntryNear (R.refErr x.length x.length * (x.map fun a => |R.valF a|).sum) ((k.reference x).map R.valF) (k.spec (x.map R.valF)) := by
  rw [← k.reference_eq (by simpa using h1)]
  exact k.reference_near x h1

theorem Spec.EntryNear.norm2 {c : ℝ} {y z : List ℝ} {m : ℕ} (h : Spec.EntryNear c y z) (hm : z.length = m) : Spec.norm2 (List.zipWith (· - ·) y z) ≤ √m * c := by
  obtain ⟨l, h⟩ := h
  rcases Nat.eq_zero_or_pos m with rfl | h0
  · rw [List.length_eq_zero_iff.1 hm]; simp [Spec.norm2]
  obtain ⟨f, rfl⟩ := exists_vec (l.trans hm)
  obtain ⟨g, rfl⟩ := exists_vec hm
  have H : ∀ i < m, |f i - g i| ≤ c := fun i hi => h (f i, g i) (by
    refine List.mem_iff_getElem.2 ⟨i, by simpa using hi, by simp [vec]⟩)
  have hc : 0 ≤ c := (abs_nonneg _).trans (H 0 h0)
  rw [zipWith_vec_same, norm2_vec]
  unfold wn
  rw [sqrt_le_left (mul_nonneg (sqrt_nonneg _) hc), mul_pow, sq_sqrt (Nat.cast_nonneg m)]
  calc ∑ i ∈ range m, 1 * ‖f i - g i‖ ^ 2 ≤ ∑ i ∈ range m, c ^ 2 := sum_le_sum fun i hi => by
        rw [one_mul]; exact pow_le_pow_left₀ (norm_nonneg _) (H i (mem_range.1 hi)) 2
    _ = _ := by simp

theorem abs_sum_le_norm2 {x : List ℝ} {m : ℕ} (hm : x.length = m) : (x.map fun a => |a|).sum ≤ √m * Spec.norm2 x := by
  obtain ⟨f, rfl⟩ := exists_vec hm
  rw [map_vec, sum_vec_real, norm2_vec]
  unfold wn
  rw [← sqrt_mul (Nat.cast_nonneg m)]
  refine Real.le_sqrt_of_sq_le ?_
  have := sq_sum_le_card_mul_sum_sq (s := range m) (f := fun i => |f i|)
  simpa using this

theorem Rounding.refErr_nonneg (R : Rounding T F) (m : ℕ) {c : ℝ} (hc : 0 ≤ c) : 0 ≤ R.refErr m c := by
  rw [← R.refErr_eq, sub_nonneg]
  have h1 := one_le_pow₀ (n := m) R.one_le_v
  have h2 := R.one_le_trig hc
  nlinarith

theorem sqrt_mul_sqrt (n : ℕ) : √(n : ℝ) * √n = n := mul_self_sqrt (Nat.cast_nonneg n)

/-- The reference implementation in the Euclidean norm. -/
theorem reference_norm2 (R : Rounding T F) (k : Kind) {y : List F} {n : ℕ} (hy : y.length = n) (h1 : k = .dct1 → 2 ≤ n) :
    Spec.norm2 (List.zipWith (· - ·) ((k.reference y).map R.valF) (k.spec (y.map R.valF))) ≤ n * R.refErr n n * Spec.norm2 (y.map R.valF) := by
  subst hy
  have a := (C90_reference R k y fun e => by have := h1 e; omega).norm2 (m := y.length) (by cases k <;> simp [Kind.spec, Spec.dct1, Spec.dct2, Spec.dct3, Spec.dct4, Spec.dct5, Spec.dct6, Spec.dct7, Spec.dct8, Spec.dst1, Spec.dst2, Spec.dst3, Spec.dst4, Spec.dst5, Spec.dst6, Spec.dst7, Spec.dst8, Spec.onList])
  have b := abs_sum_le_norm2 (x := y.map R.valF) (m := y.length) (by simp)
  rw [List.map_map] at b
  refine a.trans ?_
  calc √(y.length : ℝ) * (R.refErr y.length y.length * (y.map fun a => |R.valF a|).sum)
      ≤ √(y.length : ℝ) * (R.refErr y.length y.length * (√(y.length : ℝ) * Spec.norm2 (y.map R.valF))) :=
        mul_le_mul_of_nonneg_left (mul_le_mul_of_nonneg_left b (R.refErr_nonneg _ (Nat.cast_nonneg _))) (sqrt_nonneg _)
    _ = (√(y.length : ℝ) * √(y.length : ℝ)) * R.refErr y.length y.length * Spec.norm2 (y.map R.valF) := by ring
    _ = _ := by rw [sqrt_mul_sqrt]

theorem nearList {p : Proc T} {k : Kind} {n s : ℕ} {ε : ℝ} (A : ApproximatesZeroed R p n s k.spec ε) (h1 : k = .dct1 → 2 ≤ n) {x : List T} {y : List F} (hx : x.length = n)
    (hxy : y.map R.valF = x.map R.val) :
    NearList R p s x ((k.reference y).map R.valF) (ε * Spec.norm2 (k.spec (x.map R.val)) + n * R.refErr n n * Spec.norm2 (x.map R.val)) := by
  have hy : y.length = n := by simpa [hx] using congrArg List.length hxy
  obtain ⟨out, e, l, h⟩ := A.2 x hx
  have hr := reference_norm2 R k hy h1
  have ls : ∀ z : List ℝ, (k.spec z).length = z.length := fun z => by
    cases k <;> simp [Kind.spec, Spec.dct1, Spec.dct2, Spec.dct3, Spec.dct4, Spec.dct5, Spec.dct6, Spec.dct7, Spec.dct8, Spec.dst1, Spec.dst2, Spec.dst3, Spec.dst4, Spec.dst5, Spec.dst6, Spec.dst7, Spec.dst8, Spec.onList]
  have lr := (C90_reference R k y fun e => by have := h1 e; omega).1
  rw [hxy] at hr lr
  have lo : out.length = x.length := by rw [ls] at l; simpa using l
  refine ⟨out, e, lo, by rw [lr, ls]; simp, ?_⟩
  have tri := norm2_tri (x := out.map R.val) (y := (k.reference y).map R.valF) (z := k.spec (x.map R.val)) (by simpa using l) lr
  linarith

variable {planFft : ℕ → Fft T} {φ : ℕ → ℝ} {ψ : ℝ} {calls : List (PlanCall T)} {k : Kind} {p : Proc T} {n s : ℕ}

/-- C90: a planned instance and the reference implementation, given the same numbers, return the same up to the error bound of the instance (C51) and that of the
reference implementation. -/
theorem C90_planned (hf : PlanFftAccurate R planFft φ) (h : Planned planFft calls k p n s) (hn : 1 ≤ n) {x : List T} {y : List F} (hx : x.length = n) (hxy : y.map R.valF = x.map R.val) :
    NearList R p s x ((k.reference y).map R.valF) (k.boundary * R.err φ k n * Spec.norm2 (k.spec (x.map R.val)) + n * R.refErr n n * Spec.norm2 (x.map R.val)) :=
  nearList (C51_planned_zeroed hf h hn) (h.two_le hf.shape) hx hxy

/-- C90: so does an instance built by hand. -/
theorem C90_constructed (hψ : 0 ≤ ψ) (h : Method (fun f => FftAccurate R f ψ) k p n s) (hn : 1 ≤ n) {x : List T} {y : List F} (hx : x.length = n) (hxy : y.map R.valF = x.map R.val) :
    NearList R p s x ((k.reference y).map R.valF) (k.boundary * R.made ψ k n * Spec.norm2 (k.spec (x.map R.val)) + n * R.refErr n n * Spec.norm2 (x.map R.val)) :=
  nearList (C67_constructed hψ h hn).1 h.two_le_dct1 hx hxy

/-! ### MDCT and IMDCT -/

theorem Rounding.ap_mdctCos (R : Rounding T F) {i j : ℕ} (hi : i < 2 * n) (hj : j < n) :
    Ap (R.valF (Reference.mdctCos n i j)) (Reference.mdctCos n i j : ℝ) 1 (1 + (R.t + 5 / 2 * n * π * ((1 + R.v) ^ 11 / (1 - R.v) - 1))) := by
  have hi' : (i : ℝ) + 1 ≤ 2 * n := by exact_mod_cast hi
  have hj' : (j : ℝ) + 1 ≤ n := by exact_mod_cast hj
  have hi0 : (0 : ℝ) ≤ i := Nat.cast_nonneg i
  have hj0 : (0 : ℝ) ≤ j := Nat.cast_nonneg j
  have hn0 : (0 : ℝ) < n := by linarith
  have h1 := (R.ap_mulf (R.ap_nat n) R.ap_halfF).mono (le_of_eq (by ring : _ = (1 + R.v) ^ 3))
  have h2 := (R.ap_natHalf i).mono (pow_le_pow_right₀ R.one_le_v (show 2 ≤ 3 by norm_num))
  have h3 := R.ap_mulf (R.ap_mulf R.ap_pi (R.ap_addF h2 h1)) (R.ap_natHalf j)
  obtain ⟨hs, h4⟩ := h3.div0 R.v_nonneg R.v_lt hn0 (R.f_nat n)
  have h5 := h4.round R.v_nonneg (R.f_div _ _ hs)
  unfold Reference.mdctCos
  refine R.ap_cosF ?_
  simp only [f64_nat, f64_pi, f64_half]
  refine (h5.mono ?_).monoX ?_
  · exact le_trans (le_of_eq (by ring)) (R.ang_mono (show 10 ≤ 11 by norm_num))
  · rw [div_le_iff₀ hn0]
    have : ((i : ℝ) + 1 / 2 + n * (1 / 2)) * (j + 1 / 2) ≤ 5 / 2 * n * n := by nlinarith
    nlinarith [pi_pos]

theorem zip_entry {A B C D : Type} {f : A → C} {g : B → D} {x : List A} {y : List B} {c : C × D} (h : c ∈ List.zip (x.map f) (y.map g)) :
    ∃ j, ∃ (hx : j < x.length) (hy : j < y.length), c = (f x[j], g y[j]) := by
  obtain ⟨j, hj, rfl⟩ := List.mem_iff_getElem.1 h
  have := hj
  simp only [List.length_zip, List.length_map] at this
  exact ⟨j, by omega, by omega, by simp⟩

/-- C90: `slow_mdct`, the reference implementation of the MDCT. -/
theorem C90_slowMdct (R : Rounding T F) {x : List F} {w : ℕ → List F} (hx : x.length = 2 * n) (hw : (w (2 * n)).length = 2 * n) :
    Spec.EntryNear (R.refErr (2 * n) (5 / 2 * n) * (List.zipWith (fun a b => |R.valF a * R.valF b|) x (w (2 * n))).sum)
      ((Reference.slowMdct x w).map R.valF) (Spec.mdct n ((w (2 * n)).map R.valF) (x.map R.valF)) := by
  have e := Reference.slowMdct_eq (n := n) (x := x.map R.valF) (w := fun m => (w m).map R.valF) (by simpa using hx) (by simpa using hw)
  beta_reduce at e
  rw [← e]
  refine ⟨by simp [Reference.slowMdct], fun q hq => ?_⟩
  have hsum : (List.zipWith (fun a b => |R.valF a * R.valF b|) x (w (2 * n))).sum =
      ∑ i ∈ range (2 * n), |R.valF (x.getD i (F64.nat 0)) * R.valF ((w (2 * n)).getD i (F64.nat 0))| := by
    rw [← sum_vec_real]
    congr 1
    apply List.ext_getElem
    · simp [hx, hw]
    · intro i h1 h2
      have hi : i < 2 * n := by simpa using h2
      simp [vec, List.getD_eq_getElem?_getD, List.getElem?_eq_getElem (show i < x.length by omega), List.getElem?_eq_getElem (show i < (w (2 * n)).length by omega)]
  rw [hsum]
  unfold Reference.slowMdct at hq
  dsimp only at hq
  rw [List.map_map, List.length_map, hx, show 2 * n / 2 = n by omega] at hq
  obtain ⟨j, hj, -, rfl⟩ := zip_entry hq
  simp only [List.length_range] at hj
  rw [List.getElem_range]
  have L := R.ap_loop (n := 2 * n) (R.one_le_trig (c := 5 / 2 * n) (by positivity))
    (f := fun i => (List.zipWith (· * ·) x (w (2 * n))).getD i (F64.nat 0) * Reference.mdctCos n i j)
    (fr := fun i => (List.zipWith (· * ·) (x.map R.valF) ((w (2 * n)).map R.valF)).getD i (F64.nat 0) * Reference.mdctCos n i j)
    (X := fun i => |R.valF (x.getD i (F64.nat 0)) * R.valF ((w (2 * n)).getD i (F64.nat 0))|) (fun i hi => by
      have h1 : i < x.length := by omega
      have h2 : i < (w (2 * n)).length := by omega
      beta_reduce
      simp only [List.getD_eq_getElem?_getD, List.getElem?_zipWith, List.getElem?_map, List.getElem?_eq_getElem h1, List.getElem?_eq_getElem h2, Option.map_some, Option.getD_some,
        Option.bind_some, Option.map_eq_map]
      have A := R.ap_mulf (Ap.exact (R.valF x[i])) (Ap.exact (R.valF (w (2 * n))[i]))
      have B := R.ap_mulf A (R.ap_mdctCos (n := n) hi hj)
      rw [mul_one, ← abs_mul] at B
      refine B.mono ?_
      have h0 := (R.ap_mdctCos (n := n) hi hj).one_le
      have h3 := pow_le_pow_right₀ R.one_le_v (show 2 ≤ 3 by norm_num)
      nlinarith)
  have := L.err
  rwa [R.refErr_eq] at this

/-- C90: `slow_imdct`, the reference implementation of the IMDCT. -/
theorem C90_slowImdct (R : Rounding T F) {x : List F} {w : ℕ → List F} {M : ℝ} (hx : x.length = n) (hw : (w (2 * n)).length = 2 * n) (hM : ∀ a ∈ w (2 * n), |R.valF a| ≤ M) :
    Spec.EntryNear (R.refErr n (5 / 2 * n) * (M * (x.map fun a => |R.valF a|).sum)) ((Reference.slowImdct x w).map R.valF) (Spec.imdct n ((w (2 * n)).map R.valF) (x.map R.valF)) := by
  have e := Reference.slowImdct_eq (n := n) (x := x.map R.valF) (w := fun m => (w m).map R.valF) (by simpa using hx) (by simpa using hw)
  beta_reduce at e
  rw [← e]
  refine ⟨by simp [Reference.slowImdct, hx, hw, Nat.mul_comm n 2], fun q hq => ?_⟩
  obtain ⟨j, hj, rfl⟩ := List.mem_iff_getElem.1 hq
  have hj' : j < 2 * n := by simpa [Reference.slowImdct, hx, hw, Nat.mul_comm n 2] using hj
  have hjw : j < (w (2 * n)).length := by omega
  rw [List.getElem_zip, List.getElem_map]
  simp only [Reference.slowImdct, List.getElem_zipWith, List.getElem_map, List.getElem_range, List.length_map, List.length_range, hx, Nat.mul_comm n 2]
  have L := R.ap_loop (n := n) (g := (1 + R.v) * (1 + (R.t + 5 / 2 * n * π * ((1 + R.v) ^ 11 / (1 - R.v) - 1)))) (by
      have h0 := (R.ap_mdctCos (n := n) (i := 0) (j := 0) (by omega) (by omega)).one_le
      have := R.v_nonneg
      nlinarith)
    (f := fun i => x.getD i (F64.nat 0) * Reference.mdctCos n j i) (fr := fun i => (x.map R.valF).getD i (F64.nat 0) * Reference.mdctCos n j i)
    (X := fun i => |R.valF (x.getD i (F64.nat 0))|) (fun i hi => by
      have B := R.ap_mulf (ap_entry (R := R) x (show i < x.length by omega)) (R.ap_mdctCos (n := n) hj' hi)
      rw [mul_one] at B
      exact B.mono (le_of_eq (by ring)))
  have W := R.ap_mulf L (Ap.exact' (hM _ (List.getElem_mem hjw)))
  have h := W.err
  have hs : ∑ i ∈ range n, |R.valF (x.getD i (F64.nat 0))| = (x.map fun a => |R.valF a|).sum := by rw [← hx]; exact sum_entries x
  rw [hs, mul_comm _ M] at h
  refine h.trans (mul_le_mul_of_nonneg_right ?_ (by rw [mul_comm, ← hs, mul_comm]; exact W.X_nonneg.trans (le_of_eq (mul_comm _ _))))
  rw [← R.refErr_eq]
  have h0 := (R.ap_mdctCos (n := n) (i := 0) (j := 0) (by omega) (by omega)).one_le
  have h1 : (1 + R.v) * ((1 + R.v) ^ n * ((1 + R.v) * (1 + (R.t + 5 / 2 * n * π * ((1 + R.v) ^ 11 / (1 - R.v) - 1)))) * 1) =
      (1 + R.v) ^ n * ((1 + R.v) ^ 2 * (1 + (R.t + 5 / 2 * n * π * ((1 + R.v) ^ 11 / (1 - R.v) - 1)))) := by ring
  rw [h1]
  have := mul_le_mul_of_nonneg_left (mul_le_mul_of_nonneg_right (pow_le_pow_right₀ R.one_le_v (show 2 ≤ 3 by norm_num)) (show 0 ≤ 1 + (R.t + 5 / 2 * n * π * ((1 + R.v) ^ 11 / (1 - R.v) - 1)) by linarith))
    (show 0 ≤ (1 + R.v) ^ n from pow_nonneg (by linarith [R.v_nonneg]) n)
  linarith

variable {w : ℕ → List T} {win : List T} {o : MdctObj T} {wF : ℕ → List F} {M γ : ℝ}

theorem WindowNear.size {v : List ℝ} {win : List T} (h : WindowNear R win v M γ) : ∀ b ∈ v, |b| ≤ M := by
  intro b hb
  obtain ⟨j, hj, rfl⟩ := List.mem_iff_getElem.1 hb
  have hj' : j < win.length := by rw [h.1]; exact hj
  exact (h.2.2.2 (win[j], v[j]) (List.mem_iff_getElem.2 ⟨j, by simp [hj, hj'], by simp⟩)).1

theorem sqrt_two_mul_self (n : ℕ) : √(n : ℝ) * √((2 * n : ℕ) : ℝ) = √2 * n := by
  push_cast
  rw [sqrt_mul (by norm_num), show √(n : ℝ) * (√2 * √(n : ℝ)) = √2 * (√(n : ℝ) * √n) by ring, sqrt_mul_sqrt]

theorem slowMdct_norm2 (R : Rounding T F) {y : List F} (hy : y.length = 2 * n) (hw : (wF (2 * n)).length = 2 * n) (hM : ∀ a ∈ wF (2 * n), |R.valF a| ≤ M) :
    Spec.norm2 (List.zipWith (· - ·) ((Reference.slowMdct y wF).map R.valF) (Spec.mdct n ((wF (2 * n)).map R.valF) (y.map R.valF))) ≤
      √2 * n * M * R.refErr (2 * n) (5 / 2 * n) * Spec.norm2 (y.map R.valF) := by
  have a := (C90_slowMdct R hy hw).norm2 (m := n) (by simp [Spec.mdct])
  have b := abs_sum_le_norm2 (x := y.map R.valF) (m := 2 * n) (by simpa using hy)
  rcases Nat.eq_zero_or_pos n with h0 | h0
  · subst h0
    refine a.trans ?_
    simp
  have hM0 : 0 ≤ M := (abs_nonneg _).trans (hM _ (List.getElem_mem (show 0 < (wF (2 * n)).length by omega)))
  have c : (List.zipWith (fun a b => |R.valF a * R.valF b|) y (wF (2 * n))).sum ≤ M * ((y.map R.valF).map fun a => |a|).sum := by
    have : ∀ (l : List F) (l' : List F), (∀ a ∈ l', |R.valF a| ≤ M) → (List.zipWith (fun a b => |R.valF a * R.valF b|) l l').sum ≤ M * ((l.map R.valF).map fun a => |a|).sum := by
      intro l
      induction l with
      | nil => simp
      | cons a l ih =>
        intro l' hl
        have hs : 0 ≤ ((l.map R.valF).map fun a => |a|).sum := List.sum_nonneg (by simp)
        cases l' with
        | nil => simp only [List.zipWith_nil_right, List.sum_nil, List.map_cons, List.sum_cons]; have := abs_nonneg (R.valF a); positivity
        | cons b l' =>
          simp only [List.zipWith_cons_cons, List.sum_cons, List.map_cons, abs_mul]
          have h1 := ih l' fun c hc => hl c (List.mem_cons_of_mem _ hc)
          have h2 := mul_le_mul_of_nonneg_left (hl b (List.mem_cons_self)) (abs_nonneg (R.valF a))
          simp only [abs_mul] at h1
          nlinarith
    exact this y _ hM
  have hr := R.refErr_nonneg (2 * n) (c := 5 / 2 * n) (by positivity)
  refine a.trans ?_
  calc _ ≤ √(n : ℝ) * (R.refErr (2 * n) (5 / 2 * n) * (M * (√((2 * n : ℕ) : ℝ) * Spec.norm2 (y.map R.valF)))) :=
        mul_le_mul_of_nonneg_left (mul_le_mul_of_nonneg_left (c.trans (mul_le_mul_of_nonneg_left b hM0)) hr) (sqrt_nonneg _)
    _ = (√(n : ℝ) * √((2 * n : ℕ) : ℝ)) * M * R.refErr (2 * n) (5 / 2 * n) * Spec.norm2 (y.map R.valF) := by ring
    _ = _ := by rw [sqrt_two_mul_self]

theorem slowImdct_norm2 (R : Rounding T F) {y : List F} (hy : y.length = n) (hw : (wF (2 * n)).length = 2 * n) (hM : ∀ a ∈ wF (2 * n), |R.valF a| ≤ M) :
    Spec.norm2 (List.zipWith (· - ·) ((Reference.slowImdct y wF).map R.valF) (Spec.imdct n ((wF (2 * n)).map R.valF) (y.map R.valF))) ≤
      √2 * n * M * R.refErr n (5 / 2 * n) * Spec.norm2 (y.map R.valF) := by
  have a := (C90_slowImdct R hy hw hM).norm2 (m := 2 * n) (by simp [Spec.imdct])
  have b := abs_sum_le_norm2 (x := y.map R.valF) (m := n) (by simpa using hy)
  rw [List.map_map] at b
  rcases Nat.eq_zero_or_pos n with h0 | h0
  · subst h0
    refine a.trans ?_
    simp
  have hM0 : 0 ≤ M := (abs_nonneg _).trans (hM _ (List.getElem_mem (show 0 < (wF (2 * n)).length by omega)))
  have hr := R.refErr_nonneg n (c := 5 / 2 * n) (by positivity)
  refine a.trans ?_
  calc _ ≤ √((2 * n : ℕ) : ℝ) * (R.refErr n (5 / 2 * n) * (M * (√(n : ℝ) * Spec.norm2 (y.map R.valF)))) :=
        mul_le_mul_of_nonneg_left (mul_le_mul_of_nonneg_left (mul_le_mul_of_nonneg_left b hM0) hr) (sqrt_nonneg _)
    _ = (√(n : ℝ) * √((2 * n : ℕ) : ℝ)) * M * R.refErr n (5 / 2 * n) * Spec.norm2 (y.map R.valF) := by ring
    _ = _ := by rw [sqrt_two_mul_self]

/-- C90 for the MDCT: a planned instance and `slow_mdct`, given the same numbers. `wF` is the window function of the reference; the window the instance applies differs from it by
at most `γ M`, `M` being a bound for the window. -/
theorem C90_mdct (hf : PlanFftAccurate R planFft φ) (h : PlannedMdct planFft calls n w o) (hn : 1 ≤ n)
    (hw : WindowNear R (effectiveWindow n calls w (2 * n)) ((wF (2 * n)).map R.valF) M γ) {a b : List T} {m : Mem T} {y : List F} (hm : ValidMdct n o.scratchLen a b m)
    (hy : y.map R.valF = (a ++ b).map R.val) :
    ∃ r, o.mdct a b m = .ok r ∧ r.buf.length = n ∧ (Reference.slowMdct y wF).length = n ∧
      Spec.norm2 (List.zipWith (· - ·) (r.buf.map R.val) ((Reference.slowMdct y wF).map R.valF)) ≤
        (√n * M * R.lap γ (R.err φ .dct4 n) + √2 * n * M * R.refErr (2 * n) (5 / 2 * n)) * Spec.norm2 ((a ++ b).map R.val) := by
  obtain ⟨r, e, l, H⟩ := (C54_planned hf h hn hw).2 a b m hm
  obtain ⟨-, -, hv, -⟩ := h.acc hf hn hw
  have hv : (wF (2 * n)).length = 2 * n := by simpa using hv
  have ly : y.length = 2 * n := by
    have := congrArg List.length hy
    simp only [List.length_map, List.length_append, hm.1, hm.2.1] at this
    omega
  have ls : (Reference.slowMdct y wF).length = n := by simp [Reference.slowMdct, ly]
  refine ⟨r, e, l, ls, ?_⟩
  have H' := slowMdct_norm2 R (M := M) ly hv fun c hc => hw.size _ (List.mem_map_of_mem hc)
  rw [hy, List.map_append] at H'
  beta_reduce at H
  have tri := norm2_tri (x := r.buf.map R.val) (y := (Reference.slowMdct y wF).map R.valF) (z := Spec.mdct n ((wF (2 * n)).map R.valF) (a.map R.val ++ b.map R.val))
    (by simp [Spec.mdct, l]) (by simp [Spec.mdct, ls])
  rw [List.map_append] at H ⊢
  linarith

/-- C90 for the IMDCT: the instance adds to its output buffers what `slow_imdct` returns. -/
theorem C90_imdct (hf : PlanFftAccurate R planFft φ) (h : PlannedMdct planFft calls n w o) (hn : 1 ≤ n)
    (hw : WindowNear R (effectiveWindow n calls w (2 * n)) ((wF (2 * n)).map R.valF) M γ) {x : List T} {m : IMem T} {y : List F} (hm : ValidImdct n o.scratchLen x m)
    (hy : y.map R.valF = x.map R.val) :
    ∃ r, o.imdct x m = .ok r ∧ r.outA.length = n ∧ r.outB.length = n ∧ (Reference.slowImdct y wF).length = 2 * n ∧
      Spec.norm2 (List.zipWith (· - ·) ((r.outA ++ r.outB).map R.val) (List.zipWith (· + ·) ((m.outA ++ m.outB).map R.val) ((Reference.slowImdct y wF).map R.valF))) ≤
        R.u * Spec.norm2 ((m.outA ++ m.outB).map R.val) + (√n * M * R.lap γ (R.err φ .dct4 n) + √2 * n * M * R.refErr n (5 / 2 * n)) * Spec.norm2 (x.map R.val) := by
  obtain ⟨r, e, l, l2, H⟩ := (C55_planned hf h hn hw).2 x m hm
  obtain ⟨-, -, hv, -⟩ := h.acc hf hn hw
  have hv : (wF (2 * n)).length = 2 * n := by simpa using hv
  have ly : y.length = n := by
    have := congrArg List.length hy
    simp only [List.length_map, hm.1] at this
    omega
  have ls : (Reference.slowImdct y wF).length = 2 * n := by simp [Reference.slowImdct, ly, Nat.mul_comm n 2, hv]
  have lm : (m.outA ++ m.outB).length = 2 * n := by obtain ⟨-, a, b, -⟩ := hm; simp [a, b]; omega
  refine ⟨r, e, l, l2, ls, ?_⟩
  have H' := slowImdct_norm2 R (M := M) ly hv fun c hc => hw.size _ (List.mem_map_of_mem hc)
  rw [hy] at H'
  have tri := norm2_tri (x := (r.outA ++ r.outB).map R.val) (y := List.zipWith (· + ·) ((m.outA ++ m.outB).map R.val) ((Reference.slowImdct y wF).map R.valF))
    (z := List.zipWith (· + ·) ((m.outA ++ m.outB).map R.val) (Spec.imdct n ((wF (2 * n)).map R.valF) (x.map R.val)))
    (by simp [Spec.imdct, l, l2] at lm ⊢; omega) (by simp [Spec.imdct, ls])
  have same : List.zipWith (· - ·) (List.zipWith (· + ·) ((m.outA ++ m.outB).map R.val) ((Reference.slowImdct y wF).map R.valF))
      (List.zipWith (· + ·) ((m.outA ++ m.outB).map R.val) (Spec.imdct n ((wF (2 * n)).map R.valF) (x.map R.val))) =
      List.zipWith (· - ·) ((Reference.slowImdct y wF).map R.valF) (Spec.imdct n ((wF (2 * n)).map R.valF) (x.map R.val)) := by
    apply List.ext_getElem
    · simp only [List.length_zipWith, List.length_map, ls, lm, Spec.imdct, List.length_range]; omega
    · intro i h1 h2
      simp
  rw [same] at tri
  linarith

end

/-! ### Concrete number formats -/

/-- `f64`: for lengths of up to 2²⁰ every entry of the reference is accurate to `2⁻⁴⁷ n` times the sum of the absolute values of the input. -/
theorem refErr_f64 {p n : ℕ} (hn : 1 ≤ n) (hn' : n ≤ 2 ^ 20) : (Flx.rounding p).refErr n n ≤ n * (1 / 2) ^ 47 := by
  have h1 : (1 : ℝ) ≤ n := by exact_mod_cast hn
  have h2 : (n : ℝ) ≤ 2 ^ 20 := by exact_mod_cast hn'
  have hp : π ≤ 3.15 := pi_lt_d2.le
  have hA : (1 + (1 / 2 : ℝ) ^ 53) ^ 11 / (1 - (1 / 2) ^ 53) - 1 ≤ 13 * (1 / 2) ^ 53 := by norm_num
  have hA0 : 0 ≤ (1 + (1 / 2 : ℝ) ^ 53) ^ 11 / (1 - (1 / 2) ^ 53) - 1 := by norm_num
  have hB : π * ((1 + (1 / 2 : ℝ) ^ 53) ^ 11 / (1 - (1 / 2) ^ 53) - 1) ≤ 3.15 * (13 * (1 / 2) ^ 53) := mul_le_mul hp hA hA0 (by norm_num)
  have hE : (1 + (1 / 2 : ℝ) ^ 53) ^ (n + 3) ≤ 1 + 8 * n * (1 / 2) ^ 53 := by
    have a : (1 + (1 / 2 : ℝ) ^ 53) ^ (n + 3) ≤ exp ((n + 3 : ℕ) * (1 / 2) ^ 53) := by
      rw [exp_nat_mul]
      exact pow_le_pow_left₀ (by positivity) (by linarith [add_one_le_exp ((1 / 2 : ℝ) ^ 53)]) _
    have s : |((n + 3 : ℕ) : ℝ) * (1 / 2) ^ 53| ≤ 1 := by
      rw [abs_of_nonneg (by positivity)]
      push_cast
      have h3 := mul_le_mul_of_nonneg_right (show (n : ℝ) + 3 ≤ 2 ^ 20 + 3 by linarith) (show (0 : ℝ) ≤ (1 / 2) ^ 53 by positivity)
      exact h3.trans (by norm_num)
    have b := (abs_le.1 (abs_exp_sub_one_le s)).2
    rw [abs_of_nonneg (by positivity)] at b
    push_cast at a b
    have c : ((n : ℝ) + 3) * (1 / 2) ^ 53 ≤ 4 * n * (1 / 2) ^ 53 := mul_le_mul_of_nonneg_right (by linarith) (by positivity)
    linarith
  show (1 + (1 / 2 : ℝ) ^ 53) ^ (n + 3) * (1 + ((1 / 2) ^ 53 + n * π * ((1 + (1 / 2) ^ 53) ^ 11 / (1 - (1 / 2) ^ 53) - 1))) - 1 ≤ n * (1 / 2) ^ 47
  have hC : 1 + ((1 / 2 : ℝ) ^ 53 + n * π * ((1 + (1 / 2) ^ 53) ^ 11 / (1 - (1 / 2) ^ 53) - 1)) ≤ 1 + 42 * n * (1 / 2) ^ 53 := by
    have := mul_le_mul_of_nonneg_left hB (show (0 : ℝ) ≤ n by linarith)
    rw [mul_assoc (n : ℝ) π]
    have h3 : (1 / 2 : ℝ) ^ 53 * 1 ≤ (1 / 2) ^ 53 * n := mul_le_mul_of_nonneg_left h1 (by positivity)
    nlinarith
  have hD : (0 : ℝ) ≤ 1 + ((1 / 2 : ℝ) ^ 53 + n * π * ((1 + (1 / 2) ^ 53) ^ 11 / (1 - (1 / 2) ^ 53) - 1)) := by
    have := mul_nonneg (mul_nonneg (Nat.cast_nonneg n) pi_pos.le) hA0
    positivity
  have hm := mul_le_mul hE hC hD (by positivity)
  have hq : (n : ℝ) * n ≤ 2 ^ 20 * n := mul_le_mul_of_nonneg_right h2 (by linarith)
  refine (sub_le_sub_right hm 1).trans ?_
  norm_num at hq ⊢
  nlinarith

/-- C90 in `f64`: for lengths of up to 2²⁰, every entry of the reference is accurate to `n 2⁻⁴⁷` times the sum of the absolute values of the input. -/
theorem C90_f64 (k : Kind) (x : List (Flx 53)) (h : x.length ≤ 2 ^ 20) (h1 : k = .dct1 → x.length ≠ 1) :
    Spec.EntryNear (x.length * (1 / 2) ^ 47 * (x.map fun a => |a.val|).sum) ((k.reference x).map Flx.val) (k.spec (x.map Flx.val)) := by
  rcases Nat.eq_zero_or_pos x.length with h0 | h0
  · have := C90_reference (Flx.rounding 53) k x h1
    rw [List.length_eq_zero_iff] at h0
    subst h0
    refine ⟨this.1, fun q hq => (this.2 q hq).trans (by simp)⟩
  · have := C90_reference (Flx.rounding 53) k x h1
    exact ⟨this.1, fun q hq => (this.2 q hq).trans (mul_le_mul_of_nonneg_right (refErr_f64 h0 h) (List.sum_nonneg (by simp)))⟩

/-! ### Instances of the hypotheses -/

/-- All sixteen transforms of 60 points in `f32`, the reference in `f64`; and the two inputs can be the same numbers. -/
example (calls : List (PlanCall (Flx 24))) (k : Kind) : ∃ p s, Planned (fun n => (sumFft n : Fft (Flx 24))) calls k p 60 s ∧
    (∀ (x : List (Flx 24)) (y : List (Flx 53)), x.length = 60 → y.map Flx.val = x.map Flx.val → NearList (Flx.rounding 24) p s x ((k.reference y).map Flx.val)
      (k.boundary * (Flx.rounding 24).err (Flx.rounding 24).sumErr k 60 * Spec.norm2 (k.spec (x.map Flx.val)) + ((60 : ℕ) : ℝ) * (Flx.rounding 24).refErr 60 ((60 : ℕ) : ℝ) * Spec.norm2 (x.map Flx.val))) ∧
    (List.replicate 60 (1 : Flx 53)).map Flx.val = (List.replicate 60 (1 : Flx 24)).map Flx.val :=
  let ⟨p, s, h⟩ := planned_exists (sumFft_shape 24) calls k (n := 60) (by norm_num)
  ⟨p, s, h, fun _ _ hx hy => C90_planned (sumFft_plan (Flx.rounding 24)) h (by norm_num) hx hy, by simp only [List.map_replicate]; rfl⟩

/-- An MDCT of 64 points with the window of ones, in `f32`, and `slow_mdct` with the window of ones in `f64`. -/
example : ∃ o, PlannedMdct (fun n => (sumFft n : Fft (Flx 24))) [.dct4 64, .mdct 32 WindowFn.one] 64 WindowFn.one o ∧
    WindowNear (Flx.rounding 24) (effectiveWindow 64 [.dct4 64, .mdct 32 WindowFn.one] WindowFn.one (2 * 64)) (((fun l => List.replicate l (1 : Flx 53)) (2 * 64)).map (Flx.rounding 24).valF) 1 0 := by
  obtain ⟨o, ho⟩ := plannedMdct_exists (sumFft_shape 24) [.dct4 64, .mdct 32 WindowFn.one] (n := 64) rfl (w := WindowFn.one) (by simp [WindowFn.one])
  refine ⟨o, ho, by simp [effectiveWindow, WindowFn.one], le_rfl, zero_le_one, ?_⟩
  intro q hq
  have hq1 := (List.of_mem_zip (a := q.1) (b := q.2) hq).1
  have hq2 := (List.of_mem_zip (a := q.1) (b := q.2) hq).2
  have e1 : q.1 = 1 := List.eq_of_mem_replicate (n := 128) (by simpa [effectiveWindow, WindowFn.one] using hq1)
  have h2 : (Flx.rounding 24).valF (1 : Flx 53) = 1 := rfl
  have e2 : q.2 = 1 := by rw [← h2]; exact List.eq_of_mem_replicate (n := 128) (by simpa using hq2)
  have h1 : (Flx.rounding 24).val (1 : Flx 24) = 1 := rfl
  rw [e1, e2, h1]
  norm_num

end RustDct
