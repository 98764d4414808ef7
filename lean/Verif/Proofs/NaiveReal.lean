import Verif.RealInst
import Verif.Proofs.Naive
/-!
# Over ℝ the naive algorithms compute the textbook transforms
-/

set_option linter.all false

namespace RustDct
open Real Finset

theorem naiveSum_add (L : ℕ) (w : ℕ → ℝ) (n : ℕ) (x : ℕ → ℝ) (lo stride t0 : ℕ) (c0 : ℝ) :
    naiveSum opAdd L w n x lo stride t0 c0 = c0 + ∑ i ∈ Ico lo n, x i * w ((t0 + stride * (i - lo)) % L) := by
  unfold naiveSum
  rw [Finset.sum_Ico_eq_sum_range]
  have h : ∀ m, (List.range' lo m).foldl (fun c i => opAdd c (x i) (w ((t0 + stride * (i - lo)) % L))) c0 =
      c0 + ∑ i ∈ range m, x (lo + i) * w ((t0 + stride * (lo + i - lo)) % L) := by
    intro m
    induction m with
    | zero => simp
    | succ m ih =>
      rw [List.range'_concat, List.foldl_append, ih, Finset.sum_range_succ]
      simp [opAdd, add_assoc]
  exact h (n - lo)

theorem naiveSum_re (L : ℕ) (w : ℕ → Cx ℝ) (n : ℕ) (x : ℕ → ℝ) (lo stride t0 : ℕ) (c0 : ℝ) :
    naiveSum opAddRe L w n x lo stride t0 c0 =
      c0 + ∑ i ∈ Ico lo n, x i * (w ((t0 + stride * (i - lo)) % L)).re :=
  naiveSum_add L (fun i => (w i).re) n x lo stride t0 c0

theorem naiveSum_im (L : ℕ) (w : ℕ → Cx ℝ) (n : ℕ) (x : ℕ → ℝ) (lo stride t0 : ℕ) (c0 : ℝ) :
    naiveSum opSubIm L w n x lo stride t0 c0 =
      c0 + ∑ i ∈ Ico lo n, x i * (-(w ((t0 + stride * (i - lo)) % L)).im) := by
  rw [← naiveSum_add L (fun i => -(w i).im) n x lo stride t0 c0]
  unfold naiveSum opSubIm opAdd
  simp [sub_eq_add_neg]

theorem foldl_vec_sum (n : ℕ) (x : ℕ → ℝ) : (vec n x).foldl (fun acc e => acc + e) 0 = ∑ i ∈ range n, x i := by
  induction n with
  | zero => simp
  | succ n ih =>
    rw [Finset.sum_range_succ, ← ih]
    unfold vec
    rw [List.range_succ, List.map_append, List.foldl_append]
    simp

theorem sum_range_split {n : ℕ} (hn : 1 ≤ n) (f : ℕ → ℝ) : ∑ i ∈ range n, f i = f 0 + ∑ i ∈ Ico 1 n, f i := by
  rw [Finset.range_eq_Ico, Finset.sum_eq_sum_Ico_succ_bot (by omega)]

theorem halfFirst_eq (x : ℕ → ℝ) (i : ℕ) : halfFirst x i = Spec.halfAt 0 i * x i := by
  unfold halfFirst Spec.halfAt
  by_cases h : i = 0
  · subst h; simp; ring
  · simp [h]
theorem halfLast_eq (n : ℕ) (x : ℕ → ℝ) (i : ℕ) : halfLast n x i = Spec.halfAt (n - 1) i * x i := by
  unfold halfLast Spec.halfAt
  by_cases h : i = n - 1
  · subst h; simp; ring
  · simp [h]

/-- Angle normal form: rational-function identity after clearing denominators. -/
macro "angle" : tactic => `(tactic| (push_cast; try field_simp; try ring))

/-! ### Dct1Naive -/

/-- The instance built by `new`. -/
noncomputable def Dct1Naive.inst (n : ℕ) : Dct1Naive ℝ := ⟨vec ((n - 1) * 2) fun i => cos (π / ((n - 1 : ℕ) : ℝ) * i)⟩
theorem Dct1Naive.new_real {n : ℕ} (hn : 2 ≤ n) : (Dct1Naive.new n : Except Err (Dct1Naive ℝ)) = .ok (Dct1Naive.inst n) := by
  have h1 : n ≠ 1 := by omega
  simp only [Dct1Naive.new, if_neg h1, csub_ok (show 1 ≤ n by omega), ok_bind]
  rfl
theorem Dct1Naive.len_inst {n : ℕ} (hn : 2 ≤ n) : (Dct1Naive.inst n).len = n := by
  simp only [Dct1Naive.inst, Dct1Naive.len, length_vec]; omega
theorem Dct1Naive.scratchLen_inst {n : ℕ} (hn : 2 ≤ n) : (Dct1Naive.inst n).scratchLen = n := Dct1Naive.len_inst hn

theorem Dct1Naive.dct1_inst {n : ℕ} (hn : 2 ≤ n) : RunsV (Dct1Naive.inst n).dct1 n n (Spec.dct1At n) := by
  refine (Dct1Naive.runs_dct1 hn _).congr ?_
  · intro f k hk
    have e1 : ((n - 1 : ℕ) : ℝ) = n - 1 := by rw [Nat.cast_sub (by omega)]; simp
    have z1 : ((n : ℝ) - 1) ≠ 0 := by rw [← e1]; exact_mod_cast (by omega : n - 1 ≠ 0)
    simp only [naiveSum_add, Spec.dct1At]
    rw [sum_range_split (by omega)]
    congr 1
    · rw [halfLast_eq, halfFirst_eq]; simp; try ring
    · refine Finset.sum_congr rfl fun i hi => ?_
      rw [mem_Ico] at hi
      have hh : Spec.halfAt 0 i = 1 := by simp only [Spec.halfAt]; rw [if_neg (by omega)]
      rw [show k + k * (i - 1) = k * i by
        obtain ⟨j, rfl⟩ := Nat.exists_eq_add_of_le hi.1
        simp; try ring]
      rw [halfLast_eq, halfFirst_eq, cos_mod0 (by push_cast [e1]; field_simp; try ring)]
      skip
      refine congrArg₂ (· * ·) (by first | rfl | ring) (congrArg _ ?_)
      push_cast [e1]
      field_simp
      try ring

/-! ### Dst1Naive -/

/-- The instance built by `new`. -/
noncomputable def Dst1Naive.inst (n : ℕ) : Dst1Naive ℝ := ⟨vec ((n + 1) * 2) fun i => sin (π / ((n + 1 : ℕ) : ℝ) * i)⟩
theorem Dst1Naive.new_real {n : ℕ} : (Dst1Naive.new n : Except Err (Dst1Naive ℝ)) = .ok (Dst1Naive.inst n) := by
  rfl
theorem Dst1Naive.len_inst {n : ℕ} : (Dst1Naive.inst n).len = n := by
  simp only [Dst1Naive.inst, Dst1Naive.len, length_vec]; omega
theorem Dst1Naive.scratchLen_inst {n : ℕ} : (Dst1Naive.inst n).scratchLen = n := Dst1Naive.len_inst

theorem Dst1Naive.dst1_inst {n : ℕ} : RunsV (Dst1Naive.inst n).dst1 n n (Spec.dst1At n) := by
  refine (Dst1Naive.runs_dst1 _).congr ?_
  · intro f k hk
    have hn : 1 ≤ n := by omega
    have z1 : (2 * (n : ℝ) + 1) ≠ 0 := by positivity
    have z2 : ((n : ℝ) + 1 / 2) ≠ 0 := by positivity
    have z3 : ((n : ℝ) + 1) ≠ 0 := by positivity
    simp only [naiveSum_add, Spec.dst1At]
    rw [zero_add, ← Finset.range_eq_Ico]
    refine Finset.sum_congr rfl fun i hi => ?_
    rw [sin_mod0 (by push_cast []; field_simp; try ring)]
    congr 1
    congr 1
    push_cast []
    simp only [Nat.sub_zero]
    field_simp
    try ring

/-! ### Type2And3Naive -/

/-- The instance built by `new`. -/
noncomputable def Type2And3Naive.inst (n : ℕ) : Type2And3Naive ℝ := ⟨vec (n * 4) fun i => singleTwiddle i (n * 4)⟩
theorem Type2And3Naive.new_real {n : ℕ} : (Type2And3Naive.new n : Except Err (Type2And3Naive ℝ)) = .ok (Type2And3Naive.inst n) := by
  rfl
theorem Type2And3Naive.len_inst {n : ℕ} : (Type2And3Naive.inst n).len = n := by
  simp only [Type2And3Naive.inst, Type2And3Naive.len, length_vec]; omega
theorem Type2And3Naive.scratchLen_inst {n : ℕ} : (Type2And3Naive.inst n).scratchLen = n := Type2And3Naive.len_inst

theorem Type2And3Naive.dct2_inst {n : ℕ} : RunsV (Type2And3Naive.inst n).dct2 n n (Spec.dct2At n) := by
  refine (Type2And3Naive.runs_dct2 _).congr ?_
  · intro f k hk
    have hn : 1 ≤ n := by omega
    have z0 : (n : ℝ) ≠ 0 := by exact_mod_cast (by omega : n ≠ 0)
    simp only [naiveSum_re, Spec.dct2At]
    rw [zero_add, ← Finset.range_eq_Ico]
    refine Finset.sum_congr rfl fun i hi => ?_
    rw [singleTwiddle_re, cos_mod0 (by push_cast []; field_simp; try ring)]
    congr 1
    congr 1
    push_cast []
    simp only [Nat.sub_zero]
    field_simp
    try ring

theorem Type2And3Naive.dst2_inst {n : ℕ} : RunsV (Type2And3Naive.inst n).dst2 n n (Spec.dst2At n) := by
  refine (Type2And3Naive.runs_dst2 _).congr ?_
  · intro f k hk
    have hn : 1 ≤ n := by omega
    have z0 : (n : ℝ) ≠ 0 := by exact_mod_cast (by omega : n ≠ 0)
    simp only [naiveSum_im, Spec.dst2At]
    rw [zero_add, ← Finset.range_eq_Ico]
    refine Finset.sum_congr rfl fun i hi => ?_
    rw [singleTwiddle_im, neg_neg, sin_mod0 (by push_cast []; field_simp; try ring)]
    congr 1
    congr 1
    push_cast []
    simp only [Nat.sub_zero]
    field_simp
    try ring

theorem Type2And3Naive.dct3_inst {n : ℕ} (hn : 1 ≤ n) : RunsV (Type2And3Naive.inst n).dct3 n n (Spec.dct3At n) := by
  refine (Type2And3Naive.runs_dct3 hn _).congr ?_
  · intro f k hk
    have z0 : (n : ℝ) ≠ 0 := by exact_mod_cast (by omega : n ≠ 0)
    simp only [naiveSum_re, Spec.dct3At]
    rw [sum_range_split (by omega)]
    congr 1
    · simp [Spec.halfAt]; try ring
    · refine Finset.sum_congr rfl fun i hi => ?_
      rw [mem_Ico] at hi
      have hh : Spec.halfAt 0 i = 1 := by simp only [Spec.halfAt]; rw [if_neg (by omega)]
      rw [show k * 2 + 1 + (k * 2 + 1) * (i - 1) = (k * 2 + 1) * i by
        obtain ⟨j, rfl⟩ := Nat.exists_eq_add_of_le hi.1
        simp; try ring]
      rw [singleTwiddle_re, cos_mod0 (by push_cast []; field_simp; try ring)]
      rw [hh, one_mul]
      refine congrArg₂ (· * ·) (by first | rfl | ring) (congrArg _ ?_)
      push_cast []
      field_simp
      try ring

theorem Type2And3Naive.dst3_inst {n : ℕ} (hn : 1 ≤ n) : RunsV (Type2And3Naive.inst n).dst3 n n (Spec.dst3At n) := by
  refine (Type2And3Naive.runs_dst3 hn _).congr ?_
  · intro f k hk
    have z0 : (n : ℝ) ≠ 0 := by exact_mod_cast (by omega : n ≠ 0)
    simp only [naiveSum_im, Spec.dst3At]
    rw [zero_add, ← Finset.range_eq_Ico]
    refine Finset.sum_congr rfl fun i hi => ?_
    rw [halfLast_eq, singleTwiddle_im, neg_neg, sin_mod0 (by push_cast []; field_simp; try ring)]
    congr 1
    congr 1
    push_cast []
    simp only [Nat.sub_zero]
    field_simp
    try ring

/-! ### Type4Naive -/

/-- The instance built by `new`. -/
noncomputable def Type4Naive.inst (n : ℕ) : Type4Naive ℝ := ⟨vec (n * 4) fun i => singleTwiddleHalfoffset i (n * 4)⟩
theorem Type4Naive.new_real {n : ℕ} : (Type4Naive.new n : Except Err (Type4Naive ℝ)) = .ok (Type4Naive.inst n) := by
  rfl
theorem Type4Naive.len_inst {n : ℕ} : (Type4Naive.inst n).len = n := by
  simp only [Type4Naive.inst, Type4Naive.len, length_vec]; omega
theorem Type4Naive.scratchLen_inst {n : ℕ} : (Type4Naive.inst n).scratchLen = n := Type4Naive.len_inst

theorem Type4Naive.dct4_inst {n : ℕ} : RunsV (Type4Naive.inst n).dct4 n n (Spec.dct4At n) := by
  refine (Type4Naive.runs_dct4 _).congr ?_
  · intro f k hk
    have hn : 1 ≤ n := by omega
    have z0 : (n : ℝ) ≠ 0 := by exact_mod_cast (by omega : n ≠ 0)
    simp only [naiveSum_re, Spec.dct4At]
    rw [zero_add, ← Finset.range_eq_Ico]
    refine Finset.sum_congr rfl fun i hi => ?_
    rw [singleTwiddleHalfoffset_re, cos_mod (by push_cast []; field_simp; try ring)]
    congr 1
    congr 1
    push_cast []
    simp only [Nat.sub_zero]
    field_simp
    try ring

theorem Type4Naive.dst4_inst {n : ℕ} : RunsV (Type4Naive.inst n).dst4 n n (Spec.dst4At n) := by
  refine (Type4Naive.runs_dst4 _).congr ?_
  · intro f k hk
    have hn : 1 ≤ n := by omega
    have z0 : (n : ℝ) ≠ 0 := by exact_mod_cast (by omega : n ≠ 0)
    simp only [naiveSum_im, Spec.dst4At]
    rw [zero_add, ← Finset.range_eq_Ico]
    refine Finset.sum_congr rfl fun i hi => ?_
    rw [singleTwiddleHalfoffset_im, neg_neg, sin_mod (by push_cast []; field_simp; try ring)]
    congr 1
    congr 1
    push_cast []
    simp only [Nat.sub_zero]
    field_simp
    try ring

/-! ### Dct5Naive -/

/-- The instance built by `new`. -/
noncomputable def Dct5Naive.inst (n : ℕ) : Dct5Naive ℝ := ⟨vec (n * 2 - 1) fun i => cos (π / ((n : ℝ) - 1 / 2) * i)⟩
theorem Dct5Naive.new_real {n : ℕ} (hn : 1 ≤ n) : (Dct5Naive.new n : Except Err (Dct5Naive ℝ)) = .ok (Dct5Naive.inst n) := by
  simp (disch := omega) only [Dct5Naive.new, csub_ok, ok_bind]
  rfl
theorem Dct5Naive.len_inst {n : ℕ} (hn : 1 ≤ n) : (Dct5Naive.inst n).len = n := by
  simp only [Dct5Naive.inst, Dct5Naive.len, length_vec]; omega
theorem Dct5Naive.scratchLen_inst {n : ℕ} (hn : 1 ≤ n) : (Dct5Naive.inst n).scratchLen = n := Dct5Naive.len_inst hn

theorem Dct5Naive.dct5_inst {n : ℕ} (hn : 1 ≤ n) : RunsV (Dct5Naive.inst n).dct5 n n (Spec.dct5At n) := by
  refine (Dct5Naive.runs_dct5 hn _).congr ?_
  · intro f k hk
    have e0 : ((n * 2 - 1 : ℕ) : ℝ) = 2 * n - 1 := by rw [Nat.cast_sub (by omega)]; push_cast; ring
    have z1 : (2 * (n : ℝ) - 1) ≠ 0 := by rw [← e0]; exact_mod_cast (by omega : n * 2 - 1 ≠ 0)
    have z2 : ((n : ℝ) - 1 / 2) ≠ 0 := fun h => z1 (by linarith)
    have e1 : ((n * 2 - 1 : ℕ) : ℝ) = 2 * (n - 1 / 2) := by rw [e0]; ring
    by_cases hk0 : k < 1
    · obtain rfl : k = 0 := by omega
      simp [foldl_vec_sum, Spec.dct5At, halfFirst_eq]
    rw [if_neg hk0]
    simp only [naiveSum_add, Spec.dct5At]
    rw [sum_range_split (by omega)]
    congr 1
    · rw [halfFirst_eq]; simp; try ring
    · refine Finset.sum_congr rfl fun i hi => ?_
      rw [mem_Ico] at hi
      have hh : Spec.halfAt 0 i = 1 := by simp only [Spec.halfAt]; rw [if_neg (by omega)]
      rw [show k + k * (i - 1) = k * i by
        obtain ⟨j, rfl⟩ := Nat.exists_eq_add_of_le hi.1
        simp; try ring]
      rw [halfFirst_eq, cos_mod0 (by rw [e1, mul_comm 2, ← mul_assoc, div_mul_cancel₀ _ z2, mul_comm])]
      skip
      refine congrArg₂ (· * ·) (by first | rfl | ring) (congrArg _ ?_)
      push_cast [e1]
      field_simp
      try ring

/-! ### Dst5Naive -/

/-- The instance built by `new`. -/
noncomputable def Dst5Naive.inst (n : ℕ) : Dst5Naive ℝ := ⟨vec (n * 2 + 1) fun i => sin (π / ((n : ℝ) + 1 / 2) * i)⟩
theorem Dst5Naive.new_real {n : ℕ} : (Dst5Naive.new n : Except Err (Dst5Naive ℝ)) = .ok (Dst5Naive.inst n) := by
  rfl
theorem Dst5Naive.len_inst {n : ℕ} : (Dst5Naive.inst n).len = n := by
  simp only [Dst5Naive.inst, Dst5Naive.len, length_vec]; omega
theorem Dst5Naive.scratchLen_inst {n : ℕ} : (Dst5Naive.inst n).scratchLen = n := Dst5Naive.len_inst

theorem Dst5Naive.dst5_inst {n : ℕ} : RunsV (Dst5Naive.inst n).dst5 n n (Spec.dst5At n) := by
  refine (Dst5Naive.runs_dst5 _).congr ?_
  · intro f k hk
    have hn : 1 ≤ n := by omega
    have z1 : (2 * (n : ℝ) + 1) ≠ 0 := by positivity
    have z2 : ((n : ℝ) + 1 / 2) ≠ 0 := by positivity
    have z3 : ((n : ℝ) + 1) ≠ 0 := by positivity
    simp only [naiveSum_add, Spec.dst5At]
    rw [zero_add, ← Finset.range_eq_Ico]
    refine Finset.sum_congr rfl fun i hi => ?_
    rw [sin_mod0 (by push_cast []; field_simp; try ring)]
    congr 1
    congr 1
    push_cast []
    simp only [Nat.sub_zero]
    field_simp
    try ring

/-! ### Dct6And7Naive -/

/-- The instance built by `new`. -/
noncomputable def Dct6And7Naive.inst (n : ℕ) : Dct6And7Naive ℝ := ⟨vec (n * 4 - 2) fun i => cos (π / ((n * 2 - 1 : ℕ) : ℝ) * i)⟩
theorem Dct6And7Naive.new_real {n : ℕ} (hn : 1 ≤ n) : (Dct6And7Naive.new n : Except Err (Dct6And7Naive ℝ)) = .ok (Dct6And7Naive.inst n) := by
  simp (disch := omega) only [Dct6And7Naive.new, csub_ok, ok_bind]
  rfl
theorem Dct6And7Naive.len_inst {n : ℕ} (hn : 1 ≤ n) : (Dct6And7Naive.inst n).len = n := by
  simp only [Dct6And7Naive.inst, Dct6And7Naive.len, length_vec]; omega
theorem Dct6And7Naive.scratchLen_inst {n : ℕ} (hn : 1 ≤ n) : (Dct6And7Naive.inst n).scratchLen = n := Dct6And7Naive.len_inst hn

theorem Dct6And7Naive.dct6_inst {n : ℕ} (hn : 1 ≤ n) : RunsV (Dct6And7Naive.inst n).dct6 n n (Spec.dct6At n) := by
  refine (Dct6And7Naive.runs_dct6 hn _).congr ?_
  · intro f k hk
    have e1 : ((n * 2 - 1 : ℕ) : ℝ) = 2 * n - 1 := by rw [Nat.cast_sub (by omega)]; push_cast; ring
    have z1 : (2 * (n : ℝ) - 1) ≠ 0 := by rw [← e1]; exact_mod_cast (by omega : n * 2 - 1 ≠ 0)
    have z2 : ((n : ℝ) - 1 / 2) ≠ 0 := fun h => z1 (by linarith)
    have e2 : ((n * 4 - 2 : ℕ) : ℝ) = 2 * (2 * n - 1) := by rw [Nat.cast_sub (by omega)]; push_cast; ring
    by_cases hk0 : k < 1
    · obtain rfl : k = 0 := by omega
      simp [foldl_vec_sum, Spec.dct6At, halfLast_eq]
    rw [if_neg hk0]
    simp only [naiveSum_add, Spec.dct6At]
    rw [zero_add, ← Finset.range_eq_Ico]
    refine Finset.sum_congr rfl fun i hi => ?_
    rw [halfLast_eq, cos_mod0 (by push_cast [e1, e2]; field_simp; try ring)]
    congr 1
    congr 1
    push_cast [e1, e2]
    simp only [Nat.sub_zero]
    field_simp
    try ring

theorem Dct6And7Naive.dct7_inst {n : ℕ} (hn : 1 ≤ n) : RunsV (Dct6And7Naive.inst n).dct7 n n (Spec.dct7At n) := by
  refine (Dct6And7Naive.runs_dct7 hn _).congr ?_
  · intro f k hk
    have e1 : ((n * 2 - 1 : ℕ) : ℝ) = 2 * n - 1 := by rw [Nat.cast_sub (by omega)]; push_cast; ring
    have z1 : (2 * (n : ℝ) - 1) ≠ 0 := by rw [← e1]; exact_mod_cast (by omega : n * 2 - 1 ≠ 0)
    have z2 : ((n : ℝ) - 1 / 2) ≠ 0 := fun h => z1 (by linarith)
    have e2 : ((n * 4 - 2 : ℕ) : ℝ) = 2 * (2 * n - 1) := by rw [Nat.cast_sub (by omega)]; push_cast; ring
    simp only [naiveSum_add, Spec.dct7At]
    rw [sum_range_split (by omega)]
    congr 1
    · rw [halfFirst_eq]; simp; try ring
    · refine Finset.sum_congr rfl fun i hi => ?_
      rw [mem_Ico] at hi
      have hh : Spec.halfAt 0 i = 1 := by simp only [Spec.halfAt]; rw [if_neg (by omega)]
      rw [show k * 2 + 1 + (k * 2 + 1) * (i - 1) = (k * 2 + 1) * i by
        obtain ⟨j, rfl⟩ := Nat.exists_eq_add_of_le hi.1
        simp; try ring]
      rw [halfFirst_eq, cos_mod0 (by push_cast [e1, e2]; field_simp; try ring)]
      skip
      refine congrArg₂ (· * ·) (by first | rfl | ring) (congrArg _ ?_)
      push_cast [e1, e2]
      field_simp
      try ring

/-! ### Dst6And7Naive -/

/-- The instance built by `new`. -/
noncomputable def Dst6And7Naive.inst (n : ℕ) : Dst6And7Naive ℝ := ⟨vec (n * 4 + 2) fun i => sin (π / ((n * 2 + 1 : ℕ) : ℝ) * i)⟩
theorem Dst6And7Naive.new_real {n : ℕ} : (Dst6And7Naive.new n : Except Err (Dst6And7Naive ℝ)) = .ok (Dst6And7Naive.inst n) := by
  rfl
theorem Dst6And7Naive.len_inst {n : ℕ} : (Dst6And7Naive.inst n).len = n := by
  simp only [Dst6And7Naive.inst, Dst6And7Naive.len, length_vec]; omega
theorem Dst6And7Naive.scratchLen_inst {n : ℕ} : (Dst6And7Naive.inst n).scratchLen = n := Dst6And7Naive.len_inst

theorem Dst6And7Naive.dst6_inst {n : ℕ} : RunsV (Dst6And7Naive.inst n).dst6 n n (Spec.dst6At n) := by
  refine (Dst6And7Naive.runs_dst6 _).congr ?_
  · intro f k hk
    have hn : 1 ≤ n := by omega
    have z1 : (2 * (n : ℝ) + 1) ≠ 0 := by positivity
    have z2 : ((n : ℝ) + 1 / 2) ≠ 0 := by positivity
    have z3 : ((n : ℝ) + 1) ≠ 0 := by positivity
    simp only [naiveSum_add, Spec.dst6At]
    rw [zero_add, ← Finset.range_eq_Ico]
    refine Finset.sum_congr rfl fun i hi => ?_
    rw [sin_mod0 (by push_cast []; field_simp; try ring)]
    congr 1
    congr 1
    push_cast []
    simp only [Nat.sub_zero]
    field_simp
    try ring

theorem Dst6And7Naive.dst7_inst {n : ℕ} : RunsV (Dst6And7Naive.inst n).dst7 n n (Spec.dst7At n) := by
  refine (Dst6And7Naive.runs_dst7 _).congr ?_
  · intro f k hk
    have hn : 1 ≤ n := by omega
    have z1 : (2 * (n : ℝ) + 1) ≠ 0 := by positivity
    have z2 : ((n : ℝ) + 1 / 2) ≠ 0 := by positivity
    have z3 : ((n : ℝ) + 1) ≠ 0 := by positivity
    simp only [naiveSum_add, Spec.dst7At]
    rw [zero_add, ← Finset.range_eq_Ico]
    refine Finset.sum_congr rfl fun i hi => ?_
    rw [sin_mod0 (by push_cast []; field_simp; try ring)]
    congr 1
    congr 1
    push_cast []
    simp only [Nat.sub_zero]
    field_simp
    try ring

/-! ### Dct8Naive -/

/-- The instance built by `new`. -/
noncomputable def Dct8Naive.inst (n : ℕ) : Dct8Naive ℝ := ⟨vec (n * 4 + 2) fun i => cos (π / ((n * 2 + 1 : ℕ) : ℝ) * (i + 1 / 2))⟩
theorem Dct8Naive.new_real {n : ℕ} : (Dct8Naive.new n : Except Err (Dct8Naive ℝ)) = .ok (Dct8Naive.inst n) := by
  rfl
theorem Dct8Naive.len_inst {n : ℕ} : (Dct8Naive.inst n).len = n := by
  simp only [Dct8Naive.inst, Dct8Naive.len, length_vec]; omega
theorem Dct8Naive.scratchLen_inst {n : ℕ} : (Dct8Naive.inst n).scratchLen = n := Dct8Naive.len_inst

theorem Dct8Naive.dct8_inst {n : ℕ} : RunsV (Dct8Naive.inst n).dct8 n n (Spec.dct8At n) := by
  refine (Dct8Naive.runs_dct8 _).congr ?_
  · intro f k hk
    have hn : 1 ≤ n := by omega
    have z1 : (2 * (n : ℝ) + 1) ≠ 0 := by positivity
    have z2 : ((n : ℝ) + 1 / 2) ≠ 0 := by positivity
    have z3 : ((n : ℝ) + 1) ≠ 0 := by positivity
    simp only [naiveSum_add, Spec.dct8At]
    rw [zero_add, ← Finset.range_eq_Ico]
    refine Finset.sum_congr rfl fun i hi => ?_
    rw [cos_mod (by push_cast []; field_simp; try ring)]
    congr 1
    congr 1
    push_cast []
    simp only [Nat.sub_zero]
    field_simp
    try ring

/-! ### Dst8Naive -/

/-- The instance built by `new`. -/
noncomputable def Dst8Naive.inst (n : ℕ) : Dst8Naive ℝ := ⟨vec (n * 4 - 2) fun i => sin (π / ((n * 2 - 1 : ℕ) : ℝ) * (i + 1 / 2))⟩
theorem Dst8Naive.new_real {n : ℕ} (hn : 1 ≤ n) : (Dst8Naive.new n : Except Err (Dst8Naive ℝ)) = .ok (Dst8Naive.inst n) := by
  simp (disch := omega) only [Dst8Naive.new, csub_ok, ok_bind]
  rfl
theorem Dst8Naive.len_inst {n : ℕ} (hn : 1 ≤ n) : (Dst8Naive.inst n).len = n := by
  simp only [Dst8Naive.inst, Dst8Naive.len, length_vec]; omega
theorem Dst8Naive.scratchLen_inst {n : ℕ} (hn : 1 ≤ n) : (Dst8Naive.inst n).scratchLen = n := Dst8Naive.len_inst hn

theorem Dst8Naive.dst8_inst {n : ℕ} (hn : 1 ≤ n) : RunsV (Dst8Naive.inst n).dst8 n n (Spec.dst8At n) := by
  refine (Dst8Naive.runs_dst8 hn _).congr ?_
  · intro f k hk
    have e1 : ((n * 2 - 1 : ℕ) : ℝ) = 2 * n - 1 := by rw [Nat.cast_sub (by omega)]; push_cast; ring
    have z1 : (2 * (n : ℝ) - 1) ≠ 0 := by rw [← e1]; exact_mod_cast (by omega : n * 2 - 1 ≠ 0)
    have z2 : ((n : ℝ) - 1 / 2) ≠ 0 := fun h => z1 (by linarith)
    have e2 : ((n * 4 - 2 : ℕ) : ℝ) = 2 * (2 * n - 1) := by rw [Nat.cast_sub (by omega)]; push_cast; ring
    simp only [naiveSum_add, Spec.dst8At]
    rw [zero_add, ← Finset.range_eq_Ico]
    refine Finset.sum_congr rfl fun i hi => ?_
    rw [halfLast_eq, sin_mod (by push_cast [e1, e2]; field_simp; try ring)]
    congr 1
    congr 1
    push_cast [e1, e2]
    simp only [Nat.sub_zero]
    field_simp
    try ring

end RustDct
