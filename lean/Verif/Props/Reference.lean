import Verif.Model.Reference
import Verif.Props.Transforms
import Verif.Props.Mdct
/-!
# C88: instances agree with the project's reference implementations
-/

set_option linter.all false

namespace RustDct
open Real Finset

theorem Reference.foldl_sum (n : ℕ) (f : ℕ → ℝ) : (List.range n).foldl (fun s i => s + f i) (F64.nat 0) = ∑ i ∈ range n, f i := by
  induction n with
  | zero => simp [F64.nat]
  | succ n ih => rw [List.range_succ, List.foldl_append, ih, sum_range_succ]; rfl

theorem Reference.loops_eq (n : ℕ) (f : ℕ → ℕ → ℝ) : Reference.loops n f = (List.range n).map fun k => ∑ i ∈ range n, f k i := by
  unfold Reference.loops
  exact List.map_congr_left fun k _ => foldl_sum n (f k)

/-- For length 1 `reference_dct1` divides zero by zero. -/
theorem Reference.dct1_eq {x : List ℝ} (hx : x.length ≠ 1) : Reference.dct1 x = Spec.dct1 x := by
  unfold Reference.dct1 Spec.dct1 Spec.onList Spec.dct1At
  rw [Reference.loops_eq]
  refine List.map_congr_left fun k hk => sum_congr rfl fun i hi => ?_
  have hk := List.mem_range.1 hk
  have hi := mem_range.1 hi
  simp only [F64.nat, F64.half, F64.pi, F64.cos, Spec.halfAt, Nat.cast_zero, Nat.cast_one, Nat.cast_sub (show 1 ≤ x.length by omega)]
  by_cases h0 : i = 0 <;> by_cases h1 : i = x.length - 1
  · omega
  · rw [if_pos (.inl h0), if_pos h0, if_neg h1]; ring
  · rw [if_pos (.inr h1), if_neg h0, if_pos h1]; ring
  · rw [if_neg (by tauto), if_neg h0, if_neg h1]; ring

theorem Reference.dct2_eq : (Reference.dct2 : List ℝ → List ℝ) = Spec.dct2 := by
  funext x
  unfold Reference.dct2 Spec.dct2 Spec.onList Spec.dct2At
  rw [Reference.loops_eq]
  refine List.map_congr_left fun k hk => sum_congr rfl fun i hi => ?_
  have hk := List.mem_range.1 hk
  have hi := mem_range.1 hi
  simp only [F64.nat, F64.half, F64.pi, F64.cos, F64.sin, Nat.cast_zero, Nat.cast_one, Nat.cast_add]
theorem Reference.dct3_eq : (Reference.dct3 : List ℝ → List ℝ) = Spec.dct3 := by
  funext x
  unfold Reference.dct3 Spec.dct3 Spec.onList Spec.dct3At
  rw [Reference.loops_eq]
  refine List.map_congr_left fun k hk => sum_congr rfl fun i hi => ?_
  have hk := List.mem_range.1 hk
  have hi := mem_range.1 hi
  simp only [F64.nat, F64.half, F64.pi, F64.cos, F64.sin, Spec.halfAt, Nat.cast_zero, Nat.cast_one]
  split <;> ring
theorem Reference.dct4_eq : (Reference.dct4 : List ℝ → List ℝ) = Spec.dct4 := by
  funext x
  unfold Reference.dct4 Spec.dct4 Spec.onList Spec.dct4At
  rw [Reference.loops_eq]
  refine List.map_congr_left fun k hk => sum_congr rfl fun i hi => ?_
  have hk := List.mem_range.1 hk
  have hi := mem_range.1 hi
  simp only [F64.nat, F64.half, F64.pi, F64.cos, F64.sin, Nat.cast_zero, Nat.cast_one, Nat.cast_add]
theorem Reference.dct5_eq : (Reference.dct5 : List ℝ → List ℝ) = Spec.dct5 := by
  funext x
  unfold Reference.dct5 Spec.dct5 Spec.onList Spec.dct5At
  rw [Reference.loops_eq]
  refine List.map_congr_left fun k hk => sum_congr rfl fun i hi => ?_
  have hk := List.mem_range.1 hk
  have hi := mem_range.1 hi
  simp only [F64.nat, F64.half, F64.pi, F64.cos, F64.sin, Spec.halfAt, Nat.cast_zero, Nat.cast_one]
  split <;> ring
theorem Reference.dct6_eq : (Reference.dct6 : List ℝ → List ℝ) = Spec.dct6 := by
  funext x
  unfold Reference.dct6 Spec.dct6 Spec.onList Spec.dct6At
  rw [Reference.loops_eq]
  refine List.map_congr_left fun k hk => sum_congr rfl fun i hi => ?_
  have hk := List.mem_range.1 hk
  have hi := mem_range.1 hi
  simp only [F64.nat, F64.half, F64.pi, F64.cos, F64.sin, Spec.halfAt, Nat.cast_zero, Nat.cast_one]
  split <;> ring
theorem Reference.dct7_eq : (Reference.dct7 : List ℝ → List ℝ) = Spec.dct7 := by
  funext x
  unfold Reference.dct7 Spec.dct7 Spec.onList Spec.dct7At
  rw [Reference.loops_eq]
  refine List.map_congr_left fun k hk => sum_congr rfl fun i hi => ?_
  have hk := List.mem_range.1 hk
  have hi := mem_range.1 hi
  simp only [F64.nat, F64.half, F64.pi, F64.cos, F64.sin, Spec.halfAt, Nat.cast_zero, Nat.cast_one]
  split <;> ring
theorem Reference.dct8_eq : (Reference.dct8 : List ℝ → List ℝ) = Spec.dct8 := by
  funext x
  unfold Reference.dct8 Spec.dct8 Spec.onList Spec.dct8At
  rw [Reference.loops_eq]
  refine List.map_congr_left fun k hk => sum_congr rfl fun i hi => ?_
  have hk := List.mem_range.1 hk
  have hi := mem_range.1 hi
  simp only [F64.nat, F64.half, F64.pi, F64.cos, F64.sin, Nat.cast_zero, Nat.cast_one, Nat.cast_add]
theorem Reference.dst1_eq : (Reference.dst1 : List ℝ → List ℝ) = Spec.dst1 := by
  funext x
  unfold Reference.dst1 Spec.dst1 Spec.onList Spec.dst1At
  rw [Reference.loops_eq]
  refine List.map_congr_left fun k hk => sum_congr rfl fun i hi => ?_
  have hk := List.mem_range.1 hk
  have hi := mem_range.1 hi
  simp only [F64.nat, F64.half, F64.pi, F64.cos, F64.sin, Nat.cast_zero, Nat.cast_one, Nat.cast_add]
theorem Reference.dst2_eq : (Reference.dst2 : List ℝ → List ℝ) = Spec.dst2 := by
  funext x
  unfold Reference.dst2 Spec.dst2 Spec.onList Spec.dst2At
  rw [Reference.loops_eq]
  refine List.map_congr_left fun k hk => sum_congr rfl fun i hi => ?_
  have hk := List.mem_range.1 hk
  have hi := mem_range.1 hi
  simp only [F64.nat, F64.half, F64.pi, F64.cos, F64.sin, Nat.cast_zero, Nat.cast_one, Nat.cast_add]
theorem Reference.dst3_eq : (Reference.dst3 : List ℝ → List ℝ) = Spec.dst3 := by
  funext x
  unfold Reference.dst3 Spec.dst3 Spec.onList Spec.dst3At
  rw [Reference.loops_eq]
  refine List.map_congr_left fun k hk => sum_congr rfl fun i hi => ?_
  have hk := List.mem_range.1 hk
  have hi := mem_range.1 hi
  simp only [F64.nat, F64.half, F64.pi, F64.cos, F64.sin, Spec.halfAt, Nat.cast_zero, Nat.cast_one]
  split <;> ring
theorem Reference.dst4_eq : (Reference.dst4 : List ℝ → List ℝ) = Spec.dst4 := by
  funext x
  unfold Reference.dst4 Spec.dst4 Spec.onList Spec.dst4At
  rw [Reference.loops_eq]
  refine List.map_congr_left fun k hk => sum_congr rfl fun i hi => ?_
  have hk := List.mem_range.1 hk
  have hi := mem_range.1 hi
  simp only [F64.nat, F64.half, F64.pi, F64.cos, F64.sin, Nat.cast_zero, Nat.cast_one, Nat.cast_add]
theorem Reference.dst5_eq : (Reference.dst5 : List ℝ → List ℝ) = Spec.dst5 := by
  funext x
  unfold Reference.dst5 Spec.dst5 Spec.onList Spec.dst5At
  rw [Reference.loops_eq]
  refine List.map_congr_left fun k hk => sum_congr rfl fun i hi => ?_
  have hk := List.mem_range.1 hk
  have hi := mem_range.1 hi
  simp only [F64.nat, F64.half, F64.pi, F64.cos, F64.sin, Nat.cast_zero, Nat.cast_one, Nat.cast_add]
theorem Reference.dst6_eq : (Reference.dst6 : List ℝ → List ℝ) = Spec.dst6 := by
  funext x
  unfold Reference.dst6 Spec.dst6 Spec.onList Spec.dst6At
  rw [Reference.loops_eq]
  refine List.map_congr_left fun k hk => sum_congr rfl fun i hi => ?_
  have hk := List.mem_range.1 hk
  have hi := mem_range.1 hi
  simp only [F64.nat, F64.half, F64.pi, F64.cos, F64.sin, Nat.cast_zero, Nat.cast_one, Nat.cast_add]
theorem Reference.dst7_eq : (Reference.dst7 : List ℝ → List ℝ) = Spec.dst7 := by
  funext x
  unfold Reference.dst7 Spec.dst7 Spec.onList Spec.dst7At
  rw [Reference.loops_eq]
  refine List.map_congr_left fun k hk => sum_congr rfl fun i hi => ?_
  have hk := List.mem_range.1 hk
  have hi := mem_range.1 hi
  simp only [F64.nat, F64.half, F64.pi, F64.cos, F64.sin, Nat.cast_zero, Nat.cast_one, Nat.cast_add]
theorem Reference.dst8_eq : (Reference.dst8 : List ℝ → List ℝ) = Spec.dst8 := by
  funext x
  unfold Reference.dst8 Spec.dst8 Spec.onList Spec.dst8At
  rw [Reference.loops_eq]
  refine List.map_congr_left fun k hk => sum_congr rfl fun i hi => ?_
  have hk := List.mem_range.1 hk
  have hi := mem_range.1 hi
  simp only [F64.nat, F64.half, F64.pi, F64.cos, F64.sin, Spec.halfAt, Nat.cast_zero, Nat.cast_one]
  split <;> ring

theorem Reference.getD_real {x : List ℝ} {i : ℕ} {d : ℝ} (h : i < x.length) : x.getD i d = x[i] := by
  rw [List.getD_eq_getElem?_getD, List.getElem?_eq_getElem h, Option.getD_some]

theorem Reference.slowMdct_eq {n : ℕ} {x : List ℝ} {w : ℕ → List ℝ} (hx : x.length = 2 * n) (hw : (w (2 * n)).length = 2 * n) :
    Reference.slowMdct x w = Spec.mdct n (w (2 * n)) x := by
  unfold Reference.slowMdct Spec.mdct Spec.mdctAt
  dsimp only
  rw [hx, show 2 * n / 2 = n by omega]
  refine List.map_congr_left fun k _ => ?_
  rw [Reference.foldl_sum]
  refine sum_congr rfl fun i hi => ?_
  have hi := mem_range.1 hi
  rw [Reference.getD_real (by simp [hx, hw, hi]), List.getElem_zipWith, Reference.getD_real (by omega), Reference.getD_real (by omega), Reference.mdctCos]
  simp only [F64.nat, F64.half, F64.pi, F64.cos]
  rw [mul_comm x[i]]
  congr 2
  ring

theorem Reference.slowImdct_eq {n : ℕ} {x : List ℝ} {w : ℕ → List ℝ} (hx : x.length = n) (hw : (w (2 * n)).length = 2 * n) :
    Reference.slowImdct x w = Spec.imdct n (w (2 * n)) x := by
  unfold Reference.slowImdct Spec.imdct Spec.imdctAt
  dsimp only
  rw [hx, List.length_map, List.length_range, Nat.mul_comm]
  apply List.ext_getElem
  · simp [hw]
  · intro i h1 h2
    have hi : i < 2 * n := by simpa using h2
    rw [List.getElem_zipWith, List.getElem_map, List.getElem_map, Reference.foldl_sum, List.getElem_range, Reference.getD_real (by omega), mul_comm]
    congr 1
    refine sum_congr rfl fun k _ => ?_
    rw [Reference.mdctCos]
    simp only [F64.nat, F64.half, F64.pi, F64.cos, Nat.cast_zero]
    congr 2
    ring

theorem Performs.dct1_reference {p : Proc ℝ} {n s : ℕ} (hn : 2 ≤ n) (h : Performs p n s Spec.dct1) : Performs p n s Reference.dct1 := by
  refine ⟨fun m hm => ?_, fun buf hb => ?_⟩
  · obtain ⟨scr, e⟩ := h.1 m hm
    exact ⟨scr, by rw [e, Reference.dct1_eq (by have := hm.1; omega)]⟩
  · rw [h.2 buf hb, Reference.dct1_eq (by omega)]

/-- In exact arithmetic every instance the constructors make returns what the reference implementation of its transform returns. -/
theorem C88_made :
    (∀ o : Obj1 ℝ, MadeDct1 FftContract o → 2 ≤ o.len → Performs o.run o.len o.scratchLen Reference.dct1) ∧
    (∀ o : Obj23 ℝ, Made23 FftContract o → Performs o.dct2 o.len o.scratchLen Reference.dct2) ∧
    (∀ o : Obj23 ℝ, Made23 FftContract o → 1 ≤ o.len → Performs o.dct3 o.len o.scratchLen Reference.dct3) ∧
    (∀ o : Obj4 ℝ, Made4 FftContract o → 1 ≤ o.len → Performs o.dct4 o.len o.scratchLen Reference.dct4) ∧
    (∀ o : Obj1 ℝ, MadeDct5 o → Performs o.run o.len o.scratchLen Reference.dct5) ∧
    (∀ o : Obj67 ℝ, MadeDct67 o → Performs o.t6 o.len o.scratchLen Reference.dct6) ∧
    (∀ o : Obj67 ℝ, MadeDct67 o → Performs o.t7 o.len o.scratchLen Reference.dct7) ∧
    (∀ o : Obj1 ℝ, MadeDct8 o → Performs o.run o.len o.scratchLen Reference.dct8) ∧
    (∀ o : Obj1 ℝ, MadeDst1 FftContract o → PerformsZeroed o.run o.len o.scratchLen Reference.dst1) ∧
    (∀ o : Obj23 ℝ, Made23 FftContract o → Performs o.dst2 o.len o.scratchLen Reference.dst2) ∧
    (∀ o : Obj23 ℝ, Made23 FftContract o → 1 ≤ o.len → Performs o.dst3 o.len o.scratchLen Reference.dst3) ∧
    (∀ o : Obj4 ℝ, Made4 FftContract o → 1 ≤ o.len → Performs o.dst4 o.len o.scratchLen Reference.dst4) ∧
    (∀ o : Obj1 ℝ, MadeDst5 o → Performs o.run o.len o.scratchLen Reference.dst5) ∧
    (∀ o : Obj67 ℝ, MadeDst67 FftContract o → PerformsZeroed o.t6 o.len o.scratchLen Reference.dst6) ∧
    (∀ o : Obj67 ℝ, MadeDst67 FftContract o → PerformsZeroed o.t7 o.len o.scratchLen Reference.dst7) ∧
    (∀ o : Obj1 ℝ, MadeDst8 o → Performs o.run o.len o.scratchLen Reference.dst8) ∧
    (∀ (win : List ℝ) (o : MdctObj ℝ), MadeMdct FftContract win o → 1 ≤ o.len →
      ComputesMdct o.mdct o.len o.scratchLen (fun a b => Reference.slowMdct (a ++ b) fun _ => win) ∧
      AccumulatesImdct o.imdct o.len o.scratchLen (fun x => Reference.slowImdct x fun _ => win)) := by
  refine ⟨?_, ?_, ?_, ?_, ?_, ?_, ?_, ?_, ?_, ?_, ?_, ?_, ?_, ?_, ?_, ?_, ?_⟩
  · exact fun o h hn => (C01_made h hn).dct1_reference hn
  · exact fun o h => Reference.dct2_eq ▸ C02_made h
  · exact fun o h hn => Reference.dct3_eq ▸ C03_made h hn
  · exact fun o h hn => Reference.dct4_eq ▸ C04_made h hn
  · exact fun o h => Reference.dct5_eq ▸ C05_made h
  · exact fun o h => Reference.dct6_eq ▸ C06_made h
  · exact fun o h => Reference.dct7_eq ▸ C07_made h
  · exact fun o h => Reference.dct8_eq ▸ C08_made h
  · exact fun o h => Reference.dst1_eq ▸ C09_made h
  · exact fun o h => Reference.dst2_eq ▸ C10_made h
  · exact fun o h hn => Reference.dst3_eq ▸ C11_made h hn
  · exact fun o h hn => Reference.dst4_eq ▸ C12_made h hn
  · exact fun o h => Reference.dst5_eq ▸ C13_made h
  · exact fun o h => Reference.dst6_eq ▸ C14_made h
  · exact fun o h => Reference.dst7_eq ▸ C15_made h
  · exact fun o h => Reference.dst8_eq ▸ C16_made h
  · intro win o h hn
    obtain ⟨v, e, -⟩ := h.real hn
    have hw : win.length = 2 * o.len := by rw [e]; simp
    refine ⟨fun a b m hm => ?_, fun x m hm => ?_⟩
    · beta_reduce
      rw [Reference.slowMdct_eq (n := o.len) (by rw [List.length_append, hm.1, hm.2.1]; omega) hw]
      exact C21_made h hn a b m hm
    · beta_reduce
      rw [Reference.slowImdct_eq hm.1 hw]
      exact C22_made h hn x m hm

/-- So does every instance the planner returns, after any calls; an MDCT instance for the window it applies (C36, C49). -/
theorem C88_planned {planFft : ℕ → Fft ℝ} (hf : PlanFftContract planFft) (n : ℕ) :
    (2 ≤ n → Plans planFft (planDct1 planFft n) fun o => o.len = n ∧ Performs o.run n o.scratchLen Reference.dct1) ∧
    (Plans planFft (planDct2 planFft n) fun o => o.len = n ∧ Performs o.dct2 n o.scratchLen Reference.dct2) ∧
    (1 ≤ n → Plans planFft (planDct3 planFft n) fun o => o.len = n ∧ Performs o.dct3 n o.scratchLen Reference.dct3) ∧
    (1 ≤ n → Plans planFft (planDct4 planFft n) fun o => o.len = n ∧ Performs o.dct4 n o.scratchLen Reference.dct4) ∧
    (1 ≤ n → Plans planFft (planDct5 n) fun o => o.len = n ∧ Performs o.run n o.scratchLen Reference.dct5) ∧
    (1 ≤ n → Plans planFft (planDct6 n) fun o => o.len = n ∧ Performs o.t6 n o.scratchLen Reference.dct6) ∧
    (1 ≤ n → Plans planFft (planDct7 n) fun o => o.len = n ∧ Performs o.t7 n o.scratchLen Reference.dct7) ∧
    (Plans planFft (planDct8 n) fun o => o.len = n ∧ Performs o.run n o.scratchLen Reference.dct8) ∧
    (Plans planFft (planDst1 planFft n) fun o => o.len = n ∧ PerformsZeroed o.run n o.scratchLen Reference.dst1) ∧
    (Plans planFft (planDst2 planFft n) fun o => o.len = n ∧ Performs o.dst2 n o.scratchLen Reference.dst2) ∧
    (1 ≤ n → Plans planFft (planDst3 planFft n) fun o => o.len = n ∧ Performs o.dst3 n o.scratchLen Reference.dst3) ∧
    (1 ≤ n → Plans planFft (planDst4 planFft n) fun o => o.len = n ∧ Performs o.dst4 n o.scratchLen Reference.dst4) ∧
    (Plans planFft (planDst5 n) fun o => o.len = n ∧ Performs o.run n o.scratchLen Reference.dst5) ∧
    (Plans planFft (planDst6 planFft n) fun o => o.len = n ∧ PerformsZeroed o.t6 n o.scratchLen Reference.dst6) ∧
    (Plans planFft (planDst7 planFft n) fun o => o.len = n ∧ PerformsZeroed o.t7 n o.scratchLen Reference.dst7) ∧
    (1 ≤ n → Plans planFft (planDst8 n) fun o => o.len = n ∧ Performs o.run n o.scratchLen Reference.dst8) ∧
    (∀ (calls : List (PlanCall ℝ)) (w : ℕ → List ℝ) (o : MdctObj ℝ), PlannedMdct planFft calls n w o → 1 ≤ n →
      ComputesMdct o.mdct n o.scratchLen (fun a b => Reference.slowMdct (a ++ b) (effectiveWindow n calls w)) ∧
      AccumulatesImdct o.imdct n o.scratchLen (fun x => Reference.slowImdct x (effectiveWindow n calls w))) := by
  refine ⟨?_, ?_, ?_, ?_, ?_, ?_, ?_, ?_, ?_, ?_, ?_, ?_, ?_, ?_, ?_, ?_, ?_⟩
  · intro hn calls
    obtain ⟨o, s, e, l, h⟩ := C01_planned hf hn calls
    exact ⟨o, s, e, l, h.dct1_reference hn⟩
  · exact Reference.dct2_eq ▸ C02_planned hf
  · exact fun hn => Reference.dct3_eq ▸ C03_planned hf hn
  · exact fun hn => Reference.dct4_eq ▸ C04_planned hf hn
  · exact fun hn => Reference.dct5_eq ▸ C05_planned hn
  · exact fun hn => Reference.dct6_eq ▸ C06_planned hn
  · exact fun hn => Reference.dct7_eq ▸ C07_planned hn
  · exact Reference.dct8_eq ▸ C08_planned
  · exact Reference.dst1_eq ▸ C09_planned hf
  · exact Reference.dst2_eq ▸ C10_planned hf
  · exact fun hn => Reference.dst3_eq ▸ C11_planned hf hn
  · exact fun hn => Reference.dst4_eq ▸ C12_planned hf hn
  · exact Reference.dst5_eq ▸ C13_planned
  · exact Reference.dst6_eq ▸ C14_planned hf
  · exact Reference.dst7_eq ▸ C15_planned hf
  · exact fun hn => Reference.dst8_eq ▸ C16_planned hn
  · intro calls w o h hn
    have hw : (effectiveWindow n calls w (2 * n)).length = 2 * n := by
      obtain ⟨l, hm⟩ := h.made_window hf.shape
      obtain ⟨v, e, -⟩ := (hm.mono (FromPlan.contract hf)).real (by omega)
      rw [e, length_vec, l]
    refine ⟨fun a b m hm => ?_, fun x m hm => ?_⟩
    · beta_reduce
      rw [Reference.slowMdct_eq (n := n) (by rw [List.length_append, hm.1, hm.2.1]; omega) hw]
      exact (C21_planned hf h hn).2 a b m hm
    · beta_reduce
      rw [Reference.slowImdct_eq hm.1 hw]
      exact (C22_planned hf h hn).2 x m hm

/-- The hypotheses are met; and the reference of a concrete transform. -/
example : PlanFftContract (fun n => (dftFft n : Fft ℝ)) ∧ Reference.dct2 [1, 1] = [(2 : ℝ), 0] := by
  refine ⟨dftFft_plan, ?_⟩
  have e : (1 + 1 / 2) * π / 2 = π - (1 / 2) * π / 2 := by ring
  simp [Reference.dct2_eq, Spec.dct2, Spec.onList, Spec.dct2At, List.range_succ, sum_range_succ]
  constructor
  · norm_num
  · rw [show ((1 : ℝ) + 2⁻¹) * π / 2 = π - 2⁻¹ * π / 2 by ring, cos_pi_sub]; ring

end RustDct
