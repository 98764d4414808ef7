import Verif.Proofs.MadeReal
import Verif.Proofs.Methods
/-!
# C01–C16: every transform computes its textbook definition

For each transform two theorems.  `C…_made`: every instance that the crate's public constructors can produce (with any FFT that
computes the DFT) performs the transform of `Verif/Spec.lean`.  `C…_planned`: after every history of planner calls,
the planner returns an instance of the requested length that performs the transform.

Over the reals; `Performs` is for arbitrary scratch contents, `PerformsZeroed` (DST1, DST6, DST7) for zeroed scratch:
see `Verif/Props/Findings.lean` for why.
-/

set_option linter.all false

namespace RustDct

theorem Computes.performs {p : Proc ℝ} {n s : ℕ} {F : List ℝ → List ℝ} (h : Computes p n s F) : Performs p n s F := by
  refine ⟨h, fun buf hb => ?_⟩
  obtain ⟨scr', e⟩ := h ⟨buf, List.replicate s 0⟩ ⟨hb, by simp⟩
  unfold processDefault
  rw [e]

theorem ComputesZeroed.performs {p : Proc ℝ} {n s : ℕ} {F : List ℝ → List ℝ} (h : ComputesZeroed p n s F) : PerformsZeroed p n s F := by
  refine ⟨h, fun buf hb => ?_⟩
  obtain ⟨scr', e⟩ := h buf hb
  unfold processDefault
  rw [e]

variable {planFft : ℕ → Fft ℝ}

theorem FromPlan.contract (hf : PlanFftContract planFft) : ∀ f, FromPlan planFft f → FftContract f := by
  rintro _ ⟨n, rfl⟩
  exact (hf n).2

theorem PlanFftContract.shape (hf : PlanFftContract planFft) : PlanFftShape planFft := hf.sane.shape

/-! ### C01: DCT1 -/

theorem C01_made {o : Obj1 ℝ} (h : MadeDct1 FftContract o) (hn : 2 ≤ o.len) :
    Performs o.run o.len o.scratchLen Spec.dct1 := by
  exact ((h.real hn).computes local_dct1).performs

theorem C01_planned (hf : PlanFftContract planFft) {n : ℕ} (hn : 2 ≤ n) :
    Plans planFft (planDct1 planFft n) fun o => o.len = n ∧ Performs o.run n o.scratchLen Spec.dct1 := by
  obtain ⟨o, ho, h, hl⟩ := canonDct1_ok hf.shape hn
  exact Plans.of (fun W => planDct1_yields n) ⟨o, ho, hl, hl ▸ (C01_made (h.mono (FromPlan.contract hf)) (by omega))⟩

example : Plans (fun n => (dftFft n : Fft ℝ)) (planDct1 (fun n => dftFft n) 60) fun o => o.len = 60 ∧ Performs o.run 60 o.scratchLen Spec.dct1 :=
  C01_planned dftFft_plan (by norm_num)

/-! ### C02: DCT2 -/

theorem C02_made {o : Obj23 ℝ} (h : Made23 FftContract o) :
    Performs o.dct2 o.len o.scratchLen Spec.dct2 := by
  exact ((h.real.1).computes local_dct2).performs

theorem C02_planned (hf : PlanFftContract planFft) {n : ℕ} :
    Plans planFft (planDct2 planFft n) fun o => o.len = n ∧ Performs o.dct2 n o.scratchLen Spec.dct2 := by
  obtain ⟨o, ho, h, hl⟩ := canon23_made hf.shape n
  exact Plans.of (fun W => planDct2_yields n) ⟨o, ho, hl, hl ▸ (C02_made (h.mono (FromPlan.contract hf)))⟩

example : Plans (fun n => (dftFft n : Fft ℝ)) (planDct2 (fun n => dftFft n) 60) fun o => o.len = 60 ∧ Performs o.dct2 60 o.scratchLen Spec.dct2 :=
  C02_planned dftFft_plan

/-! ### C03: DCT3 -/

theorem C03_made {o : Obj23 ℝ} (h : Made23 FftContract o) (hn : 1 ≤ o.len) :
    Performs o.dct3 o.len o.scratchLen Spec.dct3 := by
  exact (((h.real.2.2 hn).1).computes local_dct3).performs

theorem C03_planned (hf : PlanFftContract planFft) {n : ℕ} (hn : 1 ≤ n) :
    Plans planFft (planDct3 planFft n) fun o => o.len = n ∧ Performs o.dct3 n o.scratchLen Spec.dct3 := by
  obtain ⟨o, ho, h, hl⟩ := canon23_made hf.shape n
  exact Plans.of (fun W => planDct2_yields n) ⟨o, ho, hl, hl ▸ (C03_made (h.mono (FromPlan.contract hf)) (by omega))⟩

example : Plans (fun n => (dftFft n : Fft ℝ)) (planDct3 (fun n => dftFft n) 60) fun o => o.len = 60 ∧ Performs o.dct3 60 o.scratchLen Spec.dct3 :=
  C03_planned dftFft_plan (by norm_num)

/-! ### C04: DCT4 -/

theorem C04_made {o : Obj4 ℝ} (h : Made4 FftContract o) (hn : 1 ≤ o.len) :
    Performs o.dct4 o.len o.scratchLen Spec.dct4 := by
  exact (((h.real hn).1).computes local_dct4).performs

theorem C04_planned (hf : PlanFftContract planFft) {n : ℕ} (hn : 1 ≤ n) :
    Plans planFft (planDct4 planFft n) fun o => o.len = n ∧ Performs o.dct4 n o.scratchLen Spec.dct4 := by
  obtain ⟨o, ho, h, hl⟩ := canon4_made hf.shape n
  exact Plans.of (fun W => planDct4_yields n) ⟨o, ho, hl, hl ▸ (C04_made (h.mono (FromPlan.contract hf)) (by omega))⟩

example : Plans (fun n => (dftFft n : Fft ℝ)) (planDct4 (fun n => dftFft n) 60) fun o => o.len = 60 ∧ Performs o.dct4 60 o.scratchLen Spec.dct4 :=
  C04_planned dftFft_plan (by norm_num)

/-! ### C05: DCT5 -/

theorem C05_made {o : Obj1 ℝ} (h : MadeDct5 o) :
    Performs o.run o.len o.scratchLen Spec.dct5 := by
  exact ((h.real).computes local_dct5).performs

theorem C05_planned {n : ℕ} (hn : 1 ≤ n) :
    Plans planFft (planDct5 n) fun o => o.len = n ∧ Performs o.run n o.scratchLen Spec.dct5 := by
  obtain ⟨o, ho, h, hl⟩ := canonDct5_ok (T := ℝ) hn
  exact Plans.of (fun W => planDct5_yields n) ⟨o, ho, hl, hl ▸ (C05_made (h))⟩

example : Plans (fun n => (dftFft n : Fft ℝ)) (planDct5 60) fun o => o.len = 60 ∧ Performs o.run 60 o.scratchLen Spec.dct5 :=
  C05_planned (by norm_num)

/-! ### C06: DCT6 -/

theorem C06_made {o : Obj67 ℝ} (h : MadeDct67 o) :
    Performs o.t6 o.len o.scratchLen Spec.dct6 := by
  exact ((h.real.1).computes local_dct6).performs

theorem C06_planned {n : ℕ} (hn : 1 ≤ n) :
    Plans planFft (planDct6 n) fun o => o.len = n ∧ Performs o.t6 n o.scratchLen Spec.dct6 := by
  obtain ⟨o, ho, h, hl⟩ := canonDct6_ok (T := ℝ) hn
  exact Plans.of (fun W => planDct6_yields n) ⟨o, ho, hl, hl ▸ (C06_made (h))⟩

example : Plans (fun n => (dftFft n : Fft ℝ)) (planDct6 60) fun o => o.len = 60 ∧ Performs o.t6 60 o.scratchLen Spec.dct6 :=
  C06_planned (by norm_num)

/-! ### C07: DCT7 -/

theorem C07_made {o : Obj67 ℝ} (h : MadeDct67 o) :
    Performs o.t7 o.len o.scratchLen Spec.dct7 := by
  exact ((h.real.2).computes local_dct7).performs

theorem C07_planned {n : ℕ} (hn : 1 ≤ n) :
    Plans planFft (planDct7 n) fun o => o.len = n ∧ Performs o.t7 n o.scratchLen Spec.dct7 := by
  obtain ⟨o, ho, h, hl⟩ := canonDct6_ok (T := ℝ) hn
  exact Plans.of (fun W => planDct6_yields n) ⟨o, ho, hl, hl ▸ (C07_made (h))⟩

example : Plans (fun n => (dftFft n : Fft ℝ)) (planDct7 60) fun o => o.len = 60 ∧ Performs o.t7 60 o.scratchLen Spec.dct7 :=
  C07_planned (by norm_num)

/-! ### C08: DCT8 -/

theorem C08_made {o : Obj1 ℝ} (h : MadeDct8 o) :
    Performs o.run o.len o.scratchLen Spec.dct8 := by
  exact ((h.real).computes local_dct8).performs

theorem C08_planned {n : ℕ} :
    Plans planFft (planDct8 n) fun o => o.len = n ∧ Performs o.run n o.scratchLen Spec.dct8 := by
  obtain ⟨o, ho, h, hl⟩ := canonDct8_ok (T := ℝ) n
  exact Plans.of (fun W => planDct8_yields n) ⟨o, ho, hl, hl ▸ (C08_made (h))⟩

example : Plans (fun n => (dftFft n : Fft ℝ)) (planDct8 60) fun o => o.len = 60 ∧ Performs o.run 60 o.scratchLen Spec.dct8 :=
  C08_planned

/-! ### C09: DST1 -/

theorem C09_made {o : Obj1 ℝ} (h : MadeDst1 FftContract o) :
    PerformsZeroed o.run o.len o.scratchLen Spec.dst1 := by
  rcases h.real with r | r
  · exact (r.computes local_dst1).zeroed.performs
  · exact (r.zeroed local_dst1 (by intro k; simp [dst1Pollution])).performs

theorem C09_planned (hf : PlanFftContract planFft) {n : ℕ} :
    Plans planFft (planDst1 planFft n) fun o => o.len = n ∧ PerformsZeroed o.run n o.scratchLen Spec.dst1 := by
  obtain ⟨o, ho, h, hl⟩ := canonDst1_ok hf.shape n
  exact Plans.of (fun W => planDst1_yields n) ⟨o, ho, hl, hl ▸ (C09_made (h.mono (FromPlan.contract hf)))⟩

example : Plans (fun n => (dftFft n : Fft ℝ)) (planDst1 (fun n => dftFft n) 60) fun o => o.len = 60 ∧ PerformsZeroed o.run 60 o.scratchLen Spec.dst1 :=
  C09_planned dftFft_plan

/-! ### C10: DST2 -/

theorem C10_made {o : Obj23 ℝ} (h : Made23 FftContract o) :
    Performs o.dst2 o.len o.scratchLen Spec.dst2 := by
  exact ((h.real.2.1).computes local_dst2).performs

theorem C10_planned (hf : PlanFftContract planFft) {n : ℕ} :
    Plans planFft (planDst2 planFft n) fun o => o.len = n ∧ Performs o.dst2 n o.scratchLen Spec.dst2 := by
  obtain ⟨o, ho, h, hl⟩ := canon23_made hf.shape n
  exact Plans.of (fun W => planDct2_yields n) ⟨o, ho, hl, hl ▸ (C10_made (h.mono (FromPlan.contract hf)))⟩

example : Plans (fun n => (dftFft n : Fft ℝ)) (planDst2 (fun n => dftFft n) 60) fun o => o.len = 60 ∧ Performs o.dst2 60 o.scratchLen Spec.dst2 :=
  C10_planned dftFft_plan

/-! ### C11: DST3 -/

theorem C11_made {o : Obj23 ℝ} (h : Made23 FftContract o) (hn : 1 ≤ o.len) :
    Performs o.dst3 o.len o.scratchLen Spec.dst3 := by
  exact (((h.real.2.2 hn).2).computes local_dst3).performs

theorem C11_planned (hf : PlanFftContract planFft) {n : ℕ} (hn : 1 ≤ n) :
    Plans planFft (planDst3 planFft n) fun o => o.len = n ∧ Performs o.dst3 n o.scratchLen Spec.dst3 := by
  obtain ⟨o, ho, h, hl⟩ := canon23_made hf.shape n
  exact Plans.of (fun W => planDct2_yields n) ⟨o, ho, hl, hl ▸ (C11_made (h.mono (FromPlan.contract hf)) (by omega))⟩

example : Plans (fun n => (dftFft n : Fft ℝ)) (planDst3 (fun n => dftFft n) 60) fun o => o.len = 60 ∧ Performs o.dst3 60 o.scratchLen Spec.dst3 :=
  C11_planned dftFft_plan (by norm_num)

/-! ### C12: DST4 -/

theorem C12_made {o : Obj4 ℝ} (h : Made4 FftContract o) (hn : 1 ≤ o.len) :
    Performs o.dst4 o.len o.scratchLen Spec.dst4 := by
  exact (((h.real hn).2).computes local_dst4).performs

theorem C12_planned (hf : PlanFftContract planFft) {n : ℕ} (hn : 1 ≤ n) :
    Plans planFft (planDst4 planFft n) fun o => o.len = n ∧ Performs o.dst4 n o.scratchLen Spec.dst4 := by
  obtain ⟨o, ho, h, hl⟩ := canon4_made hf.shape n
  exact Plans.of (fun W => planDct4_yields n) ⟨o, ho, hl, hl ▸ (C12_made (h.mono (FromPlan.contract hf)) (by omega))⟩

example : Plans (fun n => (dftFft n : Fft ℝ)) (planDst4 (fun n => dftFft n) 60) fun o => o.len = 60 ∧ Performs o.dst4 60 o.scratchLen Spec.dst4 :=
  C12_planned dftFft_plan (by norm_num)

/-! ### C13: DST5 -/

theorem C13_made {o : Obj1 ℝ} (h : MadeDst5 o) :
    Performs o.run o.len o.scratchLen Spec.dst5 := by
  exact ((h.real).computes local_dst5).performs

theorem C13_planned {n : ℕ} :
    Plans planFft (planDst5 n) fun o => o.len = n ∧ Performs o.run n o.scratchLen Spec.dst5 := by
  obtain ⟨o, ho, h, hl⟩ := canonDst5_ok (T := ℝ) n
  exact Plans.of (fun W => planDst5_yields n) ⟨o, ho, hl, hl ▸ (C13_made (h))⟩

example : Plans (fun n => (dftFft n : Fft ℝ)) (planDst5 60) fun o => o.len = 60 ∧ Performs o.run 60 o.scratchLen Spec.dst5 :=
  C13_planned

/-! ### C14: DST6 -/

theorem C14_made {o : Obj67 ℝ} (h : MadeDst67 FftContract o) :
    PerformsZeroed o.t6 o.len o.scratchLen Spec.dst6 := by
  rcases h.real with r | r
  · exact (r.1.computes local_dst6).zeroed.performs
  · exact (r.1.zeroed local_dst6 (by intro k; simp [dst6Pollution])).performs

theorem C14_planned (hf : PlanFftContract planFft) {n : ℕ} :
    Plans planFft (planDst6 planFft n) fun o => o.len = n ∧ PerformsZeroed o.t6 n o.scratchLen Spec.dst6 := by
  obtain ⟨o, ho, h, hl⟩ := canonDst6_ok hf.shape n
  exact Plans.of (fun W => planDst6_yields n) ⟨o, ho, hl, hl ▸ (C14_made (h.mono (FromPlan.contract hf)))⟩

example : Plans (fun n => (dftFft n : Fft ℝ)) (planDst6 (fun n => dftFft n) 60) fun o => o.len = 60 ∧ PerformsZeroed o.t6 60 o.scratchLen Spec.dst6 :=
  C14_planned dftFft_plan

/-! ### C15: DST7 -/

theorem C15_made {o : Obj67 ℝ} (h : MadeDst67 FftContract o) :
    PerformsZeroed o.t7 o.len o.scratchLen Spec.dst7 := by
  rcases h.real with r | r
  · exact (r.2.computes local_dst7).zeroed.performs
  · exact (r.2.zeroed local_dst7 (by intro k; simp [dst7Pollution])).performs

theorem C15_planned (hf : PlanFftContract planFft) {n : ℕ} :
    Plans planFft (planDst7 planFft n) fun o => o.len = n ∧ PerformsZeroed o.t7 n o.scratchLen Spec.dst7 := by
  obtain ⟨o, ho, h, hl⟩ := canonDst6_ok hf.shape n
  exact Plans.of (fun W => planDst6_yields n) ⟨o, ho, hl, hl ▸ (C15_made (h.mono (FromPlan.contract hf)))⟩

example : Plans (fun n => (dftFft n : Fft ℝ)) (planDst7 (fun n => dftFft n) 60) fun o => o.len = 60 ∧ PerformsZeroed o.t7 60 o.scratchLen Spec.dst7 :=
  C15_planned dftFft_plan

/-! ### C16: DST8 -/

theorem C16_made {o : Obj1 ℝ} (h : MadeDst8 o) :
    Performs o.run o.len o.scratchLen Spec.dst8 := by
  exact ((h.real).computes local_dst8).performs

theorem C16_planned {n : ℕ} (hn : 1 ≤ n) :
    Plans planFft (planDst8 n) fun o => o.len = n ∧ Performs o.run n o.scratchLen Spec.dst8 := by
  obtain ⟨o, ho, h, hl⟩ := canonDst8_ok (T := ℝ) hn
  exact Plans.of (fun W => planDst8_yields n) ⟨o, ho, hl, hl ▸ (C16_made (h))⟩

example : Plans (fun n => (dftFft n : Fft ℝ)) (planDst8 60) fun o => o.len = 60 ∧ Performs o.run 60 o.scratchLen Spec.dst8 :=
  C16_planned (by norm_num)

/-! The hypotheses of the `_made` theorems are met, for instance, by split radix on top of naive and FFT based
instances, which the planner never builds. -/

example : ∃ o : Obj23 ℝ, Made23 FftContract o ∧ o.len = 4 := by
  obtain ⟨h, hh⟩ : ∃ x : Type2And3Naive ℝ, Type2And3Naive.new 2 = .ok x := ⟨_, rfl⟩
  obtain ⟨q, hq⟩ : ∃ x : Type2And3ConvertToFft ℝ, Type2And3ConvertToFft.new (dftFft 1) = .ok x := ⟨_, rfl⟩
  have lh : h.toObj.len = 2 := Type2And3Naive.len_new hh
  obtain ⟨-, rfl⟩ := Type2And3ConvertToFft.new_shape hq
  refine ⟨_, .splitRadix (.naive hh) (.fft (dftFft_contract 1 0) hq) ?_ ?_ (Type2And3SplitRadix.new_eq (q := 1) lh rfl (by decide)), rfl⟩
  · rw [lh]; exact le_of_eq_of_le lh (by norm_num)
  · rw [lh]; decide

example : ∃ o : Obj4 ℝ, Made4 FftContract o ∧ o.len = 10 := by
  obtain ⟨q, hq⟩ : ∃ x : Type2And3ConvertToFft ℝ, Type2And3ConvertToFft.new (dftFft 5) = .ok x := ⟨_, rfl⟩
  obtain ⟨-, rfl⟩ := Type2And3ConvertToFft.new_shape hq
  exact ⟨_, .type3 (.fft (dftFft_contract 5 0) hq) (Type4ConvertToType3Even.new_eq rfl), rfl⟩

example : ∃ o : Obj1 ℝ, MadeDct1 FftContract o ∧ o.len = 3 :=
  ⟨_, .fft (dftFft_contract 4 0) (Dct1ConvertToFft.new_eq rfl rfl), rfl⟩

example : ∃ o : Obj1 ℝ, MadeDst1 FftContract o ∧ o.len = 3 :=
  ⟨_, .fft (dftFft_contract 8 0) (Dst1ConvertToFft.new_eq rfl rfl (by decide)), rfl⟩

example : ∃ o : Obj67 ℝ, MadeDst67 FftContract o ∧ o.len = 3 :=
  ⟨_, .fft (dftFft_contract 7 0) (Dst6And7ConvertToFft.new_eq rfl rfl), rfl⟩

end RustDct
