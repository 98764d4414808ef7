import Verif.Proofs.MadeMdct
import Verif.Proofs.NaiveReal
import Verif.Proofs.ConvertReal
import Verif.Proofs.ConvertReal4
import Verif.Proofs.ConvertReal67
import Verif.Proofs.ButterfliesReal
import Verif.Proofs.SplitRadixReal
/-!
# Every instance of the crate computes its transform, over the reals
-/

set_option linter.all false

namespace RustDct

/-! ### From closed forms to statements about lists -/

theorem onList_vec_local (F : ℕ → (ℕ → ℝ) → ℕ → ℝ) (hF : ∀ n x y k, (∀ i, i < n → x i = y i) → F n x k = F n y k) (n : ℕ) (f : ℕ → ℝ) :
    Spec.onList F (vec n f) = vec n (F n f) := by
  unfold Spec.onList
  rw [length_vec, map_range_eq_vec]
  refine vec_congr fun k _ => hF n _ _ k fun i hi => ?_
  simp [List.getD, hi]

/-- The transform reads its input only at the indices below `n`. -/
def Local (F : ℕ → (ℕ → ℝ) → ℕ → ℝ) : Prop := ∀ n x y k, (∀ i, i < n → x i = y i) → F n x k = F n y k

theorem RunsV.computes {p : Proc ℝ} {n s : ℕ} {F : ℕ → (ℕ → ℝ) → ℕ → ℝ} (hF : Local F) (h : RunsV p n s (F n)) :
    Computes p n s (Spec.onList F) := by
  rintro ⟨buf, scr⟩ ⟨h1, h2⟩
  obtain ⟨f, hf⟩ := exists_vec h1
  change buf = vec n f at hf
  subst hf
  obtain ⟨scr', e, _⟩ := h f scr h2
  exact ⟨scr', by rw [e, onList_vec_local F hF]⟩

theorem Computes.zeroed {p : Proc ℝ} {n s : ℕ} {F : List ℝ → List ℝ} (h : Computes p n s F) : ComputesZeroed p n s F := by
  intro buf hb
  exact h ⟨buf, List.replicate s 0⟩ ⟨hb, by simp⟩

theorem local_dct1 : Local Spec.dct1At := fun n x y k h => by
  unfold Spec.dct1At
  exact Finset.sum_congr rfl fun i hi => by rw [h i (Finset.mem_range.1 hi)]
theorem local_dst1 : Local Spec.dst1At := fun n x y k h => by
  unfold Spec.dst1At
  exact Finset.sum_congr rfl fun i hi => by rw [h i (Finset.mem_range.1 hi)]
theorem local_dct2 : Local Spec.dct2At := fun n x y k h => by
  unfold Spec.dct2At
  exact Finset.sum_congr rfl fun i hi => by rw [h i (Finset.mem_range.1 hi)]
theorem local_dst2 : Local Spec.dst2At := fun n x y k h => by
  unfold Spec.dst2At
  exact Finset.sum_congr rfl fun i hi => by rw [h i (Finset.mem_range.1 hi)]
theorem local_dct3 : Local Spec.dct3At := fun n x y k h => by
  unfold Spec.dct3At
  exact Finset.sum_congr rfl fun i hi => by rw [h i (Finset.mem_range.1 hi)]
theorem local_dst3 : Local Spec.dst3At := fun n x y k h => by
  unfold Spec.dst3At
  exact Finset.sum_congr rfl fun i hi => by rw [h i (Finset.mem_range.1 hi)]
theorem local_dct4 : Local Spec.dct4At := fun n x y k h => by
  unfold Spec.dct4At
  exact Finset.sum_congr rfl fun i hi => by rw [h i (Finset.mem_range.1 hi)]
theorem local_dst4 : Local Spec.dst4At := fun n x y k h => by
  unfold Spec.dst4At
  exact Finset.sum_congr rfl fun i hi => by rw [h i (Finset.mem_range.1 hi)]
theorem local_dct5 : Local Spec.dct5At := fun n x y k h => by
  unfold Spec.dct5At
  exact Finset.sum_congr rfl fun i hi => by rw [h i (Finset.mem_range.1 hi)]
theorem local_dst5 : Local Spec.dst5At := fun n x y k h => by
  unfold Spec.dst5At
  exact Finset.sum_congr rfl fun i hi => by rw [h i (Finset.mem_range.1 hi)]
theorem local_dct6 : Local Spec.dct6At := fun n x y k h => by
  unfold Spec.dct6At
  exact Finset.sum_congr rfl fun i hi => by rw [h i (Finset.mem_range.1 hi)]
theorem local_dst6 : Local Spec.dst6At := fun n x y k h => by
  unfold Spec.dst6At
  exact Finset.sum_congr rfl fun i hi => by rw [h i (Finset.mem_range.1 hi)]
theorem local_dct7 : Local Spec.dct7At := fun n x y k h => by
  unfold Spec.dct7At
  exact Finset.sum_congr rfl fun i hi => by rw [h i (Finset.mem_range.1 hi)]
theorem local_dst7 : Local Spec.dst7At := fun n x y k h => by
  unfold Spec.dst7At
  exact Finset.sum_congr rfl fun i hi => by rw [h i (Finset.mem_range.1 hi)]
theorem local_dct8 : Local Spec.dct8At := fun n x y k h => by
  unfold Spec.dct8At
  exact Finset.sum_congr rfl fun i hi => by rw [h i (Finset.mem_range.1 hi)]
theorem local_dst8 : Local Spec.dst8At := fun n x y k h => by
  unfold Spec.dst8At
  exact Finset.sum_congr rfl fun i hi => by rw [h i (Finset.mem_range.1 hi)]

theorem FftContract.sane {fft : Fft ℝ} (h : FftContract fft) : FftSane fft := by
  classical
  have hr := h.runs
  refine ⟨fun l => vec fft.len (dftRI fft.len (fun i => l.getD i ⟨0, 0⟩)), fun l _ => by simp, fun buf scr hb hs => ?_⟩
  have : buf = vec fft.len (fun i => buf.getD i ⟨0, 0⟩) := by
    apply List.ext_getElem
    · simp [hb]
    · intro i h1 h2
      simp [List.getD, h1]
  obtain ⟨scr', e, h3⟩ := hr (fun i => buf.getD i ⟨0, 0⟩) scr hs
  exact ⟨scr', by conv_lhs => rw [this]
                  exact e, h3⟩

theorem PlanFftContract.sane {planFft : ℕ → Fft ℝ} (h : PlanFftContract planFft) : PlanFftSane planFft :=
  fun n => ⟨(h n).1, (h n).2.1, (h n).2.sane⟩

/-! ### Every instance -/

theorem MadeDct1.real {o : Obj1 ℝ} (h : MadeDct1 FftContract o) (hn : 2 ≤ o.len) :
    RunsV o.run o.len o.scratchLen (Spec.dct1At o.len) := by
  cases h with
  | @naive n x h =>
    have e := Dct1Naive.len_new h
    obtain ⟨hd, -⟩ := Dct1Naive.new_shape h
    rw [Dct1Naive.new_real hd] at h
    injection h with h
    subst h
    have es : (Dct1Naive.inst n).toObj.scratchLen = n := e
    have el : (Dct1Naive.inst n).toObj.len = n := e
    rw [es, el]
    exact Dct1Naive.dct1_inst hd
  | fft hf h =>
    obtain ⟨h1, h2, rfl⟩ := Dct1ConvertToFft.new_shape h
    exact Dct1ConvertToFft.correct hf hn (by simp only [Dct1ConvertToFft.toObj, Dct1ConvertToFft.inst] at *; omega)

theorem Made23.real {o : Obj23 ℝ} (h : Made23 FftContract o) :
    RunsV o.dct2 o.len o.scratchLen (Spec.dct2At o.len) ∧ RunsV o.dst2 o.len o.scratchLen (Spec.dst2At o.len) ∧
    (1 ≤ o.len → RunsV o.dct3 o.len o.scratchLen (Spec.dct3At o.len) ∧ RunsV o.dst3 o.len o.scratchLen (Spec.dst3At o.len)) := by
  induction h with
  | @naive n x h =>
    have e := Type2And3Naive.len_new h
    obtain ⟨hd, -⟩ := Type2And3Naive.new_shape h
    rw [Type2And3Naive.new_real] at h
    injection h with h
    subst h
    have es : (Type2And3Naive.inst n).toObj.scratchLen = n := e
    have el : (Type2And3Naive.inst n).toObj.len = n := e
    rw [es, el]
    exact ⟨Type2And3Naive.dct2_inst, Type2And3Naive.dst2_inst, fun hn => ⟨Type2And3Naive.dct3_inst hn, Type2And3Naive.dst3_inst hn⟩⟩
  | butterfly2 => exact ⟨Type2And3Butterfly2.correct_dct2, Type2And3Butterfly2.correct_dst2, fun _ => ⟨Type2And3Butterfly2.correct_dct3, Type2And3Butterfly2.correct_dst3⟩⟩
  | butterfly3 => exact ⟨Type2And3Butterfly3.correct_dct2, Type2And3Butterfly3.correct_dst2, fun _ => ⟨Type2And3Butterfly3.correct_dct3, Type2And3Butterfly3.correct_dst3⟩⟩
  | butterfly4 => exact ⟨Type2And3Butterfly4.correct_dct2, Type2And3Butterfly4.correct_dst2, fun _ => ⟨Type2And3Butterfly4.correct_dct3, Type2And3Butterfly4.correct_dst3⟩⟩
  | butterfly8 => exact ⟨Type2And3Butterfly8.correct_dct2, Type2And3Butterfly8.correct_dst2, fun _ => ⟨Type2And3Butterfly8.correct_dct3, Type2And3Butterfly8.correct_dst3⟩⟩
  | butterfly16 => exact ⟨Type2And3Butterfly16.correct_dct2, Type2And3Butterfly16.correct_dst2, fun _ => ⟨Type2And3Butterfly16.correct_dct3, Type2And3Butterfly16.correct_dst3⟩⟩
  | @fft fft x hf h =>
    obtain ⟨h1, rfl⟩ := Type2And3ConvertToFft.new_shape h
    have e : fft.len = (Type2And3ConvertToFft.inst fft).toObj.len := (Type2And3ConvertToFft.len_inst _).symm
    exact ⟨Type2And3ConvertToFft.correct_dct2 hf e, Type2And3ConvertToFft.correct_dst2 hf e,
      fun hn => ⟨Type2And3ConvertToFft.correct_dct3 hf hn e, Type2And3ConvertToFft.correct_dst3 hf hn e⟩⟩
  | @splitRadix half quarter x hh hq sh sq h ih iq =>
    obtain ⟨h1, h2, h3, rfl⟩ := Type2And3SplitRadix.new_shape h
    rw [h1] at ih sh sq
    have es : (Type2And3SplitRadix.inst quarter.len half quarter).toObj.scratchLen = 4 * quarter.len := Type2And3SplitRadix.inst_len _ half quarter
    have el : (Type2And3SplitRadix.inst quarter.len half quarter).toObj.len = 4 * quarter.len := Type2And3SplitRadix.inst_len _ half quarter
    rw [es, el]
    have sh' : half.scratchLen ≤ 4 * quarter.len := by omega
    have sq' : quarter.scratchLen ≤ 4 * quarter.len := by omega
    have a := ih.1.weak
    have b := iq.1.weak
    have c := (ih.2.2 (by omega)).1.weak
    have d := (iq.2.2 h2).1.weak
    exact ⟨Type2And3SplitRadix.correct_dct2 h2 sh' sq' a b, Type2And3SplitRadix.correct_dst2 h2 sh' sq' a b,
      fun _ => ⟨Type2And3SplitRadix.correct_dct3 h2 sh' sq' c d, Type2And3SplitRadix.correct_dst3 h2 sh' sq' c d⟩⟩

theorem Made4.real {o : Obj4 ℝ} (h : Made4 FftContract o) (hn : 1 ≤ o.len) :
    RunsV o.dct4 o.len o.scratchLen (Spec.dct4At o.len) ∧ RunsV o.dst4 o.len o.scratchLen (Spec.dst4At o.len) := by
  cases h with
  | @naive n x h =>
    have e := Type4Naive.len_new h
    obtain ⟨hd, -⟩ := Type4Naive.new_shape h
    rw [Type4Naive.new_real] at h
    injection h with h
    subst h
    have es : (Type4Naive.inst n).toObj.scratchLen = n := e
    have el : (Type4Naive.inst n).toObj.len = n := e
    rw [es, el]
    exact ⟨Type4Naive.dct4_inst, Type4Naive.dst4_inst⟩
  | @fft fft x hf h =>
    obtain ⟨h1, h2, rfl⟩ := Type4ConvertToFftOdd.new_shape h
    exact ⟨Type4ConvertToFftOdd.correct_dct4 hf h1 rfl, Type4ConvertToFftOdd.correct_dst4 hf h1 rfl⟩
  | @type3 inner x hi h =>
    rw [Type4ConvertToType3Even.new_eq rfl] at h
    injection h with h
    subst h
    have e' : (Type4ConvertToType3Even.inst inner.len inner).toObj.len = 2 * inner.len := Type4ConvertToType3Even.inst_len inner.len inner
    rw [e'] at hn ⊢
    have r := hi.real.2.2 (by omega)
    exact ⟨Type4ConvertToType3Even.correct_dct4 (by omega) r.1.weak r.2.weak, Type4ConvertToType3Even.correct_dst4 (by omega) r.1.weak r.2.weak⟩

theorem MadeDct5.real {o : Obj1 ℝ} (h : MadeDct5 o) :
    RunsV o.run o.len o.scratchLen (Spec.dct5At o.len) := by
  cases h with
  | @naive n x h =>
    have e := Dct5Naive.len_new h
    obtain ⟨hd, -⟩ := Dct5Naive.new_shape h
    rw [Dct5Naive.new_real hd] at h
    injection h with h
    subst h
    have es : (Dct5Naive.inst n).toObj.scratchLen = n := e
    have el : (Dct5Naive.inst n).toObj.len = n := e
    rw [es, el]
    exact Dct5Naive.dct5_inst hd

theorem MadeDst5.real {o : Obj1 ℝ} (h : MadeDst5 o) :
    RunsV o.run o.len o.scratchLen (Spec.dst5At o.len) := by
  cases h with
  | @naive n x h =>
    have e := Dst5Naive.len_new h
    obtain ⟨hd, -⟩ := Dst5Naive.new_shape h
    rw [Dst5Naive.new_real] at h
    injection h with h
    subst h
    have es : (Dst5Naive.inst n).toObj.scratchLen = n := e
    have el : (Dst5Naive.inst n).toObj.len = n := e
    rw [es, el]
    exact Dst5Naive.dst5_inst

theorem MadeDct8.real {o : Obj1 ℝ} (h : MadeDct8 o) :
    RunsV o.run o.len o.scratchLen (Spec.dct8At o.len) := by
  cases h with
  | @naive n x h =>
    have e := Dct8Naive.len_new h
    obtain ⟨hd, -⟩ := Dct8Naive.new_shape h
    rw [Dct8Naive.new_real] at h
    injection h with h
    subst h
    have es : (Dct8Naive.inst n).toObj.scratchLen = n := e
    have el : (Dct8Naive.inst n).toObj.len = n := e
    rw [es, el]
    exact Dct8Naive.dct8_inst

theorem MadeDst8.real {o : Obj1 ℝ} (h : MadeDst8 o) :
    RunsV o.run o.len o.scratchLen (Spec.dst8At o.len) := by
  cases h with
  | @naive n x h =>
    have e := Dst8Naive.len_new h
    obtain ⟨hd, -⟩ := Dst8Naive.new_shape h
    rw [Dst8Naive.new_real hd] at h
    injection h with h
    subst h
    have es : (Dst8Naive.inst n).toObj.scratchLen = n := e
    have el : (Dst8Naive.inst n).toObj.len = n := e
    rw [es, el]
    exact Dst8Naive.dst8_inst hd

theorem MadeDct67.real {o : Obj67 ℝ} (h : MadeDct67 o) :
    RunsV o.t6 o.len o.scratchLen (Spec.dct6At o.len) ∧ RunsV o.t7 o.len o.scratchLen (Spec.dct7At o.len) := by
  cases h with
  | @naive n x h =>
    have e := Dct6And7Naive.len_new h
    obtain ⟨hd, -⟩ := Dct6And7Naive.new_shape h
    rw [Dct6And7Naive.new_real hd] at h
    injection h with h
    subst h
    have es : (Dct6And7Naive.inst n).toObj.scratchLen = n := e
    have el : (Dct6And7Naive.inst n).toObj.len = n := e
    rw [es, el]
    exact ⟨Dct6And7Naive.dct6_inst hd, Dct6And7Naive.dct7_inst hd⟩

theorem MadeDst1.real {o : Obj1 ℝ} (h : MadeDst1 FftContract o) :
    RunsV o.run o.len o.scratchLen (Spec.dst1At o.len) ∨
    RunsG o.run o.len o.scratchLen (fun g f k => Spec.dst1At o.len f k + dst1Pollution o.len g k) := by
  cases h with
  | @naive n x h =>
    left
    have e := Dst1Naive.len_new h
    obtain ⟨hd, -⟩ := Dst1Naive.new_shape h
    rw [Dst1Naive.new_real] at h
    injection h with h
    subst h
    have es : (Dst1Naive.inst n).toObj.scratchLen = n := e
    have el : (Dst1Naive.inst n).toObj.len = n := e
    rw [es, el]
    exact Dst1Naive.dst1_inst
  | @fft fft x hf h =>
    right
    obtain ⟨h1, h2, h3, rfl⟩ := Dst1ConvertToFft.new_shape h
    exact Dst1ConvertToFft.correct hf (by simp only [Dst1ConvertToFft.toObj, Dst1ConvertToFft.inst] at *; omega)

theorem MadeDst67.real {o : Obj67 ℝ} (h : MadeDst67 FftContract o) :
    (RunsV o.t6 o.len o.scratchLen (Spec.dst6At o.len) ∧ RunsV o.t7 o.len o.scratchLen (Spec.dst7At o.len)) ∨
    (RunsG o.t6 o.len o.scratchLen (fun g f k => Spec.dst6At o.len f k + dst6Pollution o.len g k) ∧
     RunsG o.t7 o.len o.scratchLen (fun g f k => Spec.dst7At o.len f k + dst7Pollution g k)) := by
  cases h with
  | @naive n x h =>
    left
    have e := Dst6And7Naive.len_new h
    obtain ⟨hd, -⟩ := Dst6And7Naive.new_shape h
    rw [Dst6And7Naive.new_real] at h
    injection h with h
    subst h
    have es : (Dst6And7Naive.inst n).toObj.scratchLen = n := e
    have el : (Dst6And7Naive.inst n).toObj.len = n := e
    rw [es, el]
    exact ⟨Dst6And7Naive.dst6_inst, Dst6And7Naive.dst7_inst⟩
  | @fft fft x hf h =>
    right
    obtain ⟨h1, h2, rfl⟩ := Dst6And7ConvertToFft.new_shape h
    have e : fft.len = (Dst6And7ConvertToFft.inst fft).toObj.len * 2 + 1 := by
      simp only [Dst6And7ConvertToFft.toObj, Dst6And7ConvertToFft.inst]; omega
    exact ⟨Dst6And7ConvertToFft.correct_dst6 hf e, Dst6And7ConvertToFft.correct_dst7 hf e⟩

/-- With zeroed scratch a polluted method computes the transform. -/
theorem RunsG.zeroed {p : Proc ℝ} {n s : ℕ} {F : ℕ → (ℕ → ℝ) → ℕ → ℝ} {P : (ℕ → ℝ) → ℕ → ℝ} (hF : Local F)
    (h : RunsG p n s (fun g f k => F n f k + P g k)) (hP : ∀ k, P (fun _ => 0) k = 0) : ComputesZeroed p n s (Spec.onList F) := by
  intro buf hb
  obtain ⟨f, rfl⟩ := exists_vec hb
  obtain ⟨scr', e, _⟩ := h f (fun _ => 0) []
  rw [List.append_nil, List.append_nil, ← replicate_eq_vec] at e
  refine ⟨scr', ?_⟩
  rw [e, onList_vec_local F hF]
  congr 2
  exact vec_congr fun k _ => by dsimp only; rw [hP, add_zero]

theorem MadeMdct.real {win : List ℝ} {o : MdctObj ℝ} (h : MadeMdct FftContract win o) (hn : 1 ≤ o.len) :
    ∃ w : ℕ → ℝ, win = vec (2 * o.len) w ∧ RunsM o.mdct o.len o.scratchLen (fun a b => Spec.mdctAt o.len w (cat o.len a b)) ∧
      RunsI o.imdct o.len o.scratchLen (fun X o' k => o' k + Spec.imdctAt o.len w X k) (fun X o' k => o' k + Spec.imdctAt o.len w X (o.len + k)) := by
  cases h with
  | @naive n w x h =>
    obtain ⟨h1, h2, -⟩ := MdctNaive.new_shape h
    have h2' : (w (n * 2)).length = 2 * n := by omega
    obtain ⟨v, hv⟩ := exists_vec h2'
    rw [MdctNaive.new_real h1 hv] at h
    injection h with h
    subst h
    have e' : (MdctNaive.inst n v).toObj.len = n := by
      simp only [MdctNaive.toObj, MdctNaive.len, MdctNaive.inst, length_vec]; omega
    rw [e', hv]
    exact ⟨v, rfl, MdctNaive.correct_mdct h1 v, MdctNaive.correct_imdct h1 v⟩
  | @viaDct4 d w x hi h =>
    obtain ⟨h1, h2, rfl⟩ := MdctViaDct4.new_shape h
    change 1 ≤ d.len at hn
    obtain ⟨g, hg⟩ : ∃ g, d.len = 2 * g := ⟨d.len / 2, by omega⟩
    have hD := (hi.real hn).1
    have h2' : (w (d.len * 2)).length = 4 * g := by omega
    obtain ⟨v, hv⟩ := exists_vec h2'
    rw [hv]
    rw [hg] at hD
    have e' : (MdctViaDct4.toObj (⟨d, vec (4 * g) v, d.len + d.scratchLen⟩ : MdctViaDct4 ℝ)).len = 2 * g := hg
    rw [e']
    exact ⟨v, by congr 1; omega, MdctViaDct4.correct_mdct v hg hD.weak (by rw [hg]), MdctViaDct4.correct_imdct v hg hD.weak (by rw [hg])⟩

end RustDct
