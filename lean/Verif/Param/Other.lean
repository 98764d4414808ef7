import Verif.Param.Instances
/-!
# Instances over one number type have a counterpart over the other

For an instance made by the public constructors over `T` the same constructors make a related instance over `T'`, from related FFTs.  `P` is a
family of relations: the instance over `T'` is related by all of them.
-/

set_option linter.all false

namespace RustDct
namespace Param

variable {T T' F F' : Type} [F64 F] [DctNum T F] [F64 F'] [DctNum T' F'] {ι : Type} [Nonempty ι] (P : ι → Param T T') {okFft : Fft T → Prop} {okFft' : Fft T' → Prop}

omit [F64 F] [DctNum T F] [F64 F'] [DctNum T' F'] in
theorem other_of {α β : Type} {r : ι → α → β → Prop} {x : α} {e : Except Err α} {e' : Except Err β} (h : ∀ i, ERel (r i) e e') (he : e = .ok x) : ∃ y, e' = .ok y ∧ ∀ i, r i x y := by
  rw [he] at h
  cases e' with
  | error e => cases h (Classical.arbitrary ι)
  | ok y => exact ⟨y, rfl, fun i => by cases h i with | ok h => exact h⟩

theorem madeDct1_other (hf : ∀ f, okFft f → ∃ f', okFft' f' ∧ ∀ i, FftRel (P i).d f f') {o : Obj1 T} (h : MadeDct1 okFft o) : ∃ o', MadeDct1 okFft' o' ∧ ∀ i, Obj1Rel (P i).d o o' := by
  cases h with
  | naive h => obtain ⟨y, e, hy⟩ := other_of (fun i => (P i).dct1_new (T' := T') _) h; exact ⟨_, .naive e, fun i => (P i).dct1_obj (hy i)⟩
  | fft ho h => obtain ⟨f', h1, h2⟩ := hf _ ho; obtain ⟨y, e, hy⟩ := other_of (fun i => (P i).d1fft_new (h2 i)) h; exact ⟨_, .fft h1 e, fun i => (P i).d1fft_obj (hy i)⟩

theorem madeDst1_other (hf : ∀ f, okFft f → ∃ f', okFft' f' ∧ ∀ i, FftRel (P i).d f f') {o : Obj1 T} (h : MadeDst1 okFft o) : ∃ o', MadeDst1 okFft' o' ∧ ∀ i, Obj1Rel (P i).d o o' := by
  cases h with
  | naive h => obtain ⟨y, e, hy⟩ := other_of (fun i => (P i).dst1_new (T' := T') _) h; exact ⟨_, .naive e, fun i => (P i).dst1_obj (hy i)⟩
  | fft ho h => obtain ⟨f', h1, h2⟩ := hf _ ho; obtain ⟨y, e, hy⟩ := other_of (fun i => (P i).s1fft_new (h2 i)) h; exact ⟨_, .fft h1 e, fun i => (P i).s1fft_obj (hy i)⟩

theorem madeDst67_other (hf : ∀ f, okFft f → ∃ f', okFft' f' ∧ ∀ i, FftRel (P i).d f f') {o : Obj67 T} (h : MadeDst67 okFft o) : ∃ o', MadeDst67 okFft' o' ∧ ∀ i, Obj67Rel (P i).d o o' := by
  cases h with
  | naive h => obtain ⟨y, e, hy⟩ := other_of (fun i => (P i).dst67_new (T' := T') _) h; exact ⟨_, .naive e, fun i => (P i).dst67_obj (hy i)⟩
  | fft ho h => obtain ⟨f', h1, h2⟩ := hf _ ho; obtain ⟨y, e, hy⟩ := other_of (fun i => (P i).fft67_new (h2 i)) h; exact ⟨_, .fft h1 e, fun i => (P i).fft67_obj (hy i)⟩

theorem made23_other (hf : ∀ f, okFft f → ∃ f', okFft' f' ∧ ∀ i, FftRel (P i).d f f') {o : Obj23 T} (h : Made23 okFft o) : ∃ o', Made23 okFft' o' ∧ ∀ i, Obj23Rel (P i).d o o' := by
  induction h with
  | naive h => obtain ⟨y, e, hy⟩ := other_of (fun i => (P i).t23_new (T' := T') _) h; exact ⟨_, .naive e, fun i => (P i).t23_obj (hy i)⟩
  | butterfly2 => exact ⟨_, .butterfly2, fun i => (P i).b2_obj⟩
  | butterfly3 => exact ⟨_, .butterfly3, fun i => (P i).b3_obj (P i).b3_new⟩
  | butterfly4 => exact ⟨_, .butterfly4, fun i => (P i).b4_obj (P i).b4_new⟩
  | butterfly8 => exact ⟨_, .butterfly8, fun i => (P i).b8_obj (P i).b8_new⟩
  | butterfly16 => exact ⟨_, .butterfly16, fun i => (P i).b16_obj (P i).b16_new⟩
  | fft ho h => obtain ⟨f', h1, h2⟩ := hf _ ho; obtain ⟨y, e, hy⟩ := other_of (fun i => (P i).fft23_new (h2 i)) h; exact ⟨_, .fft h1 e, fun i => (P i).fft23_obj (hy i)⟩
  | splitRadix _ _ sh sq h ih iq =>
    obtain ⟨h', m1, r1⟩ := ih
    obtain ⟨q', m2, r2⟩ := iq
    obtain ⟨y, e, hy⟩ := other_of (fun i => (P i).split_new (r1 i) (r2 i)) h
    exact ⟨_, .splitRadix m1 m2 (by have a := r1 (Classical.arbitrary ι); rw [← a.scratchLen, ← a.len]; exact sh) (by have a := r1 (Classical.arbitrary ι); have b := r2 (Classical.arbitrary ι); rw [← b.scratchLen, ← a.len]; exact sq) e, fun i => (P i).split_obj (hy i)⟩

theorem made4_other (hf : ∀ f, okFft f → ∃ f', okFft' f' ∧ ∀ i, FftRel (P i).d f f') {o : Obj4 T} (h : Made4 okFft o) : ∃ o', Made4 okFft' o' ∧ ∀ i, Obj4Rel (P i).d o o' := by
  cases h with
  | naive h => obtain ⟨y, e, hy⟩ := other_of (fun i => (P i).t4_new (T' := T') _) h; exact ⟨_, .naive e, fun i => (P i).t4_obj (hy i)⟩
  | fft ho h => obtain ⟨f', h1, h2⟩ := hf _ ho; obtain ⟨y, e, hy⟩ := other_of (fun i => (P i).odd4_new (h2 i)) h; exact ⟨_, .fft h1 e, fun i => (P i).odd4_obj (hy i)⟩
  | type3 hi h =>
    obtain ⟨i', m1, r1⟩ := made23_other P hf hi
    obtain ⟨y, e, hy⟩ := other_of (fun i => (P i).even4_new (r1 i)) h
    exact ⟨_, .type3 m1 e, fun i => (P i).even4_obj (hy i)⟩

theorem madeDct5_other {o : Obj1 T} (h : MadeDct5 o) : ∃ o' : Obj1 T', MadeDct5 o' ∧ ∀ i, Obj1Rel (P i).d o o' := by
  cases h with
  | naive h => obtain ⟨y, e, hy⟩ := other_of (fun i => (P i).dct5_new (T' := T') _) h; exact ⟨_, .naive e, fun i => (P i).dct5_obj (hy i)⟩

theorem madeDst5_other {o : Obj1 T} (h : MadeDst5 o) : ∃ o' : Obj1 T', MadeDst5 o' ∧ ∀ i, Obj1Rel (P i).d o o' := by
  cases h with
  | naive h => obtain ⟨y, e, hy⟩ := other_of (fun i => (P i).dst5_new (T' := T') _) h; exact ⟨_, .naive e, fun i => (P i).dst5_obj (hy i)⟩

theorem madeDct8_other {o : Obj1 T} (h : MadeDct8 o) : ∃ o' : Obj1 T', MadeDct8 o' ∧ ∀ i, Obj1Rel (P i).d o o' := by
  cases h with
  | naive h => obtain ⟨y, e, hy⟩ := other_of (fun i => (P i).dct8_new (T' := T') _) h; exact ⟨_, .naive e, fun i => (P i).dct8_obj (hy i)⟩

theorem madeDst8_other {o : Obj1 T} (h : MadeDst8 o) : ∃ o' : Obj1 T', MadeDst8 o' ∧ ∀ i, Obj1Rel (P i).d o o' := by
  cases h with
  | naive h => obtain ⟨y, e, hy⟩ := other_of (fun i => (P i).dst8_new (T' := T') _) h; exact ⟨_, .naive e, fun i => (P i).dst8_obj (hy i)⟩

theorem madeDct67_other {o : Obj67 T} (h : MadeDct67 o) : ∃ o' : Obj67 T', MadeDct67 o' ∧ ∀ i, Obj67Rel (P i).d o o' := by
  cases h with
  | naive h => obtain ⟨y, e, hy⟩ := other_of (fun i => (P i).dct67_new (T' := T') _) h; exact ⟨_, .naive e, fun i => (P i).dct67_obj (hy i)⟩

theorem madeMdct_other (hf : ∀ f, okFft f → ∃ f', okFft' f' ∧ ∀ i, FftRel (P i).d f f') {w : List T} {w' : List T'} (hw : ∀ i, LRel (P i).c w w') {o : MdctObj T} (h : MadeMdct okFft w o) :
    ∃ o', MadeMdct okFft' w' o' ∧ ∀ i, MdctObjRel (P i).d o o' := by
  cases h with
  | naive h =>
    obtain ⟨y, e, hy⟩ := other_of (fun i => (P i).mnaive_new (w' := fun _ => w') _ (hw i)) h
    exact ⟨_, .naive e, fun i => (P i).mnaive_obj (hy i)⟩
  | viaDct4 hi h =>
    obtain ⟨i', m1, r1⟩ := made4_other P hf hi
    obtain ⟨y, e, hy⟩ := other_of (fun i => (P i).mvia_new (r1 i) (w' := fun _ => w') (hw i)) h
    exact ⟨_, .viaDct4 m1 e, fun i => (P i).mvia_obj (hy i)⟩

/-- Every method. -/
theorem method_other (hf : ∀ f, okFft f → ∃ f', okFft' f' ∧ ∀ i, FftRel (P i).d f f') {k : Kind} {p : Proc T} {n s : ℕ} (h : Method okFft k p n s) :
    ∃ p', Method okFft' k p' n s ∧ ∀ i, ProcRel (P i).d p p' := by
  cases h with
  | dct1 h hn => obtain ⟨o', m, r⟩ := madeDct1_other P hf h; have a := r (Classical.arbitrary ι); rw [a.len, a.scratchLen]; exact ⟨_, .dct1 m (a.len ▸ hn), fun i => (r i).run⟩
  | dct2 h => obtain ⟨o', m, r⟩ := made23_other P hf h; have a := r (Classical.arbitrary ι); rw [a.len, a.scratchLen]; exact ⟨_, .dct2 m, fun i => (r i).dct2⟩
  | dct3 h hn => obtain ⟨o', m, r⟩ := made23_other P hf h; have a := r (Classical.arbitrary ι); rw [a.len, a.scratchLen]; exact ⟨_, .dct3 m (a.len ▸ hn), fun i => (r i).dct3⟩
  | dct4 h hn => obtain ⟨o', m, r⟩ := made4_other P hf h; have a := r (Classical.arbitrary ι); rw [a.len, a.scratchLen]; exact ⟨_, .dct4 m (a.len ▸ hn), fun i => (r i).dct4⟩
  | dct5 h => obtain ⟨o', m, r⟩ := madeDct5_other P h; have a := r (Classical.arbitrary ι); rw [a.len, a.scratchLen]; exact ⟨_, .dct5 m, fun i => (r i).run⟩
  | dct6 h => obtain ⟨o', m, r⟩ := madeDct67_other P h; have a := r (Classical.arbitrary ι); rw [a.len, a.scratchLen]; exact ⟨_, .dct6 m, fun i => (r i).t6⟩
  | dct7 h => obtain ⟨o', m, r⟩ := madeDct67_other P h; have a := r (Classical.arbitrary ι); rw [a.len, a.scratchLen]; exact ⟨_, .dct7 m, fun i => (r i).t7⟩
  | dct8 h => obtain ⟨o', m, r⟩ := madeDct8_other P h; have a := r (Classical.arbitrary ι); rw [a.len, a.scratchLen]; exact ⟨_, .dct8 m, fun i => (r i).run⟩
  | dst1 h => obtain ⟨o', m, r⟩ := madeDst1_other P hf h; have a := r (Classical.arbitrary ι); rw [a.len, a.scratchLen]; exact ⟨_, .dst1 m, fun i => (r i).run⟩
  | dst2 h => obtain ⟨o', m, r⟩ := made23_other P hf h; have a := r (Classical.arbitrary ι); rw [a.len, a.scratchLen]; exact ⟨_, .dst2 m, fun i => (r i).dst2⟩
  | dst3 h hn => obtain ⟨o', m, r⟩ := made23_other P hf h; have a := r (Classical.arbitrary ι); rw [a.len, a.scratchLen]; exact ⟨_, .dst3 m (a.len ▸ hn), fun i => (r i).dst3⟩
  | dst4 h hn => obtain ⟨o', m, r⟩ := made4_other P hf h; have a := r (Classical.arbitrary ι); rw [a.len, a.scratchLen]; exact ⟨_, .dst4 m (a.len ▸ hn), fun i => (r i).dst4⟩
  | dst5 h => obtain ⟨o', m, r⟩ := madeDst5_other P h; have a := r (Classical.arbitrary ι); rw [a.len, a.scratchLen]; exact ⟨_, .dst5 m, fun i => (r i).run⟩
  | dst6 h => obtain ⟨o', m, r⟩ := madeDst67_other P hf h; have a := r (Classical.arbitrary ι); rw [a.len, a.scratchLen]; exact ⟨_, .dst6 m, fun i => (r i).t6⟩
  | dst7 h => obtain ⟨o', m, r⟩ := madeDst67_other P hf h; have a := r (Classical.arbitrary ι); rw [a.len, a.scratchLen]; exact ⟨_, .dst7 m, fun i => (r i).t7⟩
  | dst8 h => obtain ⟨o', m, r⟩ := madeDst8_other P h; have a := r (Classical.arbitrary ι); rw [a.len, a.scratchLen]; exact ⟨_, .dst8 m, fun i => (r i).run⟩

end Param
end RustDct
