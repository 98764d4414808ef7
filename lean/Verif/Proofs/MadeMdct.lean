import Verif.Proofs.Made
import Verif.Proofs.MdctReal
/-!
# Every MDCT instance: totality, scratch independence, rejection of wrong sizes, for every element type
-/

set_option linter.all false

namespace RustDct

section
variable {T : Type} {F : Type} [F64 F] [DctNum T F]

theorem RunsM.safe [Zero T] {p n s} {C : (Nat → T) → (Nat → T) → Nat → T} (h : RunsM p n s C) : SafeMdct p n s := by
  rintro a b ⟨o, scr⟩ ⟨h1, h2, h3, h4⟩
  obtain ⟨a, rfl⟩ := exists_vec h1
  obtain ⟨b, rfl⟩ := exists_vec h2
  obtain ⟨o, ho⟩ := exists_vec h3
  change _ = vec n o at ho; subst ho
  obtain ⟨scr', e, h5, h6⟩ := h a b o scr h4
  exact ⟨_, e, by simp, h5, h6⟩

theorem RunsI.safe [Zero T] {p n s} {A B : (Nat → T) → (Nat → T) → Nat → T} (h : RunsI p n s A B) : SafeImdct p n s := by
  rintro x ⟨oa, ob, scr⟩ ⟨h1, h2, h3, h4⟩
  obtain ⟨x, rfl⟩ := exists_vec h1
  obtain ⟨oa, hoa⟩ := exists_vec h2
  obtain ⟨ob, hob⟩ := exists_vec h3
  change _ = vec n oa at hoa; subst hoa
  change _ = vec n ob at hob; subst hob
  obtain ⟨scr', e, h5, h6⟩ := h x oa ob scr h4
  exact ⟨_, e, by simp, by simp, h5, h6⟩

theorem RunsM.scratchFree [Zero T] {p n s} {C : (Nat → T) → (Nat → T) → Nat → T} (h : RunsM p n s C) : ScratchFreeMdct p n s := by
  rintro a b o₁ o₂ s₁ s₂ ⟨h1, h2, h3, h4⟩ ⟨-, -, h5, h6⟩
  obtain ⟨a, rfl⟩ := exists_vec h1
  obtain ⟨b, rfl⟩ := exists_vec h2
  obtain ⟨o₁, ho⟩ := exists_vec h3
  obtain ⟨o₂, ho'⟩ := exists_vec h5
  change _ = vec n o₁ at ho; subst ho
  change _ = vec n o₂ at ho'; subst ho'
  obtain ⟨s1, e, _⟩ := h a b o₁ s₁ h4
  obtain ⟨s2, e', _⟩ := h a b o₂ s₂ h6
  exact ⟨_, _, _, e, e'⟩

theorem RunsI.scratchFree [Zero T] {p n s} {A B : (Nat → T) → (Nat → T) → Nat → T} (h : RunsI p n s A B) : ScratchFreeImdct p n s := by
  rintro x oa ob s₁ s₂ ⟨h1, h2, h3, h4⟩ ⟨-, -, -, h6⟩
  obtain ⟨x, rfl⟩ := exists_vec h1
  obtain ⟨oa, hoa⟩ := exists_vec h2
  obtain ⟨ob, hob⟩ := exists_vec h3
  change _ = vec n oa at hoa; subst hoa
  change _ = vec n ob at hob; subst hob
  obtain ⟨s1, e, _⟩ := h x oa ob s₁ h4
  obtain ⟨s2, e', _⟩ := h x oa ob s₂ h6
  exact ⟨_, _, _, _, e, e'⟩

theorem rejects_validateMdct (n s : Nat) (body : List T → List T → List T → List T → Except Err (List T × List T)) :
    RejectsMdct (fun a b m => validateMdct a b m n s (body a b)) n s := by
  intro a b m hm
  unfold ValidMdct at hm
  unfold validateMdct mdctErrorInplace afterErrorHelper
  by_cases h1 : a.length = n
  · by_cases h2 : b.length = n
    · by_cases h3 : m.buf.length = n
      · have h4 : ¬ s ≤ m.scr.length := fun h => hm ⟨h1, h2, h3, h⟩
        simp [h1, h2, h3, h4]
      · simp [h1, h2, h3]
    · simp [h1, h2]
  · simp [h1]

theorem rejects_validateImdct (n s : Nat) (body : List T → List T → List T → List T → Except Err (List T × List T × List T)) :
    RejectsImdct (fun x m => validateImdct x m n s (body x)) n s := by
  intro x m hm
  unfold ValidImdct at hm
  unfold validateImdct mdctErrorInplace afterErrorHelper
  by_cases h1 : x.length = n
  · by_cases h2 : m.outA.length = n
    · by_cases h3 : m.outB.length = n
      · have h4 : ¬ s ≤ m.scr.length := fun h => hm ⟨h1, h2, h3, h⟩
        simp [h1, h2, h3, h4]
      · simp [h1, h2, h3]
    · simp [h1, h2]
  · simp [h1]

theorem MdctNaive.rejects_mdct (self : MdctNaive T) : RejectsMdct self.mdct self.len self.scratchLen := by
  unfold MdctNaive.mdct
  exact rejects_validateMdct _ _ _
theorem MdctNaive.rejects_imdct (self : MdctNaive T) : RejectsImdct self.imdct self.len self.scratchLen := by
  unfold MdctNaive.imdct
  exact rejects_validateImdct _ _ _
theorem MdctViaDct4.rejects_mdct (self : MdctViaDct4 T) : RejectsMdct self.mdct self.len self.scratchLen := by
  unfold MdctViaDct4.mdct
  exact rejects_validateMdct _ _ _
theorem MdctViaDct4.rejects_imdct (self : MdctViaDct4 T) : RejectsImdct self.imdct self.len self.scratchLen := by
  unfold MdctViaDct4.imdct
  exact rejects_validateImdct _ _ _

theorem MdctNaive.new_shape {n : Nat} {w : Nat → List T} {x : MdctNaive T} (h : MdctNaive.new n w = .ok x) :
    n % 2 = 0 ∧ (w (n * 2)).length = n * 2 ∧ ∃ t, x = ⟨vec (4 * n) t, w (n * 2)⟩ := by
  unfold MdctNaive.new at h
  dsimp only at h
  split at h
  · cases h
  · split at h
    · cases h
    · rename_i h1 h2
      injection h with h
      refine ⟨by simpa using h1, by simpa using h2, ?_⟩
      rw [map_range_eq_vec, Nat.mul_comm n 4] at h
      exact ⟨_, h.symm⟩

theorem MdctViaDct4.new_shape {d : Obj4 T} {w : Nat → List T} {x : MdctViaDct4 T} (h : MdctViaDct4.new d w = .ok x) :
    d.len % 2 = 0 ∧ (w (d.len * 2)).length = d.len * 2 ∧ x = ⟨d, w (d.len * 2), d.len + d.scratchLen⟩ := by
  unfold MdctViaDct4.new at h
  dsimp only at h
  split at h
  · cases h
  · split at h
    · cases h
    · rename_i h1 h2
      injection h with h
      exact ⟨by simpa using h1, by simpa using h2, h.symm⟩

/-- What holds for every MDCT instance. -/
structure OkMdct (window : List T) (o : MdctObj T) : Prop where
  even : o.len % 2 = 0
  window : window.length = 2 * o.len
  mdct : ∃ C, RunsM o.mdct o.len o.scratchLen C
  imdct : ∃ A B, RunsI o.imdct o.len o.scratchLen A B
  rmdct : RejectsMdct o.mdct o.len o.scratchLen
  rimdct : RejectsImdct o.imdct o.len o.scratchLen

theorem MadeMdct.ok {win : List T} {o : MdctObj T} (h : MadeMdct FftSane win o) (hn : 1 ≤ o.len) : OkMdct win o := by
  cases h with
  | @naive n w x h =>
    obtain ⟨h1, h2, t, rfl⟩ := MdctNaive.new_shape h
    have h2' : (w (n * 2)).length = 2 * n := by omega
    obtain ⟨v, hv⟩ := exists_vec h2'
    rw [hv]
    have e : MdctNaive.len (⟨vec (4 * n) t, vec (2 * n) v⟩ : MdctNaive T) = n := by
      simp only [MdctNaive.len, length_vec]; omega
    have e' : (MdctNaive.toObj (⟨vec (4 * n) t, vec (2 * n) v⟩ : MdctNaive T)).len = n := e
    refine ⟨by rw [e']; exact h1, by rw [e']; simp, ?_, ?_, MdctNaive.rejects_mdct _, MdctNaive.rejects_imdct _⟩
    · rw [e']; exact ⟨_, MdctNaive.mdct_vec h1 t v⟩
    · rw [e']; exact ⟨_, _, MdctNaive.imdct_vec h1 t v⟩
  | @viaDct4 d w x hi h =>
    obtain ⟨h1, h2, rfl⟩ := MdctViaDct4.new_shape h
    change 1 ≤ d.len at hn
    obtain ⟨g, hg⟩ : ∃ g, d.len = 2 * g := ⟨d.len / 2, by omega⟩
    obtain ⟨D, hD⟩ := (hi.meth hn).1.total
    have h2' : (w (d.len * 2)).length = 4 * g := by omega
    obtain ⟨v, hv⟩ := exists_vec h2'
    rw [hv]
    rw [hg] at hD
    have e' : (MdctViaDct4.toObj (⟨d, vec (4 * g) v, d.len + d.scratchLen⟩ : MdctViaDct4 T)).len = 2 * g := hg
    refine ⟨h1, by rw [e']; simp; omega, ?_, ?_, MdctViaDct4.rejects_mdct _, MdctViaDct4.rejects_imdct _⟩
    · rw [e']; exact ⟨_, MdctViaDct4.mdct_vec v hg hD.weak (by rw [hg])⟩
    · rw [e']; exact ⟨_, _, MdctViaDct4.imdct_vec v hg hD.weak (by rw [hg])⟩

end
end RustDct
