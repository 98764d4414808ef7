import Verif.Lib.Vec
/-!
# The FFT contract, and running a method body around a complex view of scratch
-/

set_option linter.all false

namespace RustDct

section
variable {T : Type}

/-- On a buffer of the right length and sufficient scratch the FFT returns, transforms the buffer by `G` whatever
scratch contained, and keeps all lengths. -/
def FftRuns (fft : Fft T) (G : (Nat → Cx T) → Nat → Cx T) : Prop :=
  ∀ (c : Nat → Cx T) (scr : List (Cx T)), fft.inplaceScratchLen ≤ scr.length →
    ∃ scr', fft.process (vec fft.len c) scr = .ok (vec fft.len (G c), scr') ∧ scr'.length = scr.length

theorem FftRuns.run {fft : Fft T} {G : (Nat → Cx T) → Nat → Cx T} (h : FftRuns fft G) {L s : Nat} (hL : fft.len = L)
    (c : Nat → Cx T) (d : Nat → Cx T) (hs : fft.inplaceScratchLen ≤ s) :
    ∃ scr', fft.process (vec L c) (vec s d) = .ok (vec L (G c), scr') ∧ scr'.length = s := by
  subst hL
  obtain ⟨scr', h1, h2⟩ := h c (vec s d) (by simpa using hs)
  exact ⟨scr', h1, by simpa using h2⟩

theorem FftRuns.congr {fft : Fft T} {G G' : (Nat → Cx T) → Nat → Cx T} (h : FftRuns fft G)
    (hg : ∀ c k, k < fft.len → G c k = G' c k) : FftRuns fft G' := by
  intro c scr hs
  obtain ⟨scr', h1, h2⟩ := h c scr hs
  exact ⟨scr', by rw [h1, vec_congr (hg c)], h2⟩

/-- The closed form only sees the first `len` inputs. -/
theorem FftRuns.ext {fft : Fft T} {G : (Nat → Cx T) → Nat → Cx T} (h : FftRuns fft G) {c c' : Nat → Cx T}
    [Zero T] (hc : ∀ i, i < fft.len → c i = c' i) {k : Nat} (hk : k < fft.len) : G c k = G c' k := by
  obtain ⟨s1, h1, _⟩ := h c (vec fft.inplaceScratchLen fun _ => 0) (by simp)
  obtain ⟨s2, h2, _⟩ := h c' (vec fft.inplaceScratchLen fun _ => 0) (by simp)
  rw [vec_congr hc, h2] at h1
  injection h1 with h1
  injection h1 with h1 _
  exact (vec_inj h1 k hk).symm

/-- As `RunsV`, but the output may depend on what scratch contained. -/
def RunsG (p : Proc T) (n s : Nat) (C : (Nat → T) → (Nat → T) → Nat → T) : Prop :=
  ∀ (f g : Nat → T) (extra : List T),
    ∃ scr', p ⟨vec n f, vec s g ++ extra⟩ = .ok ⟨vec n (C g f), scr' ++ extra⟩ ∧ scr'.length = s

theorem runsG_of_body {n s : Nat} {body : List T → List T → Except Err (List T × List T)}
    {C : (Nat → T) → (Nat → T) → Nat → T}
    (h : ∀ f g, ∃ sc', body (vec n f) (vec s g) = .ok (vec n (C g f), sc') ∧ sc'.length = s) :
    RunsG (fun m => validateBuffers m n s body) n s C := by
  intro f g extra
  obtain ⟨sc', h1, h2⟩ := h f g
  refine ⟨sc', ?_, h2⟩
  have e1 : (vec s g ++ extra).take s = vec s g := by
    rw [List.take_append_of_le_length (by simp), take_vec _ _ _ (Nat.le_refl _)]
  have e2 : (vec s g ++ extra).drop s = extra := by
    rw [List.drop_append_of_le_length (by simp), drop_vec]; simp
  simp [validateBuffers, e1, e2, h1]

theorem RunsG.toV {p : Proc T} {n s : Nat} {C : (Nat → T) → (Nat → T) → Nat → T} {D : (Nat → T) → Nat → T}
    [Zero T] (h : RunsG p n s C) (hcd : ∀ g f k, k < n → C g f k = D f k) : RunsV p n s D := by
  intro f scr hs
  obtain ⟨g, hg⟩ := exists_vec (n := s) (l := scr.take s) (by simp; omega)
  obtain ⟨scr', h1, h2⟩ := h f g (scr.drop s)
  refine ⟨scr' ++ scr.drop s, ?_, by simp; omega, by simp [h2]⟩
  rw [← hg, List.take_append_drop] at h1
  rw [h1, vec_congr (fun k hk => hcd g f k hk)]

theorem RunsG.congr {p : Proc T} {n s : Nat} {C D : (Nat → T) → (Nat → T) → Nat → T}
    (h : RunsG p n s C) (hcd : ∀ g f k, k < n → C g f k = D g f k) : RunsG p n s D := by
  intro f g extra
  obtain ⟨scr', h1, h2⟩ := h f g extra
  exact ⟨scr', by rw [h1, vec_congr (fun k hk => hcd g f k hk)], h2⟩

/-- Start of every FFT-based body: the complex view of scratch, split after `L` elements. -/
theorem split_scratch {L s : Nat} (g : Nat → T) :
    splitAtMut (intoComplex (vec (2 * (L + s)) g)) L =
      .ok (vec L (fun i => ⟨g (2 * i), g (2 * i + 1)⟩), vec s (fun i => ⟨g (2 * (L + i)), g (2 * (L + i) + 1)⟩)) := by
  rw [intoComplex_vec, splitAtMut_vec (by omega)]
  congr 2
  exact vec_congr' (by omega) (fun _ _ => rfl)

/-- End of every FFT-based body. -/
theorem length_scratch {L s : Nat} (g : Nat → T) (a : Nat → Cx T) (scr' : List (Cx T)) (h : scr'.length = s) :
    (fromComplex (vec L a ++ scr') (vec (2 * (L + s)) g)).length = 2 * (L + s) := by
  rw [length_fromComplex] <;> simp; omega

theorem ex_ok {ε β γ : Type} {a a' : β} {b : γ} {P : γ → Prop} (h : a = a') (hb : P b) :
    ∃ s, (Except.ok (a, b) : Except ε (β × γ)) = .ok (a', s) ∧ P s := ⟨b, by rw [h], hb⟩

end
end RustDct
