import Verif.Statements
import Verif.Proofs.PlannerInv
import Verif.Proofs.Naive
import Verif.Proofs.ConvertFft
import Verif.Proofs.ConvertFft4
import Verif.Proofs.ConvertFft67
import Verif.Proofs.SplitRadix
import Verif.Proofs.ButterfliesRuns
import Verif.Proofs.Mdct
/-!
# The instances the planner builds: shape, totality, scratch independence, rejection of wrong sizes

Everything in this file holds for every element type (floats included).
-/

set_option linter.all false

namespace RustDct

section
variable {T : Type} {F : Type} [F64 F] [DctNum T F]

/-! ### From closed forms to statements about calls -/

theorem RunsV.safe [Zero T] {p : Proc T} {n s : Nat} {C : (Nat → T) → Nat → T} (h : RunsV p n s C) : Safe p n s := by
  rintro ⟨buf, scr⟩ ⟨h1, h2⟩
  obtain ⟨f, rfl⟩ := exists_vec h1
  obtain ⟨scr', e, h3, h4⟩ := h f scr h2
  exact ⟨_, e, by simp, h3, h4⟩

theorem RunsG.safe [Zero T] {p : Proc T} {n s : Nat} {C : (Nat → T) → (Nat → T) → Nat → T} (h : RunsG p n s C) : Safe p n s := by
  rintro ⟨buf, scr⟩ ⟨h1, h2⟩
  obtain ⟨f, rfl⟩ := exists_vec h1
  obtain ⟨g, hg⟩ := exists_vec (n := s) (l := scr.take s) (by simp; exact h2)
  obtain ⟨scr', e, h3⟩ := h f g (scr.drop s)
  rw [← hg, List.take_append_drop] at e
  refine ⟨_, e, by simp, ?_, by simp [h3]⟩
  change s ≤ scr.length at h2
  simp; omega

theorem RunsV.scratchFree [Zero T] {p : Proc T} {n s : Nat} {C : (Nat → T) → Nat → T} (h : RunsV p n s C) : ScratchFree p n s := by
  rintro buf s1 s2 ⟨h1, h2⟩ ⟨_, h4⟩
  obtain ⟨f, hf⟩ := exists_vec h1
  change buf = _ at hf; subst hf
  obtain ⟨a, e, _⟩ := h f s1 h2
  obtain ⟨b, e', _⟩ := h f s2 h4
  exact ⟨_, a, b, e, e'⟩

theorem Rejects.panics {p : Proc T} {n s : Nat} (h : Rejects p n s) : Panics p n s := by
  intro m hm
  refine ⟨_, _, h m hm, ?_⟩
  split <;> simp

theorem rejects_validateBuffers (n s : Nat) (body : List T → List T → Except Err (List T × List T)) :
    Rejects (fun m => validateBuffers m n s body) n s := by
  intro m hm
  unfold ValidCall at hm
  unfold validateBuffers
  by_cases h1 : m.buf.length = n
  · have h2 : ¬ s ≤ m.scr.length := fun h => hm ⟨h1, h⟩
    simp [h1, h2, dctErrorInplace, afterErrorHelper]
  · simp [h1, dctErrorInplace, afterErrorHelper]

theorem rejects_vb {p : Proc T} {l n s t : Nat} (hl : l = n) (ht : t = s) (h : ∃ body, p = fun m => validateBuffers m l t body) : Rejects p n s := by
  obtain ⟨body, rfl⟩ := h
  subst hl ht
  exact rejects_validateBuffers _ _ _

theorem panics_vb {p : Proc T} {l n s t : Nat} (hl : l = n) (ht : t = s) (h : ∃ body, p = fun m => validateBuffers m l t body) : Panics p n s :=
  (rejects_vb hl ht h).panics

theorem rejects_validateBuffer (n : Nat) (body : List T → Except Err (List T)) :
    Rejects (fun m => validateBuffer m n body) n 0 := by
  intro m hm
  have h1 : m.buf.length ≠ n := fun h => hm ⟨h, Nat.zero_le _⟩
  unfold validateBuffer
  simp [h1, dctErrorInplace, afterErrorHelper]

theorem panics_vb1 {p : Proc T} {n : Nat} (h : ∃ body, p = fun m => validateBuffer m n body) : Panics p n 0 := by
  obtain ⟨body, rfl⟩ := h
  exact (rejects_validateBuffer _ _).panics


/-! ### Every entry point checks its arguments first -/

theorem Dct1ConvertToFft.rejects_dct1 (self : Dct1ConvertToFft T) : Rejects self.dct1 self.len self.scratchLen := by
  unfold Dct1ConvertToFft.dct1
  exact rejects_validateBuffers _ _ _

theorem Dst1ConvertToFft.rejects_dst1 (self : Dst1ConvertToFft T) : Rejects self.dst1 self.len self.scratchLen := by
  unfold Dst1ConvertToFft.dst1
  exact rejects_validateBuffers _ _ _

theorem Type2And3ConvertToFft.rejects_dct2 (self : Type2And3ConvertToFft T) : Rejects self.dct2 self.len self.scratchLen := by
  unfold Type2And3ConvertToFft.dct2
  exact rejects_validateBuffers _ _ _

theorem Type2And3ConvertToFft.rejects_dst2 (self : Type2And3ConvertToFft T) : Rejects self.dst2 self.len self.scratchLen := by
  unfold Type2And3ConvertToFft.dst2
  exact rejects_validateBuffers _ _ _

theorem Type2And3ConvertToFft.rejects_dct3 (self : Type2And3ConvertToFft T) : Rejects self.dct3 self.len self.scratchLen := by
  unfold Type2And3ConvertToFft.dct3
  exact rejects_validateBuffers _ _ _

theorem Type2And3ConvertToFft.rejects_dst3 (self : Type2And3ConvertToFft T) : Rejects self.dst3 self.len self.scratchLen := by
  unfold Type2And3ConvertToFft.dst3
  exact rejects_validateBuffers _ _ _

theorem Type4ConvertToFftOdd.rejects_dct4 (self : Type4ConvertToFftOdd T) : Rejects self.dct4 self.len self.scratchLen := by
  unfold Type4ConvertToFftOdd.dct4
  exact rejects_validateBuffers _ _ _

theorem Type4ConvertToFftOdd.rejects_dst4 (self : Type4ConvertToFftOdd T) : Rejects self.dst4 self.len self.scratchLen := by
  unfold Type4ConvertToFftOdd.dst4
  exact rejects_validateBuffers _ _ _

theorem Dst6And7ConvertToFft.rejects_dst6 (self : Dst6And7ConvertToFft T) : Rejects self.dst6 self.len self.scratchLen := by
  unfold Dst6And7ConvertToFft.dst6
  exact rejects_validateBuffers _ _ _

theorem Dst6And7ConvertToFft.rejects_dst7 (self : Dst6And7ConvertToFft T) : Rejects self.dst7 self.len self.scratchLen := by
  unfold Dst6And7ConvertToFft.dst7
  exact rejects_validateBuffers _ _ _

theorem Type2And3Butterfly2.rejects_dct2 (self : Type2And3Butterfly2 T) : Rejects self.dct2 2 0 := by
  unfold Type2And3Butterfly2.dct2
  exact rejects_validateBuffer _ _

theorem Type2And3Butterfly2.rejects_dst2 (self : Type2And3Butterfly2 T) : Rejects self.dst2 2 0 := by
  unfold Type2And3Butterfly2.dst2
  exact rejects_validateBuffer _ _

theorem Type2And3Butterfly2.rejects_dct3 (self : Type2And3Butterfly2 T) : Rejects self.dct3 2 0 := by
  unfold Type2And3Butterfly2.dct3
  exact rejects_validateBuffer _ _

theorem Type2And3Butterfly2.rejects_dst3 (self : Type2And3Butterfly2 T) : Rejects self.dst3 2 0 := by
  unfold Type2And3Butterfly2.dst3
  exact rejects_validateBuffer _ _

theorem Type2And3Butterfly3.rejects_dct2 (self : Type2And3Butterfly3 T) : Rejects self.dct2 3 0 := by
  unfold Type2And3Butterfly3.dct2
  exact rejects_validateBuffer _ _

theorem Type2And3Butterfly3.rejects_dst2 (self : Type2And3Butterfly3 T) : Rejects self.dst2 3 0 := by
  unfold Type2And3Butterfly3.dst2
  exact rejects_validateBuffer _ _

theorem Type2And3Butterfly3.rejects_dct3 (self : Type2And3Butterfly3 T) : Rejects self.dct3 3 0 := by
  unfold Type2And3Butterfly3.dct3
  exact rejects_validateBuffer _ _

theorem Type2And3Butterfly3.rejects_dst3 (self : Type2And3Butterfly3 T) : Rejects self.dst3 3 0 := by
  unfold Type2And3Butterfly3.dst3
  exact rejects_validateBuffer _ _

theorem Type2And3Butterfly4.rejects_dct2 (self : Type2And3Butterfly4 T) : Rejects self.dct2 4 0 := by
  unfold Type2And3Butterfly4.dct2
  exact rejects_validateBuffer _ _

theorem Type2And3Butterfly4.rejects_dst2 (self : Type2And3Butterfly4 T) : Rejects self.dst2 4 0 := by
  unfold Type2And3Butterfly4.dst2
  exact rejects_validateBuffer _ _

theorem Type2And3Butterfly4.rejects_dct3 (self : Type2And3Butterfly4 T) : Rejects self.dct3 4 0 := by
  unfold Type2And3Butterfly4.dct3
  exact rejects_validateBuffer _ _

theorem Type2And3Butterfly4.rejects_dst3 (self : Type2And3Butterfly4 T) : Rejects self.dst3 4 0 := by
  unfold Type2And3Butterfly4.dst3
  exact rejects_validateBuffer _ _

theorem Type2And3Butterfly8.rejects_dct2 (self : Type2And3Butterfly8 T) : Rejects self.dct2 8 0 := by
  unfold Type2And3Butterfly8.dct2
  exact rejects_validateBuffer _ _

theorem Type2And3Butterfly8.rejects_dst2 (self : Type2And3Butterfly8 T) : Rejects self.dst2 8 0 := by
  unfold Type2And3Butterfly8.dst2
  exact rejects_validateBuffer _ _

theorem Type2And3Butterfly8.rejects_dct3 (self : Type2And3Butterfly8 T) : Rejects self.dct3 8 0 := by
  unfold Type2And3Butterfly8.dct3
  exact rejects_validateBuffer _ _

theorem Type2And3Butterfly8.rejects_dst3 (self : Type2And3Butterfly8 T) : Rejects self.dst3 8 0 := by
  unfold Type2And3Butterfly8.dst3
  exact rejects_validateBuffer _ _

theorem Type2And3Butterfly16.rejects_dct2 (self : Type2And3Butterfly16 T) : Rejects self.dct2 16 0 := by
  unfold Type2And3Butterfly16.dct2
  exact rejects_validateBuffer _ _

theorem Type2And3Butterfly16.rejects_dst2 (self : Type2And3Butterfly16 T) : Rejects self.dst2 16 0 := by
  unfold Type2And3Butterfly16.dst2
  exact rejects_validateBuffer _ _

theorem Type2And3Butterfly16.rejects_dct3 (self : Type2And3Butterfly16 T) : Rejects self.dct3 16 0 := by
  unfold Type2And3Butterfly16.dct3
  exact rejects_validateBuffer _ _

theorem Type2And3Butterfly16.rejects_dst3 (self : Type2And3Butterfly16 T) : Rejects self.dst3 16 0 := by
  unfold Type2And3Butterfly16.dst3
  exact rejects_validateBuffer _ _

/-! ### rustfft's contract for a general element type -/

theorem FftSane.runs [Zero T] {fft : Fft T} (h : FftSane fft) : ∃ G, FftRuns fft G := by
  obtain ⟨G, h1, h2⟩ := h
  refine ⟨fun c k => (G (vec fft.len c)).getD k ⟨0, 0⟩, fun c scr hs => ?_⟩
  obtain ⟨scr', e, h3⟩ := h2 (vec fft.len c) scr (by simp) hs
  refine ⟨scr', ?_, h3⟩
  have hl := h1 (vec fft.len c) (by simp)
  have hv : G (vec fft.len c) = vec fft.len (fun k => (G (vec fft.len c)).getD k ⟨0, 0⟩) := by
    generalize G (vec fft.len c) = l at hl
    apply List.ext_getElem
    · simp [hl]
    · intro i h1 h2
      simp [vec, List.getD, h1]
  rw [e]
  conv_lhs => rw [hv]

/-! ### Powers of two -/

theorem isPowerOfTwo_iff (n : Nat) : isPowerOfTwo n = true ↔ ∃ k, n = 2 ^ k := by
  have := @Nat.ne_zero_and_sub_one_eq_zero_iff_isPowerOfTwo n
  unfold Nat.isPowerOfTwo at this
  rw [← this]
  simp [isPowerOfTwo]

theorem pow2_shape {n : Nat} (h1 : dct2Butterflies.contains n = false) (h2 : isPowerOfTwo n = true) (h3 : n > 2) :
    ∃ q, n = 4 * q ∧ 8 ≤ q ∧ isPowerOfTwo q = true ∧ isPowerOfTwo (2 * q) = true := by
  obtain ⟨k, rfl⟩ := (isPowerOfTwo_iff n).1 h2
  have : 5 ≤ k := by
    rcases Nat.lt_or_ge k 5 with h | h
    · exfalso
      have : k = 0 ∨ k = 1 ∨ k = 2 ∨ k = 3 ∨ k = 4 := by omega
      rcases this with rfl | rfl | rfl | rfl | rfl <;> revert h1 h3 <;> decide
    · exact h
  obtain ⟨j, rfl⟩ : ∃ j, k = j + 5 := ⟨k - 5, by omega⟩
  have hj : 1 ≤ 2 ^ j := Nat.one_le_two_pow
  refine ⟨2 ^ (j + 3), by ring, ?_, (isPowerOfTwo_iff _).2 ⟨j + 3, rfl⟩, (isPowerOfTwo_iff _).2 ⟨j + 4, by ring⟩⟩
  have : 2 ^ (j + 3) = 2 ^ j * 8 := by ring
  omega

/-! ### Every instance planned for types 2 and 3 -/

theorem canon23_induct' {planFft : Nat → Fft T} (hf : ∀ n, (planFft n).len = n ∧ (planFft n).direction = .forward)
    {P : Nat → Obj23 T → Prop}
    (h2 : P 2 (Type2And3Butterfly2.new (T := T)).toObj) (h3 : P 3 (Type2And3Butterfly3.new (T := T)).toObj)
    (h4 : P 4 (Type2And3Butterfly4.new (T := T)).toObj) (h8 : P 8 (Type2And3Butterfly8.new (T := T)).toObj)
    (h16 : P 16 (Type2And3Butterfly16.new (T := T)).toObj)
    (hsplit : ∀ q half quarter, 8 ≤ q → isPowerOfTwo (4 * q) = true → half.len = 2 * q → quarter.len = q → half.scratchLen ≤ 2 * q → quarter.scratchLen ≤ q →
      P (2 * q) half → P q quarter → P (4 * q) (Type2And3SplitRadix.inst q half quarter).toObj)
    (hfft : ∀ n, dct2Butterflies.contains n = false → (isPowerOfTwo n = true → n ≤ 2) → P n (Type2And3ConvertToFft.inst (planFft n)).toObj) (n : Nat) :
    ∃ o, canon23 planFft n = .ok o ∧ P n o ∧ o.len = n ∧ (isPowerOfTwo n = true → n > 1 → o.scratchLen ≤ n) := by
  induction n using Nat.strongRecOn with
  | ind n ih =>
    rw [canon23]
    by_cases hb : dct2Butterflies.contains n = true
    · rw [if_pos hb]
      simp [dct2Butterflies] at hb
      rcases hb with rfl | rfl | rfl | rfl | rfl
      · exact ⟨_, rfl, h2, rfl, fun _ _ => Nat.zero_le _⟩
      · exact ⟨_, rfl, h3, rfl, fun _ _ => Nat.zero_le _⟩
      · exact ⟨_, rfl, h4, rfl, fun _ _ => Nat.zero_le _⟩
      · exact ⟨_, rfl, h8, rfl, fun _ _ => Nat.zero_le _⟩
      · exact ⟨_, rfl, h16, rfl, fun _ _ => Nat.zero_le _⟩
    rw [if_neg hb]
    by_cases hp : isPowerOfTwo n = true ∧ n > 2
    · rw [dif_pos hp]
      obtain ⟨q, hn, hq, p1, p2⟩ := pow2_shape (by simpa using hb) hp.1 hp.2
      have hp1 := hp.1
      subst hn
      rw [show 4 * q / 2 = 2 * q by omega, show 4 * q / 4 = q by omega]
      obtain ⟨a, ea, pa, la, sa⟩ := ih (2 * q) (by omega)
      obtain ⟨b, eb, pb, lb, sb⟩ := ih q (by omega)
      refine ⟨(Type2And3SplitRadix.inst q a b).toObj, ?_, hsplit q a b hq hp1 la lb (sa p2 (by omega)) (sb p1 (by omega)) pa pb, ?_, ?_⟩
      · rw [ea, eb]
        simp only [bind, Except.bind]
        rw [Type2And3SplitRadix.new_eq la lb hp1]
        rfl
      · exact Type2And3SplitRadix.inst_len q a b
      · intro _ _
        exact (Nat.le_of_eq (Type2And3SplitRadix.inst_len q a b))
    · rw [dif_neg hp]
      refine ⟨(Type2And3ConvertToFft.inst (planFft n)).toObj, ?_, hfft n (by simpa using hb) (fun h => by by_contra h'; exact hp ⟨h, by omega⟩), ?_, ?_⟩
      · rw [Type2And3ConvertToFft.new_eq (hf n).2]; rfl
      · exact (Type2And3ConvertToFft.len_inst (planFft n)).trans (hf n).1
      · intro h1 h2
        exfalso
        have : n = 2 := by
          rcases Nat.lt_or_ge 2 n with h | h
          · exact absurd ⟨h1, h⟩ hp
          · omega
        subst this
        exact hb (by decide)

theorem canon23_induct {planFft : Nat → Fft T} (hf : ∀ n, (planFft n).len = n ∧ (planFft n).direction = .forward)
    {P : Nat → Obj23 T → Prop}
    (h2 : P 2 (Type2And3Butterfly2.new (T := T)).toObj) (h3 : P 3 (Type2And3Butterfly3.new (T := T)).toObj)
    (h4 : P 4 (Type2And3Butterfly4.new (T := T)).toObj) (h8 : P 8 (Type2And3Butterfly8.new (T := T)).toObj)
    (h16 : P 16 (Type2And3Butterfly16.new (T := T)).toObj)
    (hsplit : ∀ q half quarter, 8 ≤ q → isPowerOfTwo (4 * q) = true → half.len = 2 * q → quarter.len = q → half.scratchLen ≤ 2 * q → quarter.scratchLen ≤ q →
      P (2 * q) half → P q quarter → P (4 * q) (Type2And3SplitRadix.inst q half quarter).toObj)
    (hfft : ∀ n, P n (Type2And3ConvertToFft.inst (planFft n)).toObj) (n : Nat) :
    ∃ o, canon23 planFft n = .ok o ∧ P n o ∧ o.len = n ∧ (isPowerOfTwo n = true → n > 1 → o.scratchLen ≤ n) :=
  canon23_induct' hf h2 h3 h4 h8 h16 hsplit (fun n _ _ => hfft n) n

/-- What holds for every planned type 2/3 instance and every element type. -/
structure Ok23 (n : Nat) (o : Obj23 T) : Prop where
  len : o.len = n
  dct2 : ∃ C, RunsV o.dct2 n o.scratchLen C
  dst2 : ∃ C, RunsV o.dst2 n o.scratchLen C
  dct3 : 1 ≤ n → ∃ C, RunsV o.dct3 n o.scratchLen C
  dst3 : 1 ≤ n → ∃ C, RunsV o.dst3 n o.scratchLen C
  rdct2 : Rejects o.dct2 n o.scratchLen
  rdct3 : Rejects o.dct3 n o.scratchLen
  rdst2 : Panics o.dst2 n o.scratchLen
  rdst3 : Panics o.dst3 n o.scratchLen

theorem negOdds_err {cnt : Nat} {buf : List T} : ∀ {e b}, negOdds (F := F) cnt buf = .error (e, b) → e = .index := by
  intro e b h
  unfold negOdds at h
  generalize List.range cnt = l at h
  induction l generalizing buf with
  | nil => cases h
  | cons i r ih =>
    rw [List.foldlM_cons] at h
    split at h
    · next v hv => exact ih h
    · next hv => cases h; rfl

theorem negOdds_len {cnt : Nat} {buf : List T} : ∀ {b}, negOdds (F := F) cnt buf = .ok b → b.length = buf.length := by
  intro b h
  unfold negOdds at h
  generalize List.range cnt = l at h
  induction l generalizing buf with
  | nil => cases h; rfl
  | cons i r ih =>
    rw [List.foldlM_cons] at h
    split at h
    · next v hv => have := ih h; simpa using this
    · next hv => cases h

theorem Type2And3SplitRadix.rejects_dct2 (q : Nat) (half quarter : Obj23 T) :
    Rejects (Type2And3SplitRadix.inst q half quarter).dct2 (4 * q) (4 * q) := by
  have := rejects_validateBuffers (T := T) (4 * q) (4 * q)
  unfold Type2And3SplitRadix.dct2 Type2And3SplitRadix.scratchLen
  rw [Type2And3SplitRadix.inst_len]
  exact this _

theorem Type2And3SplitRadix.rejects_dct3 (q : Nat) (half quarter : Obj23 T) :
    Rejects (Type2And3SplitRadix.inst q half quarter).dct3 (4 * q) (4 * q) := by
  have := rejects_validateBuffers (T := T) (4 * q) (4 * q)
  unfold Type2And3SplitRadix.dct3 Type2And3SplitRadix.scratchLen
  rw [Type2And3SplitRadix.inst_len]
  exact this _

theorem Type2And3SplitRadix.panics_dst2 (q : Nat) (half quarter : Obj23 T) :
    Panics (Type2And3SplitRadix.inst q half quarter).dst2 (4 * q) (4 * q) := by
  intro m hm
  unfold Type2And3SplitRadix.dst2
  cases h : negOdds ((Type2And3SplitRadix.inst q half quarter).len / 2) m.buf with
  | error p =>
    obtain ⟨e, b⟩ := p
    exact ⟨e, _, rfl, by rw [negOdds_err h]; simp⟩
  | ok b =>
    have hl := negOdds_len h
    have hv : ¬ ValidCall (4 * q) (4 * q) (⟨b, m.scr⟩ : Mem T) := fun hv => hm ⟨hl ▸ hv.1, hv.2⟩
    have := Type2And3SplitRadix.rejects_dct2 q half quarter ⟨b, m.scr⟩ hv
    dsimp only
    rw [this]
    refine ⟨_, _, rfl, ?_⟩
    split <;> simp

theorem Type2And3SplitRadix.panics_dst3 (q : Nat) (half quarter : Obj23 T) :
    Panics (Type2And3SplitRadix.inst q half quarter).dst3 (4 * q) (4 * q) := by
  intro m hm
  unfold Type2And3SplitRadix.dst3
  have hv : ¬ ValidCall (4 * q) (4 * q) (⟨m.buf.reverse, m.scr⟩ : Mem T) := fun hv => hm ⟨by simpa using hv.1, hv.2⟩
  rw [Type2And3SplitRadix.rejects_dct3 q half quarter ⟨m.buf.reverse, m.scr⟩ hv]
  refine ⟨_, _, rfl, ?_⟩
  split <;> simp

theorem Type2And3ConvertToFft.ok23 {fft : Fft T} {n : Nat} (hl : fft.len = n) (hs : FftSane fft) :
    Ok23 n (Type2And3ConvertToFft.inst fft).toObj := by
  obtain ⟨G, hG⟩ := hs.runs
  have e := (Type2And3ConvertToFft.len_inst fft).trans hl
  exact ⟨e, ⟨_, runs_dct2 hG hl⟩, ⟨_, runs_dst2 hG hl⟩, fun hn => ⟨_, runs_dct3 hG hn hl⟩, fun hn => ⟨_, runs_dst3 hG hn hl⟩,
    e ▸ rejects_dct2 _, e ▸ rejects_dct3 _, e ▸ (rejects_dst2 _).panics, e ▸ (rejects_dst3 _).panics⟩

end
end RustDct
