import Verif.WordInstances
/-!
# C46 with bounded `usize`

In release builds `len - 1` of an empty buffer is `usize::MAX`.  The accesses at that index are checked, so that the methods still panic.
-/

set_option linter.all false

namespace RustDct

section
variable {T : Type} {F : Type} [F64 F] [DctNum T F] {N : Machine}

/-- DCT3 and DST3 of length 0, whatever FFT they convert to: every call with the sizes asked for panics, in debug and release builds. -/
theorem C46_fft_on (x : Type2And3ConvertToFft T) (h0 : x.len = 0) (scr : List T) (hs : x.scratchLen ≤ scr.length) :
    (∃ e, x.dct3On N ⟨[], scr⟩ = .panic e none ∧ e ≠ .ub) ∧ (∃ e, x.dst3On N ⟨[], scr⟩ = .panic e none ∧ e ≠ .ub) := by
  constructor
  · unfold Type2And3ConvertToFft.dct3On validateBuffers
    dsimp only
    rw [h0, if_neg (by simp), if_pos hs]
    simp [splitAtMut, rd, bind, Except.bind]
  · unfold Type2And3ConvertToFft.dst3On validateBuffers
    dsimp only
    rw [h0, if_neg (by simp), if_pos hs]
    unfold Machine.sub
    rw [List.length_nil, if_neg (by omega)]
    cases N.wraps <;> simp [splitAtMut, rd, bind, Except.bind]

theorem C46_naive_on (x : Type2And3Naive T) (h0 : x.len = 0) (scr : List T) (hs : x.scratchLen ≤ scr.length) :
    (∃ e, x.dct3On N ⟨[], scr⟩ = .panic e none ∧ e ≠ .ub) ∧ (∃ e, x.dst3On N ⟨[], scr⟩ = .panic e none ∧ e ≠ .ub) := by
  have hz : x.scratchLen = 0 := h0
  constructor
  · unfold Type2And3Naive.dct3On validateBuffers
    dsimp only
    rw [h0, if_neg (by simp), if_pos hs, hz]
    simp [copyFromSlice, rd, bind, Except.bind]
  · unfold Type2And3Naive.dst3On validateBuffers
    dsimp only
    rw [h0, if_neg (by simp), if_pos hs, hz]
    unfold Machine.sub
    cases N.wraps <;> simp [copyFromSlice, rd, bind, Except.bind]

theorem C46_type4_on (x : Type4ConvertToType3Even T) (h0 : x.len = 0) (scr : List T) (hs : x.scratchLen ≤ scr.length) :
    (∃ e, x.dct4On N ⟨[], scr⟩ = .panic e none ∧ e ≠ .ub) ∧ (∃ e, x.dst4On N ⟨[], scr⟩ = .panic e none ∧ e ≠ .ub) := by
  constructor
  · unfold Type4ConvertToType3Even.dct4On validateBuffers
    dsimp only
    rw [h0, if_neg (by simp), if_pos hs]
    simp [splitAtMut, rd, bind, Except.bind]
  · unfold Type4ConvertToType3Even.dst4On validateBuffers
    dsimp only
    rw [h0, if_neg (by simp), if_pos hs]
    simp [splitAtMut, rd, bind, Except.bind]

/-- Such instances exist: of length 0, on every machine. -/
example (M : Target) (h : 0 < M.values) : ∃ x : Type2And3Naive T, Type2And3Naive.newOn M 0 = .ok x ∧ x.len = 0 := by
  refine ⟨⟨[]⟩, ?_, by simp [Type2And3Naive.len]⟩
  unfold Type2And3Naive.newOn Machine.arith
  rw [if_pos (by omega)]
  rfl

end
end RustDct
