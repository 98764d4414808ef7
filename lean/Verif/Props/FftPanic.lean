import Verif.Proofs.FftPanic
import Verif.Props.Formula
import Verif.Props.Inverse
/-!
# C83: what memory holds after a panic inside rustfft

`left` is what an FFT that panics has written into its two slices; `Left.Fits`: it fits.  `FftFits`: an FFT that returns has not changed the lengths.
Nothing else is assumed about the FFT: it may panic whenever it likes.
-/

set_option linter.all false

namespace RustDct

variable {T F : Type} [F64 F] [DctNum T F] {left : Left T} {fft : Fft T} {k : Kind} {p q : Proc T} {n s : ℕ}

/-- The methods with recorded memory are the methods of the basic model. -/
theorem C83_same (h : ViaFft left fft k p q n s) (m : Mem T) : Records (p m) (q m) := by
  cases h with
  | dct1 h hn => exact dct1_records _ left m
  | dst1 h => exact dst1_records _ left m
  | dct2 h => exact dct2_records _ left m
  | dst2 h => exact dst2_records _ left m
  | dct3 h hn => exact dct3_records _ left m
  | dst3 h hn => exact dst3_records _ left m
  | dct4 h hn => exact dct4_records _ left m
  | dst4 h hn => exact dst4_records _ left m
  | dst6 h => exact dst6_records _ left m
  | dst7 h => exact dst7_records _ left m

theorem even_inner {y : Type2And3ConvertToFft T} {x : Type4ConvertToType3Even T} (hx : Type4ConvertToType3Even.new y.toObj = .ok x) :
    x = Type4ConvertToType3Even.inst y.len y.toObj := by
  rw [Type4ConvertToType3Even.new_eq rfl] at hx
  injection hx with hx
  exact hx.symm

theorem C83_same_type3 (h : ViaType3 left fft k p q n s) (m : Mem T) : Records (p m) (q m) := by
  cases h with
  | dct4 hy hx hn => obtain rfl := even_inner hx; exact even_dct4_records _ (dct3_records _ left) (dst3_records _ left) m
  | dst4 hy hx hn => obtain rfl := even_inner hx; exact even_dst4_records _ (dct3_records _ left) (dst3_records _ left) m

/-- If the FFT panics within a method that converts to it, the caller's buffer has not been touched; scratch holds what the FFT has left there. -/
theorem C83_exact (hl : left.Fits) (hf : FftFits fft) (h : ViaFft left fft k p q n s) : StopsInFft left fft q n s := by
  cases h with
  | dct1 h hn => exact dct1_stops hl hf h hn
  | dst1 h => exact dst1_stops hl hf h
  | dct2 h => exact dct2_stops hl hf h
  | dst2 h => exact dst2_stops hl hf h
  | dct3 h hn => exact dct3_stops hl hf h hn
  | dst3 h hn => exact dst3_stops hl hf h hn
  | dct4 h hn => exact dct4_stops hl hf h hn
  | dst4 h hn => exact dst4_stops hl hf h hn
  | dst6 h => exact dst6_stops hl hf h
  | dst7 h => exact dst7_stops hl hf h

theorem ViaFft.scratch (h : ViaFft left fft k p q n s) : s = 2 * (fft.len + fft.inplaceScratchLen) := by
  cases h with
  | dct1 h hn => exact (Dct1ConvertToFft.new_swap h).2.1
  | dst1 h => exact (Dst1ConvertToFft.new_swap h).2.1
  | dct2 h => exact (Type2And3ConvertToFft.new_swap h).2.1
  | dst2 h => exact (Type2And3ConvertToFft.new_swap h).2.1
  | dct3 h hn => exact (Type2And3ConvertToFft.new_swap h).2.1
  | dst3 h hn => exact (Type2And3ConvertToFft.new_swap h).2.1
  | dct4 h hn => exact (Type4ConvertToFftOdd.new_swap h).2.1
  | dst4 h hn => exact (Type4ConvertToFftOdd.new_swap h).2.1
  | dst6 h => exact (Dst6And7ConvertToFft.new_swap h).2.1
  | dst7 h => exact (Dst6And7ConvertToFft.new_swap h).2.1

/-- In particular: after such a panic the caller's buffer is what it was before the call. -/
theorem C83_buffer (hl : left.Fits) (hf : FftFits fft) (h : ViaFft left fft k p q n s) : KeepsBuffer fft q n s :=
  (C83_exact hl hf h).keeps hl h.scratch

theorem type23_len {y : Type2And3ConvertToFft T} (h : Type2And3ConvertToFft.new fft = .ok y) : y.len = fft.len := by
  unfold Type2And3ConvertToFft.new at h
  split at h
  · cases h
  · injection h with h
    subst h
    simp [Type2And3ConvertToFft.len]

/-- DCT4 and DST4 of even length on top of such an instance: the same if the FFT asks for scratch; if not, the caller's buffer is used as scratch of the
inner instance, and after a panic it holds what the FFT has left in its own buffer. -/
theorem C83_type3 (hl : left.Fits) (hf : FftFits fft) (h : ViaType3 left fft k p q n s) :
    if 0 < fft.inplaceScratchLen then KeepsBuffer fft q n s else LosesBuffer left fft q n s := by
  have key : ∀ {y : Type2And3ConvertToFft T}, Type2And3ConvertToFft.new fft = .ok y → 1 ≤ (Type4ConvertToType3Even.inst y.len y.toObj).len →
      1 ≤ y.len ∧ y.len = fft.len ∧ y.toObj.scratchLen = 2 * (fft.len + fft.inplaceScratchLen) ∧
      StopsInFft left fft (y.dct3Cut.run left) y.len y.toObj.scratchLen ∧ StopsInFft left fft (y.dst3Cut.run left) y.len y.toObj.scratchLen := by
    intro y hy hn
    rw [Type4ConvertToType3Even.inst_len] at hn
    have h1 : 1 ≤ y.len := by omega
    exact ⟨h1, type23_len hy, (Type2And3ConvertToFft.new_swap hy).2.1, dct3_stops hl hf hy h1, dst3_stops hl hf hy h1⟩
  cases h with
  | @dct4 y x hy hx hn =>
    obtain rfl := even_inner hx
    obtain ⟨h1, h2, h3, h4, h5⟩ := key hy hn
    rw [even_dct4Trk_eq, Type4ConvertToType3Even.inst_len]
    split
    · exact even_keeps (si := y.toObj.scratchLen) (by omega) rfl (even_works_dct4 h1 y.toObj) (dct4Pre_buffer _) (h4.keeps hl h3) (h5.keeps hl h3)
    · exact even_loses (si := y.toObj.scratchLen) hl h2.symm (by omega) (by omega) rfl (even_works_dct4 h1 y.toObj) (dct4Pre_buffer _) h4 h5
  | @dst4 y x hy hx hn =>
    obtain rfl := even_inner hx
    obtain ⟨h1, h2, h3, h4, h5⟩ := key hy hn
    rw [even_dst4Trk_eq, Type4ConvertToType3Even.inst_len]
    split
    · exact even_keeps (si := y.toObj.scratchLen) (by omega) rfl (even_works_dst4 h1 y.toObj) (dst4Pre_buffer _) (h5.keeps hl h3) (h4.keeps hl h3)
    · exact even_loses (si := y.toObj.scratchLen) hl h2.symm (by omega) (by omega) rfl (even_works_dst4 h1 y.toObj) (dst4Pre_buffer _) h5 h4

/-! ### Planned instances -/

variable {planFft : ℕ → Fft T} {calls : List (PlanCall T)}

theorem canonDct1_via (hf : PlanFftShape planFft) {o : Obj1 T} (h : canonDct1 planFft n = .ok o) {L : ℕ} (hL : Kind.dct1.fftLen n = some L) :
    ∃ x, Dct1ConvertToFft.new (planFft L) = .ok x ∧ o = x.toObj ∧ x.len = n ∧ 2 ≤ x.len := by
  simp only [Kind.fftLen] at hL
  by_cases hn : n < 10
  · rw [if_pos hn] at hL; cases hL
  rw [if_neg hn] at hL
  injection hL with hL
  subst hL
  unfold canonDct1 at h
  rw [if_neg hn, mul_comm (n - 1) 2, Dct1ConvertToFft.new_eq (by rw [(hf _).1]; omega) (hf _).2] at h
  injection h with h
  have e : (Dct1ConvertToFft.inst (planFft (2 * (n - 1)))).len = n := by
    simp only [Dct1ConvertToFft.inst, (hf _).1]; omega
  exact ⟨_, Dct1ConvertToFft.new_eq (by rw [(hf _).1]; omega) (hf _).2, h.symm, e, by omega⟩

theorem canonDst1_via (hf : PlanFftShape planFft) {o : Obj1 T} (h : canonDst1 planFft n = .ok o) {L : ℕ} (hL : Kind.dst1.fftLen n = some L) :
    ∃ x, Dst1ConvertToFft.new (planFft L) = .ok x ∧ o = x.toObj ∧ x.len = n := by
  simp only [Kind.fftLen] at hL
  by_cases hn : n < 25
  · rw [if_pos hn] at hL; cases hL
  rw [if_neg hn] at hL
  injection hL with hL
  subst hL
  unfold canonDst1 at h
  have e0 := Dst1ConvertToFft.new_eq (fft := planFft (2 * (n + 1))) (by rw [(hf _).1]; omega) (hf _).2 (by rw [(hf _).1]; omega)
  rw [if_neg hn, mul_comm (n + 1) 2, e0] at h
  injection h with h
  have e : (Dst1ConvertToFft.inst (planFft (2 * (n + 1)))).len = n := by
    simp only [Dst1ConvertToFft.inst, (hf _).1]; omega
  exact ⟨_, e0, h.symm, e⟩

theorem canonDst6_via (hf : PlanFftShape planFft) {o : Obj67 T} (h : canonDst6 planFft n = .ok o) {L : ℕ} (hL : Kind.dst6.fftLen n = some L) :
    ∃ x, Dst6And7ConvertToFft.new (planFft L) = .ok x ∧ o = x.toObj ∧ x.len = n := by
  simp only [Kind.fftLen] at hL
  by_cases hn : n < 45
  · rw [if_pos hn] at hL; cases hL
  rw [if_neg hn] at hL
  injection hL with hL
  subst hL
  unfold canonDst6 at h
  have e0 := Dst6And7ConvertToFft.new_eq (fft := planFft (2 * n + 1)) (by rw [(hf _).1]; omega) (hf _).2
  rw [if_neg hn, mul_comm n 2, e0] at h
  injection h with h
  have e : (Dst6And7ConvertToFft.inst (planFft (2 * n + 1))).len = n := by
    simp only [Dst6And7ConvertToFft.inst, (hf _).1]; omega
  exact ⟨_, e0, h.symm, e⟩

theorem canon23_via (hf : PlanFftShape planFft) {o : Obj23 T} (h : canon23 planFft n = .ok o) {L : ℕ} (hL : fftLen23 n = some L) :
    ∃ x, Type2And3ConvertToFft.new (planFft L) = .ok x ∧ o = x.toObj ∧ x.len = n := by
  rw [canon23.eq_def] at h
  by_cases h1 : dct2Butterflies.contains n = true
  · have : straightLine n := by
      simp only [dct2Butterflies, List.contains_eq_mem, decide_eq_true_eq, List.mem_cons, List.not_mem_nil, or_false] at h1
      exact h1
    rw [fftLen23, if_pos (.inl this)] at hL
    cases hL
  rw [if_neg h1] at h
  by_cases h2 : isPowerOfTwo n = true ∧ n > 2
  · rw [Param.fftLen23_pow2 h2.1 h2.2] at hL; cases hL
  rw [dif_neg h2] at h
  rw [Param.fftLen23_of h1 h2] at hL
  injection hL with hL
  subst hL
  have e0 := Type2And3ConvertToFft.new_eq (fft := planFft n) (hf _).2
  rw [e0] at h
  injection h with h
  exact ⟨_, e0, h.symm, by rw [Type2And3ConvertToFft.len_inst, (hf _).1]⟩

theorem canon4_via (hf : PlanFftShape planFft) {o : Obj4 T} (h : canon4 planFft n = .ok o) {L : ℕ} (hL : Kind.dct4.fftLen n = some L) :
    (n % 2 = 1 ∧ ∃ x, Type4ConvertToFftOdd.new (planFft L) = .ok x ∧ o = x.toObj ∧ x.len = n) ∨
    (n % 2 = 0 ∧ ∃ y x, Type2And3ConvertToFft.new (planFft L) = .ok y ∧ Type4ConvertToType3Even.new y.toObj = .ok x ∧ o = x.toObj ∧ x.len = n) := by
  simp only [Kind.fftLen] at hL
  unfold canon4 at h
  by_cases h2 : n % 2 = 0
  · rw [if_pos h2] at h hL
    by_cases h6 : n < 6
    · rw [if_pos h6] at hL; cases hL
    rw [if_neg h6] at h hL
    obtain ⟨i, hi⟩ : ∃ i, canon23 planFft (n / 2) = .ok i := by
      cases e : canon23 planFft (n / 2) with
      | error er => rw [e] at h; cases h
      | ok i => exact ⟨i, rfl⟩
    obtain ⟨y, hy, rfl, hyl⟩ := canon23_via hf hi hL
    rw [hi, ok_bind, Type4ConvertToType3Even.new_eq rfl] at h
    injection h with h
    refine .inr ⟨h2, y, _, hy, Type4ConvertToType3Even.new_eq rfl, h.symm, ?_⟩
    rw [Type4ConvertToType3Even.inst_len]
    have : y.toObj.len = y.len := rfl
    omega
  · rw [if_neg h2] at h hL
    by_cases h7 : n < 7
    · rw [if_pos h7] at hL; cases hL
    rw [if_neg h7] at h hL
    injection hL with hL
    subst hL
    have e0 := Type4ConvertToFftOdd.new_eq (fft := planFft n) (by rw [(hf _).1]; omega) (hf _).2
    rw [e0] at h
    injection h with h
    exact .inl ⟨by omega, _, e0, h.symm, (hf n).1⟩

/-- The planned instances that contain an FFT. -/
theorem Planned.via (left : Left T) (hf : PlanFftShape planFft) (h : Planned planFft calls k p n s) {L : ℕ} (hL : k.fftLen n = some L) :
    ∃ q, ViaFft left (planFft L) k p q n s ∧ ¬ ((k = .dct4 ∨ k = .dst4) ∧ n % 2 = 0) ∨
      ViaType3 left (planFft L) k p q n s ∧ (k = .dct4 ∨ k = .dst4) ∧ n % 2 = 0 := by
  cases h with
  | @dct1 n a s' h =>
    obtain ⟨x, h1, h2, h3, h4⟩ := canonDct1_via hf (Yields.canon (fun W => planDct1_yields n) h) hL
    rw [h2, ← h3]
    exact ⟨_, .inl ⟨.dct1 h1 h4, by simp⟩⟩
  | @dst1 n a s' h =>
    obtain ⟨x, h1, h2, h3⟩ := canonDst1_via hf (Yields.canon (fun W => planDst1_yields n) h) hL
    rw [h2, ← h3]
    exact ⟨_, .inl ⟨.dst1 h1, by simp⟩⟩
  | @dct2 n a s' h =>
    obtain ⟨x, h1, h2, h3⟩ := canon23_via hf (Yields.canon (fun W => planDct2_yields n) h) hL
    rw [h2, ← h3]
    exact ⟨_, .inl ⟨.dct2 h1, by simp⟩⟩
  | @dst2 n a s' h =>
    obtain ⟨x, h1, h2, h3⟩ := canon23_via hf (Yields.canon (fun W => planDct2_yields n) h) hL
    rw [h2, ← h3]
    exact ⟨_, .inl ⟨.dst2 h1, by simp⟩⟩
  | @dct3 n a s' h hn =>
    obtain ⟨x, h1, h2, h3⟩ := canon23_via hf (Yields.canon (fun W => planDct2_yields n) h) hL
    rw [← h3] at hn
    rw [h2, ← h3]
    exact ⟨_, .inl ⟨.dct3 h1 hn, by simp⟩⟩
  | @dst3 n a s' h hn =>
    obtain ⟨x, h1, h2, h3⟩ := canon23_via hf (Yields.canon (fun W => planDct2_yields n) h) hL
    rw [← h3] at hn
    rw [h2, ← h3]
    exact ⟨_, .inl ⟨.dst3 h1 hn, by simp⟩⟩
  | @dct4 n a s' h hn =>
    rcases canon4_via hf (Yields.canon (fun W => planDct4_yields n) h) hL with ⟨h0, x, h1, h2, h3⟩ | ⟨h0, y, x, h1, h1', h2, h3⟩
    · rw [← h3] at hn h0
      rw [h2, ← h3]
      exact ⟨_, .inl ⟨.dct4 h1 hn, by rintro ⟨-, h⟩; omega⟩⟩
    · rw [← h3] at hn h0
      rw [h2, ← h3]
      exact ⟨_, .inr ⟨.dct4 h1 h1' hn, .inl rfl, h0⟩⟩
  | @dst4 n a s' h hn =>
    rcases canon4_via hf (Yields.canon (fun W => planDct4_yields n) h) hL with ⟨h0, x, h1, h2, h3⟩ | ⟨h0, y, x, h1, h1', h2, h3⟩
    · rw [← h3] at hn h0
      rw [h2, ← h3]
      exact ⟨_, .inl ⟨.dst4 h1 hn, by rintro ⟨-, h⟩; omega⟩⟩
    · rw [← h3] at hn h0
      rw [h2, ← h3]
      exact ⟨_, .inr ⟨.dst4 h1 h1' hn, .inr rfl, h0⟩⟩
  | @dst6 n a s' h =>
    obtain ⟨x, h1, h2, h3⟩ := canonDst6_via hf (Yields.canon (fun W => planDst6_yields n) h) hL
    rw [h2, ← h3]
    exact ⟨_, .inl ⟨.dst6 h1, by simp⟩⟩
  | @dst7 n a s' h =>
    obtain ⟨x, h1, h2, h3⟩ := canonDst6_via hf (Yields.canon (fun W => planDst6_yields n) h) hL
    rw [h2, ← h3]
    exact ⟨_, .inl ⟨.dst7 h1, by simp⟩⟩
  | _ => cases hL

/-- Planned instances: a valid call returns, or the FFT inside panics.  After that the caller's buffer is what it was before the call, except for DCT4 and
DST4 of even length with an FFT that needs no scratch: there it is lost. -/
theorem C83_planned (hl : left.Fits) (hf : PlanFftShape planFft) (hfit : ∀ m, FftFits (planFft m)) (h : Planned planFft calls k p n s) {L : ℕ}
    (hL : k.fftLen n = some L) :
    ∃ q, Recorded left planFft k p q n s ∧ (∀ m, Records (p m) (q m)) ∧
      if (k = .dct4 ∨ k = .dst4) ∧ n % 2 = 0 ∧ (planFft L).inplaceScratchLen = 0 then LosesBuffer left (planFft L) q n s
      else KeepsBuffer (planFft L) q n s := by
  obtain ⟨q, ⟨h1, h2⟩ | ⟨h1, h2, h3⟩⟩ := h.via left hf hL
  · exact ⟨q, by rw [Recorded, hL]; exact .inl h1, C83_same h1, by rw [if_neg (fun h => h2 ⟨h.1, h.2.1⟩)]; exact C83_buffer hl (hfit L) h1⟩
  · refine ⟨q, by rw [Recorded, hL]; exact .inr h1, C83_same_type3 h1, ?_⟩
    have := C83_type3 hl (hfit L) h1
    split at this
    · rw [if_neg (by omega)]; exact this
    · rw [if_pos ⟨h2, h3, by omega⟩]; exact this

/-- Planned instances without an FFT never panic in a valid call, whatever the FFTs of the planner do. -/
theorem C83_planned_none (h : Planned planFft calls k p n s) (hL : k.fftLen n = none) : Safe p n s :=
  C26_planned (planFft := fun m => (dftFft m : Fft T)) dftFft_planSane (C65_exists (fun m hm => by rw [hL] at hm; cases hm) h [])

/-! ### The MDCT -/

theorem KeepsBuffer.shape {P : Err → Prop} (h : KeepsBuffer fft q n s) (hP : ∀ e, FftPanicked fft e → P e) : KeepsShape P q n s := by
  intro m hm
  rcases h m hm with ⟨m', h1, h2, h3, h4, -⟩ | ⟨e, scr, h1, h2, h3, h4⟩
  · exact .inl ⟨m', h1, h2, h3, h4⟩
  · exact .inr ⟨e, _, hP e h1, h2, hm.1, h3, h4⟩

theorem LosesBuffer.shape {P : Err → Prop} (h : LosesBuffer left fft q n s) (h0 : fft.inplaceScratchLen = 0) (hP : ∀ e, FftPanicked fft e → P e) : KeepsShape P q n s := by
  intro m hm
  rcases h m hm with ⟨m', h1, h2, h3, h4, -⟩ | ⟨e, b, scr, h1, h2, h3, h4, h5, h6⟩
  · exact .inl ⟨m', h1, h2, h3, h4⟩
  · exact .inr ⟨e, _, hP e ⟨b, [], h1, by simp [h0], h2⟩, h3, h4, h5, h6⟩

/-- An MDCT on top of any DCT4: if a panic within the DCT4 keeps the shape of its slices, so does one within the MDCT; and an IMDCT that is interrupted by
such a panic has not touched its two output buffers. -/
theorem C83_mdct {P : Err → Prop} {d : Obj4 T} {w : ℕ → List T} {x : MdctViaDct4 T} (h : MdctViaDct4.new d w = .ok x) (hn : 1 ≤ d.len)
    (hr : ∀ m, Records (d.dct4 m) (q m)) (hk : KeepsShape P q d.len d.scratchLen) :
    (∀ a b m, Records (x.mdct a b m) (x.mdctTrk q a b m)) ∧ (∀ a m, Records (x.imdct a m) (x.imdctTrk q a m)) ∧
    KeepsShapeMdct P (x.mdctTrk q) x.len x.scratchLen ∧ KeepsOutputs P (x.imdctTrk q) x.len x.scratchLen := by
  obtain ⟨-, -, e⟩ := MdctViaDct4.new_shape h
  have e1 : x.dct = d := by rw [e]
  have e2 : x.len = d.len := by rw [e]; rfl
  rw [e2]
  exact ⟨mdct_records x (by rw [e1]; exact hr), imdct_records x (by rw [e1]; exact hr), mdct_keeps hn h hk, imdct_keeps hn h hk⟩

/-- Planned MDCT instances. -/
theorem C83_planned_mdct (hl : left.Fits) (hf : PlanFftShape planFft) (hfit : ∀ m, FftFits (planFft m)) {w : ℕ → List T} {o : MdctObj T} (hn : 1 ≤ n)
    (h : PlannedMdct planFft calls n w o) :
    ∃ qm qi, RecordedMdct left planFft o qm qi ∧ (∀ a b m, Records (o.mdct a b m) (qm a b m)) ∧ (∀ a m, Records (o.imdct a m) (qi a m)) ∧
      KeepsShapeMdct (fun e => ∃ L, Kind.dct4.fftLen n = some L ∧ FftPanicked (planFft L) e) qm n o.scratchLen ∧
      KeepsOutputs (fun e => ∃ L, Kind.dct4.fftLen n = some L ∧ FftPanicked (planFft L) e) qi n o.scratchLen := by
  have hc := h.canon hf
  obtain ⟨d, h1, h2, h3⟩ := canon4_made hf n
  unfold canonMdct at hc
  rw [h1, ok_bind] at hc
  obtain ⟨x, hx, rfl⟩ := map_ok hc
  subst h3
  obtain ⟨-, -, e⟩ := MdctViaDct4.new_shape hx
  have e2 : x.len = d.len := by rw [e]; rfl
  have hp : ∃ s, Planned planFft [] .dct4 d.dct4 d.len s ∧ s = d.scratchLen := by
    obtain ⟨-, -, h4, -⟩ := planned_instances hf d.len
    obtain ⟨a, s, e', -⟩ := h4 []
    have := Yields.canon (fun W => planDct4_yields d.len) e'
    rw [h1] at this
    injection this with this
    subst this
    exact ⟨_, .dct4 e' hn, rfl⟩
  obtain ⟨_, hp, rfl⟩ := hp
  have key : ∃ q, Recorded left planFft .dct4 d.dct4 q d.len d.scratchLen ∧ (∀ m, Records (d.dct4 m) (q m)) ∧ KeepsShape (fun e => ∃ L, Kind.dct4.fftLen d.len = some L ∧ FftPanicked (planFft L) e) q d.len d.scratchLen := by
    cases hL : Kind.dct4.fftLen d.len with
    | none => exact ⟨d.dct4, by rw [Recorded, hL], fun m => Records.rfl', fun m hm => .inl (C83_planned_none hp hL m hm)⟩
    | some L =>
      obtain ⟨q, hv, hq, hk⟩ := C83_planned hl hf hfit hp hL
      refine ⟨q, hv, hq, ?_⟩
      split at hk
      · rename_i h0
        exact hk.shape h0.2.2 fun e he => ⟨L, rfl, he⟩
      · exact hk.shape fun e he => ⟨L, rfl, he⟩
  obtain ⟨q, hv, hq, hk⟩ := key
  obtain ⟨a1, a2, a3, a4⟩ := C83_mdct hx hn hq hk
  rw [e2] at a3 a4
  exact ⟨_, _, .via hx hv, a1, a2, a3, a4⟩

/-! ### Instances of the hypotheses -/

/-- An FFT that always panics. -/
def brokenFft (c : ℕ) (m : ℕ) : Fft T := { len := m, direction := .forward, inplaceScratchLen := c, process := fun _ _ => .error .assertion }

/-- An FFT that panics has overwritten its buffer with zeros. -/
def zeroLeft : Left T := fun _ b s => (b.map fun _ => ⟨0, 0⟩, s)

theorem zeroLeft_fits : (zeroLeft : Left T).Fits := fun f b s => ⟨by simp [zeroLeft], rfl⟩
theorem brokenFft_fits (c m : ℕ) : FftFits (brokenFft c m : Fft T) := fun b s b' s' h => by cases h
theorem brokenFft_shape (c : ℕ) : PlanFftShape (brokenFft c : ℕ → Fft T) := fun m => ⟨rfl, rfl⟩
theorem brokenFft_not (c m : ℕ) : ¬ FftReturned (brokenFft c m : Fft T) := fun ⟨_, _, _, _, _, h⟩ => by cases h

/-- DCT2 of length 7: every valid call panics, and the buffer is kept. -/
example : ∃ p q s, Planned (brokenFft 0 : ℕ → Fft ℝ) [] .dct2 p 7 s ∧ Recorded zeroLeft (brokenFft 0) .dct2 p q 7 s ∧
    ∀ m, ValidCall 7 s m → ∃ scr, q m = .panic .assertion (some ⟨m.buf, scr⟩) := by
  obtain ⟨p, s, hp⟩ := planned_exists (brokenFft_shape 0) [] .dct2 (n := 7) (T := ℝ) (by norm_num)
  obtain ⟨q, h1, -, h2⟩ := C83_planned zeroLeft_fits (brokenFft_shape 0) (brokenFft_fits 0) hp (L := 7) (by decide)
  rw [if_neg (by simp)] at h2
  refine ⟨p, q, s, hp, h1, fun m hm => ?_⟩
  rcases h2 m hm with ⟨m', -, -, -, -, h⟩ | ⟨e, scr, ⟨_, _, _, _, he⟩, h, -⟩
  · exact absurd h (brokenFft_not 0 _)
  · cases he; exact ⟨scr, h⟩

/-- DCT4 of length 10, with an FFT that needs scratch: the buffer is kept.  With an FFT that needs none: the data is gone. -/
example : ∃ p q s p' q' s', Planned (brokenFft 1 : ℕ → Fft ℝ) [] .dct4 p 10 s ∧ Recorded zeroLeft (brokenFft 1) .dct4 p q 10 s ∧
    Planned (brokenFft 0 : ℕ → Fft ℝ) [] .dct4 p' 10 s' ∧ Recorded zeroLeft (brokenFft 0) .dct4 p' q' 10 s' ∧
    (∀ m, ValidCall 10 s m → ∃ scr, q m = .panic .assertion (some ⟨m.buf, scr⟩)) ∧
    (∀ m, ValidCall 10 s' m → ∃ scr, q' m = .panic .assertion (some ⟨List.replicate 10 0, scr⟩)) := by
  obtain ⟨p, s, hp⟩ := planned_exists (brokenFft_shape 1) [] .dct4 (n := 10) (T := ℝ) (by norm_num)
  obtain ⟨q, h1, -, h2⟩ := C83_planned zeroLeft_fits (brokenFft_shape 1) (brokenFft_fits 1) hp (L := 5) (by decide)
  obtain ⟨p', s', hp'⟩ := planned_exists (brokenFft_shape 0) [] .dct4 (n := 10) (T := ℝ) (by norm_num)
  obtain ⟨q', h1', -, h2'⟩ := C83_planned zeroLeft_fits (brokenFft_shape 0) (brokenFft_fits 0) hp' (L := 5) (by decide)
  rw [if_neg (by simp [brokenFft])] at h2
  rw [if_pos (by simp [brokenFft])] at h2'
  refine ⟨p, q, s, p', q', s', hp, h1, hp', h1', fun m hm => ?_, fun m hm => ?_⟩
  · rcases h2 m hm with ⟨m', -, -, -, -, h⟩ | ⟨e, scr, ⟨_, _, _, _, he⟩, h, -⟩
    · exact absurd h (brokenFft_not 1 _)
    · cases he; exact ⟨scr, h⟩
  · rcases h2' m hm with ⟨m', -, -, -, -, h⟩ | ⟨e, b, scr, hb, he, h, -⟩
    · exact absurd h (brokenFft_not 0 _)
    · cases he
      refine ⟨scr, ?_⟩
      rw [h]
      have : ∀ b : List (Cx ℝ), flattenComplex (b.map fun _ => (⟨0, 0⟩ : Cx ℝ)) = List.replicate (2 * b.length) 0 := by
        intro b
        induction b with
        | nil => rfl
        | cons x b ih =>
          have e : 2 * (x :: b).length = 2 * b.length + 1 + 1 := by simp; ring
          rw [e, List.replicate_succ, List.replicate_succ, ← ih]
          rfl
      simp only [zeroLeft, this, hb, brokenFft]

end RustDct
