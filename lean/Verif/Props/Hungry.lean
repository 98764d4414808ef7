import Verif.Props.InnerPanic
import Verif.Props.Safety
/-!
# C47: split radix over inner instances that ask for more scratch than the outer length
-/

set_option linter.all false

namespace RustDct

variable {T F : Type} [F64 F] [DctNum T F] {half quarter : Obj23 T} {x : Type2And3SplitRadix T}

/-- `p` panics in every valid call. -/
def AlwaysPanics (e : Err) (p : Proc T) (n s : ℕ) : Prop := ∀ m, ValidCall n s m → ∃ o, p m = .panic e o

theorem hungry_call {p : Proc T} {n s : ℕ} (hr : Rejects p n s) {b t : List T} (hb : b.length = n) (ht : t.length < s) :
    callProc p b t = .error (.scratchLen s t.length) := by
  unfold callProc
  rw [hr ⟨b, t⟩ (fun h => by have := h.2; dsimp only at this; omega), if_pos hb]

theorem hungry_body {q : ℕ} {pre : SrPre T} {post : ℕ → SrPost T} {p1 p2 : Proc T} {n s : ℕ}
    (hpre : ∀ {b s : List T}, b.length = 4 * q → s.length = 4 * q → Yld (pre b s) fun r => r.1.length = 2 * q ∧ r.2.1.length = q ∧ r.2.2.length = q)
    (h : Rejects p1 (2 * q) s ∧ 4 * q < s ∨ (∃ t ≤ 4 * q, Safe p1 (2 * q) t) ∧ Rejects p2 q s ∧ 4 * q < s) :
    AlwaysPanics (.scratchLen s (4 * q)) (fun m => validateBuffers m (4 * q) (4 * q) fun b s => srBody pre (post b.length) p1 p2 b s) (4 * q) (4 * q) := by
  intro m hm
  obtain ⟨hm1, hm2⟩ := hm
  obtain ⟨⟨u, v, w⟩, e0, e1, e2, e3⟩ := hpre (b := m.buf) (s := m.scr.take (4 * q)) hm1 (by simp [hm2])
  dsimp only at e1 e2 e3
  refine ⟨none, ?_⟩
  beta_reduce
  simp only [validateBuffers, hm1, hm2, ne_eq, not_true_eq_false, if_false, if_true, srBody, e0, ok_bind]
  rcases h with ⟨h1, h2⟩ | ⟨⟨t, ht, hsafe⟩, h1, h2⟩
  · rw [hungry_call h1 e1 (by omega), hm1]
    rfl
  · obtain ⟨m', a1, a2, a3, -⟩ := hsafe ⟨u, m.buf⟩ ⟨e1, by dsimp only; omega⟩
    have : callProc p1 u m.buf = .ok (m'.buf, m'.scr) := by simp only [callProc, a1]
    dsimp only at a3
    rw [this, ok_bind]
    dsimp only
    rw [hungry_call h1 e2 (by omega), a3, hm1]
    rfl

theorem hungry_methods {q : ℕ} (hq : 1 ≤ q) {s2 s3 : ℕ}
    (h2 : Rejects half.dct2 (2 * q) s2 ∧ 4 * q < s2 ∨ (∃ t ≤ 4 * q, Safe half.dct2 (2 * q) t) ∧ Rejects quarter.dct2 q s2 ∧ 4 * q < s2)
    (h3 : Rejects half.dct3 (2 * q) s3 ∧ 4 * q < s3 ∨ (∃ t ≤ 4 * q, Safe half.dct3 (2 * q) t) ∧ Rejects quarter.dct3 q s3 ∧ 4 * q < s3) :
    let x := Type2And3SplitRadix.inst q half quarter
    AlwaysPanics (.scratchLen s2 (4 * q)) x.dct2 (4 * q) (4 * q) ∧ AlwaysPanics (.scratchLen s3 (4 * q)) x.dct3 (4 * q) (4 * q) ∧
    AlwaysPanics (.scratchLen s2 (4 * q)) x.dst2 (4 * q) (4 * q) ∧ AlwaysPanics (.scratchLen s3 (4 * q)) x.dst3 (4 * q) (4 * q) := by
  intro x
  have hl : x.len = 4 * q := Type2And3SplitRadix.inst_len q half quarter
  have hs : x.scratchLen = 4 * q := hl
  have ht : x.twiddles.length = q := by simp [x, Type2And3SplitRadix.inst]
  have k2 : AlwaysPanics (.scratchLen s2 (4 * q)) x.dct2 (4 * q) (4 * q) := by
    rw [sr_dct2_eq, hs, hl]
    exact hungry_body (n := 0) (post := fun _ => x.dct2Post) (sr_dct2Pre x ht) h2
  have k3 : AlwaysPanics (.scratchLen s3 (4 * q)) x.dct3 (4 * q) (4 * q) := by
    rw [sr_dct3_eq, hs, hl]
    exact hungry_body (n := 0) (sr_dct3Pre hq) h3
  refine ⟨k2, k3, fun m hm => ?_, fun m hm => ?_⟩
  · obtain ⟨o, e⟩ := k2 ⟨alternate m.buf, m.scr⟩ ⟨by rw [length_alternate]; exact hm.1, hm.2⟩
    refine ⟨o, ?_⟩
    rw [Type2And3SplitRadix.dst2, negOdds_alternate (by rw [hl, hm.1]; omega)]
    dsimp only
    rw [e]
  · obtain ⟨o, e⟩ := k3 ⟨m.buf.reverse, m.scr⟩ ⟨by simpa using hm.1, hm.2⟩
    refine ⟨o, ?_⟩
    rw [Type2And3SplitRadix.dst3, e]

/-- If the inner instance of half length asks for more scratch than the outer length, the constructor accepts it, and every valid call of each of the four methods
panics in the size check of the inner instance. -/
theorem C47_half (h : Type2And3SplitRadix.new half quarter = .ok x) (h2 : Rejects half.dct2 half.len half.scratchLen)
    (h3 : Rejects half.dct3 half.len half.scratchLen) (hs : x.len < half.scratchLen) :
    AlwaysPanics (.scratchLen half.scratchLen x.len) x.dct2 x.len x.scratchLen ∧ AlwaysPanics (.scratchLen half.scratchLen x.len) x.dct3 x.len x.scratchLen ∧
    AlwaysPanics (.scratchLen half.scratchLen x.len) x.dst2 x.len x.scratchLen ∧ AlwaysPanics (.scratchLen half.scratchLen x.len) x.dst3 x.len x.scratchLen := by
  obtain ⟨q, hq, e1, e2, rfl⟩ := sr_shape h
  have hl := Type2And3SplitRadix.inst_len q half quarter
  have hs' : (Type2And3SplitRadix.inst q half quarter).scratchLen = 4 * q := hl
  rw [hl] at hs
  rw [e1] at h2 h3
  rw [hs', hl]
  exact hungry_methods hq (.inl ⟨h2, hs⟩) (.inl ⟨h3, hs⟩)

/-- The same for the inner instance of quarter length. -/
theorem C47_quarter (h : Type2And3SplitRadix.new half quarter = .ok x) (s2 : Safe half.dct2 half.len half.scratchLen)
    (s3 : Safe half.dct3 half.len half.scratchLen) (hh : half.scratchLen ≤ x.len) (h2 : Rejects quarter.dct2 quarter.len quarter.scratchLen)
    (h3 : Rejects quarter.dct3 quarter.len quarter.scratchLen) (hs : x.len < quarter.scratchLen) :
    AlwaysPanics (.scratchLen quarter.scratchLen x.len) x.dct2 x.len x.scratchLen ∧
    AlwaysPanics (.scratchLen quarter.scratchLen x.len) x.dct3 x.len x.scratchLen ∧
    AlwaysPanics (.scratchLen quarter.scratchLen x.len) x.dst2 x.len x.scratchLen ∧
    AlwaysPanics (.scratchLen quarter.scratchLen x.len) x.dst3 x.len x.scratchLen := by
  obtain ⟨q, hq, e1, e2, rfl⟩ := sr_shape h
  have hl := Type2And3SplitRadix.inst_len q half quarter
  have hs' : (Type2And3SplitRadix.inst q half quarter).scratchLen = 4 * q := hl
  rw [hl] at hs hh
  rw [e1] at s2 s3
  rw [e2] at h2 h3
  rw [hs', hl]
  exact hungry_methods hq (.inr ⟨⟨_, hh, s2⟩, h2, hs⟩) (.inr ⟨⟨_, hh, s3⟩, h3, hs⟩)

/-- An instance of length 8 over an FFT that asks for one element of scratch is such an inner instance, for length 16. -/
example (fft : Fft T) (hf : FftSane fft) (h8 : fft.len = 8) (hd : fft.direction = .forward) (hi : 1 ≤ fft.inplaceScratchLen) :
    ∃ y x, Type2And3ConvertToFft.new fft = .ok y ∧ Type2And3SplitRadix.new y.toObj (Type2And3Butterfly4.new (T := T)).toObj = .ok x ∧ x.len = 16 ∧
      AlwaysPanics (.scratchLen y.scratchLen 16) x.dct2 16 16 := by
  have hy := Type2And3ConvertToFft.new_eq (fft := fft) hd
  set y := Type2And3ConvertToFft.inst fft
  have hyl : y.len = 8 := (type23_len hy).trans h8
  have hys : y.scratchLen = 2 * (fft.len + fft.inplaceScratchLen) := (Type2And3ConvertToFft.new_swap hy).2.1
  have hx := Type2And3SplitRadix.new_eq (half := y.toObj) (quarter := (Type2And3Butterfly4.new (T := T)).toObj) (q := 4) hyl rfl (by decide)
  have hxl := Type2And3SplitRadix.inst_len 4 y.toObj (Type2And3Butterfly4.new (T := T)).toObj
  have k := (C47_half hx (Type2And3ConvertToFft.rejects_dct2 y) (Type2And3ConvertToFft.rejects_dct3 y) (by rw [hxl]; change _ < y.scratchLen; omega)).1
  refine ⟨y, _, hy, hx, hxl, ?_⟩
  have hs' : (Type2And3SplitRadix.inst 4 y.toObj (Type2And3Butterfly4.new (T := T)).toObj).scratchLen = 16 := hxl
  rwa [hs', hxl] at k

end RustDct
