import Verif.Proofs.InnerPanic
import Verif.Props.FftPanic
/-!
# C91: what memory holds after a panic inside an inner instance

`a'` is the inner instance `a` with recorded memory at its panics (`Obj23.Records`).  It may panic whenever it likes (`Obj23.KeepsShape`).
-/

set_option linter.all false

namespace RustDct

variable {T F : Type} [F64 F] [DctNum T F] {P : Err → Prop} {a a' b b' : Obj23 T}

theorem sr_shape {x : Type2And3SplitRadix T} (h : Type2And3SplitRadix.new a b = .ok x) :
    ∃ q, 1 ≤ q ∧ a.len = 2 * q ∧ b.len = q ∧ x = Type2And3SplitRadix.inst q a b := by
  obtain ⟨h1, h2, -, h3⟩ := Type2And3SplitRadix.new_shape h
  exact ⟨b.len, h2, h1, rfl, h3⟩

/-- The methods with recorded memory are the methods of the basic model. -/
theorem C91_same {x : Type2And3SplitRadix T} (h : Type2And3SplitRadix.new a b = .ok x) (ha : a.Records a') (hb : b.Records b') :
    x.toObj.Records (x.toObjTrk a' b') := by
  obtain ⟨q, hq, h1, h2, rfl⟩ := sr_shape h
  have k2 := sr_dct2_records (Type2And3SplitRadix.inst q a b) ha.dct2 hb.dct2
  have k3 := sr_dct3_records (Type2And3SplitRadix.inst q a b) ha.dct3 hb.dct3
  exact ⟨k2, k3, sr_dst2_records _ k2, sr_dst3_records _ k3⟩

/-- Split radix over any two instances that may panic.  The panic reaches the caller.  Then scratch that was not asked for is untouched and the caller's buffer is
changed at most up to the number `c` of elements that the inner instances ask for as scratch: from there on it holds the input of DCT2 and DCT3, the input of
DST2 with every other sign changed, the input of DST3 in reverse order. -/
theorem C91_splitRadix {x : Type2And3SplitRadix T} (h : Type2And3SplitRadix.new a b = .ok x) (hla : a'.len = a.len) (hlb : b'.len = b.len)
    (ha : a'.KeepsShape P) (hb : b'.KeepsShape P) {c : ℕ} (ca : a'.scratchLen ≤ c) (cb : b'.scratchLen ≤ c) (hc : c ≤ x.len) :
    KeepsTail c id P (x.dct2Trk a' b') x.len x.scratchLen ∧ KeepsTail c id P (x.dct3Trk a' b') x.len x.scratchLen ∧
    KeepsTail c alternate P (x.dst2Trk a' b') x.len x.scratchLen ∧ KeepsTail c List.reverse P (x.dst3Trk a' b') x.len x.scratchLen := by
  obtain ⟨q, hq, h1, h2, rfl⟩ := sr_shape h
  have hl := Type2And3SplitRadix.inst_len q a b
  have hs : (Type2And3SplitRadix.inst q a b).scratchLen = 4 * q := hl
  have ht : (Type2And3SplitRadix.inst q a b).twiddles.length = q := by simp [Type2And3SplitRadix.inst]
  obtain ⟨a2, a3, -, -⟩ := ha
  obtain ⟨b2, b3, -, -⟩ := hb
  rw [hla, h1] at a2 a3
  rw [hlb, h2] at b2 b3
  rw [hl] at hc
  have k2 : KeepsTail c id P ((Type2And3SplitRadix.inst q a b).dct2Trk a' b') (4 * q) (4 * q) := by
    rw [sr_dct2Trk_eq, hs, hl]
    exact sr_keeps (post := fun _ => (Type2And3SplitRadix.inst q a b).dct2Post) a2 b2 ca cb hc (sr_dct2Pre _ ht) (sr_dct2Post _ hq ht)
  have k3 : KeepsTail c id P ((Type2And3SplitRadix.inst q a b).dct3Trk a' b') (4 * q) (4 * q) := by
    rw [sr_dct3Trk_eq, hs, hl]
    exact sr_keeps a3 b3 ca cb hc (sr_dct3Pre hq) (sr_dct3Post _ ht)
  rw [hs, hl]
  exact ⟨k2, k3, sr_dst2_keeps _ ht k2, sr_dst3_keeps _ ht k3⟩

/-- Type 4 of even length over any instance that may panic: the same, and if the inner instance asks for more scratch than the buffer has, the buffer is not used
as scratch, so that all of the input is kept. -/
theorem C91_type4 {x : Type4ConvertToType3Even T} (h : Type4ConvertToType3Even.new a = .ok x) (hn : 1 ≤ a.len) (hl : a'.len = a.len)
    (hs : a'.scratchLen = a.scratchLen) (hr : a.Records a') (hk : a'.KeepsShape P) :
    x.toObj.Records (x.toObjTrk a') ∧
    KeepsTail (if a.scratchLen ≤ x.len then a.scratchLen else 0) id P (x.dct4Trk a') x.len x.scratchLen ∧
    KeepsTail (if a.scratchLen ≤ x.len then a.scratchLen else 0) id P (x.dst4Trk a') x.len x.scratchLen := by
  rw [Type4ConvertToType3Even.new_eq rfl] at h
  injection h with h
  subst h
  obtain ⟨-, k3, -, s3⟩ := hk
  rw [hl, hs] at k3 s3
  refine ⟨⟨even_dct4_records _ hr.dct3 hr.dst3, even_dst4_records _ hr.dct3 hr.dst3⟩, ?_, ?_⟩
  · rw [even_dct4Trk_eq, Type4ConvertToType3Even.inst_len]
    exact even_keeps_tail rfl (even_works_dct4 hn a) (dct4Pre_buffer _) k3 s3
  · rw [even_dst4Trk_eq, Type4ConvertToType3Even.inst_len]
    exact even_keeps_tail rfl (even_works_dst4 hn a) (dst4Pre_buffer _) s3 k3

/-- Instances that are put together from such instances, to any depth: a panic anywhere within reaches the caller of the outermost one, and no slice has lost
its length or been changed outside of what was asked for. -/
theorem C91_composed (h : Composed23 P a a') :
    a'.len = a.len ∧ a'.scratchLen = a.scratchLen ∧ a.Records a' ∧ a'.KeepsShape P := by
  induction h with
  | base hl hs hr hk => exact ⟨hl, hs, hr, hk⟩
  | @split a a' b b' x ha hb hx hsa hsb iha ihb =>
    obtain ⟨a1, a2, a3, a4⟩ := iha
    obtain ⟨b1, b2, b3, b4⟩ := ihb
    obtain ⟨q, hq, h1, h2, e⟩ := sr_shape hx
    have hl : x.len = 4 * q := by rw [e]; exact Type2And3SplitRadix.inst_len q a b
    obtain ⟨k1, k2, k3, k4⟩ := C91_splitRadix hx a1 b1 a4 b4 (c := x.len) (by omega) (by omega) le_rfl
    exact ⟨rfl, rfl, C91_same hx a3 b3, ⟨k1.shape, k2.shape, k3.shape, k4.shape⟩⟩

/-- An MDCT on top of such an instance: an IMDCT that is interrupted has not touched its two output buffers. -/
theorem C91_mdct (h : Composed23 P a a') (hn : 1 ≤ a.len) {x : Type4ConvertToType3Even T} (hx : Type4ConvertToType3Even.new a = .ok x) {w : ℕ → List T}
    {y : MdctViaDct4 T} (hy : MdctViaDct4.new x.toObj w = .ok y) :
    (∀ u v m, Records (y.mdct u v m) (y.mdctTrk (x.dct4Trk a') u v m)) ∧ (∀ u m, Records (y.imdct u m) (y.imdctTrk (x.dct4Trk a') u m)) ∧
    KeepsShapeMdct P (y.mdctTrk (x.dct4Trk a')) y.len y.scratchLen ∧ KeepsOutputs P (y.imdctTrk (x.dct4Trk a')) y.len y.scratchLen := by
  obtain ⟨h1, h2, h3, h4⟩ := C91_composed h
  obtain ⟨k1, k2, -⟩ := C91_type4 hx hn h1 h2 h3 h4
  refine C83_mdct hy ?_ k1.dct4 k2.shape
  rw [Type4ConvertToType3Even.new_eq rfl] at hx
  injection hx with hx
  subst hx
  change 1 ≤ (Type4ConvertToType3Even.inst a.len a).len
  rw [Type4ConvertToType3Even.inst_len]
  omega

/-- Instances of this crate over an FFT that may panic are such instances. -/
theorem C91_fft {left : Left T} {fft : Fft T} (hl : left.Fits) (hf : FftFits fft) {y : Type2And3ConvertToFft T} (h : Type2And3ConvertToFft.new fft = .ok y)
    (hn : 1 ≤ y.len) : Composed23 (FftPanicked fft) y.toObj (y.toObjLeft left) :=
  .base rfl rfl ⟨C83_same (.dct2 h), C83_same (.dct3 h hn), C83_same (.dst2 h), C83_same (.dst3 h hn)⟩
    ⟨(C83_buffer hl hf (.dct2 h)).shape fun _ => id, (C83_buffer hl hf (.dct3 h hn)).shape fun _ => id,
      (C83_buffer hl hf (.dst2 h)).shape fun _ => id, (C83_buffer hl hf (.dst3 h hn)).shape fun _ => id⟩

/-- Instances of this crate over FFTs that work are such instances. -/
theorem C91_made (h : Made23 FftSane a) (hn : 1 ≤ a.len) : Composed23 P a a :=
  .base rfl rfl ⟨fun _ => Records.rfl', fun _ => Records.rfl', fun _ => Records.rfl', fun _ => Records.rfl'⟩
    ⟨(C26_made (.dct2 h)).shape, (C26_made (.dct3 h hn)).shape, (C26_made (.dst2 h)).shape, (C26_made (.dst3 h hn)).shape⟩

/-! ### Instances of the hypotheses -/

/-- Split radix of length 16 over the straight-line instance of length 8 and an instance of length 4 over an FFT that always panics: after a panic the second half of
the buffer holds the input of DST2 with every other sign changed. -/
example : ∃ (y : Type2And3ConvertToFft ℝ) (o : Obj23 ℝ) (x : Type2And3SplitRadix ℝ), Type2And3ConvertToFft.new (brokenFft 0 4) = .ok y ∧ o.len = 8 ∧
    Type2And3SplitRadix.new o y.toObj = .ok x ∧ Composed23 (FftPanicked (brokenFft 0 4 : Fft ℝ)) x.toObj (x.toObjTrk o (y.toObjLeft zeroLeft)) ∧
    KeepsTail 8 alternate (FftPanicked (brokenFft 0 4 : Fft ℝ)) (x.dst2Trk o (y.toObjLeft zeroLeft)) 16 16 := by
  have hy := Type2And3ConvertToFft.new_eq (fft := (brokenFft 0 4 : Fft ℝ)) rfl
  set y := Type2And3ConvertToFft.inst (brokenFft 0 4 : Fft ℝ) with hye
  have hyl : y.len = 4 := type23_len hy
  have hys : y.scratchLen = 8 := (Type2And3ConvertToFft.new_swap hy).2.1
  have cy := C91_fft zeroLeft_fits (brokenFft_fits 0 4) hy (by omega)
  let o : Obj23 ℝ := (Type2And3Butterfly8.new (T := ℝ)).toObj
  have co : Composed23 (FftPanicked (brokenFft 0 4 : Fft ℝ)) o o := C91_made Made23.butterfly8 (by decide)
  have hx := Type2And3SplitRadix.new_eq (half := o) (quarter := y.toObj) (q := 4) rfl hyl (by decide)
  set x := Type2And3SplitRadix.inst 4 o y.toObj
  have hxl : x.len = 16 := Type2And3SplitRadix.inst_len 4 o y.toObj
  refine ⟨y, o, x, hy, rfl, hx, .split co cy hx (by decide) (by change y.scratchLen ≤ 4 * y.len; omega), ?_⟩
  have k := (C91_splitRadix (a' := o) (b' := y.toObjLeft zeroLeft) (c := 8) hx rfl rfl (C91_composed co).2.2.2 (C91_composed cy).2.2.2 (by decide) (le_of_eq hys) (by omega)).2.2.1
  have hs : x.scratchLen = 16 := hxl
  rwa [hxl, hs] at k

/-- An instance of a user that always panics, leaving everything as it is. -/
def failing (n : ℕ) : Obj23 T :=
  { len := n, scratchLen := 0, dct2 := fun m => .panic .assertion (some m), dct3 := fun m => .panic .assertion (some m),
    dst2 := fun m => .panic .assertion (some m), dst3 := fun m => .panic .assertion (some m) }

theorem failing_keeps (n : ℕ) : (failing n : Obj23 T).KeepsShape (· = .assertion) :=
  have : KeepsShape (· = .assertion) (fun m : Mem T => .panic .assertion (some m)) n 0 := fun m hm => .inr ⟨_, m, rfl, rfl, hm.1, rfl, rfl⟩
  ⟨this, this, this, this⟩

/-- Split radix over it: every valid call panics.  DCT2 leaves the buffer as it was, DST2 with every other sign changed. -/
example : ∃ x : Type2And3SplitRadix ℝ, Type2And3SplitRadix.new (failing 8) (failing 4) = .ok x ∧ ∀ m, ValidCall 16 16 m →
    (∃ scr, x.dct2 m = .panic .assertion none ∧ x.dct2Trk (failing 8) (failing 4) m = .panic .assertion (some ⟨m.buf, scr⟩)) ∧
    ∃ scr, x.dst2Trk (failing 8) (failing 4) m = .panic .assertion (some ⟨alternate m.buf, scr⟩) := by
  have hx := Type2And3SplitRadix.new_eq (half := (failing 8 : Obj23 ℝ)) (quarter := failing 4) (q := 4) rfl rfl (by decide)
  set x := Type2And3SplitRadix.inst 4 (failing 8 : Obj23 ℝ) (failing 4)
  have hxl : x.len = 16 := Type2And3SplitRadix.inst_len 4 _ _
  have hs : x.scratchLen = 16 := hxl
  obtain ⟨k, -, k', -⟩ := C91_splitRadix (c := 0) hx rfl rfl (failing_keeps 8) (failing_keeps 4) le_rfl le_rfl (by omega)
  rw [hxl, hs] at k k'
  have hr := C91_same (a' := failing 8) (b' := failing 4) hx ⟨fun _ => Records.rfl', fun _ => Records.rfl', fun _ => Records.rfl', fun _ => Records.rfl'⟩
    ⟨fun _ => Records.rfl', fun _ => Records.rfl', fun _ => Records.rfl', fun _ => Records.rfl'⟩
  have never : ∀ m, ValidCall 16 16 m → x.dct2 m = .panic .assertion none := by
    intro m hm
    obtain ⟨r, e0, -⟩ := sr_dct2Pre x (q := 4) (by simp [x, Type2And3SplitRadix.inst]) hm.1 (s := m.scr.take 16) (by simp [hm.2])
    rw [sr_dct2_eq, hxl, hs]
    simp only [validateBuffers, hm.1, hm.2, ne_eq, not_true_eq_false, if_false, if_true, srBody, e0, ok_bind]
    rfl
  refine ⟨x, hx, fun m hm => ⟨?_, ?_⟩⟩
  · rcases k m hm with ⟨m', h1, -⟩ | ⟨e, m', rfl, h1, -, -, -, h2⟩
    · have := hr.dct2 m
      change Records (x.dct2 m) (x.dct2Trk _ _ m) at this
      rw [never m hm, h1] at this
      exact False.elim this
    · exact ⟨m'.scr, never m hm, by rw [h1, ← (show m'.buf = m.buf from h2)]⟩
  · rcases k' m hm with ⟨m', h1, -⟩ | ⟨e, m', rfl, h1, -, -, -, h2⟩
    · have := hr.dst2 m
      change Records (x.dst2 m) (x.dst2Trk _ _ m) at this
      rw [h1, Type2And3SplitRadix.dst2, hxl, negOdds_alternate (by rw [hm.1])] at this
      dsimp only at this
      rw [never ⟨alternate m.buf, m.scr⟩ ⟨by rw [length_alternate]; exact hm.1, hm.2⟩] at this
      exact False.elim this
    · exact ⟨m'.scr, by rw [h1, ← (show m'.buf = alternate m.buf from h2)]⟩

end RustDct
