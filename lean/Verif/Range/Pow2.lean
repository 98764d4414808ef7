import Verif.Range.Kernels
import Verif.Float.Pow2
/-!
# Planned type 2 and 3 transforms whose length is a power of two, in arithmetic of bounded range
-/

set_option linter.all false

namespace RustDct
open Real

variable {T F : Type} [F64 F] [DctNum T F] {R : Ieee T F} {r : ℕ}

/-! ### One split radix stage -/

section
variable {q : ℕ} {b : ℝ} {c m : ℕ} {tw : ℕ → Cx T} {tw' : ℕ → Cx ℝ}

theorem sr2Half_bd (hb : R.L ≤ b) {f : ℕ → T} {f' : ℕ → ℝ} (hf : ∀ i < 4 * q, Bd R b c m (f i) (f' i)) :
    ∀ i < 2 * q, Bd R b (2 * c) (m + 1) (sr2Half q f i) (sr2Half q f' i) := by
  intro i hi
  have h1 := hf i (by omega)
  have h2 := hf (4 * q - i - 1) (by omega)
  unfold sr2Half
  split_ifs
  · bd
  · bd

theorem sr2Cos_bd (hb : R.L ≤ b) (ht : ∀ i < q, Tw R 1 r (tw i).re (tw' i).re ∧ Tw R 1 r (tw i).im (tw' i).im) {f : ℕ → T} {f' : ℕ → ℝ} (hf : ∀ i < 4 * q, Bd R b c m (f i) (f' i)) :
    ∀ i < q, Bd R b (4 * c) (m + r + 3) (sr2Cos tw q f i) (sr2Cos tw' q f' i) := by
  intro i hi
  have h1 := hf i (by omega)
  have h2 := hf (4 * q - i - 1) (by omega)
  have h3 := hf (2 * q - i - 1) (by omega)
  have h4 := hf (2 * q + i) (by omega)
  obtain ⟨t1, t2⟩ := ht i hi
  unfold sr2Cos
  bd

theorem sr2SinRaw_bd (hb : R.L ≤ b) (ht : ∀ i < q, Tw R 1 r (tw i).re (tw' i).re ∧ Tw R 1 r (tw i).im (tw' i).im) {f : ℕ → T} {f' : ℕ → ℝ} (hf : ∀ i < 4 * q, Bd R b c m (f i) (f' i)) :
    ∀ i < q, Bd R b (4 * c) (m + r + 3) (sr2SinRaw tw q f i) (sr2SinRaw tw' q f' i) := by
  intro i hi
  have h1 := hf i (by omega)
  have h2 := hf (4 * q - i - 1) (by omega)
  have h3 := hf (2 * q - i - 1) (by omega)
  have h4 := hf (2 * q + i) (by omega)
  obtain ⟨t1, t2⟩ := ht i hi
  unfold sr2SinRaw
  bd

theorem sr2Sin_bd (hb : R.L ≤ b) (ht : ∀ i < q, Tw R 1 r (tw i).re (tw' i).re ∧ Tw R 1 r (tw i).im (tw' i).im) {f : ℕ → T} {f' : ℕ → ℝ} (hf : ∀ i < 4 * q, Bd R b c m (f i) (f' i)) :
    ∀ i < q, Bd R b (4 * c) (m + r + 3) (sr2Sin tw q f i) (sr2Sin tw' q f' i) := by
  intro i hi
  have h := sr2SinRaw_bd hb ht hf (q - 1 - i) (by omega)
  unfold sr2Sin
  split_ifs
  · exact h
  · exact h.neg

theorem sr2Out_bd (hb : R.L ≤ b) {a e o : ℕ → T} {a' e' o' : ℕ → ℝ} {ca ce ma me C M : ℕ} (ha : ∀ i < 2 * q, Bd R b ca ma (a i) (a' i))
    (he : ∀ i < q, Bd R b ce me (e i) (e' i)) (ho : ∀ i < q, Bd R b ce me (o i) (o' i)) (hca : ca ≤ C) (hce : 2 * ce ≤ C) (hma : ma ≤ M) (hme : me + 1 ≤ M) :
    ∀ k < 4 * q, Bd R b C M (sr2Out q a e o k) (sr2Out q a' e' o' k) := by
  intro k hk
  unfold sr2Out
  by_cases h0 : k % 2 = 0
  · simp only [if_pos h0]; exact (ha (k / 2) (by omega)).mono hb hca hma
  simp only [if_neg h0]
  by_cases h1 : k = 1
  · simp only [if_pos h1]; exact (he 0 (by omega)).mono hb (by omega) (by omega)
  simp only [if_neg h1]
  by_cases h2 : k = 4 * q - 1
  · simp only [if_pos h2]; exact (ho 0 (by omega)).neg.mono hb (by omega) (by omega)
  simp only [if_neg h2]
  by_cases h3 : k % 4 = 1
  · simp only [if_pos h3]
    have x := he (k / 4) (by omega)
    have y := ho (q - k / 4) (by omega)
    split_ifs <;> bd
  · simp only [if_neg h3]
    have x := he (k / 4 + 1) (by omega)
    have y := ho (q - (k / 4 + 1)) (by omega)
    split_ifs <;> bd

theorem sr3N1_bd (hb : R.L ≤ b) {f : ℕ → T} {f' : ℕ → ℝ} (hf : ∀ i < 4 * q, Bd R b c m (f i) (f' i)) :
    ∀ i < q, Bd R b (2 * c) (m + 1) (sr3N1 f i) (sr3N1 f' i) := by
  intro i hi
  unfold sr3N1
  by_cases h : i = 0
  · simp only [if_pos h]
    have := hf 1 (by omega)
    bd
  · simp only [if_neg h]
    have h1 := hf (4 * i - 1) (by omega)
    have h2 := hf (4 * i + 1) (by omega)
    bd

theorem sr3N3_bd (hb : R.L ≤ b) {f : ℕ → T} {f' : ℕ → ℝ} (hf : ∀ i < 4 * q, Bd R b c m (f i) (f' i)) :
    ∀ i < q, Bd R b (2 * c) (m + 1) (sr3N3 q f i) (sr3N3 q f' i) := by
  intro i hi
  unfold sr3N3
  by_cases h : i = 0
  · simp only [if_pos h]
    have := hf (4 * q - 1) (by omega)
    bd
  · simp only [if_neg h]
    have h1 := hf (4 * (q - i) - 1) (by omega)
    have h2 := hf (4 * (q - i) + 1) (by omega)
    bd

theorem sr3Low_bd (hb : R.L ≤ b) (ht : ∀ i < q, Tw R 1 r (tw i).re (tw' i).re ∧ Tw R 1 r (tw i).im (tw' i).im) {g s : ℕ → T} {g' s' : ℕ → ℝ}
    (hg : ∀ i < q, Bd R b c m (g i) (g' i)) (hs : ∀ i < q, Bd R b c m (s i) (s' i)) : ∀ i < q, Bd R b (2 * c) (m + r + 2) (sr3Low tw g s i) (sr3Low tw' g' s' i) := by
  intro i hi
  have h1 := hg i hi
  have h2 := hs i hi
  obtain ⟨t1, t2⟩ := ht i hi
  unfold sr3Low
  split_ifs <;> bd

theorem sr3High_bd (hb : R.L ≤ b) (ht : ∀ i < q, Tw R 1 r (tw i).re (tw' i).re ∧ Tw R 1 r (tw i).im (tw' i).im) {g s : ℕ → T} {g' s' : ℕ → ℝ}
    (hg : ∀ i < q, Bd R b c m (g i) (g' i)) (hs : ∀ i < q, Bd R b c m (s i) (s' i)) : ∀ i < q, Bd R b (2 * c) (m + r + 2) (sr3High tw g s i) (sr3High tw' g' s' i) := by
  intro i hi
  have h1 := hg i hi
  have h2 := hs i hi
  obtain ⟨t1, t2⟩ := ht i hi
  unfold sr3High
  split_ifs <;> bd

theorem sr3Out_bd (hb : R.L ≤ b) (ht : ∀ i < q, Tw R 1 r (tw i).re (tw' i).re ∧ Tw R 1 r (tw i).im (tw' i).im) {a g s : ℕ → T} {a' g' s' : ℕ → ℝ} {ca cg ma mg C M : ℕ}
    (ha : ∀ i < 2 * q, Bd R b ca ma (a i) (a' i)) (hg : ∀ i < q, Bd R b cg mg (g i) (g' i)) (hs : ∀ i < q, Bd R b cg mg (s i) (s' i))
    (hC : ca + 2 * cg ≤ C) (hma : ma + 1 ≤ M) (hmg : mg + r + 3 ≤ M) : ∀ k < 4 * q, Bd R b C M (sr3Out tw q a g s k) (sr3Out tw' q a' g' s' k) := by
  intro k hk
  have lo := sr3Low_bd hb ht hg hs
  have hi := sr3High_bd hb ht hg hs
  unfold sr3Out
  by_cases h1 : k < q
  · simp only [if_pos h1]
    have x := ha k (by omega); have y := lo k h1
    bd
  simp only [if_neg h1]
  by_cases h2 : k < 2 * q
  · simp only [if_pos h2]
    have x := ha k (by omega); have y := hi (2 * q - k - 1) (by omega)
    bd
  simp only [if_neg h2]
  by_cases h3 : k < 3 * q
  · simp only [if_pos h3]
    have x := ha (4 * q - k - 1) (by omega); have y := hi (k - 2 * q) (by omega)
    bd
  · simp only [if_neg h3]
    have x := ha (4 * q - k - 1) (by omega); have y := lo (4 * q - k - 1) (by omega)
    bd
end

theorem sr_tw {q : ℕ} (hr : R.Twiddles r) (hq : 1 ≤ q) (hq' : 4 * q ≤ 2 ^ 60) : ∀ i < q,
    Tw R 1 r (Cx.conj (singleTwiddle (2 * i + 1) (4 * q * 4) : Cx T)).re (srTw q i).re ∧ Tw R 1 r (Cx.conj (singleTwiddle (2 * i + 1) (4 * q * 4) : Cx T)).im (srTw q i).im := by
  intro i hi
  rw [← sr_tw_eq]
  exact Tw.conj hr (by omega) (by omega) (by omega)

section
variable {q ah aq dh dq A D : ℕ} {Dh Dq : (ℕ → T) → ℕ → T} (hr : R.Twiddles r) (hq : 1 ≤ q) (hq' : 4 * q ≤ 2 ^ 60)
  (hA : 2 * ah ≤ A) (hA' : 8 * aq ≤ A) (hd : dh + 1 ≤ D) (hd' : dq + r + 4 ≤ D)
include hr hq hq' hA hA' hd hd'

theorem sr2_rel (hh : TransRel R .dct2 (2 * q) Dh ah dh) (hqq : TransRel R .dct2 q Dq aq dq) :
    TransRel R .dct2 (4 * q) (fun f => let tw := fun i => Cx.conj (singleTwiddle (2 * i + 1) (4 * q * 4))
        sr2Out q (Dh (sr2Half q f)) (Dq (sr2Cos tw q f)) (Dq (sr2Sin tw q f))) A D := by
  intro b c m f F hb hc hf i hi
  have ht := sr_tw (R := R) hr hq hq'
  have e : Kind.dct2.specAt (4 * q) F i = _ := (sr2_out hq F hi).symm
  rw [e]
  refine sr2Out_bd hb (hh b _ _ _ _ hb (by omega) (sr2Half_bd hb hf)) (hqq b _ _ _ _ hb (by omega) (sr2Cos_bd hb ht hf)) (hqq b _ _ _ _ hb (by omega) (sr2Sin_bd hb ht hf))
    ?_ ?_ (by omega) (by omega) i hi
  · calc ah * (2 * c) = 2 * ah * c := by ring
      _ ≤ A * c := Nat.mul_le_mul_right c hA
  · calc 2 * (aq * (4 * c)) = 8 * aq * c := by ring
      _ ≤ A * c := Nat.mul_le_mul_right c hA'

theorem sr3_rel (hh : TransRel R .dct3 (2 * q) Dh ah dh) (hqq : TransRel R .dct3 q Dq aq dq) :
    TransRel R .dct3 (4 * q) (fun f => let tw := fun i => Cx.conj (singleTwiddle (2 * i + 1) (4 * q * 4))
        sr3Out tw q (Dh (sr3Even f)) (Dq (sr3N1 f)) (Dq (sr3N3 q f))) A D := by
  intro b c m f F hb hc hf i hi
  have ht := sr_tw (R := R) hr hq hq'
  have e : Kind.dct3.specAt (4 * q) F i = _ := (sr3_out hq F hi).symm
  rw [e]
  refine sr3Out_bd hb ht (hh b c m (sr3Even f) (sr3Even F) hb hc (fun j hj => hf (2 * j) (by omega))) (hqq b _ _ _ _ hb (by omega) (sr3N1_bd hb hf)) (hqq b _ _ _ _ hb (by omega) (sr3N3_bd hb hf))
    ?_ (by omega) (by omega) i hi
  calc ah * c + 2 * (aq * (2 * c)) = (ah + 4 * aq) * c := by ring
      _ ≤ A * c := Nat.mul_le_mul_right c (by omega)
end

/-! ### Instances -/

/-- All four methods of an instance: magnitudes grow at most by the factor `a`, `d` roundings are added. -/
structure Rel23 (R : Ieee T F) (n : ℕ) (o : Obj23 T) (a d : ℕ) : Prop where
  dct2 : PRel R .dct2 o.dct2 n o.scratchLen a d
  dct3 : PRel R .dct3 o.dct3 n o.scratchLen a d
  dst2 : PRel R .dst2 o.dst2 n o.scratchLen a d
  dst3 : PRel R .dst3 o.dst3 n o.scratchLen a d

theorem Rel23.mono {n : ℕ} {o : Obj23 T} {a d a' d' : ℕ} (h : Rel23 R n o a d) (ha : a ≤ a') (hd : d ≤ d') : Rel23 R n o a' d' :=
  ⟨h.dct2.mono ha hd, h.dct3.mono ha hd, h.dst2.mono ha hd, h.dst3.mono ha hd⟩

theorem Type2And3Butterfly2.rel : Rel23 R 2 (Type2And3Butterfly2.new : Type2And3Butterfly2 T).toObj 2 3 where
  dct2 := by
    show PRel R .dct2 (Type2And3Butterfly2.new : Type2And3Butterfly2 T).dct2 2 0 _ _
    rw [Type2And3Butterfly2.dct2_body]; exact Type2And3Butterfly2.krel_dct2.rel Type2And3Butterfly2.inplace_ex_dct2 (Type2And3Butterfly2.real_dct2 _)
  dct3 := by
    show PRel R .dct3 (Type2And3Butterfly2.new : Type2And3Butterfly2 T).dct3 2 0 _ _
    rw [Type2And3Butterfly2.dct3_body]; exact Type2And3Butterfly2.krel_dct3.rel Type2And3Butterfly2.inplace_ex_dct3 (Type2And3Butterfly2.real_dct3 _)
  dst2 := by
    show PRel R .dst2 (Type2And3Butterfly2.new : Type2And3Butterfly2 T).dst2 2 0 _ _
    rw [Type2And3Butterfly2.dst2_body]; exact Type2And3Butterfly2.krel_dst2.rel Type2And3Butterfly2.inplace_ex_dst2 (Type2And3Butterfly2.real_dst2 _)
  dst3 := by
    show PRel R .dst3 (Type2And3Butterfly2.new : Type2And3Butterfly2 T).dst3 2 0 _ _
    rw [Type2And3Butterfly2.dst3_body]; exact Type2And3Butterfly2.krel_dst3.rel Type2And3Butterfly2.inplace_ex_dst3 (Type2And3Butterfly2.real_dst3 _)

theorem Type2And3Butterfly3.rel (hr : R.Twiddles r) : Rel23 R 3 (Type2And3Butterfly3.new : Type2And3Butterfly3 T).toObj 3 (r + 3) :=
  ⟨(Type2And3Butterfly3.krel_dct2 hr).rel Type2And3Butterfly3.inplace_ex_dct2 Type2And3Butterfly3.real_dct2, (Type2And3Butterfly3.krel_dct3 hr).rel Type2And3Butterfly3.inplace_ex_dct3 Type2And3Butterfly3.real_dct3,
    (Type2And3Butterfly3.krel_dst2 hr).rel Type2And3Butterfly3.inplace_ex_dst2 Type2And3Butterfly3.real_dst2, (Type2And3Butterfly3.krel_dst3 hr).rel Type2And3Butterfly3.inplace_ex_dst3 Type2And3Butterfly3.real_dst3⟩

theorem Type2And3Butterfly4.rel (hr : R.Twiddles r) : Rel23 R 4 (Type2And3Butterfly4.new : Type2And3Butterfly4 T).toObj 4 (r + 4) :=
  ⟨(Type2And3Butterfly4.krel_dct2 hr).rel Type2And3Butterfly4.inplace_ex_dct2 Type2And3Butterfly4.real_dct2, (Type2And3Butterfly4.krel_dct3 hr).rel Type2And3Butterfly4.inplace_ex_dct3 Type2And3Butterfly4.real_dct3,
    (Type2And3Butterfly4.krel_dst2 hr).rel Type2And3Butterfly4.inplace_ex_dst2 Type2And3Butterfly4.real_dst2, (Type2And3Butterfly4.krel_dst3 hr).rel Type2And3Butterfly4.inplace_ex_dst3 Type2And3Butterfly4.real_dst3⟩

theorem Type2And3Butterfly8.rel (hr : R.Twiddles r) : Rel23 R 8 (Type2And3Butterfly8.new : Type2And3Butterfly8 T).toObj 16 (r + 7) :=
  ⟨(Type2And3Butterfly8.krel_dct2 hr).rel Type2And3Butterfly8.inplace_ex_dct2 Type2And3Butterfly8.real_dct2, (Type2And3Butterfly8.krel_dct3 hr).rel Type2And3Butterfly8.inplace_ex_dct3 Type2And3Butterfly8.real_dct3,
    (Type2And3Butterfly8.krel_dst2 hr).rel Type2And3Butterfly8.inplace_ex_dst2 Type2And3Butterfly8.real_dst2, (Type2And3Butterfly8.krel_dst3 hr).rel Type2And3Butterfly8.inplace_ex_dst3 Type2And3Butterfly8.real_dst3⟩

theorem Type2And3Butterfly16.rel (hr : R.Twiddles r) : Rel23 R 16 (Type2And3Butterfly16.new : Type2And3Butterfly16 T).toObj 32 (2 * r + 8) :=
  ⟨(Type2And3Butterfly16.krel_dct2 hr).rel Type2And3Butterfly16.inplace_ex_dct2 Type2And3Butterfly16.real_dct2, (Type2And3Butterfly16.krel_dct3 hr).rel Type2And3Butterfly16.inplace_ex_dct3 Type2And3Butterfly16.real_dct3,
    (Type2And3Butterfly16.krel_dst2 hr).rel Type2And3Butterfly16.inplace_ex_dst2 Type2And3Butterfly16.real_dst2, (Type2And3Butterfly16.krel_dst3 hr).rel Type2And3Butterfly16.inplace_ex_dst3 Type2And3Butterfly16.real_dst3⟩

/-- One split radix stage on top of two inner instances. -/
theorem Type2And3SplitRadix.rel {q : ℕ} (hr : R.Twiddles r) (hq : 1 ≤ q) (hq' : 4 * q ≤ 2 ^ 60) {half quarter : Obj23 T} {ah aq dh dq A D : ℕ} (h2 : PRelW R .dct2 half.dct2 (2 * q) half.scratchLen ah dh) (h3 : PRelW R .dct3 half.dct3 (2 * q) half.scratchLen ah dh)
    (q2 : PRelW R .dct2 quarter.dct2 q quarter.scratchLen aq dq) (q3 : PRelW R .dct3 quarter.dct3 q quarter.scratchLen aq dq)
    (sh : half.scratchLen ≤ 4 * q) (sq : quarter.scratchLen ≤ 4 * q) (hA : 2 * ah ≤ A) (hA' : 8 * aq ≤ A) (hd : dh + 1 ≤ D) (hd' : dq + r + 4 ≤ D) :
    Rel23 R (4 * q) (Type2And3SplitRadix.inst q half quarter).toObj A D := by
  have hs : (Type2And3SplitRadix.inst q half quarter).toObj.scratchLen = 4 * q := Type2And3SplitRadix.inst_len q half quarter
  obtain ⟨A2, ra2, ta2⟩ := h2
  obtain ⟨A3, ra3, ta3⟩ := h3
  obtain ⟨B2, rb2, tb2⟩ := q2
  obtain ⟨B3, rb3, tb3⟩ := q3
  have e2 : PRel R .dct2 (Type2And3SplitRadix.inst q half quarter).dct2 (4 * q) (4 * q) A D :=
    ⟨_, Type2And3SplitRadix.dct2_inst hq sh sq ra2 rb2, sr2_rel hr hq hq' hA hA' hd hd' ta2 tb2⟩
  have e3 : PRel R .dct3 (Type2And3SplitRadix.inst q half quarter).dct3 (4 * q) (4 * q) A D :=
    ⟨_, Type2And3SplitRadix.dct3_inst hq sh sq ra3 rb3, sr3_rel hr hq hq' hA hA' hd hd' ta3 tb3⟩
  obtain ⟨C2, r2, t2⟩ := id e2
  obtain ⟨C3, r3, t3⟩ := id e3
  constructor
  · rw [hs]; exact e2
  · rw [hs]; exact e3
  · rw [hs]; exact ⟨_, Type2And3SplitRadix.dst2_inst r2, dst2_of_dct2_rel t2⟩
  · rw [hs]; exact ⟨_, Type2And3SplitRadix.dst3_inst r3, dst3_of_dct3_rel t3⟩

theorem Rel23.splitRadix {q : ℕ} (hr : R.Twiddles r) (hq : 1 ≤ q) (hq' : 4 * q ≤ 2 ^ 60) {half quarter : Obj23 T} {ah aq dh dq A D : ℕ} (hh : Rel23 R (2 * q) half ah dh) (hqq : Rel23 R q quarter aq dq)
    (sh : half.scratchLen ≤ 4 * q) (sq : quarter.scratchLen ≤ 4 * q) (hA : 2 * ah ≤ A) (hA' : 8 * aq ≤ A) (hd : dh + 1 ≤ D) (hd' : dq + r + 4 ≤ D) :
    Rel23 R (4 * q) (Type2And3SplitRadix.inst q half quarter).toObj A D :=
  Type2And3SplitRadix.rel hr hq hq' hh.dct2.weak hh.dct3.weak hqq.dct2.weak hqq.dct3.weak sh sq hA hA' hd hd'

/-- The instance planned for a power of two. -/
theorem canon23_pow2_rel (hr : R.Twiddles r) {planFft : ℕ → Fft T} (hf : PlanFftShape planFft) (j : ℕ) (hj : 2 ^ (j + 1) ≤ 2 ^ 60) :
    ∃ o, canon23 planFft (2 ^ (j + 1)) = .ok o ∧ Rel23 R (2 ^ (j + 1)) o (2 ^ (j + 1 + j / 2)) ((r + 4) * (j / 2 + 1) + j % 2) := by
  have h := canon23_induct' (planFft := planFft) hf (P := fun n o => ∀ j, n = 2 ^ (j + 1) → n ≤ 2 ^ 60 → Rel23 R n o (2 ^ (j + 1 + j / 2)) ((r + 4) * (j / 2 + 1) + j % 2))
    (fun j h _ => by
      obtain rfl : j = 0 := by
        have := Nat.pow_right_injective (le_refl 2) (show 2 ^ 1 = 2 ^ (j + 1) from h); omega
      exact Type2And3Butterfly2.rel.mono (by norm_num) (by omega))
    (fun j h _ => by rw [pow_succ] at h; omega)
    (fun j h _ => by
      obtain rfl : j = 1 := by
        have := Nat.pow_right_injective (le_refl 2) (show 2 ^ 2 = 2 ^ (j + 1) from h); omega
      exact (Type2And3Butterfly4.rel hr).mono (by norm_num) (by omega))
    (fun j h _ => by
      obtain rfl : j = 2 := by
        have := Nat.pow_right_injective (le_refl 2) (show 2 ^ 3 = 2 ^ (j + 1) from h); omega
      exact (Type2And3Butterfly8.rel hr).mono (by norm_num) (by omega))
    (fun j h _ => by
      obtain rfl : j = 3 := by
        have := Nat.pow_right_injective (le_refl 2) (show 2 ^ 4 = 2 ^ (j + 1) from h); omega
      exact (Type2And3Butterfly16.rel hr).mono (by norm_num) (by omega))
    (fun q half quarter hq hp lh lq sh sq Ph Pq j h hn => by
      obtain ⟨i, rfl⟩ : ∃ i, j = i + 2 := by
        rcases j with _ | _ | i
        · simp at h; omega
        · simp at h; omega
        · exact ⟨i, rfl⟩
      have hq' : q = 2 ^ (i + 1) := by
        have : 2 ^ (i + 2 + 1) = 4 * 2 ^ (i + 1) := by ring
        omega
      have h1 := Ph (i + 1) (by rw [hq']; ring) (by omega)
      have h2 := Pq i hq' (by omega)
      refine Rel23.splitRadix hr (by omega) hn h1 h2 (by omega) (by omega) ?_ ?_ ?_ ?_
      · rw [← pow_succ']; exact Nat.pow_le_pow_right (by norm_num) (by omega)
      · rw [show 8 = 2 ^ 3 by norm_num, ← pow_add]; exact Nat.pow_le_pow_right (by norm_num) (by omega)
      · have e : (i + 2) / 2 = i / 2 + 1 := by omega
        rw [e]
        rcases Nat.even_or_odd' i with ⟨k, rfl | rfl⟩
        · rw [show (2 * k + 1) / 2 = k by omega, show 2 * k / 2 = k by omega, show (2 * k + 1) % 2 = 1 by omega, show (r + 4) * (k + 1 + 1) = (r + 4) * (k + 1) + (r + 4) by ring]; omega
        · rw [show (2 * k + 1 + 1) / 2 = k + 1 by omega, show (2 * k + 1) / 2 = k by omega, show (2 * k + 1 + 1) % 2 = 0 by omega, show (2 * k + 1 + 2) % 2 = 1 by omega]
      · rw [show (i + 2) / 2 = i / 2 + 1 by omega, show (i + 2) % 2 = i % 2 by omega]
        nlinarith)
    (fun n hb hp j h _ => by
      exfalso
      have h1 := hp ((isPowerOfTwo_iff n).2 ⟨_, h⟩)
      have h2 : 1 ≤ 2 ^ j := Nat.one_le_two_pow
      have h3 : n = 2 := by rw [pow_succ] at h; omega
      subst h3
      exact absurd hb (by decide))
    (2 ^ (j + 1))
  obtain ⟨o, h1, h2, -⟩ := h
  exact ⟨o, h1, h2 j rfl hj⟩

end RustDct
