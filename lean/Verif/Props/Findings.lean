import Verif.Props.Transforms
import Verif.Props.Safety
/-!
# Where the code does not do what a user would expect

Each theorem here is a proof that a natural property fails, with the exact circumstances.  They complement the `_partial` theorems of
the other files, and show that the exclusions there cannot be dropped.
-/

set_option linter.all false

namespace RustDct

open Finset Real

/-! ### C30: scratch contents leak into the results of FFT-based DST1, DST6 and DST7 -/

section leak
variable {planFft : ℕ → Fft ℝ} {calls : List (PlanCall ℝ)} {k : Kind} {p : Proc ℝ} {n s : ℕ}

/-- Exactly what a planned DST1 of length at least 25 computes when scratch starts with the values `g`: output `k` is off by
`(g[1] - (-1)^k * g[2n+3]) / 2`. -/
theorem planned_dst1_exact (hf : PlanFftContract planFft) (h : Planned planFft calls .dst1 p n s) (hn : 25 ≤ n) (f g : ℕ → ℝ)
    (extra : List ℝ) : ∃ scr', p ⟨vec n f, vec s g ++ extra⟩ = .ok ⟨vec n (fun k => Spec.dst1At n f k + (g 1 - (-1) ^ k * g (2 * (n + 1) + 1)) / 2), scr'⟩ := by
  cases h with
  | @dst1 n a s' h =>
    have e := Yields.canon (fun W => planDst1_yields n) h
    unfold canonDst1 at e
    rw [if_neg (by omega)] at e
    obtain ⟨x, hx, hv⟩ := map_ok e
    obtain ⟨h1, h2, h3, rfl⟩ := Dst1ConvertToFft.new_shape hx
    rw [← hv]
    obtain ⟨scr', e, -⟩ := Dst1ConvertToFft.correct (hf ((n + 1) * 2)).2 ((hf _).1) f g extra
    exact ⟨_, e⟩

/-- Exactly what a planned DST6 of length at least 45 computes when scratch starts with the values `g`. -/
theorem planned_dst6_exact (hf : PlanFftContract planFft) (h : Planned planFft calls .dst6 p n s) (hn : 45 ≤ n) (f g : ℕ → ℝ)
    (extra : List ℝ) : ∃ scr', p ⟨vec n f, vec s g ++ extra⟩ = .ok ⟨vec n (fun k => Spec.dst6At n f k + dst6Pollution n g k), scr'⟩ := by
  cases h with
  | @dst6 n a s' h =>
    have e := Yields.canon (fun W => planDst6_yields n) h
    unfold canonDst6 at e
    rw [if_neg (by omega)] at e
    obtain ⟨x, hx, hv⟩ := map_ok e
    obtain ⟨h1, h2, rfl⟩ := Dst6And7ConvertToFft.new_shape hx
    rw [← hv]
    obtain ⟨scr', e, -⟩ := Dst6And7ConvertToFft.correct_dst6 (hf (n * 2 + 1)).2 ((hf _).1) f g extra
    exact ⟨_, e⟩

/-- Exactly what a planned DST7 of length at least 45 computes when scratch starts with the values `g`: every output is
off by `g[1] / 2`. -/
theorem planned_dst7_exact (hf : PlanFftContract planFft) (h : Planned planFft calls .dst7 p n s) (hn : 45 ≤ n) (f g : ℕ → ℝ)
    (extra : List ℝ) : ∃ scr', p ⟨vec n f, vec s g ++ extra⟩ = .ok ⟨vec n (fun k => Spec.dst7At n f k + g 1 / 2), scr'⟩ := by
  cases h with
  | @dst7 n a s' h =>
    have e := Yields.canon (fun W => planDst6_yields n) h
    unfold canonDst6 at e
    rw [if_neg (by omega)] at e
    obtain ⟨x, hx, hv⟩ := map_ok e
    obtain ⟨h1, h2, rfl⟩ := Dst6And7ConvertToFft.new_shape hx
    rw [← hv]
    obtain ⟨scr', e, -⟩ := Dst6And7ConvertToFft.correct_dst7 (hf (n * 2 + 1)).2 ((hf _).1) f g extra
    exact ⟨_, e⟩

theorem not_scratchFree {D : (ℕ → ℝ) → ℕ → ℝ} (f g₁ g₂ : ℕ → ℝ) (hn : 0 < n)
    (h : ∀ g, ∃ scr', p ⟨vec n f, vec s g ++ []⟩ = .ok ⟨vec n (D g), scr'⟩) (hne : D g₁ 0 ≠ D g₂ 0) : ¬ ScratchFree p n s := by
  intro hs
  obtain ⟨out, a, b, e1, e2⟩ := hs (vec n f) (vec s g₁) (vec s g₂) ⟨by simp, by simp⟩ ⟨by simp, by simp⟩
  obtain ⟨c, e1'⟩ := h g₁
  obtain ⟨d, e2'⟩ := h g₂
  rw [List.append_nil] at e1' e2'
  rw [e1'] at e1
  rw [e2'] at e2
  injection e1 with e1
  injection e2 with e2
  injection e1 with e1
  injection e2 with e2
  have : vec n (D g₁) = vec n (D g₂) := e1.trans e2.symm
  have := congrArg (fun l => l[0]?) this
  simp [vec, hn] at this
  exact hne this

/-- C30 holds exactly outside the FFT-based DST1, DST6 and DST7. -/
theorem C30_planned_exact (hf : PlanFftContract planFft) (h : Planned planFft calls k p n s) : ScratchFree p n s ↔ ¬ k.leakyAt n := by
  constructor
  · intro hs hk
    revert hs
    cases k with
    | dst1 =>
      have hk : 25 ≤ n := hk
      refine not_scratchFree (fun _ => 0) (fun _ => 0) (fun i => if i = 1 then 1 else 0) (by omega) (fun g => planned_dst1_exact hf h hk _ g []) ?_
      simp
    | dst6 =>
      have hk : 45 ≤ n := hk
      refine not_scratchFree (fun _ => 0) (fun _ => 0) (fun i => if i = 0 then 1 else 0) (by omega) (fun g => planned_dst6_exact hf h hk _ g []) ?_
      have : dst6Pollution n (fun _ => 0) 0 = 0 := by simp [dst6Pollution]
      rw [this]
      have : dst6Pollution n (fun i => if i = 0 then 1 else 0) 0 = 1 := by
        unfold dst6Pollution
        rw [sum_eq_single 0]
        · simp
        · intro j _ hj; simp [hj]
        · simp
      rw [this]; simp
    | dst7 =>
      have hk : 45 ≤ n := hk
      refine not_scratchFree (fun _ => 0) (fun _ => 0) (fun i => if i = 1 then 1 else 0) (by omega) (fun g => planned_dst7_exact hf h hk _ g []) ?_
      simp
    | _ => exact absurd hk id
  · exact C30_planned_partial hf.sane h

theorem C30_false (hf : PlanFftContract planFft) : ¬ C30_statement planFft := by
  intro h
  obtain ⟨p, s, hp⟩ := planned_exists hf.sane.shape [] .dst7 (n := 45) (by norm_num)
  exact (C30_planned_exact hf hp).1 (h _ _ _ _ _ hp) (show 45 ≤ 45 by norm_num)

/-! ### C31: sharing scratch between transforms gives wrong results -/

/-- A planned DCT8 leaves a copy of its input in scratch. -/
theorem planned_dct8_scratch (h : Planned planFft calls .dct8 p n s) (f : ℕ → ℝ) (scr : List ℝ) (hs : n ≤ scr.length) :
    ∃ out, p ⟨vec n f, scr⟩ = .ok ⟨out, vec n f ++ scr.drop n⟩ := by
  cases h with
  | @dct8 n a s' h =>
    have e := Yields.canon (fun W => planDct8_yields n) h
    obtain ⟨x, hx, hv⟩ := map_ok e
    rw [← hv]
    obtain ⟨-, w, rfl⟩ := Dct8Naive.new_shape hx
    have hl : Dct8Naive.len ⟨vec (n * 4 + 2) w⟩ = n := by simp only [Dct8Naive.len, length_vec]; omega
    change ∃ out, Dct8Naive.dct8 _ _ = _
    unfold Dct8Naive.dct8 Dct8Naive.scratchLen
    rw [hl]
    obtain ⟨g, hg⟩ := exists_vec (show (scr.take n).length = n by simp; omega)
    simp only [validateBuffers]
    rw [hg]
    simp (disch := omega) only [copyFromSlice_vec, ok_bind, rd_vec, wr_vec, csub_ok, length_vec]
    rw [naiveLoop0_eq opAdd w _ _ (fun k => k * 2 + 1) (fun k => k) _ (Nat.zero_le _) (by intros; omega)
      (by intros; omega)]
    simp only [ok_bind]
    simp [hs]

/-- Running a DCT8 and then a DST7 on the same scratch gives a DST7 result that is off by half the second input of the DCT8. -/
theorem C31_false (hf : PlanFftContract planFft) : ¬ C31_statement planFft := by
  intro h
  obtain ⟨p, s, hp⟩ := planned_exists hf.sane.shape [] .dct8 (n := 200) (by norm_num)
  obtain ⟨q, t, hq⟩ := planned_exists hf.sane.shape [] .dst7 (n := 45) (by norm_num)
  have hps : s = 200 := by
    cases hp with
    | @dct8 n a s' h =>
      have e := Yields.canon (fun W => planDct8_yields 200) h
      obtain ⟨x, hx, hv⟩ := map_ok e
      rw [← hv]
      exact Dct8Naive.len_new hx
  subst hps
  -- scratch after the DCT8 starts with its input `1, 1, 1, ...`
  obtain ⟨out, e1⟩ := planned_dct8_scratch hp (fun _ => 1) (List.replicate (200 + t) 0) (by simp)
  obtain ⟨outs, scr', h1, h2⟩ := h [⟨p, 200, 200, vec 200 fun _ => 1⟩, ⟨q, 45, t, vec 45 fun _ => 0⟩] (List.replicate (200 + t) 0) (by
    intro c hc
    simp only [List.mem_cons, List.not_mem_nil, or_false] at hc
    rcases hc with rfl | rfl
    · exact ⟨⟨_, _, hp⟩, by simp [ValidCall]⟩
    · exact ⟨⟨_, _, hq⟩, by simp [ValidCall]⟩)
  set scr1 : List ℝ := vec 200 (fun _ => 1) ++ (List.replicate (200 + t) 0).drop 200 with hscr1
  have hsplit : scr1 = vec t (fun i => scr1.getD i 0) ++ scr1.drop t := by
    conv_lhs => rw [← List.take_append_drop t scr1]
    congr 1
    apply List.ext_getElem
    · simp [hscr1]
    · intro i h1 h2
      simp at h2
      have : i < scr1.length := by simp [hscr1]; omega
      simp [vec, List.getD_eq_getElem?_getD, this]
  obtain ⟨a, e2⟩ := planned_dst7_exact hf hq (le_refl _) (fun _ => 0) (fun i => scr1.getD i 0) (scr1.drop t)
  obtain ⟨b, e3⟩ := planned_dst7_exact hf hq (le_refl _) (fun _ => 0) (fun _ => 0) []
  rw [← hsplit] at e2
  rw [List.append_nil, show vec t (fun _ => (0 : ℝ)) = List.replicate t 0 by simp [vec]] at e3
  simp only [runShared] at h1
  rw [e1] at h1
  dsimp only at h1
  rw [e2] at h1
  simp only [Outcome.ok.injEq, Prod.mk.injEq] at h1
  simp only [runSeparate, processDefault] at h2
  rw [e3] at h2
  obtain ⟨out', e0⟩ := planned_dct8_scratch hp (fun _ => 1) (List.replicate 200 0) (by rw [List.length_replicate])
  rw [e0] at h2
  simp only [Outcome.ok.injEq] at h2
  have hb := congrArg (fun l => (l.getD 1 []).getD 0 0) (h1.1.trans h2.symm)
  have hg : scr1.getD 1 0 = 1 := by
    rw [hscr1, List.getD_eq_getElem?_getD, List.getElem?_append_left (by rw [length_vec]; norm_num), getElem?_vec_lt (by norm_num)]
    rfl
  rw [hg] at hb
  simp [vec, List.getD_eq_getElem?_getD] at hb
end leak

/-! ### C28: DST2 and DST3 of split radix instances change the buffer before they reject a call -/

section eager
variable {T : Type} {F : Type} [F64 F] [DctNum T F]
variable {planFft : Nat → Fft T} {calls : List (PlanCall T)} {p : Proc T} {n s : Nat}

/-- The planned instance for `2 ^ (j + 5)` is a split radix one. -/
theorem canon23_pow (hf : PlanFftShape planFft) (j : Nat) :
    ∃ q half quarter, 4 * q = 2 ^ (j + 5) ∧ canon23 planFft (2 ^ (j + 5)) = .ok (Type2And3SplitRadix.inst q half quarter).toObj := by
  have hp : isPowerOfTwo (2 ^ (j + 5)) = true := (isPowerOfTwo_iff _).2 ⟨_, rfl⟩
  have hge : 2 ^ 5 ≤ 2 ^ (j + 5) := Nat.pow_le_pow_right (by norm_num) (by omega)
  rw [canon23, if_neg (by simp [dct2Butterflies]; omega), dif_pos ⟨hp, by omega⟩]
  have e4 : 4 * 2 ^ (j + 3) = 2 ^ (j + 5) := by rw [show j + 5 = (j + 3) + 2 by omega, pow_add]; ring
  rw [show 2 ^ (j + 5) / 2 = 2 * 2 ^ (j + 3) by omega, show 2 ^ (j + 5) / 4 = 2 ^ (j + 3) by omega]
  obtain ⟨a, ea, -, la⟩ := canon23_made hf (2 * 2 ^ (j + 3))
  obtain ⟨b, eb, -, lb⟩ := canon23_made hf (2 ^ (j + 3))
  refine ⟨2 ^ (j + 3), a, b, e4, ?_⟩
  rw [ea, eb]
  simp only [bind, Except.bind]
  rw [Type2And3SplitRadix.new_eq la lb (by rw [e4]; exact hp)]
  rfl

/-- A planned DST2 of length `2^(j+5)` called with too little scratch panics, but the caller's buffer comes back with
every odd-indexed element negated. -/
theorem planned_dst2_eager (hf : PlanFftShape planFft) {j : Nat} (h : Planned planFft calls .dst2 p (2 ^ (j + 5)) s)
    (f : Nat → T) (scr : List T) (hs : scr.length < s) :
    p ⟨vec (2 ^ (j + 5)) f, scr⟩ = .panic (.scratchLen s scr.length) (some ⟨vec (2 ^ (j + 5)) fun i => if i % 2 = 1 then -(f i) else f i, scr⟩) := by
  generalize hn : 2 ^ (j + 5) = n at h ⊢
  cases h with
  | @dst2 n a s' h =>
    have e := Yields.canon (fun W => planDct2_yields n) h
    subst hn
    obtain ⟨q, half, quarter, e4, ho⟩ := canon23_pow hf j
    rw [ho] at e; injection e with e
    rw [← e] at hs ⊢
    have hl := Type2And3SplitRadix.inst_len q half quarter
    change scr.length < (Type2And3SplitRadix.inst q half quarter).len at hs
    change Type2And3SplitRadix.dst2 _ _ = _
    unfold Type2And3SplitRadix.dst2
    rw [hl, show 4 * q / 2 = 2 * q by omega, ← e4, negOdds_vec (2 * q) (by omega)]
    dsimp only
    rw [Type2And3SplitRadix.rejects_dct2 q half quarter _ (by rintro ⟨-, h2⟩; change 4 * q ≤ scr.length at h2; omega)]
    rw [if_pos (by simp [hl])]
    change Outcome.panic (.scratchLen (4 * q) scr.length) _ = Outcome.panic (.scratchLen (Type2And3SplitRadix.inst q half quarter).len scr.length) _
    rw [hl]
    congr 3
    exact vec_congr fun i hi => by simp only [show i < 2 * (2 * q) by omega, true_and]

/-- A planned DST3 of length `2^(j+5)` called with too little scratch panics with the caller's buffer reversed. -/
theorem planned_dst3_eager (hf : PlanFftShape planFft) {j : Nat} (h : Planned planFft calls .dst3 p (2 ^ (j + 5)) s)
    (buf : List T) (hb : buf.length = 2 ^ (j + 5)) (scr : List T) (hs : scr.length < s) :
    p ⟨buf, scr⟩ = .panic (.scratchLen s scr.length) (some ⟨buf.reverse, scr⟩) := by
  generalize hn : 2 ^ (j + 5) = n at h hb ⊢
  cases h with
  | @dst3 n a s' h =>
    have e := Yields.canon (fun W => planDct2_yields n) h
    subst hn
    obtain ⟨q, half, quarter, e4, ho⟩ := canon23_pow hf j
    rw [ho] at e; injection e with e
    rw [← e] at hs ⊢
    have hl := Type2And3SplitRadix.inst_len q half quarter
    change scr.length < (Type2And3SplitRadix.inst q half quarter).len at hs
    change Type2And3SplitRadix.dst3 _ _ = _
    unfold Type2And3SplitRadix.dst3
    rw [Type2And3SplitRadix.rejects_dct3 q half quarter _ (by rintro ⟨-, h2⟩; change 4 * q ≤ scr.length at h2; omega)]
    rw [if_pos (by simp [hl, hb, e4])]
    change Outcome.panic (.scratchLen (4 * q) scr.length) _ = Outcome.panic (.scratchLen (Type2And3SplitRadix.inst q half quarter).len scr.length) _
    rw [hl]

end eager

section
variable {planFft : ℕ → Fft ℝ}

/-- C28 fails for DST2 of length 32 (over ℝ; likewise for floats: `planned_dst2_eager`). -/
theorem C28_false (hf : PlanFftShape planFft) : ¬ C28_statement planFft := by
  intro h
  obtain ⟨p, s, hp⟩ := planned_exists hf [] .dst2 (n := 2 ^ (0 + 5)) (by norm_num)
  have hs : 0 < s := by
    generalize hn : 2 ^ (0 + 5) = n at hp
    cases hp with
    | @dst2 n a s' h =>
      have e := Yields.canon (fun W => planDct2_yields n) h
      subst hn
      obtain ⟨q, half, quarter, e4, ho⟩ := canon23_pow hf 0
      rw [ho] at e; injection e with e
      rw [← e]
      change 0 < (Type2And3SplitRadix.inst q half quarter).len
      rw [Type2And3SplitRadix.inst_len]
      omega
  obtain ⟨e, he⟩ := h [] .dst2 p _ s hp ⟨vec (2 ^ (0 + 5)) fun _ => 1, []⟩ (by rintro ⟨-, h2⟩; simp at h2; omega)
  rw [planned_dst2_eager hf hp (fun _ => (1 : ℝ)) [] hs] at he
  injection he with _ he
  injection he with he
  injection he with he
  have := congrArg (fun l => l.getD 1 0) he
  simp [vec, List.getD_eq_getElem?_getD] at this
  norm_num at this

end

/-! ### Split radix with inner instances that need more scratch than its buffer can provide -/

section
variable {T : Type} {F : Type} [F64 F] [DctNum T F]

/-- If an inner instance of half length asks for more scratch than the outer length, the constructor accepts it, and every
valid call of `process_dct2_with_scratch` panics inside the inner call. -/
theorem splitRadix_scratch_finding {half quarter : Obj23 T} {x : Type2And3SplitRadix T} (h : Type2And3SplitRadix.new half quarter = .ok x)
    (hr : Rejects half.dct2 half.len half.scratchLen) (hs : x.len < half.scratchLen) (m : Mem T) (hv : ValidCall x.len x.scratchLen m) :
    x.dct2 m = .panic (.scratchLen half.scratchLen x.len) none := by
  obtain ⟨h1, hq, hp, rfl⟩ := Type2And3SplitRadix.new_shape h
  clear h
  generalize quarter.len = q at *
  obtain ⟨buf, scr⟩ := m
  obtain ⟨hb, hsc⟩ := hv
  change (Type2And3SplitRadix.inst q half quarter).len ≤ scr.length at hsc
  rw [Type2And3SplitRadix.inst_len] at hb hs hsc
  change buf.length = 4 * q at hb
  obtain ⟨f, rfl⟩ := exists_vec hb
  obtain ⟨g, hg⟩ := exists_vec (show (scr.take (4 * q)).length = 4 * q by simp; omega)
  unfold Type2And3SplitRadix.dct2 Type2And3SplitRadix.scratchLen
  rw [Type2And3SplitRadix.inst_len]
  unfold validateBuffers
  dsimp only
  rw [if_neg (by rw [length_vec]; simp), if_pos hsc, hg]
  simp only [Type2And3SplitRadix.inst]
  generalize htw : (fun i => Cx.conj (singleTwiddle (2 * i + 1) (4 * q * 4)) : Nat → Cx T) = tw
  rw [show 4 * q / 2 = 2 * q by omega, show 4 * q / 4 = q by omega]
  rw [splitAtMut_vec (by omega), ok_bind, show 4 * q - 2 * q = 2 * q by omega]
  simp only []
  rw [splitAtMut_vec (by omega), ok_bind, show 2 * q - q = q by omega]
  simp only []
  rw [forRange_eq (fun i => (vec (2 * q) (fun j => if j < i ∨ 2 * q - 1 - j < i then sr2Half q f j else g j),
      vec q (fun j => if j < i then sr2Cos tw q f j else g (2 * q + j)),
      vec q (fun j => if q - 1 - j < i then sr2Sin tw q f j else g (2 * q + (q + j))))) ?h1 ?h2 (by omega)]
  case h1 =>
    rw [← target_start (by omega), ← target_start (by omega), ← target_start (by omega)]
  case h2 =>
    intro i hi0 hi
    simp (disch := omega) only [rdU_vec, ok_bind, csub_ok]
    rw [wrU_target (by omega) (by unfold sr2Half; rw [if_pos hi]), ok_bind]
    rw [wrU_target (by omega) (by
      unfold sr2Half
      rw [if_neg (by omega)]
      congr 2; omega), ok_bind]
    rw [wrU_target (by omega) (by unfold sr2Cos; rfl), ok_bind]
    rw [wrU_target (by omega) (by
      unfold sr2Sin
      rw [show q - 1 - (q - i - 1) = i by omega]
      unfold sr2SinRaw; rfl), ok_bind]
    congr 1
    refine Prod.ext ?_ (Prod.ext ?_ ?_)
    · exact target_congr (by omega)
    · exact target_congr (by omega)
    · exact target_congr (by omega)
  rw [ok_bind, target_done (by omega), target_done (by omega), target_done (by omega)]
  simp only []
  have hrej := hr ⟨vec (2 * q) (sr2Half q f), vec (4 * q) f⟩ (by
    rintro ⟨-, h⟩
    rw [length_vec] at h
    omega)
  rw [if_pos (by rw [length_vec, h1]), length_vec] at hrej
  unfold callProc
  rw [hrej]
  rfl

/-- Such instances exist: inner DCT2s converting to FFTs of lengths 64 and 32, the first of which wants one complex
element of scratch of its own. -/
example : ∃ (a b : Type2And3ConvertToFft T) (x : Type2And3SplitRadix T), Type2And3ConvertToFft.new (dftFft 64 1) = .ok a ∧
    Type2And3ConvertToFft.new (dftFft 32) = .ok b ∧ Type2And3SplitRadix.new a.toObj b.toObj = .ok x ∧ x.len = 128 ∧
    x.dct2 ⟨List.replicate 128 0, List.replicate 128 0⟩ = .panic (.scratchLen 130 128) none := by
  have h : Type2And3SplitRadix.new (Type2And3ConvertToFft.inst (dftFft 64 1 : Fft T)).toObj (Type2And3ConvertToFft.inst (dftFft 32 : Fft T)).toObj = .ok (Type2And3SplitRadix.inst 32 _ _) :=
    Type2And3SplitRadix.new_eq (Type2And3ConvertToFft.len_inst _) (Type2And3ConvertToFft.len_inst _) (by decide)
  have hl := Type2And3SplitRadix.inst_len 32 (Type2And3ConvertToFft.inst (dftFft 64 1 : Fft T)).toObj (Type2And3ConvertToFft.inst (dftFft 32 : Fft T)).toObj
  refine ⟨_, _, _, Type2And3ConvertToFft.new_eq rfl, Type2And3ConvertToFft.new_eq rfl, h, hl, ?_⟩
  have hx : (Type2And3ConvertToFft.inst (dftFft 64 1 : Fft T)).toObj.scratchLen = 130 := by
    change (Type2And3ConvertToFft.inst (dftFft 64 1 : Fft T)).scratchLen = 130
    simp [Type2And3ConvertToFft.inst, dftFft]
  refine splitRadix_scratch_finding h (Type2And3ConvertToFft.rejects_dct2 _) ?_ _ ⟨?_, ?_⟩
  · rw [hl, hx]; norm_num
  · rw [hl, List.length_replicate]
  · change (Type2And3SplitRadix.inst 32 _ _).len ≤ _
    rw [hl, List.length_replicate]

/-! ### Degenerate lengths -/

variable {planFft : Nat → Fft T} {calls : List (PlanCall T)}

/-- `plan_dct3(0)` and `plan_dst3(0)` return an instance (`C33_domain`), but every call with the empty buffer it asks for panics. -/
theorem dct3_length_zero_panics (hf : PlanFftShape planFft) {a s'} (h : planDct3 planFft 0 (plannerAfter planFft calls) = .ok a s')
    (scr : List T) (hs : a.val.scratchLen ≤ scr.length) :
    a.val.len = 0 ∧ (∃ e, a.val.dct3 ⟨[], scr⟩ = .panic e none ∧ e ≠ .ub) ∧ (∃ e, a.val.dst3 ⟨[], scr⟩ = .panic e none ∧ e ≠ .ub) := by
  have e := Yields.canon (fun W => planDct2_yields 0) h
  rw [canon23, if_neg (by decide), dif_neg (by simp)] at e
  rw [Type2And3ConvertToFft.new_eq (hf 0).2] at e
  injection e with e
  rw [← e] at hs ⊢
  have hl : (Type2And3ConvertToFft.inst (planFft 0)).len = 0 := (Type2And3ConvertToFft.len_inst (planFft 0)).trans (hf 0).1
  change (Type2And3ConvertToFft.inst (planFft 0)).scratchLen ≤ scr.length at hs
  refine ⟨hl, ?_, ?_⟩
  · change ∃ e, Type2And3ConvertToFft.dct3 _ _ = _ ∧ _
    unfold Type2And3ConvertToFft.dct3 validateBuffers
    dsimp only
    rw [hl, if_neg (by simp), if_pos hs]
    simp [splitAtMut, rd, ok_bind, bind, Except.bind]
  · change ∃ e, Type2And3ConvertToFft.dst3 _ _ = _ ∧ _
    unfold Type2And3ConvertToFft.dst3 validateBuffers
    dsimp only
    rw [hl, if_neg (by simp), if_pos hs]
    simp [splitAtMut, rd, csub, ok_bind, bind, Except.bind]

/-- A `Dct1ConvertToFft` built from an FFT of length 0 (accepted by the constructor) reports length 1, and every call with a buffer
of length 1 panics. -/
theorem dct1_fft_zero_panics {fft : Fft T} (h0 : fft.len = 0) (hd : fft.direction = .forward) :
    ∃ x, Dct1ConvertToFft.new fft = .ok x ∧ x.len = 1 ∧
      ∀ b scr, x.scratchLen ≤ scr.length → ∃ e, x.dct1 ⟨[b], scr⟩ = .panic e none ∧ e ≠ .ub := by
  refine ⟨_, by unfold Dct1ConvertToFft.new; rw [if_neg (by simp [h0]), if_neg (by simp [hd])], by simp [h0], ?_⟩
  intro b scr hs
  unfold Dct1ConvertToFft.dct1 validateBuffers
  dsimp only at hs ⊢
  rw [if_neg (by simp [h0]), if_pos hs]
  simp [splitAtMut, h0, ok_bind, bind, Except.bind]

/-- A `Type4ConvertToType3Even` built from an empty inner instance (accepted by the constructor, `C37_composed`) reports length 0, and
every call with an empty buffer panics. -/
theorem type4_empty_panics {inner : Obj23 T} (h0 : inner.len = 0) :
    ∃ x, Type4ConvertToType3Even.new inner = .ok x ∧ x.len = 0 ∧ ∀ scr, x.scratchLen ≤ scr.length →
      (∃ e, x.dct4 ⟨[], scr⟩ = .panic e none ∧ e ≠ .ub) ∧ (∃ e, x.dst4 ⟨[], scr⟩ = .panic e none ∧ e ≠ .ub) := by
  have hl := Type4ConvertToType3Even.inst_len 0 inner
  refine ⟨_, Type4ConvertToType3Even.new_eq h0, hl, fun scr hs => ⟨?_, ?_⟩⟩
  · unfold Type4ConvertToType3Even.dct4 validateBuffers
    dsimp only
    rw [hl, if_neg (by simp), if_pos hs]
    simp [splitAtMut, rd, ok_bind, bind, Except.bind]
  · unfold Type4ConvertToType3Even.dst4 validateBuffers
    dsimp only
    rw [hl, if_neg (by simp), if_pos hs]
    simp [splitAtMut, rd, ok_bind, bind, Except.bind]

/-- Planned type 4 transforms of length 0 do nothing, as one would expect. -/
theorem dct4_length_zero {a s'} (h : planDct4 planFft 0 (plannerAfter planFft calls) = .ok a s') (scr : List T) :
    a.val.len = 0 ∧ a.val.dct4 ⟨[], scr⟩ = .ok ⟨[], scr⟩ ∧ a.val.dst4 ⟨[], scr⟩ = .ok ⟨[], scr⟩ := by
  have e := Yields.canon (fun W => planDct4_yields 0) h
  unfold canon4 at e
  rw [if_pos (by decide), if_pos (by decide)] at e
  obtain ⟨x, hx, hv⟩ := map_ok e
  obtain ⟨-, w, rfl⟩ := Type4Naive.new_shape hx
  rw [← hv]
  have hr := Type4Naive.runs_dct4 (n := 0) w (fun _ => 0) scr (by simp)
  have hr' := Type4Naive.runs_dst4 (n := 0) w (fun _ => 0) scr (by simp)
  obtain ⟨s₁, e₁, -, d₁⟩ := hr
  obtain ⟨s₂, e₂, -, d₂⟩ := hr'
  rw [List.drop_zero, List.drop_zero] at d₁ d₂
  subst d₁ d₂
  exact ⟨Type4Naive.len_vec (n := 0) (by omega), e₁, e₂⟩

/-- So do planned MDCTs of length 0. -/
theorem mdct_length_zero {w : Nat → List T} {o : MdctObj T} (h : PlannedMdct planFft calls 0 w o) :
    o.len = 0 ∧ SafeMdct o.mdct 0 o.scratchLen ∧ SafeImdct o.imdct 0 o.scratchLen := by
  obtain ⟨a, s', e, rfl⟩ := h
  have hI : Inv planFft (fun m v => (m = 0 ∧ v = w) ∨ UsedWindow calls m v) (plannerAfter planFft calls) := (after_inv calls).mono fun _ _ h => .inr h
  have := planMdct_run 0 (W := fun m v => (m = 0 ∧ v = w) ∨ UsedWindow calls m v) (.inl ⟨rfl, rfl⟩) _ hI
  rw [e] at this
  obtain ⟨⟨w', -, hc⟩, -⟩ := this
  unfold canonMdct canon4 at hc
  rw [if_pos (by decide), if_pos (by decide), Type4Naive.new] at hc
  obtain ⟨x, hx, hv⟩ := map_ok hc
  obtain ⟨-, hw, rfl⟩ := MdctViaDct4.new_shape hx
  rw [← hv]
  have hl : Type4Naive.len (⟨vec (0 * 4) (fun i => singleTwiddleHalfoffset i (0 * 4))⟩ : Type4Naive T) = 0 := Type4Naive.len_vec (by omega)
  have hl' : (Type4Naive.toObj (⟨vec (0 * 4) (fun i => singleTwiddleHalfoffset i (0 * 4))⟩ : Type4Naive T)).len = 2 * 0 := hl
  have hs' : (Type4Naive.toObj (⟨vec (0 * 4) (fun i => singleTwiddleHalfoffset i (0 * 4))⟩ : Type4Naive T)).scratchLen = 0 := hl
  have hr := (Type4Naive.runs_dct4 (n := 0) (fun i => singleTwiddleHalfoffset i (0 * 4) : Nat → Cx T)).weak
  rw [map_range_eq_vec] at *
  generalize Type4Naive.mk (vec (0 * 4) (fun i => singleTwiddleHalfoffset i (0 * 4) : Nat → Cx T)) = y at *
  have hw0 : w' (y.toObj.len * 2) = vec (4 * 0) (fun _ => 0) := by
    rw [hl'] at hw ⊢
    exact List.eq_nil_of_length_eq_zero hw
  rw [hw0]
  have r1 := (MdctViaDct4.mdct_vec (g := 0) (fun _ => 0) hl' (by rw [hs']; exact hr) rfl).safe
  have r2 := (MdctViaDct4.imdct_vec (g := 0) (fun _ => 0) hl' (by rw [hs']; exact hr) rfl).safe
  simp only [hl']
  exact ⟨hl, r1, r2⟩

end
end RustDct
