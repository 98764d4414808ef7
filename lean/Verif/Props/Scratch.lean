import Verif.Scratch
import Verif.Props.Safety
import Verif.Props.Mdct
import Verif.Float.DftFft
/-!
# C62: how much scratch space planned instances ask for
-/

set_option linter.all false

namespace RustDct

variable {T : Type} {F : Type} [F64 F] [DctNum T F]
variable {planFft : Nat → Fft T} {calls : List (PlanCall T)} {k : Kind} {p : Proc T} {n s : Nat}

theorem canon23_scratch (hf : PlanFftShape planFft) {o : Obj23 T} (h : canon23 planFft n = .ok o) :
    o.scratchLen = scratch23 (fun m => (planFft m).inplaceScratchLen) n := by
  obtain ⟨o', h', e, -⟩ := canon23_induct' hf (P := fun n o => o.scratchLen = scratch23 (fun m => (planFft m).inplaceScratchLen) n)
    (by simp [scratch23, straightLine, Type2And3Butterfly2.toObj]) (by simp [scratch23, straightLine, Type2And3Butterfly3.toObj])
    (by simp [scratch23, straightLine, Type2And3Butterfly4.toObj]) (by simp [scratch23, straightLine, Type2And3Butterfly8.toObj])
    (by simp [scratch23, straightLine, Type2And3Butterfly16.toObj])
    (by
      intro q half quarter hq hp h1 h2 h3 h4 _ _
      obtain ⟨j, hj⟩ := (isPowerOfTwo_iff _).1 hp
      have a : ¬ straightLine (4 * q) := by unfold straightLine; omega
      have b : 2 < 4 * q ∧ 4 * q = 2 ^ Nat.log 2 (4 * q) := ⟨by omega, by rw [hj, Nat.log_pow (by norm_num)]⟩
      unfold scratch23
      rw [if_neg a, if_pos b]
      change Type2And3SplitRadix.len _ = _
      exact Type2And3SplitRadix.inst_len q half quarter)
    (by
      intro n hb hp
      have a : ¬ straightLine n := by
        unfold straightLine
        rintro (rfl | rfl | rfl | rfl | rfl) <;> exact absurd hb (by decide)
      have b : ¬ (2 < n ∧ n = 2 ^ Nat.log 2 n) := fun ⟨h1, h2⟩ => by
        have := hp ((isPowerOfTwo_iff _).2 ⟨_, h2⟩)
        omega
      unfold scratch23
      rw [if_neg a, if_neg b]
      change 2 * ((planFft n).len + (planFft n).inplaceScratchLen) = _
      rw [(hf n).1]) n
  rw [h] at h'; injection h' with h'; subst h'
  exact e

theorem canon4_scratch (hf : PlanFftShape planFft) {o : Obj4 T} (h : canon4 planFft n = .ok o) :
    o.scratchLen = scratch4 (fun m => (planFft m).inplaceScratchLen) n := by
  have naive : ∀ {o : Obj4 T}, (Type4Naive.new n).map Type4Naive.toObj = .ok o → o.scratchLen = n := by
    intro o ho
    cases hx : (Type4Naive.new n : Except Err (Type4Naive T)) with
    | error e => rw [hx] at ho; cases ho
    | ok x => rw [hx] at ho; injection ho with ho; subst ho; exact Type4Naive.len_new hx
  unfold canon4 at h
  unfold scratch4
  by_cases h2 : n % 2 = 0
  · rw [if_pos h2] at h ⊢
    by_cases h6 : n < 6
    · rw [if_pos h6] at h ⊢
      exact naive h
    · rw [if_neg h6] at h ⊢
      obtain ⟨i, e, -, hl⟩ := canon23_made hf (n / 2)
      rw [e] at h
      have h' : (Type4ConvertToType3Even.new i).map Type4ConvertToType3Even.toObj = .ok o := h
      rw [Type4ConvertToType3Even.new_eq hl] at h'
      injection h' with h'
      subst h'
      rw [← canon23_scratch hf e]
      change (if i.scratchLen ≤ 2 * (n / 2) then 2 * (n / 2) else 2 * (n / 2) + i.scratchLen) = _
      rw [show 2 * (n / 2) = n by omega]
  · rw [if_neg h2] at h ⊢
    by_cases h7 : n < 7
    · rw [if_pos h7] at h ⊢
      exact naive h
    · rw [if_neg h7] at h ⊢
      rw [Type4ConvertToFftOdd.new_eq (fft := planFft n) (by rw [(hf _).1]; omega) (hf _).2] at h
      injection h with h
      subst h
      change 2 * ((planFft n).len + (planFft n).inplaceScratchLen) = _
      rw [(hf n).1]

/-- A directly summed instance asks for its own length. -/
theorem naive_scratch {α β : Type} {len : α → Nat} {f : α → β} {sc : β → Nat} {x : Except Err α} {o : β} (hl : ∀ {a}, x = .ok a → len a = n) (hsc : ∀ a, sc (f a) = len a)
    (h : x.map f = .ok o) : sc o = n := by
  cases hx : x with
  | error e => rw [hx] at h; cases h
  | ok a => rw [hx] at h; injection h with h; subst h; rw [hsc, hl hx]

/-- `get_scratch_len()` of the instance the planner returns, for every transform and every length. -/
theorem C62_planned (hf : PlanFftShape planFft) (h : Planned planFft calls k p n s) :
    s = k.scratch (fun m => (planFft m).inplaceScratchLen) n := by
  cases h with
  | @dct1 n a s' h =>
    have e := Yields.canon (fun W => planDct1_yields n) h
    unfold canonDct1 at e
    simp only [Kind.scratch]
    by_cases hn : n < 10
    · rw [if_pos hn] at e ⊢
      exact naive_scratch (sc := Obj1.scratchLen) Dct1Naive.len_new (fun _ => rfl) e
    · rw [if_neg hn] at e ⊢
      rw [Dct1ConvertToFft.new_eq (by rw [(hf _).1]; omega) (hf _).2] at e
      injection e with e
      rw [← e]
      change 2 * ((planFft _).len + (planFft _).inplaceScratchLen) = _
      rw [(hf _).1, show (n - 1) * 2 = 2 * (n - 1) by ring]
  | @dct2 n a s' h => exact canon23_scratch hf (Yields.canon (fun W => planDct2_yields n) h)
  | @dct3 n a s' h _ => exact canon23_scratch hf (Yields.canon (fun W => planDct2_yields n) h)
  | @dct4 n a s' h _ => exact canon4_scratch hf (Yields.canon (fun W => planDct4_yields n) h)
  | @dct5 n a s' h => exact naive_scratch (sc := Obj1.scratchLen) Dct5Naive.len_new (fun _ => rfl) (Yields.canon (fun W => planDct5_yields n) h)
  | @dct6 n a s' h => exact naive_scratch (sc := Obj67.scratchLen) Dct6And7Naive.len_new (fun _ => rfl) (Yields.canon (fun W => planDct6_yields n) h)
  | @dct7 n a s' h => exact naive_scratch (sc := Obj67.scratchLen) Dct6And7Naive.len_new (fun _ => rfl) (Yields.canon (fun W => planDct6_yields n) h)
  | @dct8 n a s' h => exact naive_scratch (sc := Obj1.scratchLen) Dct8Naive.len_new (fun _ => rfl) (Yields.canon (fun W => planDct8_yields n) h)
  | @dst1 n a s' h =>
    have e := Yields.canon (fun W => planDst1_yields n) h
    unfold canonDst1 at e
    simp only [Kind.scratch]
    by_cases hn : n < 25
    · rw [if_pos hn] at e ⊢
      exact naive_scratch (sc := Obj1.scratchLen) Dst1Naive.len_new (fun _ => rfl) e
    · rw [if_neg hn] at e ⊢
      rw [Dst1ConvertToFft.new_eq (by rw [(hf _).1]; omega) (hf _).2 (by rw [(hf _).1]; omega)] at e
      injection e with e
      rw [← e]
      change 2 * ((planFft _).len + (planFft _).inplaceScratchLen) = _
      rw [(hf _).1, show (n + 1) * 2 = 2 * (n + 1) by ring]
  | @dst2 n a s' h => exact canon23_scratch hf (Yields.canon (fun W => planDct2_yields n) h)
  | @dst3 n a s' h _ => exact canon23_scratch hf (Yields.canon (fun W => planDct2_yields n) h)
  | @dst4 n a s' h _ => exact canon4_scratch hf (Yields.canon (fun W => planDct4_yields n) h)
  | @dst5 n a s' h => exact naive_scratch (sc := Obj1.scratchLen) Dst5Naive.len_new (fun _ => rfl) (Yields.canon (fun W => planDst5_yields n) h)
  | @dst6 n a s' h => exact dst6 (Yields.canon (fun W => planDst6_yields n) h)
  | @dst7 n a s' h => exact dst6 (Yields.canon (fun W => planDst6_yields n) h)
  | @dst8 n a s' h => exact naive_scratch (sc := Obj1.scratchLen) Dst8Naive.len_new (fun _ => rfl) (Yields.canon (fun W => planDst8_yields n) h)
where
  dst6 {n : Nat} {o : Obj67 T} (e : canonDst6 planFft n = .ok o) : o.scratchLen = Kind.scratch (fun m => (planFft m).inplaceScratchLen) .dst6 n := by
    unfold canonDst6 at e
    simp only [Kind.scratch]
    by_cases hn : n < 45
    · rw [if_pos hn] at e ⊢
      exact naive_scratch (sc := Obj67.scratchLen) Dst6And7Naive.len_new (fun _ => rfl) e
    · rw [if_neg hn] at e ⊢
      rw [Dst6And7ConvertToFft.new_eq (by rw [(hf _).1]; omega) (hf _).2] at e
      injection e with e
      rw [← e]
      change 2 * ((planFft _).len + (planFft _).inplaceScratchLen) = _
      rw [(hf _).1, show n * 2 + 1 = 2 * n + 1 by ring]

/-- The instance of a planned MDCT. -/
theorem C62_mdct (hf : PlanFftShape planFft) {w : Nat → List T} {o : MdctObj T} (h : PlannedMdct planFft calls n w o) :
    o.scratchLen = n + scratch4 (fun m => (planFft m).inplaceScratchLen) n := by
  have hc := h.canon hf
  obtain ⟨i, h1, -, h3⟩ := canon4_made hf n
  unfold canonMdct at hc
  rw [h1] at hc
  have hc' : (MdctViaDct4.new i (effectiveWindow n calls w)).map MdctViaDct4.toObj = .ok o := hc
  rw [← canon4_scratch hf h1]
  unfold MdctViaDct4.new at hc'
  simp only at hc'
  split at hc'
  · cases hc'
  · split at hc'
    · cases hc'
    · injection hc' with hc'; rw [← hc']
      simp [MdctViaDct4.toObj, h3]

/-- A planned instance returns exactly when the buffer has its length and scratch has at least the tabulated number of elements. -/
theorem C62_accepts (hf : PlanFftSane planFft) (h : Planned planFft calls k p n s) (buf scr : List T) :
    (∃ m, p ⟨buf, scr⟩ = .ok m) ↔ buf.length = n ∧ k.scratch (fun m => (planFft m).inplaceScratchLen) n ≤ scr.length := by
  rw [← C62_planned hf.shape h]
  constructor
  · rintro ⟨m, hm⟩
    by_contra hv
    obtain ⟨e, m', he, -⟩ := C27_planned hf h ⟨buf, scr⟩ hv
    rw [he] at hm; cases hm
  · intro hv
    obtain ⟨m, hm, -⟩ := C26_planned hf h ⟨buf, scr⟩ hv
    exact ⟨m, hm⟩

/-- If the FFT library asks for at most `c * m` complex numbers for length `m`, every planned instance asks for at most
`4 (c + 1) (n + 1)` numbers. -/
theorem C62_linear (hf : PlanFftShape planFft) {c : Nat} (hc : ∀ m, (planFft m).inplaceScratchLen ≤ c * m) (h : Planned planFft calls k p n s) :
    s ≤ 4 * (c + 1) * (n + 1) := by
  rw [C62_planned hf h]
  replace hc : ∀ m, (fun m => (planFft m).inplaceScratchLen) m ≤ c * m := hc
  generalize (fun m => (planFft m).inplaceScratchLen) = σ at hc ⊢
  have h23 : ∀ m, scratch23 σ m ≤ 2 * (c + 1) * m := by
    intro m
    unfold scratch23
    split
    · exact Nat.zero_le _
    · have := hc m
      split <;> nlinarith
  have h4 : scratch4 σ n ≤ 4 * (c + 1) * (n + 1) := by
    unfold scratch4
    have a := hc n
    have b := h23 (n / 2)
    have d : 2 * (c + 1) * (n / 2) ≤ (c + 1) * n := by
      have : n / 2 * 2 ≤ n := Nat.div_mul_le_self n 2
      nlinarith
    split_ifs <;> nlinarith
  have l : ∀ m, n ≤ m → n ≤ 4 * (c + 1) * (n + 1) := fun m _ => by nlinarith
  cases k with
  | dct1 =>
    simp only [Kind.scratch]
    split
    · exact l n le_rfl
    · have a := hc (2 * (n - 1))
      have b : n - 1 ≤ n := by omega
      have d := Nat.mul_le_mul_left c b
      nlinarith
  | dst1 =>
    simp only [Kind.scratch]
    split
    · exact l n le_rfl
    · have a := hc (2 * (n + 1))
      nlinarith
  | dst6 =>
    simp only [Kind.scratch]
    split
    · exact l n le_rfl
    · have a := hc (2 * n + 1)
      nlinarith
  | dst7 =>
    simp only [Kind.scratch]
    split
    · exact l n le_rfl
    · have a := hc (2 * n + 1)
      nlinarith
  | dct4 => exact h4
  | dst4 => exact h4
  | dct2 => exact (h23 n).trans (by nlinarith)
  | dct3 => exact (h23 n).trans (by nlinarith)
  | dst2 => exact (h23 n).trans (by nlinarith)
  | dst3 => exact (h23 n).trans (by nlinarith)
  | _ => exact l n le_rfl

/-- Powers of two: nothing beyond the length of the transform (types 2, 3 and 4 from length 32 on), whatever the FFT library asks for. -/
theorem C62_dyadic (hf : PlanFftShape planFft) {j : Nat} (hk : k = .dct2 ∨ k = .dct3 ∨ k = .dst2 ∨ k = .dst3 ∨ k = .dct4 ∨ k = .dst4)
    (h : Planned planFft calls k p (2 ^ (j + 5)) s) : s = 2 ^ (j + 5) := by
  rw [C62_planned hf h]
  generalize (fun m => (planFft m).inplaceScratchLen) = σ
  have h23 : ∀ i, 4 ≤ i → scratch23 σ (2 ^ i) ≤ 2 ^ i ∧ (5 ≤ i → scratch23 σ (2 ^ i) = 2 ^ i) := by
    intro i hi
    have p4 : 16 ≤ 2 ^ i := Nat.pow_le_pow_right (n := 2) (by norm_num) hi
    have e : 2 < 2 ^ i ∧ 2 ^ i = 2 ^ Nat.log 2 (2 ^ i) := ⟨by omega, by rw [Nat.log_pow (by norm_num)]⟩
    unfold scratch23
    constructor
    · rw [if_pos e]
      split
      · exact Nat.zero_le _
      · exact le_rfl
    · intro h5
      have p5 : 32 ≤ 2 ^ i := Nat.pow_le_pow_right (n := 2) (by norm_num) h5
      rw [if_neg (by unfold straightLine; omega), if_pos e]
  have e23 := (h23 (j + 5) (by omega)).2 (by omega)
  have e4 : scratch4 σ (2 ^ (j + 5)) = 2 ^ (j + 5) := by
    have p5 : 32 ≤ 2 ^ (j + 5) := Nat.pow_le_pow_right (n := 2) (by norm_num) (show 5 ≤ j + 5 by omega)
    have hh : 2 ^ (j + 5) / 2 = 2 ^ (j + 4) := by rw [show j + 5 = j + 4 + 1 by omega, pow_succ]; omega
    have hi := (h23 (j + 4) (by omega)).1
    unfold scratch4
    rw [if_pos (by rw [show j + 5 = j + 4 + 1 by omega, pow_succ]; omega), if_neg (show ¬ 2 ^ (j + 5) < 6 by omega), hh, if_pos (hi.trans (Nat.pow_le_pow_right (by norm_num) (by omega)))]
  rcases hk with rfl | rfl | rfl | rfl | rfl | rfl <;> assumption

/-! ### The hypotheses are met -/

/-- A DCT1 of 100 points over an FFT without scratch of its own: 396 numbers; a DCT4 of 24 points: 24, since the inner DCT3 of 12 points
asks for no more than 24; a DST4 of 17 points: 34. -/
example (calls : List (PlanCall (Flx 24))) :
    (∃ p, Planned (fun n => (sumFft n : Fft (Flx 24))) calls .dct1 p 100 396) ∧ (∃ p, Planned (fun n => (sumFft n : Fft (Flx 24))) calls .dct4 p 24 24) ∧
    ∃ p, Planned (fun n => (sumFft n : Fft (Flx 24))) calls .dst4 p 17 34 := by
  have hs : PlanFftShape (fun n => (sumFft n : Fft (Flx 24))) := (sumFft_plan (Flx.rounding 24)).shape
  have e12 : Nat.log 2 12 = 3 := by rw [Nat.log_eq_iff (by norm_num)]; norm_num
  refine ⟨?_, ?_, ?_⟩
  · obtain ⟨p, s, h⟩ := planned_exists hs calls .dct1 (n := 100) (by norm_num)
    have := C62_planned hs h
    simp [Kind.scratch, sumFft] at this
    exact ⟨p, this ▸ h⟩
  · obtain ⟨p, s, h⟩ := planned_exists hs calls .dct4 (n := 24) (by norm_num)
    have := C62_planned hs h
    simp [Kind.scratch, scratch4, scratch23, straightLine, e12, sumFft] at this
    exact ⟨p, this ▸ h⟩
  · obtain ⟨p, s, h⟩ := planned_exists hs calls .dst4 (n := 17) (by norm_num)
    have := C62_planned hs h
    simp [Kind.scratch, scratch4, sumFft] at this
    exact ⟨p, this ▸ h⟩

end RustDct
