import Verif.History
import Verif.Proofs.PlannerInv
import Verif.Proofs.MadeMdct
/-!
# What the planner answers after any history
-/

set_option linter.all false

namespace RustDct

section
variable {T : Type} {F : Type} [F64 F] [DctNum T F]
variable {planFft : Nat → Fft T}

/-! ### Planning without a cache -/

theorem PlanFftSane.shape (h : PlanFftSane planFft) : PlanFftShape planFft := fun n => ⟨(h n).1, (h n).2.1⟩

theorem canonDct1_ok (hf : PlanFftShape planFft) {n : Nat} (hn : 2 ≤ n) :
    ∃ o, canonDct1 planFft n = .ok o ∧ MadeDct1 (FromPlan planFft) o ∧ o.len = n := by
  unfold canonDct1
  by_cases h : n < 10
  · rw [if_pos h]
    have : ∃ x : Dct1Naive T, Dct1Naive.new n = .ok x := by
      unfold Dct1Naive.new
      rw [if_neg (by omega), csub_ok (show 1 ≤ n by omega)]
      exact ⟨_, rfl⟩
    obtain ⟨x, hx⟩ := this
    exact ⟨x.toObj, by rw [hx]; rfl, .naive hx, Dct1Naive.len_new hx⟩
  · rw [if_neg h]
    have hx := Dct1ConvertToFft.new_eq (fft := planFft ((n - 1) * 2)) (by rw [(hf _).1]; omega) (hf _).2
    refine ⟨_, by rw [hx]; rfl, .fft ⟨_, rfl⟩ hx, ?_⟩
    simp only [Dct1ConvertToFft.toObj, Dct1ConvertToFft.inst, (hf _).1]
    omega

theorem canonDct1_err {n : Nat} (hn : ¬ 2 ≤ n) : ∃ e, canonDct1 planFft n = .error e ∧ e ≠ .ub := by
  unfold canonDct1
  rw [if_pos (by omega)]
  have : n = 0 ∨ n = 1 := by omega
  rcases this with rfl | rfl
  · exact ⟨.overflow, rfl, by decide⟩
  · exact ⟨.assertion, rfl, by decide⟩

theorem canonDst1_ok (hf : PlanFftShape planFft) (n : Nat) :
    ∃ o, canonDst1 planFft n = .ok o ∧ MadeDst1 (FromPlan planFft) o ∧ o.len = n := by
  unfold canonDst1
  by_cases h : n < 25
  · rw [if_pos h]
    obtain ⟨x, hx⟩ : ∃ x : Dst1Naive T, Dst1Naive.new n = .ok x := ⟨_, rfl⟩
    exact ⟨x.toObj, by rw [hx]; rfl, .naive hx, Dst1Naive.len_new hx⟩
  · rw [if_neg h]
    have hx := Dst1ConvertToFft.new_eq (fft := planFft ((n + 1) * 2)) (by rw [(hf _).1]; omega) (hf _).2 (by rw [(hf _).1]; omega)
    refine ⟨_, by rw [hx]; rfl, .fft ⟨_, rfl⟩ hx, ?_⟩
    simp only [Dst1ConvertToFft.toObj, Dst1ConvertToFft.inst, (hf _).1]
    omega

theorem canon23_made (hf : PlanFftShape planFft) (n : Nat) :
    ∃ o, canon23 planFft n = .ok o ∧ Made23 (FromPlan planFft) o ∧ o.len = n := by
  suffices h : ∃ o, canon23 planFft n = .ok o ∧ Made23 (FromPlan planFft) o ∧ o.len = n ∧ (isPowerOfTwo n = true → n > 1 → o.scratchLen ≤ n) by
    obtain ⟨o, h1, h2, h3, -⟩ := h; exact ⟨o, h1, h2, h3⟩
  apply canon23_induct (P := fun _ o => Made23 (FromPlan planFft) o) hf
  · exact .butterfly2
  · exact .butterfly3
  · exact .butterfly4
  · exact .butterfly8
  · exact .butterfly16
  · intro q half quarter hq hp lh lq sh sq Ph Pq
    exact .splitRadix Ph Pq (by omega) (by omega) (Type2And3SplitRadix.new_eq lh lq hp)
  · intro n
    exact .fft ⟨n, rfl⟩ (Type2And3ConvertToFft.new_eq (hf n).2)

theorem canon4_made (hf : PlanFftShape planFft) (n : Nat) :
    ∃ o, canon4 planFft n = .ok o ∧ Made4 (FromPlan planFft) o ∧ o.len = n := by
  unfold canon4
  by_cases h2 : n % 2 = 0
  · rw [if_pos h2]
    by_cases h6 : n < 6
    · rw [if_pos h6]
      obtain ⟨x, hx⟩ : ∃ x : Type4Naive T, Type4Naive.new n = .ok x := ⟨_, rfl⟩
      exact ⟨x.toObj, by rw [hx]; rfl, .naive hx, Type4Naive.len_new hx⟩
    · rw [if_neg h6]
      obtain ⟨i, h1, h2', h3⟩ := canon23_made hf (n / 2)
      have hx := Type4ConvertToType3Even.new_eq (inner := i) rfl
      refine ⟨_, by rw [h1]; simp only [bind, Except.bind]; rw [hx]; rfl, .type3 h2' hx, ?_⟩
      have : (Type4ConvertToType3Even.inst i.len i).toObj.len = 2 * i.len := Type4ConvertToType3Even.inst_len i.len i
      omega
  · rw [if_neg h2]
    by_cases h7 : n < 7
    · rw [if_pos h7]
      obtain ⟨x, hx⟩ : ∃ x : Type4Naive T, Type4Naive.new n = .ok x := ⟨_, rfl⟩
      exact ⟨x.toObj, by rw [hx]; rfl, .naive hx, Type4Naive.len_new hx⟩
    · rw [if_neg h7]
      have hx := Type4ConvertToFftOdd.new_eq (fft := planFft n) (by rw [(hf _).1]; omega) (hf _).2
      exact ⟨_, by rw [hx]; rfl, .fft ⟨_, rfl⟩ hx, (hf n).1⟩

theorem canonDct5_ok {n : Nat} (hn : 1 ≤ n) : ∃ o : Obj1 T, canonDct5 n = .ok o ∧ MadeDct5 o ∧ o.len = n := by
  unfold canonDct5
  have : ∃ x : Dct5Naive T, Dct5Naive.new n = .ok x := by
    unfold Dct5Naive.new
    simp (disch := omega) only [csub_ok, ok_bind]
    exact ⟨_, rfl⟩
  obtain ⟨x, hx⟩ := this
  exact ⟨x.toObj, by rw [hx]; rfl, .naive hx, Dct5Naive.len_new hx⟩

theorem canonDct5_err {n : Nat} (hn : ¬ 1 ≤ n) : ∃ e, (canonDct5 n : Except Err (Obj1 T)) = .error e ∧ e ≠ .ub := by
  obtain rfl : n = 0 := by omega
  exact ⟨.overflow, rfl, by decide⟩

theorem canonDct6_ok {n : Nat} (hn : 1 ≤ n) : ∃ o : Obj67 T, canonDct6 n = .ok o ∧ MadeDct67 o ∧ o.len = n := by
  unfold canonDct6
  have : ∃ x : Dct6And7Naive T, Dct6And7Naive.new n = .ok x := by
    unfold Dct6And7Naive.new
    simp (disch := omega) only [csub_ok, ok_bind]
    exact ⟨_, rfl⟩
  obtain ⟨x, hx⟩ := this
  exact ⟨x.toObj, by rw [hx]; rfl, .naive hx, Dct6And7Naive.len_new hx⟩

theorem canonDct6_err {n : Nat} (hn : ¬ 1 ≤ n) : ∃ e, (canonDct6 n : Except Err (Obj67 T)) = .error e ∧ e ≠ .ub := by
  obtain rfl : n = 0 := by omega
  exact ⟨.overflow, rfl, by decide⟩

theorem canonDst8_ok {n : Nat} (hn : 1 ≤ n) : ∃ o : Obj1 T, canonDst8 n = .ok o ∧ MadeDst8 o ∧ o.len = n := by
  unfold canonDst8
  have : ∃ x : Dst8Naive T, Dst8Naive.new n = .ok x := by
    unfold Dst8Naive.new
    simp (disch := omega) only [csub_ok, ok_bind]
    exact ⟨_, rfl⟩
  obtain ⟨x, hx⟩ := this
  exact ⟨x.toObj, by rw [hx]; rfl, .naive hx, Dst8Naive.len_new hx⟩

theorem canonDst8_err {n : Nat} (hn : ¬ 1 ≤ n) : ∃ e, (canonDst8 n : Except Err (Obj1 T)) = .error e ∧ e ≠ .ub := by
  obtain rfl : n = 0 := by omega
  exact ⟨.overflow, rfl, by decide⟩

theorem canonDct8_ok (n : Nat) : ∃ o : Obj1 T, canonDct8 n = .ok o ∧ MadeDct8 o ∧ o.len = n := by
  obtain ⟨x, hx⟩ : ∃ x : Dct8Naive T, Dct8Naive.new n = .ok x := ⟨_, rfl⟩
  exact ⟨x.toObj, by unfold canonDct8; rw [hx]; rfl, .naive hx, Dct8Naive.len_new hx⟩

theorem canonDst5_ok (n : Nat) : ∃ o : Obj1 T, canonDst5 n = .ok o ∧ MadeDst5 o ∧ o.len = n := by
  obtain ⟨x, hx⟩ : ∃ x : Dst5Naive T, Dst5Naive.new n = .ok x := ⟨_, rfl⟩
  exact ⟨x.toObj, by unfold canonDst5; rw [hx]; rfl, .naive hx, Dst5Naive.len_new hx⟩

theorem canonDst6_ok (hf : PlanFftShape planFft) (n : Nat) :
    ∃ o, canonDst6 planFft n = .ok o ∧ MadeDst67 (FromPlan planFft) o ∧ o.len = n := by
  unfold canonDst6
  by_cases h : n < 45
  · rw [if_pos h]
    obtain ⟨x, hx⟩ : ∃ x : Dst6And7Naive T, Dst6And7Naive.new n = .ok x := ⟨_, rfl⟩
    exact ⟨x.toObj, by rw [hx]; rfl, .naive hx, Dst6And7Naive.len_new hx⟩
  · rw [if_neg h]
    have hx := Dst6And7ConvertToFft.new_eq (fft := planFft (n * 2 + 1)) (by rw [(hf _).1]; omega) (hf _).2
    refine ⟨_, by rw [hx]; rfl, .fft ⟨_, rfl⟩ hx, ?_⟩
    simp only [Dst6And7ConvertToFft.toObj, Dst6And7ConvertToFft.inst, (hf _).1]
    omega

theorem canonMdct_ok (hf : PlanFftShape planFft) {n : Nat} {w : Nat → List T} (hn : n % 2 = 0) (hw : (w (2 * n)).length = 2 * n) :
    ∃ o, canonMdct planFft n w = .ok o ∧ MadeMdct (FromPlan planFft) (w (2 * n)) o ∧ o.len = n := by
  obtain ⟨i, h1, h2, h3⟩ := canon4_made hf n
  have e : 2 * n = i.len * 2 := by omega
  have hx : MdctViaDct4.new i w = .ok ⟨i, w (i.len * 2), i.len + i.scratchLen⟩ := by
    unfold MdctViaDct4.new
    rw [e] at hw
    simp only [h3, hn, not_true_eq_false, if_false]
    rw [h3] at hw
    simp [hw]
  refine ⟨MdctViaDct4.toObj ⟨i, w (i.len * 2), i.len + i.scratchLen⟩, ?_, by rw [e]; exact .viaDct4 h2 hx, h3⟩
  unfold canonMdct
  rw [h1]
  simp only [bind, Except.bind]
  rw [hx]; rfl

theorem canonMdct_err (hf : PlanFftShape planFft) {n : Nat} {w : Nat → List T} (h : ¬ (n % 2 = 0 ∧ (w (2 * n)).length = 2 * n)) :
    canonMdct planFft n w = .error .assertion := by
  obtain ⟨i, h1, h2, h3⟩ := canon4_made hf n
  unfold canonMdct
  rw [h1]
  simp only [bind, Except.bind]
  unfold MdctViaDct4.new
  simp only [h3]
  by_cases hn : n % 2 = 0
  · rw [if_neg (by simpa using hn), if_pos (by rw [Nat.mul_comm]; exact fun e => h ⟨hn, e⟩)]; rfl
  · rw [if_pos hn]; rfl

/-! ### Histories -/

/-- The windows that were passed to `plan_mdct(n, _)` during a history. -/
def UsedWindow (calls : List (PlanCall T)) (n : Nat) (w : Nat → List T) : Prop := .mdct n w ∈ calls

theorem Yields.final {α : Type} {W} {m : PlanM T (Arc α)} {r : Except Err α} {post} (h : Yields planFft W m r post) {s : Planner T}
    (hs : Inv planFft W s) : Inv planFft W (finalState (m s)) ∧ Grows s (finalState (m s)) := by
  have := h s hs
  cases hm : m s with
  | ok a s' => rw [hm] at this; exact ⟨this.2.1, this.2.2.1⟩
  | error e s' => rw [hm] at this; exact ⟨this.2.1, this.2.2⟩

theorem PlanCall.run_inv {W : Nat → (Nat → List T) → Prop} (c : PlanCall T) (hW : ∀ n w, c = .mdct n w → W n w) {s : Planner T} (hs : Inv planFft W s) :
    Inv planFft W (c.run planFft s) ∧ Grows s (c.run planFft s) := by
  cases c with
  | dct1 n => exact (planDct1_yields n).final hs
  | dct2 n => exact (planDct2_yields n).final hs
  | dct3 n => exact (planDct2_yields n).final hs
  | dct4 n => exact (planDct4_yields n).final hs
  | dct5 n => exact (planDct5_yields n).final hs
  | dct6 n => exact (planDct6_yields n).final hs
  | dct7 n => exact (planDct6_yields n).final hs
  | dct8 n => exact (planDct8_yields n).final hs
  | dst1 n => exact (planDst1_yields n).final hs
  | dst2 n => exact (planDct2_yields n).final hs
  | dst3 n => exact (planDct2_yields n).final hs
  | dst4 n => exact (planDct4_yields n).final hs
  | dst5 n => exact (planDst5_yields n).final hs
  | dst6 n => exact (planDst6_yields n).final hs
  | dst7 n => exact (planDst6_yields n).final hs
  | dst8 n => exact (planDst8_yields n).final hs
  | mdct n w =>
    have := planMdct_run n (hW n w rfl) s hs
    change Inv planFft W (finalState (planMdct planFft n w s)) ∧ Grows s (finalState (planMdct planFft n w s))
    cases hm : planMdct planFft n w s with
    | ok a s' => rw [hm] at this; exact ⟨this.2.1, this.2.2.1⟩
    | error e s' => rw [hm] at this; exact ⟨this.2.1, this.2.2⟩

theorem foldl_inv {W : Nat → (Nat → List T) → Prop} (calls : List (PlanCall T)) : (∀ n w, .mdct n w ∈ calls → W n w) → ∀ {s : Planner T}, Inv planFft W s →
    Inv planFft W (calls.foldl (fun s c => c.run planFft s) s) ∧ Grows s (calls.foldl (fun s c => c.run planFft s) s) := by
  induction calls with
  | nil => exact fun _ s hs => ⟨hs, Grows.refl s⟩
  | cons c r ih =>
    intro hW s hs
    have h1 := c.run_inv (fun n w e => hW n w (by simp [e])) hs
    have h2 := ih (fun n w e => hW n w (by simp [e])) h1.1
    exact ⟨h2.1, h1.2.trans h2.2⟩

theorem after_inv (calls : List (PlanCall T)) : Inv planFft (UsedWindow calls) (plannerAfter planFft calls) :=
  (foldl_inv calls (fun _ _ h => h) (Inv.new 0)).1

theorem after_append (c d : List (PlanCall T)) : plannerAfter planFft (c ++ d) = d.foldl (fun s c => c.run planFft s) (plannerAfter planFft c) := by
  unfold plannerAfter; rw [List.foldl_append]

/-- The answer of a method, after any history, is the one of `canon`. -/
theorem Yields.answers {α : Type} {m : PlanM T (Arc α)} {r : Except Err α} {post} (h : ∀ W, Yields planFft W m r post) (calls : List (PlanCall T)) :
    answer (m (plannerAfter planFft calls)) = r := by
  have := h _ _ (after_inv (planFft := planFft) calls)
  cases hm : m (plannerAfter planFft calls) with
  | ok a s' => rw [hm] at this; exact this.1.symm
  | error e s' => rw [hm] at this; exact this.1.symm

theorem Plans.of {α : Type} {m : PlanM T (Arc α)} {r : Except Err α} {post} {P : α → Prop} (h : ∀ W, Yields planFft W m r post)
    (hr : ∃ o, r = .ok o ∧ P o) : Plans planFft m P := by
  intro calls
  have := h _ _ (after_inv (planFft := planFft) calls)
  obtain ⟨o, ho, hP⟩ := hr
  cases hm : m (plannerAfter planFft calls) with
  | ok a s' =>
    rw [hm] at this
    have e := this.1
    rw [ho] at e
    injection e with e
    exact ⟨a, s', rfl, e ▸ hP⟩
  | error e s' =>
    rw [hm] at this
    have e := this.1
    rw [ho] at e
    cases e

end
end RustDct
