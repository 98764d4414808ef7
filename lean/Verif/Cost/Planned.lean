import Verif.Cost.Made
import Verif.Cost.Lower
import Verif.Props.Mdct
/-!
# The running times of planned instances
-/

set_option linter.all false

namespace RustDct.Counted

section
variable {T : Type} {F : Type} [F64 F] [DctNum T F]
variable {planFft : Nat → Fft T} {cost : Fft T → Nat} {calls : List (PlanCall T)} {k : Kind} {p : Proc T} {n s : Nat}

theorem FromPlan.sane (hf : PlanFftSane planFft) : ∀ f, FromPlan planFft f → FftSane f := by
  rintro f ⟨n, rfl⟩
  exact (hf n).2.2

theorem steps23_pow (fft : Nat → Nat) (j : Nat) : steps23 fft (2 ^ (j + 1)) = 16 * 2 ^ (j + 1) * (j + 2) := by
  unfold steps23
  have e : Nat.log 2 (2 ^ (j + 1)) = j + 1 := Nat.log_pow (by omega) _
  rw [e, if_pos ⟨by rw [pow_succ]; have := Nat.one_le_two_pow (n := j); omega, rfl⟩]

theorem pow_of_isPow {n : Nat} (h : isPowerOfTwo n = true) (h2 : 2 ≤ n) : ∃ j, n = 2 ^ (j + 1) := by
  obtain ⟨k, rfl⟩ := (isPowerOfTwo_iff n).1 h
  rcases k with _ | k
  · simp at h2
  · exact ⟨k, rfl⟩

theorem canon23_counts (hf : PlanFftSane planFft) (n : Nat) :
    ∃ o c, canon23 planFft n = .ok o ∧ Counts23 (FromPlan planFft) cost o c ∧ o.len = n ∧
      Takes23 o (steps23 (fun m => cost (planFft m)) n) (steps23 (fun m => cost (planFft m)) n) (steps23 (fun m => cost (planFft m)) n) (steps23 (fun m => cost (planFft m)) n) c := by
  set K := steps23 (fun m => cost (planFft m)) with hK
  suffices h : ∃ o, canon23 planFft n = .ok o ∧ (∃ c, Counts23 (FromPlan planFft) cost o c ∧ Takes23 o (K n) (K n) (K n) (K n) c) ∧ o.len = n ∧
      (isPowerOfTwo n = true → n > 1 → o.scratchLen ≤ n) by
    obtain ⟨o, h1, ⟨c, h2, h3⟩, h4, -⟩ := h; exact ⟨o, c, h1, h2, h4, h3⟩
  have e2 : K 2 = 64 := steps23_pow _ 0
  have e4 : K 4 = 192 := steps23_pow _ 1
  have e8 : K 8 = 512 := steps23_pow _ 2
  have e16 : K 16 = 1280 := steps23_pow _ 3
  have e3 : 120 ≤ K 3 := by
    rw [hK]
    unfold steps23
    rw [if_neg (by
      have : Nat.log 2 3 = 1 := (Nat.log_eq_iff (by omega)).2 (by omega)
      rw [this]; omega)]
    omega
  apply canon23_induct' (P := fun n o => ∃ c, Counts23 (FromPlan planFft) cost o c ∧ Takes23 o (K n) (K n) (K n) (K n) c) hf.shape
  · exact ⟨_, .butterfly2, (Type2And3Butterfly2.dct2_takes RustDct.Type2And3Butterfly2.new).mono (by omega), (Type2And3Butterfly2.dct3_takes RustDct.Type2And3Butterfly2.new).mono (by omega),
      (Type2And3Butterfly2.dst2_takes RustDct.Type2And3Butterfly2.new).mono (by omega), ((Type2And3Butterfly2.dst3_takes RustDct.Type2And3Butterfly2.new).at _).mono (by omega)⟩
  · exact ⟨_, .butterfly3, (Type2And3Butterfly3.dct2_takes RustDct.Type2And3Butterfly3.new).mono (by omega), (Type2And3Butterfly3.dct3_takes RustDct.Type2And3Butterfly3.new).mono (by omega),
      (Type2And3Butterfly3.dst2_takes RustDct.Type2And3Butterfly3.new).mono (by omega), ((Type2And3Butterfly3.dst3_takes RustDct.Type2And3Butterfly3.new).at _).mono (by omega)⟩
  · exact ⟨_, .butterfly4, (Type2And3Butterfly4.dct2_takes RustDct.Type2And3Butterfly4.new).mono (by omega), (Type2And3Butterfly4.dct3_takes RustDct.Type2And3Butterfly4.new).mono (by omega),
      (Type2And3Butterfly4.dst2_takes RustDct.Type2And3Butterfly4.new).mono (by omega), ((Type2And3Butterfly4.dst3_takes RustDct.Type2And3Butterfly4.new).at _).mono (by omega)⟩
  · exact ⟨_, .butterfly8, (Type2And3Butterfly8.dct2_takes RustDct.Type2And3Butterfly8.new).mono (by omega), (Type2And3Butterfly8.dct3_takes RustDct.Type2And3Butterfly8.new).mono (by omega),
      (Type2And3Butterfly8.dst2_takes RustDct.Type2And3Butterfly8.new).mono (by omega), ((Type2And3Butterfly8.dst3_takes RustDct.Type2And3Butterfly8.new).at _).mono (by omega)⟩
  · exact ⟨_, .butterfly16, (Type2And3Butterfly16.dct2_takes RustDct.Type2And3Butterfly16.new).mono (by omega), (Type2And3Butterfly16.dct3_takes RustDct.Type2And3Butterfly16.new).mono (by omega),
      (Type2And3Butterfly16.dst2_takes RustDct.Type2And3Butterfly16.new).mono (by omega), ((Type2And3Butterfly16.dst3_takes RustDct.Type2And3Butterfly16.new).at _).mono (by omega)⟩
  · rintro q half quarter hq hp lh lq sh sq ⟨ch, h1, h2⟩ ⟨cq, h3, h4⟩
    obtain ⟨i, hi⟩ := (isPowerOfTwo_iff _).1 hp
    obtain ⟨j, rfl⟩ : ∃ j, i = j + 3 := by
      refine ⟨i - 3, ?_⟩
      by_contra hc
      have : i ≤ 2 := by omega
      have : 2 ^ i ≤ 2 ^ 2 := Nat.pow_le_pow_right (by omega) this
      omega
    have eq : q = 2 ^ (j + 1) := by
      have : 2 ^ (j + 3) = 4 * 2 ^ (j + 1) := by ring
      omega
    have hnew := Type2And3SplitRadix.new_eq lh lq hp
    have t := splitRadix_takes (FromPlan.sane hf) h1.made h3.made (by omega) (by omega) hnew h2.dct2 h2.dct3 h4.dct2 h4.dct3
    refine ⟨_, .splitRadix h1 h3 (by omega) (by omega) hnew, ?_⟩
    have el : (RustDct.Type2And3SplitRadix.inst q half quarter).len = 4 * q := Type2And3SplitRadix.inst_len q half quarter
    have k1 : K q = 16 * q * (j + 2) := by rw [hK, eq]; exact steps23_pow _ j
    have k2 : K (2 * q) = 32 * q * (j + 3) := by
      rw [hK, show 2 * q = 2 ^ (j + 1 + 1) by rw [eq]; ring, steps23_pow, eq]; ring
    have k4 : K (4 * q) = 64 * q * (j + 4) := by
      rw [hK, show 4 * q = 2 ^ (j + 2 + 1) by rw [eq]; ring, steps23_pow, eq]; ring
    rw [el] at t
    have key : K (2 * q) + 2 * K q + 13 * (4 * q) + 10 ≤ K (4 * q) := by
      rw [k1, k2, k4]
      nlinarith
    exact t.mono (by omega) (by omega) (by omega) (by omega)
  · intro n hb hp
    have e : K n = cost (planFft n) + 30 * n + 30 := by
      rw [hK]
      unfold steps23
      refine if_neg ?_
      rintro ⟨h1, h2⟩
      have := hp ((isPowerOfTwo_iff n).2 ⟨_, h2.symm⟩)
      have : n = 2 := by omega
      subst this
      exact absurd hb (by decide)
    have el : (RustDct.Type2And3ConvertToFft.inst (planFft n)).len = n := (Type2And3ConvertToFft.len_inst (planFft n)).trans (hf n).1
    have ef : cost (RustDct.Type2And3ConvertToFft.inst (planFft n)).fft = cost (planFft n) := rfl
    refine ⟨_, .fft ⟨n, rfl⟩ (Type2And3ConvertToFft.new_eq (hf n).2.1), (Type2And3ConvertToFft.dct2_takes cost _).mono ?_, (Type2And3ConvertToFft.dct3_takes cost _).mono ?_,
      (Type2And3ConvertToFft.dst2_takes cost _).mono ?_, ((Type2And3ConvertToFft.dst3_takes cost _).at _).mono ?_⟩
    all_goals rw [el, ef, e]

theorem canon4_counts (hf : PlanFftSane planFft) (n : Nat) :
    ∃ o c, canon4 planFft n = .ok o ∧ Counts4 (FromPlan planFft) cost o c ∧ o.len = n ∧
      Takes o.dct4 (steps4 (fun m => cost (planFft m)) n) c.dct4 ∧ Takes o.dst4 (steps4 (fun m => cost (planFft m)) n) c.dst4 := by
  have naive : n < 7 → (n % 2 = 0 → n < 6) → ∃ o c, (RustDct.Type4Naive.new (T := T) n).map RustDct.Type4Naive.toObj = .ok o ∧ Counts4 (FromPlan planFft) cost o c ∧ o.len = n ∧
      Takes o.dct4 (steps4 (fun m => cost (planFft m)) n) c.dct4 ∧ Takes o.dst4 (steps4 (fun m => cost (planFft m)) n) c.dst4 := by
    intro h7 h6
    have h6 : n < 6 := by omega
    obtain ⟨x, hx⟩ : ∃ x : RustDct.Type4Naive T, RustDct.Type4Naive.new n = .ok x := ⟨_, rfl⟩
    have el := Type4Naive.len_new hx
    have es : steps4 (fun m => cost (planFft m)) n = 4 * x.len * x.len + 6 * x.len + 6 := by
      unfold steps4 naiveSteps
      rw [if_pos h6, el]
    exact ⟨x.toObj, _, by rw [hx]; rfl, .naive hx, el, es ▸ Type4Naive.dct4_takes x, es ▸ Type4Naive.dst4_takes x⟩
  unfold canon4
  by_cases h2 : n % 2 = 0
  · rw [if_pos h2]
    by_cases h6 : n < 6
    · rw [if_pos h6]
      exact naive (by omega) (fun _ => h6)
    · rw [if_neg h6]
      obtain ⟨i, ci, h1, hc, hl, ht⟩ := canon23_counts (cost := cost) hf (n / 2)
      have hx := Type4ConvertToType3Even.new_eq (inner := i) rfl
      have el : (RustDct.Type4ConvertToType3Even.inst i.len i).len = 2 * i.len := Type4ConvertToType3Even.inst_len i.len i
      have ed : (2 * i.len) / 2 = i.len := by omega
      have es : steps4 (fun m => cost (planFft m)) n = steps23 (fun m => cost (planFft m)) (n / 2) + steps23 (fun m => cost (planFft m)) (n / 2) + 9 * (RustDct.Type4ConvertToType3Even.inst i.len i).len + 10 := by
        rw [el, hl]
        unfold steps4
        rw [if_neg h6, if_pos h2]
        omega
      have d : TakesAt ((RustDct.Type4ConvertToType3Even.inst i.len i).len / 2) (RustDct.Type4ConvertToType3Even.inst i.len i).innerDct.dst3 (steps23 (fun m => cost (planFft m)) (n / 2)) ci.dst3 := by
        rw [el, ed]; exact ht.dst3
      refine ⟨_, _, by rw [h1]; simp only [bind, Except.bind]; rw [hx]; rfl, .type3 hc hx, ?_, ?_, ?_⟩
      · have : (RustDct.Type4ConvertToType3Even.inst i.len i).toObj.len = 2 * i.len := el
        omega
      · rw [es]; exact Type4ConvertToType3Even.dct4_takes _ (by omega) (ht.dct3.at _) d
      · rw [es]; exact Type4ConvertToType3Even.dst4_takes _ (by omega) (ht.dct3.at _) d
  · rw [if_neg h2]
    by_cases h7 : n < 7
    · rw [if_pos h7]
      exact naive h7 (fun h => absurd h h2)
    · rw [if_neg h7]
      have hx := Type4ConvertToFftOdd.new_eq (fft := planFft n) (by rw [(hf _).1]; omega) (hf n).2.1
      have el : (RustDct.Type4ConvertToFftOdd.inst (planFft n)).len = n := (hf n).1
      have es : steps4 (fun m => cost (planFft m)) n = cost (RustDct.Type4ConvertToFftOdd.inst (planFft n)).fft + 30 * (RustDct.Type4ConvertToFftOdd.inst (planFft n)).len + 30 := by
        unfold steps4
        rw [if_neg (by omega), if_neg h2, el]; rfl
      exact ⟨_, _, by rw [hx]; rfl, .fft ⟨_, rfl⟩ hx, (hf n).1, es ▸ Type4ConvertToFftOdd.dct4_takes cost _, es ▸ Type4ConvertToFftOdd.dst4_takes cost _⟩

theorem map_ok {α β : Type} {e : Except Err α} {f : α → β} {b : β} (h : e.map f = .ok b) : ∃ x, e = .ok x ∧ f x = b := by
  cases e with
  | error _ => cases h
  | ok x => injection h with h; exact ⟨x, rfl, h⟩

/-- The bounds for planned instances; and a quadratic lower bound for the transforms without a fast algorithm. -/
theorem planned_steps (hf : PlanFftSane planFft) (h : Planned planFft calls k p n s) :
    ∃ c, Times (FromPlan planFft) cost k p c n s ∧ c.within n (plannedSteps (fun m => cost (planFft m)) k n) ∧
      (¬ k.fast → ∀ m m', ValidCall n s m → (c m).1 = .ok m' → n * n ≤ (c m).2) := by
  cases h with
  | @dct1 n a s' h =>
    have e := Yields.canon (fun W => planDct1_yields n) h
    by_cases hn : 2 ≤ n
    · unfold canonDct1 at e
      by_cases h10 : n < 10
      · rw [if_pos h10] at e
        obtain ⟨x, hx, hx'⟩ := map_ok e
        have el := Dct1Naive.len_new hx
        rw [← hx']
        have t := Times.dct1 (okFft := FromPlan planFft) (cost := cost) (.naive hx)
        rw [show x.toObj.len = n from el] at t
        have b := (Dct1Naive.dct1_takes x).within n
        rw [el] at b
        refine ⟨_, t, ?_, fun hk => absurd trivial hk⟩
        · rw [plannedSteps, if_pos h10]
          exact b
      · rw [if_neg h10] at e
        have hx := Dct1ConvertToFft.new_eq (fft := planFft ((n - 1) * 2)) (by rw [(hf _).1]; omega) (hf _).2.1
        rw [hx] at e
        injection e with e
        rw [← e]
        have el : (RustDct.Dct1ConvertToFft.inst (planFft ((n - 1) * 2))).len = n := by
          simp only [Dct1ConvertToFft.inst, (hf _).1]; omega
        have t := Times.dct1 (okFft := FromPlan planFft) (cost := cost) (.fft ⟨_, rfl⟩ hx)
        rw [show (RustDct.Dct1ConvertToFft.inst (planFft ((n - 1) * 2))).toObj.len = n from el] at t
        have b := (Dct1ConvertToFft.dct1_takes cost (RustDct.Dct1ConvertToFft.inst (planFft ((n - 1) * 2)))).within n
        rw [el] at b
        refine ⟨_, t, ?_, fun hk => absurd trivial hk⟩
        rw [plannedSteps, if_neg h10]
        exact b
    · obtain ⟨e', he, -⟩ := canonDct1_err (planFft := planFft) hn
      rw [he] at e; cases e
  | @dst1 n a s' h =>
    have e := Yields.canon (fun W => planDst1_yields n) h
    unfold canonDst1 at e
    by_cases h10 : n < 25
    · rw [if_pos h10] at e
      obtain ⟨x, hx, hx'⟩ := map_ok e
      have el := Dst1Naive.len_new hx
      rw [← hx']
      have t := Times.dst1 (okFft := FromPlan planFft) (cost := cost) (.naive hx)
      rw [show x.toObj.len = n from el] at t
      have b := (Dst1Naive.dst1_takes x).within n
      rw [el] at b
      refine ⟨_, t, ?_, fun hk => absurd trivial hk⟩
      · rw [plannedSteps, if_pos h10]
        exact b
    · rw [if_neg h10] at e
      have hx := Dst1ConvertToFft.new_eq (fft := planFft ((n + 1) * 2)) (by rw [(hf _).1]; omega) (hf _).2.1 (by rw [(hf _).1]; omega)
      rw [hx] at e
      injection e with e
      rw [← e]
      have el : (RustDct.Dst1ConvertToFft.inst (planFft ((n + 1) * 2))).len = n := by
        simp only [Dst1ConvertToFft.inst, (hf _).1]; omega
      have t := Times.dst1 (okFft := FromPlan planFft) (cost := cost) (.fft ⟨_, rfl⟩ hx)
      rw [show (RustDct.Dst1ConvertToFft.inst (planFft ((n + 1) * 2))).toObj.len = n from el] at t
      have b := (Dst1ConvertToFft.dst1_takes cost (RustDct.Dst1ConvertToFft.inst (planFft ((n + 1) * 2)))).within n
      rw [el] at b
      refine ⟨_, t, ?_, fun hk => absurd trivial hk⟩
      rw [plannedSteps, if_neg h10]
      exact b
  | @dst6 n a s' h =>
    have e := Yields.canon (fun W => planDst6_yields n) h
    unfold canonDst6 at e
    by_cases h10 : n < 45
    · rw [if_pos h10] at e
      obtain ⟨x, hx, hx'⟩ := map_ok e
      have el := Dst6And7Naive.len_new hx
      rw [← hx']
      have t := Times.dst6 (okFft := FromPlan planFft) (cost := cost) (.naive hx)
      rw [show x.toObj.len = n from el] at t
      have b := (Dst6And7Naive.dst6_takes x).within n
      rw [el] at b
      refine ⟨_, t, ?_, fun hk => absurd trivial hk⟩
      · rw [plannedSteps, if_pos h10]
        exact b
    · rw [if_neg h10] at e
      have hx := Dst6And7ConvertToFft.new_eq (fft := planFft (n * 2 + 1)) (by rw [(hf _).1]; omega) (hf _).2.1
      rw [hx] at e
      injection e with e
      rw [← e]
      have el : (RustDct.Dst6And7ConvertToFft.inst (planFft (n * 2 + 1))).len = n := by
        simp only [Dst6And7ConvertToFft.inst, (hf _).1]; omega
      have t := Times.dst6 (okFft := FromPlan planFft) (cost := cost) (.fft ⟨_, rfl⟩ hx)
      rw [show (RustDct.Dst6And7ConvertToFft.inst (planFft (n * 2 + 1))).toObj.len = n from el] at t
      have b := (Dst6And7ConvertToFft.dst6_takes cost (RustDct.Dst6And7ConvertToFft.inst (planFft (n * 2 + 1)))).within n
      rw [el] at b
      refine ⟨_, t, ?_, fun hk => absurd trivial hk⟩
      rw [plannedSteps, if_neg h10]
      exact b
  | @dst7 n a s' h =>
    have e := Yields.canon (fun W => planDst6_yields n) h
    unfold canonDst6 at e
    by_cases h10 : n < 45
    · rw [if_pos h10] at e
      obtain ⟨x, hx, hx'⟩ := map_ok e
      have el := Dst6And7Naive.len_new hx
      rw [← hx']
      have t := Times.dst7 (okFft := FromPlan planFft) (cost := cost) (.naive hx)
      rw [show x.toObj.len = n from el] at t
      have b := (Dst6And7Naive.dst7_takes x).within n
      rw [el] at b
      refine ⟨_, t, ?_, fun hk => absurd trivial hk⟩
      · rw [plannedSteps, if_pos h10]
        exact b
    · rw [if_neg h10] at e
      have hx := Dst6And7ConvertToFft.new_eq (fft := planFft (n * 2 + 1)) (by rw [(hf _).1]; omega) (hf _).2.1
      rw [hx] at e
      injection e with e
      rw [← e]
      have el : (RustDct.Dst6And7ConvertToFft.inst (planFft (n * 2 + 1))).len = n := by
        simp only [Dst6And7ConvertToFft.inst, (hf _).1]; omega
      have t := Times.dst7 (okFft := FromPlan planFft) (cost := cost) (.fft ⟨_, rfl⟩ hx)
      rw [show (RustDct.Dst6And7ConvertToFft.inst (planFft (n * 2 + 1))).toObj.len = n from el] at t
      have b := (Dst6And7ConvertToFft.dst7_takes cost (RustDct.Dst6And7ConvertToFft.inst (planFft (n * 2 + 1)))).within n
      rw [el] at b
      refine ⟨_, t, ?_, fun hk => absurd trivial hk⟩
      rw [plannedSteps, if_neg h10]
      exact b
  | @dct5 n a s' h =>
    have e := Yields.canon (fun W => planDct5_yields n) h
    unfold canonDct5 at e
    obtain ⟨x, hx, hx'⟩ := map_ok e
    have el := Dct5Naive.len_new hx
    rw [← hx']
    have t := Times.dct5 (okFft := FromPlan planFft) (cost := cost) (.naive hx)
    rw [show x.toObj.len = n from el] at t
    have b := (Dct5Naive.dct5_takes x).within n
    rw [el] at b
    refine ⟨_, t, ?_, fun _ m m2 hv e => ?_⟩
    · rw [plannedSteps]
      exact b
    · have := Dct5Naive.dct5_costs x m m2 (hv.1.trans el.symm) hv.2 e
      rwa [el] at this
  | @dct6 n a s' h =>
    have e := Yields.canon (fun W => planDct6_yields n) h
    unfold canonDct6 at e
    obtain ⟨x, hx, hx'⟩ := map_ok e
    have el := Dct6And7Naive.len_new hx
    rw [← hx']
    have t := Times.dct6 (okFft := FromPlan planFft) (cost := cost) (.naive hx)
    rw [show x.toObj.len = n from el] at t
    have b := (Dct6And7Naive.dct6_takes x).within n
    rw [el] at b
    refine ⟨_, t, ?_, fun _ m m2 hv e => ?_⟩
    · rw [plannedSteps]
      exact b
    · have := Dct6And7Naive.dct6_costs x m m2 (hv.1.trans el.symm) hv.2 e
      rwa [el] at this
  | @dct7 n a s' h =>
    have e := Yields.canon (fun W => planDct6_yields n) h
    unfold canonDct6 at e
    obtain ⟨x, hx, hx'⟩ := map_ok e
    have el := Dct6And7Naive.len_new hx
    rw [← hx']
    have t := Times.dct7 (okFft := FromPlan planFft) (cost := cost) (.naive hx)
    rw [show x.toObj.len = n from el] at t
    have b := (Dct6And7Naive.dct7_takes x).within n
    rw [el] at b
    refine ⟨_, t, ?_, fun _ m m2 hv e => ?_⟩
    · rw [plannedSteps]
      exact b
    · have := Dct6And7Naive.dct7_costs x m m2 (hv.1.trans el.symm) hv.2 e
      rwa [el] at this
  | @dct8 n a s' h =>
    have e := Yields.canon (fun W => planDct8_yields n) h
    unfold canonDct8 at e
    obtain ⟨x, hx, hx'⟩ := map_ok e
    have el := Dct8Naive.len_new hx
    rw [← hx']
    have t := Times.dct8 (okFft := FromPlan planFft) (cost := cost) (.naive hx)
    rw [show x.toObj.len = n from el] at t
    have b := (Dct8Naive.dct8_takes x).within n
    rw [el] at b
    refine ⟨_, t, ?_, fun _ m m2 hv e => ?_⟩
    · rw [plannedSteps]
      exact b
    · have := Dct8Naive.dct8_costs x m m2 (hv.1.trans el.symm) hv.2 e
      rwa [el] at this
  | @dst5 n a s' h =>
    have e := Yields.canon (fun W => planDst5_yields n) h
    unfold canonDst5 at e
    obtain ⟨x, hx, hx'⟩ := map_ok e
    have el := Dst5Naive.len_new hx
    rw [← hx']
    have t := Times.dst5 (okFft := FromPlan planFft) (cost := cost) (.naive hx)
    rw [show x.toObj.len = n from el] at t
    have b := (Dst5Naive.dst5_takes x).within n
    rw [el] at b
    refine ⟨_, t, ?_, fun _ m m2 hv e => ?_⟩
    · rw [plannedSteps]
      exact b
    · have := Dst5Naive.dst5_costs x m m2 (hv.1.trans el.symm) hv.2 e
      rwa [el] at this
  | @dst8 n a s' h =>
    have e := Yields.canon (fun W => planDst8_yields n) h
    unfold canonDst8 at e
    obtain ⟨x, hx, hx'⟩ := map_ok e
    have el := Dst8Naive.len_new hx
    rw [← hx']
    have t := Times.dst8 (okFft := FromPlan planFft) (cost := cost) (.naive hx)
    rw [show x.toObj.len = n from el] at t
    have b := (Dst8Naive.dst8_takes x).within n
    rw [el] at b
    refine ⟨_, t, ?_, fun _ m m2 hv e => ?_⟩
    · rw [plannedSteps]
      exact b
    · have := Dst8Naive.dst8_costs x m m2 (hv.1.trans el.symm) hv.2 e
      rwa [el] at this
  | @dct2 n a s' h =>
    have e := Yields.canon (fun W => planDct2_yields n) h
    obtain ⟨o, c, ho, hc, hl, ht⟩ := canon23_counts (cost := cost) hf n
    rw [ho] at e; injection e with e; subst e
    have t := Times.dct2 hc
    rw [hl] at t
    exact ⟨_, t, ht.dct2.within n, fun hk => absurd trivial hk⟩
  | @dct3 n a s' h hn =>
    have e := Yields.canon (fun W => planDct2_yields n) h
    obtain ⟨o, c, ho, hc, hl, ht⟩ := canon23_counts (cost := cost) hf n
    rw [ho] at e; injection e with e; subst e
    have t := Times.dct3 hc
    rw [hl] at t
    exact ⟨_, t, ht.dct3.within n, fun hk => absurd trivial hk⟩
  | @dst2 n a s' h =>
    have e := Yields.canon (fun W => planDct2_yields n) h
    obtain ⟨o, c, ho, hc, hl, ht⟩ := canon23_counts (cost := cost) hf n
    rw [ho] at e; injection e with e; subst e
    have t := Times.dst2 hc
    rw [hl] at t
    exact ⟨_, t, ht.dst2.within n, fun hk => absurd trivial hk⟩
  | @dst3 n a s' h hn =>
    have e := Yields.canon (fun W => planDct2_yields n) h
    obtain ⟨o, c, ho, hc, hl, ht⟩ := canon23_counts (cost := cost) hf n
    rw [ho] at e; injection e with e; subst e
    have t := Times.dst3 hc
    rw [hl] at t
    exact ⟨_, t, hl ▸ ht.dst3.within, fun hk => absurd trivial hk⟩
  | @dct4 n a s' h hn =>
    have e := Yields.canon (fun W => planDct4_yields n) h
    obtain ⟨o, c, ho, hc, hl, h1, h2⟩ := canon4_counts (cost := cost) hf n
    rw [ho] at e; injection e with e; subst e
    have t := Times.dct4 hc
    rw [hl] at t
    exact ⟨_, t, h1.within n, fun hk => absurd trivial hk⟩
  | @dst4 n a s' h hn =>
    have e := Yields.canon (fun W => planDct4_yields n) h
    obtain ⟨o, c, ho, hc, hl, h1, h2⟩ := canon4_counts (cost := cost) hf n
    rw [ho] at e; injection e with e; subst e
    have t := Times.dst4 hc
    rw [hl] at t
    exact ⟨_, t, h2.within n, fun hk => absurd trivial hk⟩

theorem planned_mdct_steps (hf : PlanFftSane planFft) {w : Nat → List T} {o : MdctObj T} (h : PlannedMdct planFft calls n w o) :
    o.len = n ∧ ∃ c, CountsMdct (FromPlan planFft) cost o c ∧ c.mdctWithin (steps4 (fun m => cost (planFft m)) n + 22 * n) ∧
      c.imdctWithin (steps4 (fun m => cost (planFft m)) n + 22 * n) := by
  have e := h.canon hf.shape
  obtain ⟨i, ci, ho, hc, hl, h1, h2⟩ := canon4_counts (cost := cost) hf n
  refine ⟨(h.made hf.shape).1, ?_⟩
  unfold canonMdct at e
  rw [ho] at e
  obtain ⟨x, hx, rfl⟩ := map_ok e
  refine ⟨_, .viaDct4 hc hx, ?_, ?_⟩
  · obtain ⟨g1, g2, rfl⟩ := MdctViaDct4.new_shape hx
    have := (MdctViaDct4.mdct_takes (inner := ci) (⟨i, effectiveWindow n calls w (i.len * 2), i.len + i.scratchLen⟩ : RustDct.MdctViaDct4 T) h1).le
    rw [show RustDct.MdctViaDct4.len _ = i.len from rfl, hl] at this
    exact hl ▸ this
  · obtain ⟨g1, g2, rfl⟩ := MdctViaDct4.new_shape hx
    have := (MdctViaDct4.imdct_takes (inner := ci) (⟨i, effectiveWindow n calls w (i.len * 2), i.len + i.scratchLen⟩ : RustDct.MdctViaDct4 T) h1).le
    rw [show RustDct.MdctViaDct4.len _ = i.len from rfl, hl] at this
    exact hl ▸ this

/-! ### `n log n` -/

theorem log_two_mul {n : Nat} (hn : 1 ≤ n) : Nat.log 2 (n * 2) = Nat.log 2 n + 1 := by
  rw [Nat.log_mul_base (by omega) (by omega)]

theorem steps23_nlogn {fft : Nat → Nat} {A : Nat} (h : ∀ m, 1 ≤ m → fft m ≤ A * m * (Nat.log 2 m + 1)) {n : Nat} (hn : 1 ≤ n) :
    steps23 fft n ≤ (A + 60) * n * (Nat.log 2 n + 1) := by
  unfold steps23
  have hl : n ≤ n * (Nat.log 2 n + 1) := Nat.le_mul_of_pos_right n (by omega)
  split
  · nlinarith
  · have := h n hn
    nlinarith

theorem naive_nlogn {n : Nat} (hn : 1 ≤ n) (hB : n ≤ 44) : naiveSteps n ≤ 100 * n * (Nat.log 2 n + 1) := by
  unfold naiveSteps
  by_cases h : n ≤ 16
  · have hl : n ≤ n * (Nat.log 2 n + 1) := Nat.le_mul_of_pos_right n (by omega)
    nlinarith
  · have : 4 ≤ Nat.log 2 n := Nat.le_log_of_pow_le (by omega) (by omega)
    have hl : n * 5 ≤ n * (Nat.log 2 n + 1) := Nat.mul_le_mul_left n (by omega)
    nlinarith

theorem steps4_nlogn {fft : Nat → Nat} {A : Nat} (h : ∀ m, 1 ≤ m → fft m ≤ A * m * (Nat.log 2 m + 1)) {n : Nat} (hn : 1 ≤ n) :
    steps4 fft n ≤ (A + 100) * n * (Nat.log 2 n + 1) := by
  unfold steps4
  have hl : n ≤ n * (Nat.log 2 n + 1) := Nat.le_mul_of_pos_right n (by omega)
  split
  · have := naive_nlogn hn (by omega)
    nlinarith
  split
  · have h1 := steps23_nlogn h (show 1 ≤ n / 2 by omega)
    have h2 : Nat.log 2 (n / 2) ≤ Nat.log 2 n := Nat.log_mono_right (by omega)
    have h3 : 2 * (n / 2) ≤ n := by omega
    have h4 : (A + 60) * (2 * (n / 2)) * (Nat.log 2 (n / 2) + 1) ≤ (A + 60) * n * (Nat.log 2 n + 1) :=
      Nat.mul_le_mul (Nat.mul_le_mul_left _ h3) (by omega)
    nlinarith
  · have := h n hn
    nlinarith

/-- An FFT of a length up to `4 n`. -/
theorem fft_nlogn {fft : Nat → Nat} {A : Nat} (h : ∀ m, 1 ≤ m → fft m ≤ A * m * (Nat.log 2 m + 1)) {n m : Nat} (hn : 1 ≤ n) (hm : 1 ≤ m) (hmn : m ≤ 4 * n) :
    fft m ≤ 12 * A * n * (Nat.log 2 n + 1) := by
  have h1 : Nat.log 2 m ≤ Nat.log 2 n + 2 := by
    calc Nat.log 2 m ≤ Nat.log 2 (n * 2 * 2) := Nat.log_mono_right (by omega)
      _ = _ := by rw [log_two_mul (by omega), log_two_mul hn]
  calc fft m ≤ A * m * (Nat.log 2 m + 1) := h m hm
    _ ≤ A * (4 * n) * (3 * (Nat.log 2 n + 1)) := Nat.mul_le_mul (Nat.mul_le_mul_left _ hmn) (by omega)
    _ = _ := by ring

theorem planned_nlogn {fft : Nat → Nat} {A : Nat} (h : ∀ m, 1 ≤ m → fft m ≤ A * m * (Nat.log 2 m + 1)) {k : Kind} (hk : k.fast) {n : Nat} (hn : 1 ≤ n) :
    plannedSteps fft k n ≤ (12 * A + 100) * n * (Nat.log 2 n + 1) := by
  have hl : n ≤ n * (Nat.log 2 n + 1) := Nat.le_mul_of_pos_right n (by omega)
  have big : ∀ {m : Nat}, 1 ≤ m → m ≤ 4 * n → fft m + 30 * n + 30 ≤ (12 * A + 100) * n * (Nat.log 2 n + 1) := by
    intro m h1 h2
    have := fft_nlogn h hn h1 h2
    nlinarith
  have sm : n < 45 → naiveSteps n ≤ (12 * A + 100) * n * (Nat.log 2 n + 1) := by
    intro hB
    have := naive_nlogn hn (by omega)
    nlinarith
  have t23 := steps23_nlogn h hn
  have t4 := steps4_nlogn h hn
  cases k <;> first | exact absurd hk id | skip
  all_goals simp only [plannedSteps]
  · split
    · exact sm (by omega)
    · exact big (by omega) (by omega)
  · nlinarith
  · nlinarith
  · nlinarith
  · split
    · exact sm (by omega)
    · exact big (by omega) (by omega)
  · nlinarith
  · nlinarith
  · nlinarith
  all_goals
    split
    · exact sm (by omega)
    · exact big (by omega) (by omega)

end
end RustDct.Counted
