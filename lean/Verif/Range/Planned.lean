import Verif.Range.Even4
import Verif.Float.Planned
/-!
# What the planner returns, in arithmetic of bounded range
-/

set_option linter.all false

namespace RustDct
open Real

variable {T F : Type} [F64 F] [DctNum T F] {R : Ieee T F} {r : ℕ} {planFft : ℕ → Fft T} {γ μ : ℕ → ℕ}

theorem FftRange.shape {fft : Fft T} {γ μ : ℕ} (h : FftRange R fft γ μ) : fft.direction = .forward := h.1
theorem PlanFftRange.shape (hf : PlanFftRange R planFft γ μ) : PlanFftShape planFft := fun n => ⟨(hf n).1, (hf n).2.1⟩
theorem PlanFftRange.rel (hf : PlanFftRange R planFft γ μ) (n : ℕ) (hn : n ≤ 2 ^ 62) : ∃ G, FftRuns (planFft n) G ∧ DftRel R n G (γ n) (μ n) := by
  obtain ⟨h1, -, h2, h3, h4⟩ := hf n
  obtain ⟨G, a, b⟩ := (h4 hn).rel h2 (by rw [h1]; exact h3)
  exact ⟨G, a, by rwa [h1] at b⟩

theorem canonDct1_rel (hr : R.Twiddles r) (hf : PlanFftRange R planFft γ μ) {n : ℕ} (hn : 2 ≤ n) (hn' : n ≤ 2 ^ 60) {o : Obj1 T} (ho : canonDct1 planFft n = .ok o) :
    PRel R .dct1 o.run n o.scratchLen (Kind.gain γ .dct1 n) (Kind.units r μ .dct1 n) := by
  unfold canonDct1 at ho
  simp only [Kind.gain, Kind.units]
  by_cases h : n < 10
  · rw [if_pos h] at ho; rw [if_pos h, if_pos h]
    have hx := Dct1Naive.new_tab (T := T) hn
    have hl := Dct1Naive.len_new hx
    rw [hx] at ho
    injection ho with ho
    subst ho
    change PRel R .dct1 _ n (Dct1Naive.len _) _ _
    rw [hl]
    exact Dct1Naive.rel_dct1 hr hn hn'
  · rw [if_neg h] at ho; rw [if_neg h, if_neg h]
    rw [Dct1ConvertToFft.new_eq (fft := planFft ((n - 1) * 2)) (by rw [(hf.shape _).1]; omega) (hf.shape _).2] at ho
    injection ho with ho
    subst ho
    obtain ⟨G, hG, hD⟩ := hf.rel ((n - 1) * 2) (by omega)
    exact Dct1ConvertToFft.rel hG hn (hf.shape _).1 hD

theorem canonDct5_rel_dct5 (hr : R.Twiddles r) {n : ℕ} (hn : 1 ≤ n) (hn' : n ≤ 2 ^ 60) {o : Obj1 T} (ho : canonDct5 n = .ok o) : PRel R .dct5 o.run n o.scratchLen (n + 1) (n + r + 3) := by
  unfold canonDct5 at ho
  have hx := Dct5Naive.new_tab (T := T) hn
  have hl := Dct5Naive.len_new hx
  rw [hx] at ho
  injection ho with ho
  subst ho
  change PRel R .dct5 _ n (Dct5Naive.len _) _ _
  rw [hl]
  exact Dct5Naive.rel_dct5 hr hn hn'

theorem canonDct6_rel_dct6 (hr : R.Twiddles r) {n : ℕ} (hn : 1 ≤ n) (hn' : n ≤ 2 ^ 60) {o : Obj67 T} (ho : canonDct6 n = .ok o) : PRel R .dct6 o.t6 n o.scratchLen (n + 1) (n + r + 3) := by
  unfold canonDct6 at ho
  have hx := Dct6And7Naive.new_tab (T := T) hn
  have hl := Dct6And7Naive.len_new hx
  rw [hx] at ho
  injection ho with ho
  subst ho
  change PRel R .dct6 _ n (Dct6And7Naive.len _) _ _
  rw [hl]
  exact Dct6And7Naive.rel_dct6 hr hn hn'

theorem canonDct6_rel_dct7 (hr : R.Twiddles r) {n : ℕ} (hn : 1 ≤ n) (hn' : n ≤ 2 ^ 60) {o : Obj67 T} (ho : canonDct6 n = .ok o) : PRel R .dct7 o.t7 n o.scratchLen (n + 1) (n + r + 3) := by
  unfold canonDct6 at ho
  have hx := Dct6And7Naive.new_tab (T := T) hn
  have hl := Dct6And7Naive.len_new hx
  rw [hx] at ho
  injection ho with ho
  subst ho
  change PRel R .dct7 _ n (Dct6And7Naive.len _) _ _
  rw [hl]
  exact Dct6And7Naive.rel_dct7 hr hn hn'

theorem canonDct8_rel_dct8 (hr : R.Twiddles r) {n : ℕ} (hn : 1 ≤ n) (hn' : n ≤ 2 ^ 60) {o : Obj1 T} (ho : canonDct8 n = .ok o) : PRel R .dct8 o.run n o.scratchLen (n + 1) (n + r + 3) := by
  unfold canonDct8 at ho
  have hx := Dct8Naive.new_tab (T := T) (n := n)
  have hl := Dct8Naive.len_new hx
  rw [hx] at ho
  injection ho with ho
  subst ho
  change PRel R .dct8 _ n (Dct8Naive.len _) _ _
  rw [hl]
  exact Dct8Naive.rel_dct8 hr hn hn'

theorem canonDst5_rel_dst5 (hr : R.Twiddles r) {n : ℕ} (hn : 1 ≤ n) (hn' : n ≤ 2 ^ 60) {o : Obj1 T} (ho : canonDst5 n = .ok o) : PRel R .dst5 o.run n o.scratchLen (n + 1) (n + r + 3) := by
  unfold canonDst5 at ho
  have hx := Dst5Naive.new_tab (T := T) (n := n)
  have hl := Dst5Naive.len_new hx
  rw [hx] at ho
  injection ho with ho
  subst ho
  change PRel R .dst5 _ n (Dst5Naive.len _) _ _
  rw [hl]
  exact Dst5Naive.rel_dst5 hr hn hn'

theorem canonDst8_rel_dst8 (hr : R.Twiddles r) {n : ℕ} (hn : 1 ≤ n) (hn' : n ≤ 2 ^ 60) {o : Obj1 T} (ho : canonDst8 n = .ok o) : PRel R .dst8 o.run n o.scratchLen (n + 1) (n + r + 3) := by
  unfold canonDst8 at ho
  have hx := Dst8Naive.new_tab (T := T) hn
  have hl := Dst8Naive.len_new hx
  rw [hx] at ho
  injection ho with ho
  subst ho
  change PRel R .dst8 _ n (Dst8Naive.len _) _ _
  rw [hl]
  exact Dst8Naive.rel_dst8 hr hn hn'

theorem canonDst1_rel (hr : R.Twiddles r) (hf : PlanFftRange R planFft γ μ) {n : ℕ} (hn : 1 ≤ n) (hn' : n ≤ 2 ^ 60) {o : Obj1 T} (ho : canonDst1 planFft n = .ok o) :
    PRelZ R .dst1 o.run n o.scratchLen (Kind.gain γ .dst1 n) (Kind.units r μ .dst1 n) ∧ (n < 25 → PRel R .dst1 o.run n o.scratchLen (Kind.gain γ .dst1 n) (Kind.units r μ .dst1 n)) := by
  unfold canonDst1 at ho
  simp only [Kind.gain, Kind.units]
  by_cases h : n < 25
  · rw [if_pos h] at ho; simp only [if_pos h]
    have hx := Dst1Naive.new_tab (T := T) (n := n)
    have hl := Dst1Naive.len_new hx
    rw [hx] at ho
    injection ho with ho
    subst ho
    have : PRel R .dst1 (Dst1Naive.dst1 (⟨vec ((n + 1) * 2) (Dst1Naive.tab n)⟩ : Dst1Naive T)) n (Dst1Naive.len (⟨vec ((n + 1) * 2) (Dst1Naive.tab n)⟩ : Dst1Naive T)) (n + 1) (n + r + 3) := by
      rw [hl]
      exact Dst1Naive.rel_dst1 hr hn hn'
    exact ⟨this.toZ, fun _ => this⟩
  · rw [if_neg h] at ho; simp only [if_neg h]
    rw [Dst1ConvertToFft.new_eq (fft := planFft ((n + 1) * 2)) (by rw [(hf.shape _).1]; omega) (hf.shape _).2 (by rw [(hf.shape _).1]; omega)] at ho
    injection ho with ho
    subst ho
    obtain ⟨G, hG, hD⟩ := hf.rel ((n + 1) * 2) (by omega)
    exact ⟨Dst1ConvertToFft.rel hG (hf.shape _).1 hD, fun h' => absurd h' h⟩

theorem canonDst6_rel_dst6 (hr : R.Twiddles r) (hf : PlanFftRange R planFft γ μ) {n : ℕ} (hn : 1 ≤ n) (hn' : n ≤ 2 ^ 60) {o : Obj67 T} (ho : canonDst6 planFft n = .ok o) :
    PRelZ R .dst6 o.t6 n o.scratchLen (Kind.gain γ .dst6 n) (Kind.units r μ .dst6 n) ∧ (n < 45 → PRel R .dst6 o.t6 n o.scratchLen (Kind.gain γ .dst6 n) (Kind.units r μ .dst6 n)) := by
  unfold canonDst6 at ho
  simp only [Kind.gain, Kind.units]
  by_cases h : n < 45
  · rw [if_pos h] at ho; simp only [if_pos h]
    have hx := Dst6And7Naive.new_tab (T := T) (n := n)
    have hl := Dst6And7Naive.len_new hx
    rw [hx] at ho
    injection ho with ho
    subst ho
    have : PRel R .dst6 (Dst6And7Naive.dst6 (⟨vec (n * 4 + 2) (Dst6And7Naive.tab n)⟩ : Dst6And7Naive T)) n (Dst6And7Naive.len (⟨vec (n * 4 + 2) (Dst6And7Naive.tab n)⟩ : Dst6And7Naive T)) (n + 1) (n + r + 3) := by
      rw [hl]
      exact Dst6And7Naive.rel_dst6 hr hn hn'
    exact ⟨this.toZ, fun _ => this⟩
  · rw [if_neg h] at ho; simp only [if_neg h]
    rw [Dst6And7ConvertToFft.new_eq (fft := planFft (n * 2 + 1)) (by rw [(hf.shape _).1]; omega) (hf.shape _).2] at ho
    injection ho with ho
    subst ho
    obtain ⟨G, hG, hD⟩ := hf.rel (n * 2 + 1) (by omega)
    exact ⟨Dst6And7ConvertToFft.rel_dst6 hG (hf.shape _).1 hD, fun h' => absurd h' h⟩

theorem canonDst6_rel_dst7 (hr : R.Twiddles r) (hf : PlanFftRange R planFft γ μ) {n : ℕ} (hn : 1 ≤ n) (hn' : n ≤ 2 ^ 60) {o : Obj67 T} (ho : canonDst6 planFft n = .ok o) :
    PRelZ R .dst7 o.t7 n o.scratchLen (Kind.gain γ .dst7 n) (Kind.units r μ .dst7 n) ∧ (n < 45 → PRel R .dst7 o.t7 n o.scratchLen (Kind.gain γ .dst7 n) (Kind.units r μ .dst7 n)) := by
  unfold canonDst6 at ho
  simp only [Kind.gain, Kind.units]
  by_cases h : n < 45
  · rw [if_pos h] at ho; simp only [if_pos h]
    have hx := Dst6And7Naive.new_tab (T := T) (n := n)
    have hl := Dst6And7Naive.len_new hx
    rw [hx] at ho
    injection ho with ho
    subst ho
    have : PRel R .dst7 (Dst6And7Naive.dst7 (⟨vec (n * 4 + 2) (Dst6And7Naive.tab n)⟩ : Dst6And7Naive T)) n (Dst6And7Naive.len (⟨vec (n * 4 + 2) (Dst6And7Naive.tab n)⟩ : Dst6And7Naive T)) (n + 1) (n + r + 3) := by
      rw [hl]
      exact Dst6And7Naive.rel_dst7 hr hn hn'
    exact ⟨this.toZ, fun _ => this⟩
  · rw [if_neg h] at ho; simp only [if_neg h]
    rw [Dst6And7ConvertToFft.new_eq (fft := planFft (n * 2 + 1)) (by rw [(hf.shape _).1]; omega) (hf.shape _).2] at ho
    injection ho with ho
    subst ho
    obtain ⟨G, hG, hD⟩ := hf.rel (n * 2 + 1) (by omega)
    exact ⟨Dst6And7ConvertToFft.rel_dst7 hG (hf.shape _).1 hD, fun h' => absurd h' h⟩

theorem canon23_rel (hr : R.Twiddles r) (hf : PlanFftRange R planFft γ μ) {n : ℕ} (hn : 1 ≤ n) (hn' : n ≤ 2 ^ 60) {o : Obj23 T} (ho : canon23 planFft n = .ok o) :
    Rel23 R n o (gain23 γ n) (units23 r μ n) := by
  unfold gain23 units23
  by_cases h3 : n = 3
  · simp only [if_pos h3]
    subst h3
    rw [canon23, if_pos (by rfl)] at ho
    injection ho with ho
    subst ho
    exact Type2And3Butterfly3.rel hr
  · simp only [if_neg h3]
    by_cases hp : 2 ≤ n ∧ n = 2 ^ Nat.log 2 n
    · simp only [if_pos hp]
      obtain ⟨h2, hp⟩ := hp
      obtain ⟨j, hj⟩ : ∃ j, Nat.log 2 n = j + 1 := ⟨Nat.log 2 n - 1, by have := Nat.log_pos (by norm_num : 1 < 2) h2; omega⟩
      rw [hj] at hp ⊢
      obtain ⟨o', ho', this⟩ := canon23_pow2_rel (R := R) hr hf.shape j (by rw [← hp]; exact hn')
      rw [← hp, ho] at ho'
      injection ho' with ho'
      subst ho'
      rw [pow_add 2 (j + 1), ← hp] at this
      rw [show j + 1 - 1 = j by omega, show (j + 1 + 1) / 2 = j / 2 + 1 by omega, show (j + 1 + 1) % 2 = j % 2 by omega]
      exact this
    · simp only [if_neg hp]
      have hp' : isPowerOfTwo n = true → n = 1 := fun h => by
        obtain ⟨k, rfl⟩ := (isPowerOfTwo_iff _).1 h
        rcases k with _ | k
        · rfl
        · exact absurd ⟨by rw [pow_succ]; have := Nat.one_le_two_pow (n := k); omega, by rw [Nat.log_pow (by norm_num)]⟩ hp
      have hb : dct2Butterflies.contains n = false := by
        have : ∀ k, isPowerOfTwo (2 ^ k) = true := fun k => (isPowerOfTwo_iff _).2 ⟨k, rfl⟩
        have h2 : n ≠ 2 := fun e => by have := hp' (e ▸ this 1); omega
        have h4 : n ≠ 4 := fun e => by have := hp' (e ▸ this 2); omega
        have h8 : n ≠ 8 := fun e => by have := hp' (e ▸ this 3); omega
        have h16 : n ≠ 16 := fun e => by have := hp' (e ▸ this 4); omega
        simp [dct2Butterflies, h2, h3, h4, h8, h16]
      rw [canon23, if_neg (by rw [hb]; exact Bool.false_ne_true), dif_neg (fun h => by have := hp' h.1; omega), Type2And3ConvertToFft.new_eq (hf.shape n).2] at ho
      injection ho with ho
      subst ho
      obtain ⟨G, hG, hD⟩ := hf.rel n (by omega)
      exact ⟨Type2And3ConvertToFft.rel_dct2 hr hG hn hn' (hf.shape _).1 hD, Type2And3ConvertToFft.rel_dct3 hr hG hn hn' (hf.shape _).1 hD,
        Type2And3ConvertToFft.rel_dst2 hr hG hn hn' (hf.shape _).1 hD, Type2And3ConvertToFft.rel_dst3 hr hG hn hn' (hf.shape _).1 hD⟩

theorem canon4_rel (hr : R.Twiddles r) (hf : PlanFftRange R planFft γ μ) {n : ℕ} (hn : 1 ≤ n) (hn' : n ≤ 2 ^ 60) {o : Obj4 T} (ho : canon4 planFft n = .ok o) :
    PRel R .dct4 o.dct4 n o.scratchLen (gain4 γ n) (units4 r μ n) ∧ PRel R .dst4 o.dst4 n o.scratchLen (gain4 γ n) (units4 r μ n) := by
  have naive : ∀ {o : Obj4 T}, (Type4Naive.new n).map Type4Naive.toObj = .ok o → PRel R .dct4 o.dct4 n o.scratchLen (n + 1) (n + r + 3) ∧ PRel R .dst4 o.dst4 n o.scratchLen (n + 1) (n + r + 3) := by
    intro o ho
    have hx := Type4Naive.new_tab (T := T) (n := n)
    have hl := Type4Naive.len_new hx
    rw [hx] at ho
    injection ho with ho
    subst ho
    change PRel R .dct4 _ n (Type4Naive.len _) _ _ ∧ PRel R .dst4 _ n (Type4Naive.len _) _ _
    rw [hl]
    exact ⟨Type4Naive.rel_dct4 hr hn hn', Type4Naive.rel_dst4 hr hn hn'⟩
  unfold canon4 at ho
  unfold gain4 units4
  by_cases h2 : n % 2 = 0
  · rw [if_pos h2] at ho; simp only [if_pos h2]
    by_cases h6 : n < 6
    · rw [if_pos h6] at ho; simp only [if_pos h6]
      exact naive ho
    · rw [if_neg h6] at ho; simp only [if_neg h6]
      obtain ⟨i, e, -, hl⟩ := canon23_made hf.shape (n / 2)
      rw [e] at ho
      have ho' : (Type4ConvertToType3Even.new i).map Type4ConvertToType3Even.toObj = .ok o := ho
      rw [Type4ConvertToType3Even.new_eq hl] at ho'
      injection ho' with ho'
      subst ho'
      have hi := canon23_rel hr hf (show 1 ≤ n / 2 by omega) (by omega) e
      have a := Type4ConvertToType3Even.rel_dct4 hr (show 1 ≤ n / 2 by omega) (by omega) hi.dct3.weak hi.dst3.weak
      have b := Type4ConvertToType3Even.rel_dst4 hr (show 1 ≤ n / 2 by omega) (by omega) hi.dct3.weak hi.dst3.weak
      rw [show 2 * (n / 2) = n by omega] at a b
      exact ⟨a, b⟩
  · rw [if_neg h2] at ho; simp only [if_neg h2]
    by_cases h7 : n < 7
    · rw [if_pos h7] at ho; simp only [if_pos h7]
      exact naive ho
    · rw [if_neg h7] at ho; simp only [if_neg h7]
      rw [Type4ConvertToFftOdd.new_eq (fft := planFft n) (by rw [(hf.shape _).1]; omega) (hf.shape _).2] at ho
      injection ho with ho
      subst ho
      obtain ⟨G, hG, hD⟩ := hf.rel n (by omega)
      exact ⟨Type4ConvertToFftOdd.rel_dct4 (hf n).2.2.1 hG (by omega) (hf.shape _).1 hD, Type4ConvertToFftOdd.rel_dst4 (hf n).2.2.1 hG (by omega) (hf.shape _).1 hD⟩

/-- Every planned instance: on zeroed scratch, and on any scratch where scratch does not matter. -/
theorem Planned.rel {calls : List (PlanCall T)} {k : Kind} {p : Proc T} {n s : ℕ} (hr : R.Twiddles r) (hf : PlanFftRange R planFft γ μ) (h : Planned planFft calls k p n s) (hn : 1 ≤ n) (hn' : n ≤ 2 ^ 60) :
    PRelZ R k p n s (k.gain γ n) (k.units r μ n) ∧ (¬ k.leakyAt n → PRel R k p n s (k.gain γ n) (k.units r μ n)) := by
  have V : ∀ {k : Kind} {p : Proc T} {n s a d : ℕ} {P : Prop}, PRel R k p n s a d → PRelZ R k p n s a d ∧ (P → PRel R k p n s a d) := fun h => ⟨h.toZ, fun _ => h⟩
  cases h with
  | @dct1 n a s' h =>
    have e := Yields.canon (fun W => planDct1_yields n) h
    have h2 : 2 ≤ n := by
      by_contra h2
      obtain ⟨e', he, -⟩ := canonDct1_err (planFft := planFft) h2
      rw [he] at e; cases e
    exact V (canonDct1_rel hr hf h2 hn' e)
  | @dct2 n a s' h => exact V (canon23_rel hr hf hn hn' (Yields.canon (fun W => planDct2_yields n) h)).dct2
  | @dct3 n a s' h _ => exact V (canon23_rel hr hf hn hn' (Yields.canon (fun W => planDct2_yields n) h)).dct3
  | @dct4 n a s' h _ => exact V (canon4_rel hr hf hn hn' (Yields.canon (fun W => planDct4_yields n) h)).1
  | @dct5 n a s' h => exact V (canonDct5_rel_dct5 hr hn hn' (Yields.canon (fun W => planDct5_yields n) h))
  | @dct6 n a s' h => exact V (canonDct6_rel_dct6 hr hn hn' (Yields.canon (fun W => planDct6_yields n) h))
  | @dct7 n a s' h => exact V (canonDct6_rel_dct7 hr hn hn' (Yields.canon (fun W => planDct6_yields n) h))
  | @dct8 n a s' h => exact V (canonDct8_rel_dct8 hr hn hn' (Yields.canon (fun W => planDct8_yields n) h))
  | @dst1 n a s' h =>
    have := canonDst1_rel hr hf hn hn' (Yields.canon (fun W => planDst1_yields n) h)
    exact ⟨this.1, fun hk => this.2 (by simpa [Kind.leakyAt] using hk)⟩
  | @dst2 n a s' h => exact V (canon23_rel hr hf hn hn' (Yields.canon (fun W => planDct2_yields n) h)).dst2
  | @dst3 n a s' h _ => exact V (canon23_rel hr hf hn hn' (Yields.canon (fun W => planDct2_yields n) h)).dst3
  | @dst4 n a s' h _ => exact V (canon4_rel hr hf hn hn' (Yields.canon (fun W => planDct4_yields n) h)).2
  | @dst5 n a s' h => exact V (canonDst5_rel_dst5 hr hn hn' (Yields.canon (fun W => planDst5_yields n) h))
  | @dst6 n a s' h =>
    have := canonDst6_rel_dst6 hr hf hn hn' (Yields.canon (fun W => planDst6_yields n) h)
    exact ⟨this.1, fun hk => this.2 (by simpa [Kind.leakyAt] using hk)⟩
  | @dst7 n a s' h =>
    have := canonDst6_rel_dst7 hr hf hn hn' (Yields.canon (fun W => planDst6_yields n) h)
    exact ⟨this.1, fun hk => this.2 (by simpa [Kind.leakyAt] using hk)⟩
  | @dst8 n a s' h => exact V (canonDst8_rel_dst8 hr hn hn' (Yields.canon (fun W => planDst8_yields n) h))

/-! ### On lists -/

theorem TransRel.near {k : Kind} {n a d : ℕ} {C : (ℕ → T) → ℕ → T} (h : TransRel R k n C a d) {B : ℝ} (hB : R.L ≤ B) (hM : a * B * (1 + R.u) ^ d ≤ R.M) {f : ℕ → T}
    (hf : R.Bounded B (vec n f)) : R.Near (((1 + R.u) ^ d - 1) * (a * B)) (vec n (C f)) (k.spec ((vec n f).map R.val)) := by
  rw [map_vec, k.spec_vec]
  refine ⟨by simp, fun p hp => ?_⟩
  rw [List.zip, zipWith_vec_same] at hp
  simp only [vec, List.mem_map, List.mem_range] at hp
  obtain ⟨i, hi, rfl⟩ := hp
  have hb := h B 1 0 f (fun i => R.val (f i)) hB (le_refl _) (fun j hj => by
    have := hf (f j) (by simp only [vec, List.mem_map, List.mem_range]; exact ⟨j, hj, rfl⟩)
    exact Bd.in this.1 this.2) i hi
  rw [mul_one, zero_add] at hb
  obtain ⟨h1, -, h3⟩ := hb.2 hM
  exact ⟨h1, h3⟩

theorem PRel.staysFinite {k : Kind} {p : Proc T} {n s a d : ℕ} (h : PRel R k p n s a d) : StaysFinite R p n s k.spec a d := by
  obtain ⟨C, hC, h⟩ := h
  intro B hB hM
  have key : ∀ m, ValidCall n s m → R.Bounded B m.buf → ∃ m', p m = .ok m' ∧ R.Near (((1 + R.u) ^ d - 1) * (a * B)) m'.buf (k.spec (m.buf.map R.val)) := by
    rintro ⟨buf, scr⟩ ⟨hb, hs⟩ hbd
    obtain ⟨f, rfl⟩ := exists_vec hb
    obtain ⟨scr', e, -⟩ := hC f scr hs
    exact ⟨_, e, h.near hB hM hbd⟩
  refine ⟨key, fun buf hb hbd => ?_⟩
  obtain ⟨m', e, hm⟩ := key ⟨buf, List.replicate s 0⟩ ⟨hb, by simp⟩ hbd
  exact ⟨m'.buf, by unfold processDefault; rw [e], hm⟩

theorem PRelZ.staysFinite {k : Kind} {p : Proc T} {n s a d : ℕ} (h : PRelZ R k p n s a d) : StaysFiniteZeroed R p n s k.spec a d := by
  obtain ⟨C, hC, h⟩ := h
  intro B hB hM
  have key : ∀ buf, buf.length = n → R.Bounded B buf → ∃ m', p ⟨buf, List.replicate s 0⟩ = .ok m' ∧ R.Near (((1 + R.u) ^ d - 1) * (a * B)) m'.buf (k.spec (buf.map R.val)) := by
    intro buf hb hbd
    obtain ⟨f, rfl⟩ := exists_vec hb
    obtain ⟨scr', e, -⟩ := hC f []
    rw [List.append_nil] at e
    exact ⟨_, e, h.near hB hM hbd⟩
  refine ⟨key, fun buf hb hbd => ?_⟩
  obtain ⟨m', e, hm⟩ := key buf hb hbd
  exact ⟨m'.buf, by unfold processDefault; rw [e], hm⟩

end RustDct
