import Verif.Proofs.Soundness
import Verif.Proofs.Methods
/-!
# C59: no undefined behaviour

Whatever safe code builds out of the crate's constructors and its own implementations of the traits, and whatever slices it calls the methods with: there
is no undefined behaviour, and slices keep their lengths.
-/

set_option linter.all false

namespace RustDct

section
variable {T : Type} {F : Type} [F64 F] [DctNum T F]

/-- C59, types 2 and 3. -/
theorem C59_type23 {o : Obj23 T} (h : Built23 o) : o.MemorySafe := by
  have B : ∀ {o : Obj23 T}, MSafe false o.dct2 ∧ MSafe false o.dct3 ∧ MSafe false o.dst2 ∧ MSafe false o.dst3 → o.MemorySafe :=
    fun h => ⟨h.1.memorySafe, h.2.1.memorySafe, h.2.2.1.memorySafe, h.2.2.2.memorySafe⟩
  induction h with
  | user h => exact h
  | naive h => exact ⟨Type2And3Naive.memorySafe_dct2 _, Type2And3Naive.memorySafe_dct3 _, Type2And3Naive.memorySafe_dst2 _, Type2And3Naive.memorySafe_dst3 _⟩
  | butterfly2 => exact B Type2And3Butterfly2.mSafe
  | butterfly3 => exact B Type2And3Butterfly3.mSafe
  | butterfly4 => exact B Type2And3Butterfly4.mSafe
  | butterfly8 => exact B Type2And3Butterfly8.mSafe
  | butterfly16 => exact B Type2And3Butterfly16.mSafe
  | fft hf h =>
    rw [← Type2And3ConvertToFft.fft_of_new h] at hf
    exact ⟨Type2And3ConvertToFft.memorySafe_dct2 _ hf, Type2And3ConvertToFft.memorySafe_dct3 _ hf, Type2And3ConvertToFft.memorySafe_dst2 _ hf,
      Type2And3ConvertToFft.memorySafe_dst3 _ hf⟩
  | splitRadix hh hq h ih iq =>
    exact B (Type2And3SplitRadix.mSafe h (mSafe_false.2 ih.1) (mSafe_false.2 ih.2.1) (mSafe_false.2 iq.1) (mSafe_false.2 iq.2.1))

/-- C59, type 4. -/
theorem C59_type4 {o : Obj4 T} (h : Built4 o) : o.MemorySafe := by
  cases h with
  | user h => exact h
  | naive h => exact ⟨Type4Naive.memorySafe_dct4 _, Type4Naive.memorySafe_dst4 _⟩
  | fft hf h =>
    rw [← Type4ConvertToFftOdd.fft_of_new h] at hf
    exact ⟨Type4ConvertToFftOdd.memorySafe_dct4 _ hf, Type4ConvertToFftOdd.memorySafe_dst4 _ hf⟩
  | @type3 inner x hi h =>
    obtain rfl : x.innerDct = inner := by
      unfold Type4ConvertToType3Even.new at h
      injection h with h
      rw [← h]
    have := C59_type23 hi
    exact ⟨Type4ConvertToType3Even.memorySafe_dct4 _ this.2.1 this.2.2.2, Type4ConvertToType3Even.memorySafe_dst4 _ this.2.1 this.2.2.2⟩

/-- C59, MDCT. -/
theorem C59_mdct {o : MdctObj T} (h : BuiltMdct o) : o.MemorySafe := by
  cases h with
  | user h => exact h
  | naive h => exact ⟨MdctNaive.memorySafe_mdct _, MdctNaive.memorySafe_imdct _⟩
  | @viaDct4 inner w x hi h =>
    obtain rfl : x.dct = inner := by
      unfold MdctViaDct4.new at h
      dsimp only at h
      split at h
      · cases h
      · split at h
        · cases h
        · injection h with h
          rw [← h]
    have := C59_type4 hi
    exact ⟨MdctViaDct4.memorySafe_mdct _ this.1, MdctViaDct4.memorySafe_imdct _ this.1⟩

/-- C59, the other traits: their instances are built on nothing but an FFT. -/
theorem C59_dct1 {o : Obj1 T} (h : MadeDct1 Fft.MemorySafe o) : o.MemorySafe := by
  cases h with
  | naive h => exact Dct1Naive.memorySafe_dct1 _
  | fft hf h => rw [← Dct1ConvertToFft.fft_of_new h] at hf; exact Dct1ConvertToFft.memorySafe_dct1 _ hf

theorem C59_dst1 {o : Obj1 T} (h : MadeDst1 Fft.MemorySafe o) : o.MemorySafe := by
  cases h with
  | naive h => exact Dst1Naive.memorySafe_dst1 _
  | fft hf h => rw [← Dst1ConvertToFft.fft_of_new h] at hf; exact Dst1ConvertToFft.memorySafe_dst1 _ hf

theorem C59_dct5 {o : Obj1 T} (h : MadeDct5 o) : o.MemorySafe := by
  cases h with
  | naive h => exact Dct5Naive.memorySafe_dct5 _

theorem C59_dst5 {o : Obj1 T} (h : MadeDst5 o) : o.MemorySafe := by
  cases h with
  | naive h => exact Dst5Naive.memorySafe_dst5 _

theorem C59_dct67 {o : Obj67 T} (h : MadeDct67 o) : o.MemorySafe := by
  cases h with
  | naive h => exact ⟨Dct6And7Naive.memorySafe_dct6 _, Dct6And7Naive.memorySafe_dct7 _⟩

theorem C59_dst67 {o : Obj67 T} (h : MadeDst67 Fft.MemorySafe o) : o.MemorySafe := by
  cases h with
  | naive h => exact ⟨Dst6And7Naive.memorySafe_dst6 _, Dst6And7Naive.memorySafe_dst7 _⟩
  | fft hf h =>
    rw [← Dst6And7ConvertToFft.fft_of_new h] at hf
    exact ⟨Dst6And7ConvertToFft.memorySafe_dst6 _ hf, Dst6And7ConvertToFft.memorySafe_dst7 _ hf⟩

theorem C59_dct8 {o : Obj1 T} (h : MadeDct8 o) : o.MemorySafe := by
  cases h with
  | naive h => exact Dct8Naive.memorySafe_dct8 _

theorem C59_dst8 {o : Obj1 T} (h : MadeDst8 o) : o.MemorySafe := by
  cases h with
  | naive h => exact Dst8Naive.memorySafe_dst8 _

/-- C59 does not depend on the overflow checks of a debug build: in the structs with unchecked accesses, no subtraction goes below zero (unless an
inner instance panics for that reason, which does not happen without these checks). -/
theorem C59_release {half quarter : Obj23 T} {x : Type2And3SplitRadix T} (hh : half.MemorySafe) (hq : quarter.MemorySafe) (nh : half.NoWrap)
    (nq : quarter.NoWrap) (h : Type2And3SplitRadix.new half quarter = .ok x) : x.toObj.NoWrap := by
  obtain ⟨a, b, c, d⟩ := Type2And3SplitRadix.mSafe h (mSafe_true hh.1 nh.1) (mSafe_true hh.2.1 nh.2.1) (mSafe_true hq.1 nq.1) (mSafe_true hq.2.1 nq.2.1)
  exact ⟨a.noWrap, b.noWrap, c.noWrap, d.noWrap⟩

theorem C59_release_butterflies : (Type2And3Butterfly2.new (T := T)).toObj.NoWrap ∧ (Type2And3Butterfly3.new (T := T)).toObj.NoWrap ∧
    (Type2And3Butterfly4.new (T := T)).toObj.NoWrap ∧ (Type2And3Butterfly8.new (T := T)).toObj.NoWrap ∧ (Type2And3Butterfly16.new (T := T)).toObj.NoWrap := by
  have B : ∀ {o : Obj23 T}, MSafe true o.dct2 ∧ MSafe true o.dct3 ∧ MSafe true o.dst2 ∧ MSafe true o.dst3 → o.NoWrap :=
    fun h => ⟨h.1.noWrap, h.2.1.noWrap, h.2.2.1.noWrap, h.2.2.2.noWrap⟩
  exact ⟨B Type2And3Butterfly2.mSafe, B Type2And3Butterfly3.mSafe, B Type2And3Butterfly4.mSafe, B Type2And3Butterfly8.mSafe, B Type2And3Butterfly16.mSafe⟩

/-! ### The planner -/

theorem Made23.built {okFft : Fft T → Prop} (hf : ∀ f, okFft f → f.MemorySafe) {o : Obj23 T} (h : Made23 okFft o) : Built23 o := by
  induction h with
  | naive h => exact .naive h
  | butterfly2 => exact .butterfly2
  | butterfly3 => exact .butterfly3
  | butterfly4 => exact .butterfly4
  | butterfly8 => exact .butterfly8
  | butterfly16 => exact .butterfly16
  | fft h1 h => exact .fft (hf _ h1) h
  | splitRadix _ _ _ _ h ih iq => exact .splitRadix ih iq h

theorem Made4.built {okFft : Fft T → Prop} (hf : ∀ f, okFft f → f.MemorySafe) {o : Obj4 T} (h : Made4 okFft o) : Built4 o := by
  cases h with
  | naive h => exact .naive h
  | fft h1 h => exact .fft (hf _ h1) h
  | type3 hi h => exact .type3 (hi.built hf) h

theorem MadeMdct.built {okFft : Fft T → Prop} (hf : ∀ f, okFft f → f.MemorySafe) {win : List T} {o : MdctObj T} (h : MadeMdct okFft win o) : BuiltMdct o := by
  cases h with
  | naive h => exact .naive h
  | viaDct4 hi h => exact .viaDct4 (hi.built hf) h

variable {planFft : Nat → Fft T} {calls : List (PlanCall T)} {n : Nat}

/-- C59 for whatever a planner returns, at whatever length and after whatever history. -/
theorem C59_planned (hs : PlanFftShape planFft) (hm : ∀ n, (planFft n).MemorySafe) {s' : Planner T} :
    (∀ {a}, planDct1 planFft n (plannerAfter planFft calls) = .ok a s' → a.val.MemorySafe) ∧
    (∀ {a}, planDct2 planFft n (plannerAfter planFft calls) = .ok a s' → a.val.MemorySafe) ∧
    (∀ {a}, planDct3 planFft n (plannerAfter planFft calls) = .ok a s' → a.val.MemorySafe) ∧
    (∀ {a}, planDct4 planFft n (plannerAfter planFft calls) = .ok a s' → a.val.MemorySafe) ∧
    (∀ {a}, planDct5 n (plannerAfter planFft calls) = .ok a s' → a.val.MemorySafe) ∧
    (∀ {a}, planDct6 n (plannerAfter planFft calls) = .ok a s' → a.val.MemorySafe) ∧
    (∀ {a}, planDct7 n (plannerAfter planFft calls) = .ok a s' → a.val.MemorySafe) ∧
    (∀ {a}, planDct8 n (plannerAfter planFft calls) = .ok a s' → a.val.MemorySafe) ∧
    (∀ {a}, planDst1 planFft n (plannerAfter planFft calls) = .ok a s' → a.val.MemorySafe) ∧
    (∀ {a}, planDst2 planFft n (plannerAfter planFft calls) = .ok a s' → a.val.MemorySafe) ∧
    (∀ {a}, planDst3 planFft n (plannerAfter planFft calls) = .ok a s' → a.val.MemorySafe) ∧
    (∀ {a}, planDst4 planFft n (plannerAfter planFft calls) = .ok a s' → a.val.MemorySafe) ∧
    (∀ {a}, planDst5 n (plannerAfter planFft calls) = .ok a s' → a.val.MemorySafe) ∧
    (∀ {a}, planDst6 planFft n (plannerAfter planFft calls) = .ok a s' → a.val.MemorySafe) ∧
    (∀ {a}, planDst7 planFft n (plannerAfter planFft calls) = .ok a s' → a.val.MemorySafe) ∧
    (∀ {a}, planDst8 n (plannerAfter planFft calls) = .ok a s' → a.val.MemorySafe) ∧
    (∀ {a} {w : Nat → List T}, planMdct planFft n w (plannerAfter planFft calls) = .ok a s' → a.val.MemorySafe) := by
  have hF : ∀ f, FromPlan planFft f → f.MemorySafe := by
    rintro _ ⟨n, rfl⟩; exact hm n
  have P2 : ∀ {a}, planDct2 planFft n (plannerAfter planFft calls) = .ok a s' → a.val.MemorySafe := by
    intro a h
    have e := Yields.canon (fun W => planDct2_yields n) h
    obtain ⟨o, ho, hm, -⟩ := canon23_made hs n
    rw [ho] at e; injection e with e; subst e
    exact C59_type23 (hm.built hF)
  have P4 : ∀ {a}, planDct4 planFft n (plannerAfter planFft calls) = .ok a s' → a.val.MemorySafe := by
    intro a h
    have e := Yields.canon (fun W => planDct4_yields n) h
    obtain ⟨o, ho, hm, -⟩ := canon4_made hs n
    rw [ho] at e; injection e with e; subst e
    exact C59_type4 (hm.built hF)
  have P6 : ∀ {a}, planDct6 n (plannerAfter planFft calls) = .ok a s' → a.val.MemorySafe := by
    intro a h
    have e := Yields.canon (fun W => planDct6_yields n) h
    by_cases hn : 1 ≤ n
    · obtain ⟨o, ho, hm, -⟩ := canonDct6_ok (T := T) hn
      rw [ho] at e; injection e with e; subst e
      exact C59_dct67 hm
    · obtain ⟨e', he, -⟩ := canonDct6_err (T := T) hn
      rw [he] at e; cases e
  have S6 : ∀ {a}, planDst6 planFft n (plannerAfter planFft calls) = .ok a s' → a.val.MemorySafe := by
    intro a h
    have e := Yields.canon (fun W => planDst6_yields n) h
    obtain ⟨o, ho, hm, -⟩ := canonDst6_ok hs n
    rw [ho] at e; injection e with e; subst e
    exact C59_dst67 (hm.mono hF)
  refine ⟨?_, P2, P2, P4, ?_, P6, P6, ?_, ?_, P2, P2, P4, ?_, S6, S6, ?_, ?_⟩
  · intro a h
    have e := Yields.canon (fun W => planDct1_yields n) h
    by_cases hn : 2 ≤ n
    · obtain ⟨o, ho, hm, -⟩ := canonDct1_ok hs hn
      rw [ho] at e; injection e with e; subst e
      exact C59_dct1 (hm.mono hF)
    · obtain ⟨e', he, -⟩ := canonDct1_err (planFft := planFft) hn
      rw [he] at e; cases e
  · intro a h
    have e := Yields.canon (fun W => planDct5_yields n) h
    by_cases hn : 1 ≤ n
    · obtain ⟨o, ho, hm, -⟩ := canonDct5_ok (T := T) hn
      rw [ho] at e; injection e with e; subst e
      exact C59_dct5 hm
    · obtain ⟨e', he, -⟩ := canonDct5_err (T := T) hn
      rw [he] at e; cases e
  · intro a h
    have e := Yields.canon (fun W => planDct8_yields n) h
    obtain ⟨o, ho, hm, -⟩ := canonDct8_ok (T := T) n
    rw [ho] at e; injection e with e; subst e
    exact C59_dct8 hm
  · intro a h
    have e := Yields.canon (fun W => planDst1_yields n) h
    obtain ⟨o, ho, hm, -⟩ := canonDst1_ok hs n
    rw [ho] at e; injection e with e; subst e
    exact C59_dst1 (hm.mono hF)
  · intro a h
    have e := Yields.canon (fun W => planDst5_yields n) h
    obtain ⟨o, ho, hm, -⟩ := canonDst5_ok (T := T) n
    rw [ho] at e; injection e with e; subst e
    exact C59_dst5 hm
  · intro a h
    have e := Yields.canon (fun W => planDst8_yields n) h
    by_cases hn : 1 ≤ n
    · obtain ⟨o, ho, hm, -⟩ := canonDst8_ok (T := T) hn
      rw [ho] at e; injection e with e; subst e
      exact C59_dst8 hm
    · obtain ⟨e', he, -⟩ := canonDst8_err (T := T) hn
      rw [he] at e; cases e
  · intro a w h
    obtain ⟨-, w', -, hm⟩ := PlannedMdct.made hs (calls := calls) ⟨a, s', h, rfl⟩
    exact C59_mdct (hm.built hF)

end

/-! ### The hypotheses are met, and needed -/

section
variable {T : Type} {F : Type} [F64 F] [DctNum T F]

/-- A user's implementation that honours nothing: it claims a length and a scratch length, reverses the buffer, clears the scratch, and for some of its
methods just panics. -/
def liar (len : Nat) : Obj23 T where
  len := len
  scratchLen := 1000
  dct2 := fun m => .ok ⟨m.buf.reverse, m.scr.map fun _ => 0⟩
  dct3 := fun m => if m.buf.length = 2 then .panic .assertion none else .ok ⟨m.scr.take m.buf.length ++ m.buf.drop m.scr.length, m.scr⟩
  dst2 := fun _ => .panic .index none
  dst3 := fun m => .ok m

theorem liar_memorySafe (len : Nat) : (liar len : Obj23 T).MemorySafe := by
  refine ⟨fun m => ⟨by simp [liar], by simp [liar]⟩, fun m => ?_, fun m => ?_, fun m => ⟨rfl, rfl⟩⟩
  · unfold liar
    dsimp only
    by_cases h : m.buf.length = 2
    · rw [if_pos h]; exact fun h => nomatch h
    · rw [if_neg h]; exact ⟨by simp; omega, rfl⟩
  · exact fun h => nomatch h

/-- The split radix constructor accepts it, and the result is used safely all the same. -/
example : ∃ x : Type2And3SplitRadix T, Type2And3SplitRadix.new (liar 8) (liar 4) = .ok x ∧ Built23 x.toObj ∧ x.toObj.len = 16 := by
  obtain ⟨x, hx⟩ : ∃ x : Type2And3SplitRadix T, Type2And3SplitRadix.new (liar 8) (liar 4) = .ok x :=
    ⟨_, Type2And3SplitRadix.new_eq (q := 4) rfl rfl (by decide)⟩
  refine ⟨x, hx, .splitRadix (.user (liar_memorySafe 8)) (.user (liar_memorySafe 4)) hx, ?_⟩
  obtain ⟨-, -, -, rfl⟩ := Type2And3SplitRadix.new_shape hx
  exact Type2And3SplitRadix.inst_len 4 _ _

/-- Soundness rests on the size assertion in the split radix constructor: an instance of length 0, which it refuses, would read out of bounds. -/
theorem C59_guard_needed : Type2And3SplitRadix.new (liar 0 : Obj23 T) (liar 0) = .error .assertion ∧
    Type2And3SplitRadix.dct2 (⟨liar 0, liar 0, []⟩ : Type2And3SplitRadix T) ⟨[], []⟩ = .panic .ub none := by
  refine ⟨rfl, ?_⟩
  simp [Type2And3SplitRadix.dct2, Type2And3SplitRadix.len, Type2And3SplitRadix.scratchLen, validateBuffers, splitAtMut, forRange, callProc, rdU, liar]

end
end RustDct
