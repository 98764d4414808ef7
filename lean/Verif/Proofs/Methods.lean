import Verif.Methods
import Verif.Proofs.PlannerMade
/-!
# Facts about all methods at once
-/

set_option linter.all false

namespace RustDct

section
variable {T : Type} {F : Type} [F64 F] [DctNum T F]
variable {planFft : Nat → Fft T} {calls : List (PlanCall T)} {okFft : Fft T → Prop} {k : Kind} {p : Proc T} {n s : Nat}

theorem Yields.canon {α : Type} {m : PlanM T (Arc α)} {r : Except Err α} {post} (h : ∀ W, Yields planFft W m r post) {a : Arc α} {s'}
    (e : m (plannerAfter planFft calls) = .ok a s') : r = .ok a.val := by
  have := h _ _ (after_inv (planFft := planFft) calls)
  rw [e] at this
  exact this.1

theorem Planned.method (hf : PlanFftShape planFft) (h : Planned planFft calls k p n s) : Method (FromPlan planFft) k p n s := by
  cases h with
  | @dct1 n a s' h =>
    have e := Yields.canon (fun W => planDct1_yields n) h
    by_cases hn : 2 ≤ n
    · obtain ⟨o, ho, hm, hl⟩ := canonDct1_ok hf hn
      rw [ho] at e; injection e with e; subst e
      rw [← hl] at hn ⊢
      exact .dct1 hm hn
    · obtain ⟨e', he, -⟩ := canonDct1_err (planFft := planFft) hn
      rw [he] at e; cases e
  | @dct2 n a s' h =>
    have e := Yields.canon (fun W => planDct2_yields n) h
    obtain ⟨o, ho, hm, hl⟩ := canon23_made hf n
    rw [ho] at e; injection e with e; subst e
    rw [← hl]; exact .dct2 hm
  | @dct3 n a s' h hn =>
    have e := Yields.canon (fun W => planDct2_yields n) h
    obtain ⟨o, ho, hm, hl⟩ := canon23_made hf n
    rw [ho] at e; injection e with e; subst e
    rw [← hl] at hn ⊢; exact .dct3 hm hn
  | @dst2 n a s' h =>
    have e := Yields.canon (fun W => planDct2_yields n) h
    obtain ⟨o, ho, hm, hl⟩ := canon23_made hf n
    rw [ho] at e; injection e with e; subst e
    rw [← hl]; exact .dst2 hm
  | @dst3 n a s' h hn =>
    have e := Yields.canon (fun W => planDct2_yields n) h
    obtain ⟨o, ho, hm, hl⟩ := canon23_made hf n
    rw [ho] at e; injection e with e; subst e
    rw [← hl] at hn ⊢; exact .dst3 hm hn
  | @dct4 n a s' h hn =>
    have e := Yields.canon (fun W => planDct4_yields n) h
    obtain ⟨o, ho, hm, hl⟩ := canon4_made hf n
    rw [ho] at e; injection e with e; subst e
    rw [← hl] at hn ⊢; exact .dct4 hm hn
  | @dst4 n a s' h hn =>
    have e := Yields.canon (fun W => planDct4_yields n) h
    obtain ⟨o, ho, hm, hl⟩ := canon4_made hf n
    rw [ho] at e; injection e with e; subst e
    rw [← hl] at hn ⊢; exact .dst4 hm hn
  | @dct5 n a s' h =>
    have e := Yields.canon (fun W => planDct5_yields n) h
    by_cases hn : 1 ≤ n
    · obtain ⟨o, ho, hm, hl⟩ := canonDct5_ok (T := T) hn
      rw [ho] at e; injection e with e; subst e
      rw [← hl]; exact .dct5 hm
    · obtain ⟨e', he, -⟩ := canonDct5_err (T := T) hn
      rw [he] at e; cases e
  | @dst8 n a s' h =>
    have e := Yields.canon (fun W => planDst8_yields n) h
    by_cases hn : 1 ≤ n
    · obtain ⟨o, ho, hm, hl⟩ := canonDst8_ok (T := T) hn
      rw [ho] at e; injection e with e; subst e
      rw [← hl]; exact .dst8 hm
    · obtain ⟨e', he, -⟩ := canonDst8_err (T := T) hn
      rw [he] at e; cases e
  | @dct6 n a s' h =>
    have e := Yields.canon (fun W => planDct6_yields n) h
    by_cases hn : 1 ≤ n
    · obtain ⟨o, ho, hm, hl⟩ := canonDct6_ok (T := T) hn
      rw [ho] at e; injection e with e; subst e
      rw [← hl]; exact .dct6 hm
    · obtain ⟨e', he, -⟩ := canonDct6_err (T := T) hn
      rw [he] at e; cases e
  | @dct7 n a s' h =>
    have e := Yields.canon (fun W => planDct6_yields n) h
    by_cases hn : 1 ≤ n
    · obtain ⟨o, ho, hm, hl⟩ := canonDct6_ok (T := T) hn
      rw [ho] at e; injection e with e; subst e
      rw [← hl]; exact .dct7 hm
    · obtain ⟨e', he, -⟩ := canonDct6_err (T := T) hn
      rw [he] at e; cases e
  | @dct8 n a s' h =>
    have e := Yields.canon (fun W => planDct8_yields n) h
    obtain ⟨o, ho, hm, hl⟩ := canonDct8_ok (T := T) n
    rw [ho] at e; injection e with e; subst e
    rw [← hl]; exact .dct8 hm
  | @dst5 n a s' h =>
    have e := Yields.canon (fun W => planDst5_yields n) h
    obtain ⟨o, ho, hm, hl⟩ := canonDst5_ok (T := T) n
    rw [ho] at e; injection e with e; subst e
    rw [← hl]; exact .dst5 hm
  | @dst1 n a s' h =>
    have e := Yields.canon (fun W => planDst1_yields n) h
    obtain ⟨o, ho, hm, hl⟩ := canonDst1_ok hf n
    rw [ho] at e; injection e with e; subst e
    rw [← hl]; exact .dst1 hm
  | @dst6 n a s' h =>
    have e := Yields.canon (fun W => planDst6_yields n) h
    obtain ⟨o, ho, hm, hl⟩ := canonDst6_ok hf n
    rw [ho] at e; injection e with e; subst e
    rw [← hl]; exact .dst6 hm
  | @dst7 n a s' h =>
    have e := Yields.canon (fun W => planDst6_yields n) h
    obtain ⟨o, ho, hm, hl⟩ := canonDst6_ok hf n
    rw [ho] at e; injection e with e; subst e
    rw [← hl]; exact .dst7 hm

theorem FromPlan.sane (hf : PlanFftSane planFft) : ∀ f, FromPlan planFft f → FftSane f := by
  rintro _ ⟨n, rfl⟩
  exact (hf n).2.2

end

/-! ### A stronger contract for the FFTs -/

section
variable {T : Type} {F : Type} [F64 F] [DctNum T F] {P Q : Fft T → Prop}

theorem MadeDct1.mono (hpq : ∀ f, P f → Q f) {o : Obj1 T} (h : MadeDct1 P o) : MadeDct1 Q o := by
  cases h with
  | naive h => exact .naive h
  | fft hf h => exact .fft (hpq _ hf) h
theorem MadeDst1.mono (hpq : ∀ f, P f → Q f) {o : Obj1 T} (h : MadeDst1 P o) : MadeDst1 Q o := by
  cases h with
  | naive h => exact .naive h
  | fft hf h => exact .fft (hpq _ hf) h
theorem MadeDst67.mono (hpq : ∀ f, P f → Q f) {o : Obj67 T} (h : MadeDst67 P o) : MadeDst67 Q o := by
  cases h with
  | naive h => exact .naive h
  | fft hf h => exact .fft (hpq _ hf) h
theorem Made23.mono (hpq : ∀ f, P f → Q f) {o : Obj23 T} (h : Made23 P o) : Made23 Q o := by
  induction h with
  | naive h => exact .naive h
  | butterfly2 => exact .butterfly2
  | butterfly3 => exact .butterfly3
  | butterfly4 => exact .butterfly4
  | butterfly8 => exact .butterfly8
  | butterfly16 => exact .butterfly16
  | fft hf h => exact .fft (hpq _ hf) h
  | splitRadix _ _ sh sq h ih iq => exact .splitRadix ih iq sh sq h
theorem Made4.mono (hpq : ∀ f, P f → Q f) {o : Obj4 T} (h : Made4 P o) : Made4 Q o := by
  cases h with
  | naive h => exact .naive h
  | fft hf h => exact .fft (hpq _ hf) h
  | type3 hi h => exact .type3 (hi.mono hpq) h
theorem MadeMdct.mono (hpq : ∀ f, P f → Q f) {w : List T} {o : MdctObj T} (h : MadeMdct P w o) : MadeMdct Q w o := by
  cases h with
  | naive h => exact .naive h
  | viaDct4 hi h => exact .viaDct4 (hi.mono hpq) h
end


section
variable {T : Type} {F : Type} [F64 F] [DctNum T F]
variable {planFft : Nat → Fft T} {calls : List (PlanCall T)} {okFft : Fft T → Prop} {k : Kind} {p : Proc T} {n s : Nat}

theorem Method.mono {P Q : Fft T → Prop} (hpq : ∀ f, P f → Q f) (h : Method P k p n s) : Method Q k p n s := by
  cases h with
  | dct1 h hn => exact .dct1 (h.mono hpq) hn
  | dct2 h => exact .dct2 (h.mono hpq)
  | dct3 h hn => exact .dct3 (h.mono hpq) hn
  | dct4 h hn => exact .dct4 (h.mono hpq) hn
  | dct5 h => exact .dct5 h
  | dct6 h => exact .dct6 h
  | dct7 h => exact .dct7 h
  | dct8 h => exact .dct8 h
  | dst1 h => exact .dst1 (h.mono hpq)
  | dst2 h => exact .dst2 (h.mono hpq)
  | dst3 h hn => exact .dst3 (h.mono hpq) hn
  | dst4 h hn => exact .dst4 (h.mono hpq) hn
  | dst5 h => exact .dst5 h
  | dst6 h => exact .dst6 (h.mono hpq)
  | dst7 h => exact .dst7 (h.mono hpq)
  | dst8 h => exact .dst8 h

theorem Planned.sane (hf : PlanFftSane planFft) (h : Planned planFft calls k p n s) : Method FftSane k p n s :=
  (h.method hf.shape).mono (FromPlan.sane hf)

/-- Every method runs to a closed form of buffer and scratch. -/
theorem Method.total (h : Method FftSane k p n s) : ∃ C, RunsG p n s C := by
  have V : ∀ {p : Proc T} {n s}, (∃ C, RunsV p n s C) → ∃ C, RunsG p n s C := fun ⟨_, h⟩ => ⟨_, h.toG⟩
  cases h with
  | dct1 h hn => exact V (h.meth hn).total
  | dct2 h => exact V h.ok.dct2
  | dct3 h hn => exact V (h.ok.dct3 hn)
  | dct4 h hn => exact V (h.meth hn).1.total
  | dct5 h => exact V h.meth.total
  | dct6 h => exact V h.meth.1.total
  | dct7 h => exact V h.meth.2.total
  | dct8 h => exact V h.meth.total
  | dst1 h => exact h.meth.total
  | dst2 h => exact V h.ok.dst2
  | dst3 h hn => exact V (h.ok.dst3 hn)
  | dst4 h hn => exact V (h.meth hn).2.total
  | dst5 h => exact V h.meth.total
  | dst6 h => exact h.meth.1.total
  | dst7 h => exact h.meth.2.total
  | dst8 h => exact V h.meth.total

/-- The methods that are not leaky run to a closed form of the buffer alone. -/
theorem Method.clean (h : Method FftSane k p n s) (hk : ¬ k.leaky) : ∃ C, RunsV p n s C := by
  cases h with
  | dct1 h hn => exact (h.meth hn).total
  | dct2 h => exact h.ok.dct2
  | dct3 h hn => exact (h.ok.dct3 hn)
  | dct4 h hn => exact (h.meth hn).1.total
  | dct5 h => exact h.meth.total
  | dct6 h => exact h.meth.1.total
  | dct7 h => exact h.meth.2.total
  | dct8 h => exact h.meth.total
  | dst1 h => exact absurd trivial hk
  | dst2 h => exact h.ok.dst2
  | dst3 h hn => exact (h.ok.dst3 hn)
  | dst4 h hn => exact (h.meth hn).2.total
  | dst5 h => exact h.meth.total
  | dst6 h => exact absurd trivial hk
  | dst7 h => exact absurd trivial hk
  | dst8 h => exact h.meth.total

theorem Method.rejects (h : Method FftSane k p n s) (hk : ¬ k.eager) : Rejects p n s := by
  cases h with
  | dct1 h hn => exact (h.meth hn).rejects
  | dct2 h => exact h.ok.rdct2
  | dct3 h hn => exact h.ok.rdct3
  | dct4 h hn => exact (h.meth hn).1.rejects
  | dct5 h => exact h.meth.rejects
  | dct6 h => exact h.meth.1.rejects
  | dct7 h => exact h.meth.2.rejects
  | dct8 h => exact h.meth.rejects
  | dst1 h => exact h.meth.rejects
  | dst2 h => exact absurd trivial hk
  | dst3 h hn => exact absurd trivial hk
  | dst4 h hn => exact (h.meth hn).2.rejects
  | dst5 h => exact h.meth.rejects
  | dst6 h => exact h.meth.1.rejects
  | dst7 h => exact h.meth.2.rejects
  | dst8 h => exact h.meth.rejects

theorem Method.panics (h : Method FftSane k p n s) : Panics p n s := by
  by_cases hk : k.eager
  · cases h with
    | dst2 h => exact h.ok.rdst2
    | dst3 h hn => exact h.ok.rdst3
    | _ => exact absurd hk id
  · exact (h.rejects hk).panics

theorem PlannedMdct.made (hf : PlanFftShape planFft) {w : Nat → List T} {o : MdctObj T} (h : PlannedMdct planFft calls n w o) :
    o.len = n ∧ ∃ w', (w' = w ∨ .mdct n w' ∈ calls) ∧ MadeMdct (FromPlan planFft) (w' (2 * n)) o := by
  obtain ⟨a, s', e, rfl⟩ := h
  have hI : Inv planFft (fun m v => (m = n ∧ v = w) ∨ UsedWindow calls m v) (plannerAfter planFft calls) := (after_inv calls).mono fun _ _ h => .inr h
  have := planMdct_run n (W := fun m v => (m = n ∧ v = w) ∨ UsedWindow calls m v) (.inl ⟨rfl, rfl⟩) _ hI
  rw [e] at this
  obtain ⟨⟨w', hw', hc⟩, -⟩ := this
  by_cases hd : n % 2 = 0 ∧ (w' (2 * n)).length = 2 * n
  · obtain ⟨o, ho, hm, hl⟩ := canonMdct_ok hf hd.1 hd.2
    rw [ho] at hc; injection hc with hc; subst hc
    refine ⟨hl, w', ?_, hm⟩
    rcases hw' with ⟨-, h⟩ | h
    · exact .inl h
    · exact .inr h
  · rw [canonMdct_err hf hd] at hc; cases hc

end
end RustDct
