import Verif.Props.Planner
/-!
# C26–C31, C40: safety, size checks, scratch

Everything in this file holds for every element type, in particular for floats with all their values.  Of rustfft only `FftSane` is
assumed: valid calls return and depend on the buffer only.
-/

set_option linter.all false

namespace RustDct

section
variable {T : Type} {F : Type} [F64 F] [DctNum T F]
variable {planFft : Nat → Fft T} {calls : List (PlanCall T)} {k : Kind} {p : Proc T} {n s : Nat}
variable {win : List T} {w : Nat → List T} {o : MdctObj T}

/-! ### C26: valid calls never panic and never touch memory out of bounds -/

theorem C26_made (h : Method FftSane k p n s) : Safe p n s := h.total.elim fun _ hC => hC.safe

theorem C26_planned (hf : PlanFftSane planFft) (h : Planned planFft calls k p n s) : Safe p n s := C26_made (h.sane hf)

theorem C26_mdct_made (h : MadeMdct FftSane win o) (hn : 1 ≤ o.len) :
    SafeMdct o.mdct o.len o.scratchLen ∧ SafeImdct o.imdct o.len o.scratchLen := by
  obtain ⟨C, hC⟩ := (h.ok hn).mdct
  obtain ⟨A, B, hI⟩ := (h.ok hn).imdct
  exact ⟨hC.safe, hI.safe⟩

theorem C26_mdct_planned (hf : PlanFftSane planFft) (h : PlannedMdct planFft calls n w o) (hn : 1 ≤ n) :
    SafeMdct o.mdct n o.scratchLen ∧ SafeImdct o.imdct n o.scratchLen := by
  obtain ⟨rfl, w', -, hm⟩ := h.made hf.shape
  exact C26_mdct_made (hm.mono (FromPlan.sane hf)) hn

/-! ### C27: wrong sizes always panic -/

theorem C27_made (h : Method FftSane k p n s) : Panics p n s := h.panics

theorem C27_planned (hf : PlanFftSane planFft) (h : Planned planFft calls k p n s) : Panics p n s := C27_made (h.sane hf)

/-! ### C28: a rejected call leaves the buffers untouched

Does not hold for DST2 and DST3 of split radix instances: `C28_false` in `Verif/Props/Findings.lean`. -/

/-- The full statement. -/
def C28_statement (planFft : Nat → Fft T) : Prop :=
  ∀ calls k p n s, Planned planFft calls k p n s → ∀ m, ¬ ValidCall n s m → ∃ e, p m = .panic e (some m)

theorem C28_made_partial (h : Method FftSane k p n s) (hk : ¬ k.eager) : Rejects p n s := h.rejects hk

theorem eagerAt_of_split {q : Nat} (hq : 8 ≤ q) (hp : isPowerOfTwo (4 * q) = true) : ∃ j, 4 * q = 2 ^ (j + 5) := by
  obtain ⟨i, hi⟩ := (isPowerOfTwo_iff _).1 hp
  have : 5 ≤ i := by
    by_contra h
    have : i = 0 ∨ i = 1 ∨ i = 2 ∨ i = 3 ∨ i = 4 := by omega
    rcases this with rfl | rfl | rfl | rfl | rfl <;> omega
  exact ⟨i - 5, by rw [hi]; congr 1; omega⟩

theorem planned23_rejects (hf : PlanFftShape planFft) (n : Nat) :
    ∃ o, canon23 planFft n = .ok o ∧ ((¬ ∃ j, n = 2 ^ (j + 5)) → Rejects o.dst2 n o.scratchLen ∧ Rejects o.dst3 n o.scratchLen) := by
  suffices h : ∃ o, canon23 planFft n = .ok o ∧ ((¬ ∃ j, n = 2 ^ (j + 5)) → Rejects o.dst2 n o.scratchLen ∧ Rejects o.dst3 n o.scratchLen) ∧ o.len = n ∧
      (isPowerOfTwo n = true → n > 1 → o.scratchLen ≤ n) by
    obtain ⟨o, h1, h2, -⟩ := h; exact ⟨o, h1, h2⟩
  apply canon23_induct (P := fun n o => ((¬ ∃ j, n = 2 ^ (j + 5)) → Rejects o.dst2 n o.scratchLen ∧ Rejects o.dst3 n o.scratchLen)) hf
  · exact fun _ => ⟨Type2And3Butterfly2.rejects_dst2 Type2And3Butterfly2.new, Type2And3Butterfly2.rejects_dst3 Type2And3Butterfly2.new⟩
  · exact fun _ => ⟨Type2And3Butterfly3.rejects_dst2 Type2And3Butterfly3.new, Type2And3Butterfly3.rejects_dst3 Type2And3Butterfly3.new⟩
  · exact fun _ => ⟨Type2And3Butterfly4.rejects_dst2 Type2And3Butterfly4.new, Type2And3Butterfly4.rejects_dst3 Type2And3Butterfly4.new⟩
  · exact fun _ => ⟨Type2And3Butterfly8.rejects_dst2 Type2And3Butterfly8.new, Type2And3Butterfly8.rejects_dst3 Type2And3Butterfly8.new⟩
  · exact fun _ => ⟨Type2And3Butterfly16.rejects_dst2 Type2And3Butterfly16.new, Type2And3Butterfly16.rejects_dst3 Type2And3Butterfly16.new⟩
  · intro q half quarter hq hp _ _ _ _ _ _ h
    exact absurd (eagerAt_of_split hq hp) h
  · intro n _
    have e := (Type2And3ConvertToFft.len_inst (planFft n)).trans (hf n).1
    have a := Type2And3ConvertToFft.rejects_dst2 (Type2And3ConvertToFft.inst (planFft n))
    have b := Type2And3ConvertToFft.rejects_dst3 (Type2And3ConvertToFft.inst (planFft n))
    rw [e] at a b
    exact ⟨a, b⟩

theorem C28_planned_partial (hf : PlanFftSane planFft) (h : Planned planFft calls k p n s) (hk : ¬ k.eagerAt n) : Rejects p n s := by
  by_cases he : k.eager
  · cases h with
    | @dst2 n a s' h =>
      have e := Yields.canon (fun W => planDct2_yields n) h
      obtain ⟨o, ho, hm⟩ := planned23_rejects hf.shape n
      rw [ho] at e; injection e with e; subst e
      exact (hm hk).1
    | @dst3 n a s' h hn =>
      have e := Yields.canon (fun W => planDct2_yields n) h
      obtain ⟨o, ho, hm⟩ := planned23_rejects hf.shape n
      rw [ho] at e; injection e with e; subst e
      exact (hm hk).2
    | _ => exact absurd he id
  · exact (h.sane hf).rejects he

theorem C28_mdct_made (h : MadeMdct FftSane win o) (hn : 1 ≤ o.len) :
    RejectsMdct o.mdct o.len o.scratchLen ∧ RejectsImdct o.imdct o.len o.scratchLen := ⟨(h.ok hn).rmdct, (h.ok hn).rimdct⟩

theorem C28_mdct_planned (hf : PlanFftSane planFft) (h : PlannedMdct planFft calls n w o) (hn : 1 ≤ n) :
    RejectsMdct o.mdct n o.scratchLen ∧ RejectsImdct o.imdct n o.scratchLen := by
  obtain ⟨rfl, w', -, hm⟩ := h.made hf.shape
  exact C28_mdct_made (hm.mono (FromPlan.sane hf)) hn

/-- C27 for the MDCT methods. -/
theorem C27_mdct_made (h : MadeMdct FftSane win o) (hn : 1 ≤ o.len) :
    (∀ a b m, ¬ ValidMdct o.len o.scratchLen a b m → ∃ e m', o.mdct a b m = .panic e m' ∧ e ≠ .ub) ∧
    (∀ x m, ¬ ValidImdct o.len o.scratchLen x m → ∃ e m', o.imdct x m = .panic e m' ∧ e ≠ .ub) := by
  obtain ⟨h1, h2⟩ := C28_mdct_made h hn
  exact ⟨fun a b m hm => ⟨_, _, h1 a b m hm, by (repeat' split) <;> simp⟩, fun x m hm => ⟨_, _, h2 x m hm, by (repeat' split) <;> simp⟩⟩

theorem C27_mdct_planned (hf : PlanFftSane planFft) (h : PlannedMdct planFft calls n w o) (hn : 1 ≤ n) :
    (∀ a b m, ¬ ValidMdct n o.scratchLen a b m → ∃ e m', o.mdct a b m = .panic e m' ∧ e ≠ .ub) ∧
    (∀ x m, ¬ ValidImdct n o.scratchLen x m → ∃ e m', o.imdct x m = .panic e m' ∧ e ≠ .ub) := by
  obtain ⟨rfl, w', -, hm⟩ := h.made hf.shape
  exact C27_mdct_made (hm.mono (FromPlan.sane hf)) hn

/-! ### C29: oversized scratch is harmless -/

theorem RunsG.oversize [Zero T] {C : (Nat → T) → (Nat → T) → Nat → T} (h : RunsG p n s C) : OversizeHarmless p n s := by
  intro buf scr extra hb hs
  obtain ⟨f, rfl⟩ := exists_vec hb
  obtain ⟨g, rfl⟩ := exists_vec hs
  obtain ⟨a, e, -⟩ := h f g []
  obtain ⟨b, e', hl⟩ := h f g extra
  rw [List.append_nil, List.append_nil] at e
  exact ⟨_, a, b, e, e', hl⟩

theorem C29_made (h : Method FftSane k p n s) : OversizeHarmless p n s := h.total.elim fun _ hC => hC.oversize

theorem C29_planned (hf : PlanFftSane planFft) (h : Planned planFft calls k p n s) : OversizeHarmless p n s := C29_made (h.sane hf)

theorem split_tail {scr' scr extra : List T} (hs : scr.length = s) (h1 : scr'.length = (scr ++ extra).length)
    (h2 : scr'.drop s = (scr ++ extra).drop s) : ∃ scr₂, scr' = scr₂ ++ extra ∧ scr₂.length = s := by
  subst hs
  rw [List.drop_left] at h2
  refine ⟨scr'.take scr.length, ?_, ?_⟩
  · conv_lhs => rw [← List.take_append_drop scr.length scr', h2]
  · rw [List.length_take, h1]; simp

theorem C29_mdct_made (h : MadeMdct FftSane win o) (hn : 1 ≤ o.len) :
    OversizeHarmlessMdct o.mdct o.len o.scratchLen ∧ OversizeHarmlessImdct o.imdct o.len o.scratchLen := by
  obtain ⟨C, hC⟩ := (h.ok hn).mdct
  obtain ⟨A, B, hI⟩ := (h.ok hn).imdct
  constructor
  · rintro a b out scr extra ⟨h1, h2, h3, h4⟩ hs
    obtain ⟨a, rfl⟩ := exists_vec h1
    obtain ⟨b, rfl⟩ := exists_vec h2
    obtain ⟨f, hf⟩ := exists_vec h3
    change out = _ at hf; subst hf
    obtain ⟨x, e, -⟩ := hC a b f scr h4
    obtain ⟨y, e', g1, g2⟩ := hC a b f (scr ++ extra) (by simp; omega)
    obtain ⟨z, rfl, hz⟩ := split_tail hs g1 g2
    exact ⟨_, x, z, e, e', hz⟩
  · rintro x oa ob scr extra ⟨h1, h2, h3, h4⟩ hs
    obtain ⟨x, rfl⟩ := exists_vec h1
    obtain ⟨a, ha⟩ := exists_vec h2
    obtain ⟨b, hb⟩ := exists_vec h3
    change oa = _ at ha; subst ha
    change ob = _ at hb; subst hb
    obtain ⟨u, e, -⟩ := hI x a b scr h4
    obtain ⟨y, e', g1, g2⟩ := hI x a b (scr ++ extra) (by simp; omega)
    obtain ⟨z, rfl, hz⟩ := split_tail hs g1 g2
    exact ⟨_, _, u, z, e, e', hz⟩

theorem C29_mdct_planned (hf : PlanFftSane planFft) (h : PlannedMdct planFft calls n w o) (hn : 1 ≤ n) :
    OversizeHarmlessMdct o.mdct n o.scratchLen ∧ OversizeHarmlessImdct o.imdct n o.scratchLen := by
  obtain ⟨rfl, w', -, hm⟩ := h.made hf.shape
  exact C29_mdct_made (hm.mono (FromPlan.sane hf)) hn

/-! ### C30: scratch contents do not influence results

Does not hold for DST1, DST6 and DST7 instances that convert to an FFT: `C30_false` in `Verif/Props/Findings.lean`. -/

/-- The full statement. -/
def C30_statement (planFft : Nat → Fft T) : Prop :=
  ∀ calls k p n s, Planned planFft calls k p n s → ScratchFree p n s

theorem C30_made_partial (h : Method FftSane k p n s) (hk : ¬ k.leaky) : ScratchFree p n s := (h.clean hk).elim fun _ hC => hC.scratchFree

theorem planned_clean (hf : PlanFftSane planFft) (h : Planned planFft calls k p n s) (hk : ¬ k.leakyAt n) : ∃ C, RunsV p n s C := by
  by_cases he : k.leaky
  · cases h with
    | @dst1 n a s' h =>
      have e := Yields.canon (fun W => planDst1_yields n) h
      unfold canonDst1 at e
      rw [if_pos (by simpa [Kind.leakyAt] using hk)] at e
      obtain ⟨x, hx, hv⟩ := map_ok e
      have := (Dst1Naive.meth_dst1 hx).total
      rw [← hv]
      exact (Dst1Naive.len_new hx : x.scratchLen = n) ▸ this
    | @dst6 n a s' h =>
      have e := Yields.canon (fun W => planDst6_yields n) h
      unfold canonDst6 at e
      rw [if_pos (by simpa [Kind.leakyAt] using hk)] at e
      obtain ⟨x, hx, hv⟩ := map_ok e
      have := (Dst6And7Naive.meth_dst6 hx).total
      rw [← hv]
      exact (Dst6And7Naive.len_new hx : x.scratchLen = n) ▸ this
    | @dst7 n a s' h =>
      have e := Yields.canon (fun W => planDst6_yields n) h
      unfold canonDst6 at e
      rw [if_pos (by simpa [Kind.leakyAt] using hk)] at e
      obtain ⟨x, hx, hv⟩ := map_ok e
      have := (Dst6And7Naive.meth_dst7 hx).total
      rw [← hv]
      exact (Dst6And7Naive.len_new hx : x.scratchLen = n) ▸ this
    | _ => exact absurd he id
  · exact (h.sane hf).clean he

theorem C30_planned_partial (hf : PlanFftSane planFft) (h : Planned planFft calls k p n s) (hk : ¬ k.leakyAt n) : ScratchFree p n s :=
  (planned_clean hf h hk).elim fun _ hC => hC.scratchFree

theorem C30_mdct_made (h : MadeMdct FftSane win o) (hn : 1 ≤ o.len) :
    ScratchFreeMdct o.mdct o.len o.scratchLen ∧ ScratchFreeImdct o.imdct o.len o.scratchLen := by
  obtain ⟨C, hC⟩ := (h.ok hn).mdct
  obtain ⟨A, B, hI⟩ := (h.ok hn).imdct
  exact ⟨hC.scratchFree, hI.scratchFree⟩

theorem C30_mdct_planned (hf : PlanFftSane planFft) (h : PlannedMdct planFft calls n w o) (hn : 1 ≤ n) :
    ScratchFreeMdct o.mdct n o.scratchLen ∧ ScratchFreeImdct o.imdct n o.scratchLen := by
  obtain ⟨rfl, w', -, hm⟩ := h.made hf.shape
  exact C30_mdct_made (hm.mono (FromPlan.sane hf)) hn

/-! ### C31: scratch can be reused across any sequence of calls -/

/-- One call of a sequence: the method, its sizes, and the buffer it is applied to. -/
structure SeqCall (T : Type) where
  p : Proc T
  n : Nat
  s : Nat
  buf : List T

/-- Run the calls one after the other, all of them on the same scratch slice; collect the resulting buffers. -/
def runShared : List (SeqCall T) → List T → Outcome (List (List T) × List T)
  | [], scr => .ok ([], scr)
  | c :: r, scr =>
    match c.p ⟨c.buf, scr⟩ with
    | .ok m =>
      match runShared r m.scr with
      | .ok (outs, scr') => .ok (m.buf :: outs, scr')
      | .panic e _ => .panic e none
    | .panic e _ => .panic e none

/-- Each call on its own zeroed scratch: the default methods. -/
def runSeparate : List (SeqCall T) → Outcome (List (List T))
  | [] => .ok []
  | c :: r =>
    match processDefault c.s c.p c.buf with
    | .ok b =>
      match runSeparate r with
      | .ok outs => .ok (b :: outs)
      | .panic e _ => .panic e none
    | .panic e _ => .panic e none

/-- The full statement (false: `C31_false` in `Verif/Props/Findings.lean`). -/
def C31_statement (planFft : Nat → Fft T) : Prop :=
  ∀ (seq : List (SeqCall T)) (scr : List T),
    (∀ c ∈ seq, (∃ calls k, Planned planFft calls k c.p c.n c.s) ∧ ValidCall c.n c.s ⟨c.buf, scr⟩) →
    ∃ outs scr', runShared seq scr = .ok (outs, scr') ∧ runSeparate seq = .ok outs

theorem runShared_clean (seq : List (SeqCall T)) : ∀ (scr : List T),
    (∀ c ∈ seq, (∃ C, RunsV c.p c.n c.s C) ∧ ValidCall c.n c.s ⟨c.buf, scr⟩) →
    ∃ outs scr', runShared seq scr = .ok (outs, scr') ∧ runSeparate seq = .ok outs := by
  induction seq with
  | nil => exact fun scr _ => ⟨[], scr, rfl, rfl⟩
  | cons c r ih =>
    intro scr h
    obtain ⟨⟨C, hC⟩, hv, hs⟩ := h c (by simp)
    change c.buf.length = c.n at hv
    change c.s ≤ scr.length at hs
    obtain ⟨f, hf⟩ := exists_vec hv
    obtain ⟨a, e, hl, -⟩ := hC f scr hs
    obtain ⟨b, e', -⟩ := hC f (List.replicate c.s 0) (by simp)
    obtain ⟨outs, scr', h1, h2⟩ := ih a fun d hd => by
      obtain ⟨g1, g2, g3⟩ := h d (by simp [hd])
      change d.s ≤ scr.length at g3
      exact ⟨g1, g2, by change d.s ≤ a.length; omega⟩
    refine ⟨vec c.n (C f) :: outs, scr', ?_, ?_⟩
    · unfold runShared; rw [hf, e]; dsimp only; rw [h1]
    · unfold runSeparate processDefault; rw [hf, e']; dsimp only; rw [h2]

theorem C31_made_partial (seq : List (SeqCall T)) (scr : List T)
    (h : ∀ c ∈ seq, (∃ k, ¬ k.leaky ∧ Method FftSane k c.p c.n c.s) ∧ ValidCall c.n c.s ⟨c.buf, scr⟩) :
    ∃ outs scr', runShared seq scr = .ok (outs, scr') ∧ runSeparate seq = .ok outs :=
  runShared_clean seq scr fun c hc => ⟨(h c hc).1.elim fun k hk => hk.2.clean hk.1, (h c hc).2⟩

theorem C31_planned_partial (hf : PlanFftSane planFft) (seq : List (SeqCall T)) (scr : List T)
    (h : ∀ c ∈ seq, (∃ calls k, ¬ k.leakyAt c.n ∧ Planned planFft calls k c.p c.n c.s) ∧ ValidCall c.n c.s ⟨c.buf, scr⟩) :
    ∃ outs scr', runShared seq scr = .ok (outs, scr') ∧ runSeparate seq = .ok outs :=
  runShared_clean seq scr fun c hc => ⟨by obtain ⟨⟨calls, k, hk, hp⟩, -⟩ := h c hc; exact planned_clean hf hp hk, (h c hc).2⟩

/-! ### C40: the default methods equal the `_with_scratch` methods -/

/-- The default method is the `_with_scratch` method on zeroed scratch of `get_scratch_len()` elements. -/
theorem C40_zeroed (h : Method FftSane k p n s) (buf : List T) (hb : buf.length = n) :
    ∃ out scr', p ⟨buf, List.replicate s 0⟩ = .ok ⟨out, scr'⟩ ∧ processDefault s p buf = .ok out := by
  obtain ⟨C, hC⟩ := h.total
  obtain ⟨m', e, -⟩ := hC.safe ⟨buf, List.replicate s 0⟩ ⟨hb, by simp⟩
  exact ⟨m'.buf, m'.scr, e, by unfold processDefault; rw [e]⟩

/-- On a wrong buffer length it panics as the `_with_scratch` method does. -/
theorem C40_wrong_length (h : Method FftSane k p n s) (buf : List T) (hb : buf.length ≠ n) :
    ∃ e m, processDefault s p buf = .panic e m ∧ e ≠ .ub ∧ e ≠ .overflow := by
  obtain ⟨e, m', h1, h2⟩ := h.panics ⟨buf, List.replicate s 0⟩ (fun hv => hb hv.1)
  exact ⟨e, m'.map (·.buf), by unfold processDefault; rw [h1], h2⟩

/-- Where scratch contents do not matter it equals the `_with_scratch` method on any valid scratch. -/
theorem C40_any (h : Method FftSane k p n s) (hk : ¬ k.leaky) (buf scr : List T) (hv : ValidCall n s ⟨buf, scr⟩) :
    ∃ out scr', p ⟨buf, scr⟩ = .ok ⟨out, scr'⟩ ∧ processDefault s p buf = .ok out := by
  obtain ⟨C, hC⟩ := h.clean hk
  obtain ⟨out, a, b, e1, e2⟩ := hC.scratchFree buf scr (List.replicate s 0) hv ⟨hv.1, by simp⟩
  exact ⟨out, a, e1, by unfold processDefault; rw [e2]⟩

/-! ### Non-vacuity

Every kind of method exists, at every length from 2 on, after every history (`planned_exists`), so the hypotheses of the
theorems above are met for every `k`; the partial theorems cover the excluded kinds below the stated lengths, too. -/

example (calls : List (PlanCall T)) (k : Kind) :
    ∃ p s, Planned (fun n => (dftFft n : Fft T)) calls k p 1000 s ∧ Safe p 1000 s ∧ Panics p 1000 s ∧ OversizeHarmless p 1000 s :=
  let ⟨p, s, h⟩ := planned_exists dftFft_planSane.shape calls k (n := 1000) (by norm_num)
  ⟨p, s, h, C26_planned dftFft_planSane h, C27_planned dftFft_planSane h, C29_planned dftFft_planSane h⟩

/-- DST2 of length 24 rejects without touching the buffers, DST6 of length 44 does not depend on scratch. -/
example : (∃ p s, Planned (fun n => (dftFft n : Fft T)) [] .dst2 p 24 s ∧ Rejects p 24 s) ∧
    (∃ p s, Planned (fun n => (dftFft n : Fft T)) [] .dst6 p 44 s ∧ ScratchFree p 44 s) := by
  constructor
  · obtain ⟨p, s, h⟩ := planned_exists dftFft_planSane.shape ([] : List (PlanCall T)) .dst2 (n := 24) (by norm_num)
    refine ⟨p, s, h, C28_planned_partial dftFft_planSane h ?_⟩
    rintro ⟨j, hj⟩
    have : 24 % 2 ^ 5 = 0 := by rw [hj, pow_add]; simp
    omega
  · obtain ⟨p, s, h⟩ := planned_exists dftFft_planSane.shape ([] : List (PlanCall T)) .dst6 (n := 44) (by norm_num)
    exact ⟨p, s, h, C30_planned_partial dftFft_planSane h (by simp [Kind.leakyAt])⟩

/-- A sequence of two different transforms sharing one dirty scratch slice. -/
example (x : T) : ∃ (p q : Proc T) (s t : Nat), Planned (fun n => (dftFft n : Fft T)) [] .dct4 p 30 s ∧ Planned (fun n => (dftFft n : Fft T)) [] .dst3 q 32 t ∧
    ∃ outs scr', runShared [⟨p, 30, s, List.replicate 30 1⟩, ⟨q, 32, t, List.replicate 32 1⟩] (List.replicate (s + t) x) = .ok (outs, scr') ∧
      runSeparate [⟨p, 30, s, List.replicate 30 1⟩, ⟨q, 32, t, List.replicate 32 1⟩] = .ok outs := by
  obtain ⟨p, s, h⟩ := planned_exists dftFft_planSane.shape ([] : List (PlanCall T)) .dct4 (n := 30) (by norm_num)
  obtain ⟨q, t, g⟩ := planned_exists dftFft_planSane.shape ([] : List (PlanCall T)) .dst3 (n := 32) (by norm_num)
  refine ⟨p, q, s, t, h, g, C31_planned_partial dftFft_planSane _ _ fun c hc => ?_⟩
  simp only [List.mem_cons, List.not_mem_nil, or_false] at hc
  rcases hc with rfl | rfl
  · exact ⟨⟨_, _, by simp [Kind.leakyAt], h⟩, by simp [ValidCall]⟩
  · exact ⟨⟨_, _, by simp [Kind.leakyAt], g⟩, by simp [ValidCall]⟩

/-- MDCT of length 64 with a constant window. -/
example (calls : List (PlanCall T)) : ∃ o, PlannedMdct (fun n => (dftFft n : Fft T)) calls 64 (fun n => List.replicate n 1) o ∧ SafeMdct o.mdct 64 o.scratchLen :=
  let ⟨o, h⟩ := plannedMdct_exists dftFft_planSane.shape calls (n := 64) rfl (w := fun n => List.replicate n 1) (by simp)
  ⟨o, h, (C26_mdct_planned dftFft_planSane h (by norm_num)).1⟩

end
end RustDct
