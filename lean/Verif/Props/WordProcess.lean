import Verif.WordInstances
import Verif.Props.WordPlan
import Verif.Props.Safety
import Verif.Props.Word
/-!
# C68: the methods and `usize`

The `process_*` methods compute indices and strides in `usize`.  On a 32- or 64-bit machine these computations give what they give if `usize` is
unbounded, in debug and in release builds, for every instance whose length a buffer can have.
-/

set_option linter.all false

namespace RustDct

section
variable {T : Type} {F : Type} [F64 F] [DctNum T F] {M : Target} {n : ℕ}

theorem Outcome.Agrees.eq {N : Machine} {α : Type} {a b : Outcome α} (h : a.Agrees N b) (ha : ∀ x, a ≠ .panic .overflow x) : b = a := by
  rcases h with h | ⟨-, x, h⟩
  · exact h
  · exact absurd h (ha x)

/-- A method that is total on valid calls and panics without an overflow on others. -/
theorem eq_of_agrees {N : Machine} {p q : Proc T} {s : ℕ} (h : ∀ m, (p m).Agrees N (q m)) (h1 : Safe p n s) (h2 : Panics p n s) : q = p := by
  funext m
  refine (h m).eq fun x hx => ?_
  by_cases hm : ValidCall n s m
  · obtain ⟨m', e, -⟩ := h1 m hm
    rw [e] at hx; cases hx
  · obtain ⟨e, m', he, -, h3⟩ := h2 m hm
    rw [he] at hx; injection hx with hx; exact h3 hx

theorem mdct_eq_of_agrees {N : Machine} {p q : MdctObj T} {s : ℕ} (h : p.Agrees N q) (h1 : SafeMdct p.mdct n s ∧ SafeImdct p.imdct n s)
    (h2 : RejectsMdct p.mdct n s ∧ RejectsImdct p.imdct n s) : q = p := by
  have e1 : q.mdct = p.mdct := by
    funext a b m
    refine (h.mdct a b m).eq fun x hx => ?_
    by_cases hm : ValidMdct n s a b m
    · obtain ⟨m', e, -⟩ := h1.1 a b m hm
      rw [e] at hx; cases hx
    · rw [h2.1 a b m hm] at hx; injection hx with hx
      (repeat' split at hx) <;> cases hx
  have e2 : q.imdct = p.imdct := by
    funext a m
    refine (h.imdct a m).eq fun x hx => ?_
    by_cases hm : ValidImdct n s a m
    · obtain ⟨m', e, -⟩ := h1.2 a m hm
      rw [e] at hx; cases hx
    · rw [h2.2 a m hm] at hx; injection hx with hx
      (repeat' split at hx) <;> cases hx
  have e3 := h.len
  have e4 := h.scratchLen
  cases p; cases q; simp only at e1 e2 e3 e4; subst e1 e2 e3 e4; rfl

variable {planFft : ℕ → Fft T} {calls : List (PlanCall T)}

/-! ### Planned instances -/

/-- What the planner returns on a 32- or 64-bit machine, debug or release build, for a length that a buffer can have, is, as a function from memory to
memory, what it returns if `usize` is unbounded, so that all other theorems about planned instances apply to it. -/
theorem C68_planned (hf : PlanFftSane planFft) (hr : M.Realistic) {k : Kind} {p : Proc T} {l s : ℕ} (h : PlannedOn M planFft calls k p n l s)
    (hn : n ≤ M.maxVec) (hF : ∀ m, k.fftLen n = some m → M.Usable (planFft m)) : Planned planFft [] k p n s ∧ l = n := by
  obtain ⟨e, q, hq, ha⟩ := C66_planned hf.shape h (.inr ⟨hr, hn, hF⟩)
  rw [eq_of_agrees (ha hr hn) (C26_planned hf hq) (C27_planned hf hq)]
  exact ⟨hq, e⟩

/-- Conversely, whatever the unbounded model returns is returned, for every length for which the tables can be allocated. -/
theorem C68_returns (hf : PlanFftSane planFft) (hr : M.Realistic) {k : Kind} {p : Proc T} {s : ℕ} (h : Planned planFft calls k p n s)
    (hn : 8 * n + 8 ≤ M.maxVec) (hF : ∀ m, k.fftLen n = some m → M.Usable (planFft m)) (calls' : List (PlanCall T)) : PlannedOn M planFft calls' k p n n s := by
  obtain ⟨q, hq, ha⟩ := C66_returns hf.shape h hr hn hF calls'
  rw [eq_of_agrees ha (C26_planned hf h) (C27_planned hf h)] at hq
  exact hq

/-- The same for MDCTs; the window is that of this call or of an earlier one for the same length. -/
theorem C68_mdct (hf : PlanFftSane planFft) (hr : M.Realistic) {w : ℕ → List T} {o : MdctObj T} (h : PlannedMdctOn M planFft calls n w o) (h0 : 1 ≤ n)
    (hn : n ≤ M.maxVec) (hF : ∀ m, Kind.dct4.fftLen n = some m → M.Usable (planFft m)) :
    ∃ v, (v = w ∨ PlanCall.mdct n v ∈ calls) ∧ PlannedMdct planFft [] n v o ∧ o.len = n := by
  obtain ⟨e, v, q, hv, hq, -, ha⟩ := C66_mdct hf.shape h (.inr ⟨hr, hn, hF⟩)
  obtain rfl := mdct_eq_of_agrees (ha hr hn) (C26_mdct_planned hf hq h0) (C28_mdct_planned hf hq h0)
  exact ⟨v, hv, hq, e⟩

theorem C68_mdct_returns (hf : PlanFftSane planFft) (hr : M.Realistic) {w : ℕ → List T} {o : MdctObj T} (h : PlannedMdct planFft [] n w o) (h0 : 1 ≤ n)
    (hn : 8 * n + 8 ≤ M.maxVec) (hF : ∀ m, Kind.dct4.fftLen n = some m → M.Usable (planFft m)) : PlannedMdctOn M planFft [] n w o := by
  obtain ⟨q, hq, ha⟩ := C66_mdct_returns hf.shape h hr hn hF
  obtain rfl := mdct_eq_of_agrees ha (C26_mdct_planned hf h h0) (C28_mdct_planned hf h h0)
  exact hq

/-! ### Constructed instances -/

variable {okFft : Fft T → Prop}

theorem Obj1.Agrees.eq {N : Machine} {p q : Obj1 T} (h : p.Agrees N q) (h1 : Safe p.run p.len p.scratchLen) (h2 : Panics p.run p.len p.scratchLen) : q = p := by
  have e1 := eq_of_agrees h.run h1 h2
  have e3 := h.len
  have e4 := h.scratchLen
  cases p; cases q; simp only at e1 e3 e4; subst e1 e3 e4; rfl

theorem Obj1.Agrees.of {N : Machine} {k : Kind} {p q : Obj1 T} (h : p.Agrees N q) (hm : Method FftSane k p.run p.len p.scratchLen) : q = p :=
  h.eq (C26_made hm) (C27_made hm)

theorem Obj67.Agrees.of {N : Machine} {k k' : Kind} {p q : Obj67 T} (h : p.Agrees N q) (h6 : Method FftSane k p.t6 p.len p.scratchLen)
    (h7 : Method FftSane k' p.t7 p.len p.scratchLen) : q = p := by
  have e1 := eq_of_agrees h.t6 (C26_made h6) (C27_made h6)
  have e2 := eq_of_agrees h.t7 (C26_made h7) (C27_made h7)
  have e3 := h.len
  have e4 := h.scratchLen
  cases p; cases q; simp only at e1 e2 e3 e4; subst e1 e2 e3 e4; rfl

theorem Obj4.Agrees.of {N : Machine} {p q : Obj4 T} (h : p.Agrees N q) (hm : Made4 FftSane p) (hn : 1 ≤ p.len) : q = p := by
  have e1 := eq_of_agrees h.dct4 (C26_made (.dct4 hm hn)) (C27_made (.dct4 hm hn))
  have e2 := eq_of_agrees h.dst4 (C26_made (.dst4 hm hn)) (C27_made (.dst4 hm hn))
  have e3 := h.len
  have e4 := h.scratchLen
  cases p; cases q; simp only at e1 e2 e3 e4; subst e1 e2 e3 e4; rfl

theorem Obj23.Agrees.of {N : Machine} {p q : Obj23 T} (h : p.Agrees N q) (hm : Made23 FftSane p) (hn : 1 ≤ p.len) : q = p := by
  have e1 := eq_of_agrees h.dct2 (C26_made (.dct2 hm)) (C27_made (.dct2 hm))
  have e2 := eq_of_agrees h.dst2 (C26_made (.dst2 hm)) (C27_made (.dst2 hm))
  have e5 := eq_of_agrees h.dct3 (C26_made (.dct3 hm hn)) (C27_made (.dct3 hm hn))
  have e6 := eq_of_agrees h.dst3 (C26_made (.dst3 hm hn)) (C27_made (.dst3 hm hn))
  have e3 := h.len
  have e4 := h.scratchLen
  cases p; cases q; simp only at e1 e2 e3 e4 e5 e6; subst e1 e2 e3 e4 e5 e6; rfl

theorem Both.ok {α β : Type} {R : α → β → Prop} {x : α} {y : β} (h : Both R (.ok x) (.ok y)) : R x y := h

theorem Both.map_ok {α γ δ : Type} {R : γ → δ → Prop} {r : Except Err α} {x : α} {f : α → γ} {g : α → δ} (h : Both R (r.map f) (r.map g)) (hr : r = .ok x) : R (f x) (g x) := by
  subst hr; exact h

theorem MadeDct1On.made (hr : M.Realistic) (hok : ∀ f, okFft f → FftSane f ∧ M.Usable f) {o : Obj1 T} (h : MadeDct1On M okFft o) (hn : 2 ≤ o.len) : MadeDct1 okFft o := by
  cases h with
  | @naive len x hl h =>
    have hx := Dct1Naive.newOn_exact (.inr ⟨hr, hl⟩) h
    have e : x.toObjOn M.toMachine = x.toObj := (Both.map_ok Dct1Naive.mid h).2.2 hr |>.of (Method.dct1 (.naive hx) hn)
    rw [e]; exact .naive hx
  | fft hf h => exact .fft hf (Dct1ConvertToFft.newOn_exact (.inr ⟨hr, (hok _ hf).2⟩) h)

theorem MadeDst1On.made (hr : M.Realistic) (hok : ∀ f, okFft f → FftSane f ∧ M.Usable f) {o : Obj1 T} (h : MadeDst1On M okFft o) : MadeDst1 okFft o := by
  cases h with
  | @naive len x hl h =>
    have hx := Dst1Naive.newOn_exact (.inr ⟨hr, hl⟩) h
    have e : x.toObjOn M.toMachine = x.toObj := (Both.map_ok Dst1Naive.mid h).2.2 hr |>.of (Method.dst1 (.naive hx))
    rw [e]; exact .naive hx
  | @fft f x hf h0 h =>
    refine .fft hf (Dst1ConvertToFft.newOn_exact ?_ (.inr ⟨hr, (hok _ hf).2⟩) h)
    unfold Dst1ConvertToFft.newOn at h
    split at h
    · cases h
    · next h1 => omega

theorem MadeDct5On.made (hr : M.Realistic) {o : Obj1 T} (h : MadeDct5On M o) : MadeDct5 o := by
  cases h with
  | @naive len x hl h =>
    have hx := Dct5Naive.newOn_exact (.inr ⟨hr, hl⟩) h
    have e : x.toObjOn M.toMachine = x.toObj := (Both.map_ok Dct5Naive.mid h).2.2 hr |>.of (Method.dct5 (.naive hx))
    rw [e]; exact .naive hx

theorem MadeDst5On.made (hr : M.Realistic) {o : Obj1 T} (h : MadeDst5On M o) : MadeDst5 o := by
  cases h with
  | @naive len x hl h =>
    have hx := Dst5Naive.newOn_exact (.inr ⟨hr, hl⟩) h
    have e : x.toObjOn M.toMachine = x.toObj := (Both.map_ok Dst5Naive.mid h).2.2 hr |>.of (Method.dst5 (.naive hx))
    rw [e]; exact .naive hx

theorem MadeDct8On.made (hr : M.Realistic) {o : Obj1 T} (h : MadeDct8On M o) : MadeDct8 o := by
  cases h with
  | @naive len x hl h =>
    have hx := Dct8Naive.newOn_exact (.inr ⟨hr, hl⟩) h
    have e : x.toObjOn M.toMachine = x.toObj := (Both.map_ok Dct8Naive.mid h).2.2 hr |>.of (Method.dct8 (.naive hx))
    rw [e]; exact .naive hx

theorem MadeDst8On.made (hr : M.Realistic) {o : Obj1 T} (h : MadeDst8On M o) : MadeDst8 o := by
  cases h with
  | @naive len x hl h =>
    have hx := Dst8Naive.newOn_exact (.inr ⟨hr, hl⟩) h
    have e : x.toObjOn M.toMachine = x.toObj := (Both.map_ok Dst8Naive.mid h).2.2 hr |>.of (Method.dst8 (.naive hx))
    rw [e]; exact .naive hx

theorem MadeDct67On.made (hr : M.Realistic) {o : Obj67 T} (h : MadeDct67On M o) : MadeDct67 o := by
  cases h with
  | @naive len x hl h =>
    have hx := Dct6And7Naive.newOn_exact (.inr ⟨hr, hl⟩) h
    have e : x.toObjOn M.toMachine = x.toObj := (Both.map_ok Dct6And7Naive.mid h).2.2 hr |>.of (Method.dct6 (.naive hx)) (Method.dct7 (.naive hx))
    rw [e]; exact .naive hx

theorem MadeDst67On.made (hr : M.Realistic) (hok : ∀ f, okFft f → FftSane f ∧ M.Usable f) {o : Obj67 T} (h : MadeDst67On M okFft o) : MadeDst67 okFft o := by
  cases h with
  | @naive len x hl h =>
    have hx := Dst6And7Naive.newOn_exact (.inr ⟨hr, hl⟩) h
    have e : x.toObjOn M.toMachine = x.toObj := (Both.map_ok Dst6And7Naive.mid h).2.2 hr |>.of (Method.dst6 (.naive hx)) (Method.dst7 (.naive hx))
    rw [e]; exact .naive hx
  | @fft f x hf h =>
    have hx := Dst6And7ConvertToFft.newOn_exact (.inr ⟨hr, (hok _ hf).2⟩) h
    have e : x.toObjOn M.toMachine = x.toObj := (Both.map_ok Dst6And7ConvertToFft.mid h).2.2 ⟨hr, by have := (hok _ hf).2.1; omega⟩ |>.of
      (Method.dst6 (.fft (hok _ hf).1 hx)) (Method.dst7 (.fft (hok _ hf).1 hx))
    rw [e]; exact .fft hf hx

theorem Type2And3SplitRadix.newOn_fields {half quarter : Obj23 T} {x : Type2And3SplitRadix T} (h : Type2And3SplitRadix.newOn M half quarter = .ok x) :
    x.halfDct = half ∧ x.quarterDct = quarter ∧ 2 * x.twiddles.length ≤ M.maxVec := by
  unfold Type2And3SplitRadix.newOn at h
  obtain ⟨l, -, h⟩ := of_bind_ok h
  split at h
  · cases h
  obtain ⟨l, -, h⟩ := of_bind_ok h
  split at h
  · cases h
  obtain ⟨_, -, h⟩ := of_bind_ok h
  dsimp only at h
  split at h <;>
  · obtain ⟨_, -, h⟩ := of_bind_ok h
    obtain ⟨t, ht, h⟩ := of_bind_ok h
    cases h
    have := collect_length ht
    exact ⟨rfl, rfl, by simp only; omega⟩

/-- Type 2 and 3: the same instance, and its lengths are small. -/
theorem Made23On.made (hr : M.Realistic) (hok : ∀ f, okFft f → FftSane f ∧ M.Usable f) {o : Obj23 T} (h : Made23On M okFft o) :
    (1 ≤ o.len → Made23 okFft o) ∧ o.len ≤ 2 * M.maxVec ∧ o.scratchLen ≤ 2 * M.maxVec := by
  have r1 := hr.room
  have r2 := hr.large
  have mono : ∀ {o : Obj23 T}, Made23 okFft o → Made23 FftSane o := fun h => h.mono fun f hf => (hok f hf).1
  induction h with
  | @naive len x hl h =>
    have hx := Type2And3Naive.newOn_exact (.inr ⟨hr, hl⟩) h
    have ht := Type2And3Naive.newOn_table h
    have hl' : x.twiddles.length / 4 ≤ 2 * M.maxVec := by omega
    refine ⟨fun hn => ?_, hl', hl'⟩
    · have A : x.toObj.Agrees M.toMachine (x.toObjOn M.toMachine) := ⟨rfl, rfl, Type2And3Naive.dct2On_agrees r2 r1 ht, Type2And3Naive.dct3On_agrees r2 r1 ht,
        Type2And3Naive.dst2On_agrees r2 r1 ht, Type2And3Naive.dst3On_agrees r2 r1 ht⟩
      rw [A.of (.naive hx) hn]
      exact .naive hx
  | butterfly2 => exact ⟨fun _ => .butterfly2, by show 2 ≤ _; omega, Nat.zero_le _⟩
  | butterfly3 => exact ⟨fun _ => .butterfly3, by show 3 ≤ _; omega, Nat.zero_le _⟩
  | butterfly4 => exact ⟨fun _ => .butterfly4, by show 4 ≤ _; omega, Nat.zero_le _⟩
  | butterfly8 => exact ⟨fun _ => .butterfly8, by show 8 ≤ _; omega, Nat.zero_le _⟩
  | butterfly16 => exact ⟨fun _ => .butterfly16, by show 16 ≤ _; omega, Nat.zero_le _⟩
  | @fft f x hf h =>
    have hx := Type2And3ConvertToFft.newOn_exact (.inr ⟨hr, (hok _ hf).2⟩) h
    have ht := Type2And3ConvertToFft.newOn_table h
    refine ⟨fun hn => ?_, ?_, ?_⟩
    · have e := ((Both.map_ok Type2And3ConvertToFft.mid h).2.2 hr).of (.fft (hok _ hf).1 hx) hn
      rw [e]; exact .fft hf hx
    · have : x.twiddles.length ≤ 2 * M.maxVec := by omega
      exact this
    · have hs : x.scratchLen = 2 * (f.len + f.inplaceScratchLen) := by
        unfold Type2And3ConvertToFft.new at hx
        split at hx
        · cases hx
        · cases hx; rfl
      obtain ⟨u1, u2⟩ := (hok _ hf).2
      show x.scratchLen ≤ _
      omega
  | @splitRadix half quarter x hh hq sh sq h ih1 ih2 =>
    obtain ⟨f1, f2, f3⟩ := Type2And3SplitRadix.newOn_fields h
    have hx := Type2And3SplitRadix.newOn_exact (.inr ⟨hr, by omega, by omega⟩) h
    have hl : x.len = x.twiddles.length * 4 := rfl
    have hp : 2 ≤ half.len ∧ 1 ≤ quarter.len := by
      unfold Type2And3SplitRadix.new at hx
      dsimp only at hx
      split at hx
      · cases hx
      split at hx
      · cases hx
      omega
    refine ⟨fun hn => ?_, ?_, ?_⟩
    · have m1 := ih1.1 (by omega)
      have m2 := ih2.1 (by omega)
      have e := ((Both.map_ok (Type2And3SplitRadix.mid (.refl half) (.refl quarter)) h).2.2 hr).of (.splitRadix (mono m1) (mono m2) sh sq hx) hn
      rw [e]
      exact .splitRadix m1 m2 sh sq hx
    · show x.len ≤ _
      omega
    · show x.len ≤ _
      omega

theorem Made4On.made (hr : M.Realistic) (hok : ∀ f, okFft f → FftSane f ∧ M.Usable f) {o : Obj4 T} (h : Made4On M okFft o) :
    (1 ≤ o.len → Made4 okFft o) ∧ o.len ≤ M.maxVec ∧ o.scratchLen ≤ 3 * M.maxVec := by
  have r1 := hr.room
  have r2 := hr.large
  cases h with
  | @naive len x hl h =>
    have hx := Type4Naive.newOn_exact (.inr ⟨hr, hl⟩) h
    have ht := Type4Naive.newOn_table h
    have hl' : x.twiddles.length / 4 ≤ M.maxVec := by omega
    refine ⟨fun hn => ?_, hl', hl'.trans (by omega)⟩
    · have e := ((Both.map_ok Type4Naive.mid h).2.2 hr).of (.naive hx) hn
      rw [e]; exact .naive hx
  | @fft f x hf h =>
    obtain ⟨u1, u2⟩ := (hok _ hf).2
    have hx := Type4ConvertToFftOdd.newOn_exact (.inr ⟨hr, (hok _ hf).2⟩) h
    have hs : x.len = f.len ∧ x.scratchLen = 2 * (f.len + f.inplaceScratchLen) := by
      unfold Type4ConvertToFftOdd.new at hx
      split at hx
      · cases hx
      split at hx
      · cases hx
      cases hx; exact ⟨rfl, rfl⟩
    refine ⟨fun hn => ?_, ?_, ?_⟩
    · have e := ((Both.map_ok Type4ConvertToFftOdd.mid h).2.2 ⟨hr, by omega⟩).of (.fft (hok _ hf).1 hx) hn
      rw [e]; exact .fft hf hx
    · show x.len ≤ _
      omega
    · show x.scratchLen ≤ _
      omega
  | @type3 inner x hi h =>
    obtain ⟨m, l1, l2⟩ := hi.made hr hok
    have hx := Type4ConvertToType3Even.newOn_exact (.inr ⟨hr, by omega, l2⟩) h
    have hs : x.twiddles.length = inner.len ∧ x.scratchLen ≤ inner.len * 2 + inner.scratchLen := by
      unfold Type4ConvertToType3Even.new at hx
      cases hx
      refine ⟨by simp, ?_⟩
      simp only
      split <;> omega
    have hc : 2 * inner.len ≤ M.maxVec := by
      unfold Type4ConvertToType3Even.newOn at h
      obtain ⟨_, -, h⟩ := of_bind_ok h
      obtain ⟨c, hc, -⟩ := of_bind_ok h
      have := (collect_length hc).1
      omega
    have hlen : x.len = x.twiddles.length * 2 := rfl
    refine ⟨fun hn => ?_, ?_, ?_⟩
    · have hn' : 1 ≤ x.len := hn
      have m := m (by omega)
      have e := ((Both.map_ok (Type4ConvertToType3Even.mid (.refl inner)) h).2.2 hr).of (.type3 (m.mono fun f hf => (hok f hf).1) hx) hn
      rw [e]
      exact .type3 m hx
    · show x.len ≤ _
      omega
    · show x.scratchLen ≤ _
      omega

/-- Every method of every instance that can be constructed on a 32- or 64-bit machine, debug or release build, from lengths and FFTs that fit into memory is,
as a function from memory to memory, that of an instance constructed with unbounded `usize`. -/
theorem C68_made (hr : M.Realistic) (hok : ∀ f, okFft f → FftSane f ∧ M.Usable f) {k : Kind} {p : Proc T} {s : ℕ} (h : MethodOn M okFft k p n s) : Method okFft k p n s := by
  cases h with
  | dct1 h hn => exact .dct1 (h.made hr hok hn) hn
  | dct2 h hn => exact .dct2 ((h.made hr hok).1 hn)
  | dct3 h hn => exact .dct3 ((h.made hr hok).1 hn) hn
  | dct4 h hn => exact .dct4 ((h.made hr hok).1 hn) hn
  | dct5 h => exact .dct5 (h.made hr)
  | dct6 h => exact .dct6 (h.made hr)
  | dct7 h => exact .dct7 (h.made hr)
  | dct8 h => exact .dct8 (h.made hr)
  | dst1 h => exact .dst1 (h.made hr hok)
  | dst2 h hn => exact .dst2 ((h.made hr hok).1 hn)
  | dst3 h hn => exact .dst3 ((h.made hr hok).1 hn) hn
  | dst4 h hn => exact .dst4 ((h.made hr hok).1 hn) hn
  | dst5 h => exact .dst5 (h.made hr)
  | dst6 h => exact .dst6 (h.made hr hok)
  | dst7 h => exact .dst7 (h.made hr hok)
  | dst8 h => exact .dst8 (h.made hr)

theorem C68_mdct_made (hr : M.Realistic) (hok : ∀ f, okFft f → FftSane f ∧ M.Usable f) {win : List T} {o : MdctObj T} (h : MadeMdctOn M okFft win o) (hn : 1 ≤ o.len) :
    MadeMdct okFft win o := by
  have r1 := hr.room
  have r2 := hr.large
  cases h with
  | @naive len w x hl hq h =>
    have hx := MdctNaive.newOn_exact (.inr ⟨hr, hl⟩) h
    have ht : x.twiddles.length ≤ M.maxVec := by
      unfold MdctNaive.newOn at h
      split at h
      · cases h
      dsimp only at h
      obtain ⟨_, -, h⟩ := of_bind_ok h
      obtain ⟨t, ht, h⟩ := of_bind_ok h
      obtain ⟨_, -, h⟩ := of_bind_ok h
      split at h
      · cases h
      cases h
      have := collect_length ht
      simp only
      omega
    have hlen : x.len = len := by
      obtain ⟨-, -, t, rfl⟩ := MdctNaive.new_shape hx
      simp [MdctNaive.len]
    have A : x.toObj.Agrees M.toMachine (x.toObjOn M.toMachine) := by
      refine ⟨rfl, rfl, MdctNaive.mdctOn_agrees r2 r1 ht ?_, MdctNaive.imdctOn_agrees r2 r1 ht⟩
      rw [hlen]
      nlinarith
    have hm : MadeMdct FftSane (w (len * 2)) x.toObj := .naive hx
    rw [mdct_eq_of_agrees A (C26_mdct_made hm hn) (C28_mdct_made hm hn)]
    exact .naive hx
  | @viaDct4 inner w x hi h =>
    obtain ⟨m, l1, l2⟩ := hi.made hr hok
    have hx := MdctViaDct4.newOn_exact (.inr ⟨hr, l1, l2⟩) h
    have e : x.dct = inner := by
      unfold MdctViaDct4.new at hx
      dsimp only at hx
      split at hx
      · cases hx
      split at hx
      · cases hx
      cases hx; rfl
    refine .viaDct4 (m ?_) hx
    have : 1 ≤ x.dct.len := hn
    rwa [e] at this

/-- A finding at the border of `C68_made`: with an FFT of length 0, `Dst1ConvertToFft::new` computes `0 - 1`.  A debug build panics; a release build returns an
instance of length `usize::MAX`. -/
theorem C68_dst1_zero_fft {fft : Fft T} (h0 : fft.len = 0) (hd : fft.direction = .forward) (hs : 2 * fft.inplaceScratchLen < M.values) :
    (M.wraps = false → Dst1ConvertToFft.newOn M fft = .error .overflow) ∧
    (M.wraps = true → ∃ x, Dst1ConvertToFft.newOn M fft = .ok x ∧ x.len = M.values - 1) := by
  have hv : 0 < M.values := by omega
  have hv1 : fft.inplaceScratchLen < M.values := by omega
  constructor <;> intro hw
  · simp [Dst1ConvertToFft.newOn, h0, hd, Machine.sub, hw, Bind.bind, Except.bind]
  · refine ⟨_, by simp [Dst1ConvertToFft.newOn, fftScratchOn, h0, hd, Machine.sub, Machine.arith, hw, Bind.bind, Except.bind, hv1, hs]; rfl, rfl⟩

end

/-- A split radix instance of length 8 on a naive instance and a butterfly is constructed in a 64-bit release build, and is the one of the unbounded model. -/
example : ∃ p s, MethodOn release64 (fun f : Fft ℝ => FftSane f ∧ release64.Usable f) .dst3 p 8 s ∧ Method (fun f : Fft ℝ => FftSane f ∧ release64.Usable f) .dst3 p 8 s := by
  have h1 : ∃ x : Type2And3Naive ℝ, Type2And3Naive.newOn release64 4 = .ok x ∧ x.len = 4 := ⟨_, rfl, rfl⟩
  obtain ⟨x, hx, lx⟩ := h1
  have h3 : ∀ h q : Obj23 ℝ, h.len = 4 → q.len = 2 → ∃ z, Type2And3SplitRadix.newOn release64 h q = .ok z ∧ z.len = 8 := by
    rintro ⟨⟩ ⟨⟩ rfl rfl
    have e : isPowerOfTwo 8 = true := by simp [isPowerOfTwo]
    exact ⟨_, by simp [Type2And3SplitRadix.newOn, Machine.arith, Target.collect, release64, Bind.bind, Except.bind, e]; rfl, by simp [Type2And3SplitRadix.len]⟩
  obtain ⟨z, hz, lz⟩ := h3 (x.toObjOn release64.toMachine) (Type2And3Butterfly2.new (T := ℝ)).toObj lx rfl
  have hm : MethodOn release64 (fun f : Fft ℝ => FftSane f ∧ release64.Usable f) .dst3 (z.toObjOn release64.toMachine).dst3 8 z.scratchLen := by
    have := MethodOn.dst3 (M := release64) (okFft := fun f : Fft ℝ => FftSane f ∧ release64.Usable f) (o := z.toObjOn release64.toMachine)
      (.splitRadix (.naive (by norm_num [release64]) hx) .butterfly2 (by show x.len ≤ x.len * 2; omega) (by show 0 ≤ x.len * 2; omega) hz)
      (by show 1 ≤ z.len; omega)
    rwa [show (z.toObjOn release64.toMachine).len = 8 from lz] at this
  exact ⟨_, _, hm, C68_made release64_realistic (fun _ h => h) hm⟩

/-- 32-bit machines with `f32` are covered. -/
example (w : Bool) : ({ values := 2 ^ 32, wraps := w, maxVec := 2 ^ 29 - 1 } : Target).Realistic := by
  constructor <;> norm_num

/-- Length 100 in both builds: the same method. -/
example : ∃ p s, PlannedOn release64 (fun n => (sumFft n : Fft ℝ)) [.dct2 64] .dst1 p 100 100 s ∧ PlannedOn debug64 (fun n => (sumFft n : Fft ℝ)) [.dct1 5] .dst1 p 100 100 s ∧
    Planned (fun n => (sumFft n : Fft ℝ)) [] .dst1 p 100 s := by
  obtain ⟨p, s, hp⟩ := planned_exists (T := ℝ) (planFft := fun n => sumFft n) sumFft_sane.shape [] .dst1 (n := 100) (by simp)
  have hu : ∀ M : Target, M.maxVec = 2 ^ 61 - 1 → ∀ m, Kind.dst1.fftLen 100 = some m → M.Usable (sumFft m : Fft ℝ) := by
    intro M hM m hm
    simp only [Kind.fftLen] at hm
    norm_num at hm
    subst hm
    constructor <;> simp only [sumFft] <;> rw [hM] <;> norm_num
  have h1 := C68_returns sumFft_sane release64_realistic hp (by norm_num [release64]) (hu _ rfl) [.dct2 64]
  have h2 := C68_returns sumFft_sane debug64_realistic hp (by norm_num [debug64]) (hu _ rfl) [.dct1 5]
  exact ⟨p, s, h1, h2, (C68_planned sumFft_sane release64_realistic h1 (by norm_num [release64]) (hu _ rfl)).1⟩

end RustDct
