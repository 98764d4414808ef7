import Verif.Soundness
import Verif.Proofs.Made
import Verif.Proofs.MadeMdct
/-!
# Memory safety of every method

A Hoare logic for method bodies: `Good P e` says that `e` returns a value with `P`, or panics, and is not undefined behaviour.
-/

set_option linter.all false

namespace RustDct

def BadErr (s : Bool) : Err → Prop
  | .ub => True
  | .overflow => s = true
  | _ => False

def Good (s : Bool) {α : Type} (P : α → Prop) : Except Err α → Prop
  | .ok a => P a
  | .error e => ¬ BadErr s e

/-- `MemorySafe`, and, if `s` is set, no arithmetic overflow. -/
def MSafe {T : Type} (s : Bool) (p : Proc T) : Prop :=
  ∀ m, match p m with
    | .ok m' => m'.buf.length = m.buf.length ∧ m'.scr.length = m.scr.length
    | .panic e _ => ¬ BadErr s e

theorem badErr_false {e : Err} : BadErr false e ↔ e = .ub := by
  cases e <;> simp [BadErr]

theorem badErr_true {e : Err} : BadErr true e ↔ e = .ub ∨ e = .overflow := by
  cases e <;> simp [BadErr]

theorem mSafe_false {T : Type} {p : Proc T} : MSafe false p ↔ MemorySafe p := by
  unfold MSafe MemorySafe
  refine forall_congr' fun m => ?_
  cases p m with
  | ok m' => exact Iff.rfl
  | panic e _ => exact not_congr badErr_false

namespace Good
variable {z : Bool} {α β : Type} {P : α → Prop} {Q : β → Prop}

theorem ok {a : α} (h : P a) : Good z P (.ok a) := h

theorem bind {e : Except Err α} {f : α → Except Err β} (h : Good z P e) (hf : ∀ a, P a → Good z Q (f a)) : Good z Q (e >>= f) := by
  cases e with
  | ok a => exact hf a h
  | error x => exact h

theorem bindOk {a : α} {f : α → Except Err β} (h : Good z Q (f a)) : Good z Q (Except.ok a >>= f) := h

theorem mono {P' : α → Prop} {e : Except Err α} (h : Good z P e) (hp : ∀ a, P a → P' a) : Good z P' e := by
  cases e with
  | ok a => exact hp a h
  | error x => exact h

theorem rd (l : List α) (i : ℕ) : Good z (fun _ => True) (rd l i) := by
  unfold RustDct.rd
  split
  · trivial
  · exact id

theorem wr (l : List α) (i : ℕ) (v : α) : Good z (fun l' => l'.length = l.length) (wr l i v) := by
  unfold RustDct.wr
  split
  · exact List.length_set
  · exact id

theorem rdU {l : List α} {i : ℕ} (h : i < l.length) : Good z (fun _ => True) (rdU l i) := by
  unfold RustDct.rdU
  rw [List.getElem?_eq_getElem h]
  trivial

theorem wrU {l : List α} {i : ℕ} {v : α} (h : i < l.length) : Good z (fun l' => l'.length = l.length) (wrU l i v) := by
  unfold RustDct.wrU
  rw [if_pos h]
  exact List.length_set

theorem csub {a b : ℕ} (h : z = true → b ≤ a) : Good z (fun c => b ≤ a ∧ c = a - b) (csub a b) := by
  unfold RustDct.csub
  split
  · exact ⟨by assumption, rfl⟩
  · exact fun h' => absurd (h h') ‹_›

theorem splitAtMut (l : List α) (k : ℕ) : Good z (fun p => k ≤ l.length ∧ p.1.length = k ∧ p.2.length = l.length - k) (splitAtMut l k) := by
  unfold RustDct.splitAtMut
  split
  · exact ⟨by assumption, by simp; omega, by simp⟩
  · exact id

theorem copyFromSlice (dst src : List α) : Good z (fun l => l.length = dst.length) (copyFromSlice dst src) := by
  unfold RustDct.copyFromSlice
  split
  · exact Eq.symm ‹_›
  · exact id

theorem forRange {σ : Type} {I : σ → Prop} {lo hi : ℕ} {s : σ} {f : ℕ → σ → Except Err σ} (h0 : I s)
    (hstep : ∀ i s, lo ≤ i → i < hi → I s → Good z I (f i s)) : Good z I (forRange lo hi s f) := by
  unfold RustDct.forRange
  have : ∀ (l : List ℕ) (s : σ), (∀ i ∈ l, lo ≤ i ∧ i < hi) → I s → Good z I (l.foldlM (fun s i => f i s) s) := by
    intro l
    induction l with
    | nil => exact fun s _ h => h
    | cons i l ih =>
      intro s hl hs
      rw [List.foldlM_cons]
      have hi := hl i (List.mem_cons_self ..)
      exact bind (hstep i s hi.1 hi.2 hs) fun s' hs' => ih s' (fun j hj => hl j (List.mem_cons_of_mem _ hj)) hs'
  refine this _ s (fun i hi => ?_) h0
  rw [List.mem_range'_1] at hi
  omega

/-- Loops over a list: the length is an invariant. -/
theorem forLen {lo hi : ℕ} {l : List α} {f : ℕ → List α → Except Err (List α)}
    (hstep : ∀ i s, lo ≤ i → i < hi → s.length = l.length → Good z (fun s' => s'.length = l.length) (f i s)) :
    Good z (fun s' => s'.length = l.length) (RustDct.forRange lo hi l f) := forRange rfl hstep

theorem forLen1 {lo hi : ℕ} {l : List α} {c : β} {f : ℕ → List α × β → Except Err (List α × β)}
    (hstep : ∀ i s c, lo ≤ i → i < hi → s.length = l.length → Good z (fun s' : List α × β => s'.1.length = l.length) (f i (s, c))) :
    Good z (fun s' : List α × β => s'.1.length = l.length) (RustDct.forRange lo hi (l, c) f) :=
  forRange rfl fun i s h1 h2 h3 => hstep i s.1 s.2 h1 h2 h3

theorem forLen2 {lo hi : ℕ} {l k : List α} {f : ℕ → List α × List α → Except Err (List α × List α)}
    (hstep : ∀ i s t, lo ≤ i → i < hi → s.length = l.length → t.length = k.length →
      Good z (fun s' : List α × List α => s'.1.length = l.length ∧ s'.2.length = k.length) (f i (s, t))) :
    Good z (fun s' : List α × List α => s'.1.length = l.length ∧ s'.2.length = k.length) (RustDct.forRange lo hi (l, k) f) :=
  forRange ⟨rfl, rfl⟩ fun i s h1 h2 h3 => hstep i s.1 s.2 h1 h2 h3.1 h3.2

theorem forLen3 {lo hi : ℕ} {l k j : List α} {f : ℕ → List α × List α × List α → Except Err (List α × List α × List α)}
    (hstep : ∀ i s t u, lo ≤ i → i < hi → s.length = l.length → t.length = k.length → u.length = j.length →
      Good z (fun s' : List α × List α × List α => s'.1.length = l.length ∧ s'.2.1.length = k.length ∧ s'.2.2.length = j.length) (f i (s, t, u))) :
    Good z (fun s' : List α × List α × List α => s'.1.length = l.length ∧ s'.2.1.length = k.length ∧ s'.2.2.length = j.length)
      (RustDct.forRange lo hi (l, k, j) f) :=
  forRange ⟨rfl, rfl, rfl⟩ fun i s h1 h2 h3 => hstep i s.1 s.2.1 s.2.2 h1 h2 h3.1 h3.2.1 h3.2.2

theorem ite {c : Prop} [Decidable c] {e e' : Except Err α} (h : c → Good z P e) (h' : ¬ c → Good z P e') : Good z P (if c then e else e') := by
  split
  · exact h ‹_›
  · exact h' ‹_›

theorem iteLen {c : Prop} [Decidable c] {l : List α} {e : Except Err (List α)} (h : c → Good z (fun s => s.length = l.length) e) :
    Good z (fun s => s.length = l.length) (if c then e else .ok l) := ite h fun _ => rfl

theorem iteNat {c : Prop} [Decidable c] {e e' : Except Err α} (h : c → Good z (fun _ => True) e) (h' : ¬ c → Good z (fun _ => True) e') :
    Good z (fun _ => True) (if c then e else e') := ite h h'

theorem callProc {T : Type} {p : Proc T} (h : MSafe z p) (buf scr : List T) :
    Good z (fun r => r.1.length = buf.length ∧ r.2.length = scr.length) (callProc p buf scr) := by
  unfold RustDct.callProc
  have := h ⟨buf, scr⟩
  split
  · rename_i m e; rw [e] at this; exact this
  · rename_i e; rw [e] at this; exact this

theorem process {T : Type} {fft : Fft T} (h : fft.MemorySafe) (buf scr : List (Cx T)) :
    Good false (fun r => r.1.length = buf.length ∧ r.2.length = scr.length) (fft.process buf scr) := by
  have := h buf scr
  cases e : fft.process buf scr with
  | ok r => rw [e] at this; exact this
  | error x => rw [e] at this; exact fun h => this (badErr_false.1 h)

theorem strideLoop {T W : Type} (tw : List W) (scr : List T) (st : ℕ) (f : T → T → W → T) (lo : ℕ) (c : T) (i : ℕ) :
    Good z (fun _ => True) (strideLoop tw scr st f lo c i) := by
  unfold RustDct.strideLoop
  refine forRange trivial fun j s _ _ _ => ?_
  refine bind (rd _ _) fun _ _ => bind (rd _ _) fun _ _ => ?_
  dsimp only
  split <;> trivial

end Good

section
variable {z : Bool} {T : Type} {F : Type} [F64 F] [DctNum T F]

theorem Good.mdctLoop (tw : List T) (cnt st : ℕ) {term : ℕ → T → Except Err T} (acc : T) (i : ℕ) (h : ∀ i t, Good z (fun _ => True) (term i t)) :
    Good z (fun _ => True) (mdctLoop tw cnt st term acc i) := by
  unfold RustDct.mdctLoop
  refine forRange trivial fun j s _ _ _ => ?_
  refine bind (rd _ _) fun _ _ => bind (h _ _) fun _ _ => ?_
  dsimp only
  split <;> trivial

theorem Good.rdMirror (buffer : List T) (len i : ℕ) : Good false (fun _ => True) (rdMirror buffer len i) :=
  bind (csub (fun h => nomatch h)) fun _ _ => bind (csub (fun h => nomatch h)) fun _ _ => rd _ _

theorem Good.fillWhileInput {len : ℕ} {value : ℕ → Except Err (Cx T)} (h : ∀ i, Good z (fun _ => True) (value i)) (ii fi : ℕ) (l : List (Cx T)) :
    Good z (fun r => r.2.2.length = l.length) (fillWhileInput len value ii fi l) := by
  induction hd : len - ii using Nat.strongRecOn generalizing ii fi l with
  | ind d ih =>
    unfold RustDct.fillWhileInput
    split
    · refine bind (h ii) fun v _ => bind (wr _ _ _) fun l' hl => ?_
      refine (ih (len - (ii + 4)) (by omega) (ii + 4) (fi + 1) l' rfl).mono fun r hr => hr.trans hl
    · exact rfl

theorem Good.fillWhileFft {len : ℕ} {value : ℕ → Except Err (Cx T)} (h : ∀ i, Good z (fun _ => True) (value i)) (ii fi : ℕ) (l : List (Cx T)) :
    Good z (fun r => r.length = l.length) (fillWhileFft len value ii fi l) := by
  induction hd : len - fi using Nat.strongRecOn generalizing ii fi l with
  | ind d ih =>
    unfold RustDct.fillWhileFft
    split
    · refine bind (h ii) fun v _ => bind (wr _ _ _) fun l' hl => ?_
      refine (ih (len - (fi + 1)) (by omega) (ii + 4) (fi + 1) l' rfl).mono fun r hr => hr.trans hl
    · exact rfl

theorem mSafe_validateBuffers {n s : ℕ} {body : List T → List T → Except Err (List T × List T)}
    (h : ∀ b c, b.length = n → c.length = s → Good z (fun r => r.1.length = b.length ∧ r.2.length = c.length) (body b c)) :
    MSafe z (fun m => validateBuffers m n s body) := by
  intro m
  dsimp only
  unfold validateBuffers afterErrorHelper dctErrorInplace
  by_cases h1 : m.buf.length = n
  · rw [if_neg (by simpa using h1)]
    by_cases h2 : s ≤ m.scr.length
    · rw [if_pos h2]
      have h3 : (m.scr.take s).length = s := by simp; omega
      have := h m.buf (m.scr.take s) h1 h3
      cases e : body m.buf (m.scr.take s) with
      | ok r =>
        rw [e] at this
        exact ⟨this.1, by simp only [List.length_append, this.2, List.length_drop]; omega⟩
      | error x => rw [e] at this; exact this
    · rw [if_neg h2]
      simp [h1, h2, BadErr]
  · rw [if_pos h1]
    simp [h1, BadErr]

theorem memorySafe_validateBuffers {n s : ℕ} {body : List T → List T → Except Err (List T × List T)}
    (h : ∀ b c, b.length = n → c.length = s → Good false (fun r => r.1.length = b.length ∧ r.2.length = c.length) (body b c)) :
    MemorySafe (fun m => validateBuffers m n s body) := mSafe_false.1 (mSafe_validateBuffers h)

theorem mSafe_of [Zero T] {p : Proc T} {n s : ℕ} {C : (ℕ → T) → ℕ → T} (h : RunsV p n s C) (hr : Rejects p n s) : MSafe z p := by
  intro m
  by_cases hv : ValidCall n s m
  · obtain ⟨m', e, h1, h2, -⟩ := h.safe m hv
    rw [e]
    exact ⟨h1.trans hv.1.symm, h2⟩
  · rw [hr m hv]
    dsimp only
    split <;> exact id

theorem memorySafe_validateMdct {n s : ℕ} {body : List T → List T → List T → List T → Except Err (List T × List T)}
    (h : ∀ x y b c, x.length = n → y.length = n → b.length = n → c.length = s → Good false (fun r => r.1.length = b.length ∧ r.2.length = c.length) (body x y b c)) :
    MemorySafeMdct (fun x y m => validateMdct x y m n s (body x y)) := by
  intro x y m
  dsimp only
  by_cases hv : ValidMdct n s x y m
  · obtain ⟨h1, h2, h3, h4⟩ := hv
    unfold validateMdct
    rw [if_neg (by simp [h1, h2, h3]), if_pos h4]
    have h5 : (m.scr.take s).length = s := by simp; omega
    have := h x y m.buf (m.scr.take s) h1 h2 h3 h5
    cases e : body x y m.buf (m.scr.take s) with
    | ok r =>
      rw [e] at this
      exact ⟨this.1, by simp only [List.length_append, this.2, List.length_drop]; omega⟩
    | error x => rw [e] at this; exact fun h => this (badErr_false.2 h)
  · have := rejects_validateMdct n s body x y m hv
    dsimp only at this
    rw [this]
    dsimp only
    repeat' split
    all_goals exact fun h => nomatch h

theorem memorySafe_validateImdct {n s : ℕ} {body : List T → List T → List T → List T → Except Err (List T × List T × List T)}
    (h : ∀ x a b c, x.length = n → a.length = n → b.length = n → c.length = s →
      Good false (fun r => r.1.length = a.length ∧ r.2.1.length = b.length ∧ r.2.2.length = c.length) (body x a b c)) :
    MemorySafeImdct (fun x m => validateImdct x m n s (body x)) := by
  intro x m
  dsimp only
  by_cases hv : ValidImdct n s x m
  · obtain ⟨h1, h2, h3, h4⟩ := hv
    unfold validateImdct
    rw [if_neg (by simp [h1, h2, h3]), if_pos h4]
    have h5 : (m.scr.take s).length = s := by simp; omega
    have := h x m.outA m.outB (m.scr.take s) h1 h2 h3 h5
    cases e : body x m.outA m.outB (m.scr.take s) with
    | ok r =>
      rw [e] at this
      exact ⟨this.1, this.2.1, by simp only [List.length_append, this.2.2, List.length_drop]; omega⟩
    | error x => rw [e] at this; exact fun h => this (badErr_false.2 h)
  · have := rejects_validateImdct n s body x m hv
    dsimp only at this
    rw [this]
    dsimp only
    repeat' split
    all_goals exact fun h => nomatch h

@[simp] theorem length_assignZip {α β : Type} (g : β → α) (dst : List α) (srcs : List β) : (assignZip g dst srcs).length = dst.length := by
  unfold assignZip updZip
  simp; omega

@[simp] theorem length_updZip {α β : Type} (g : α → β → α) (dst : List α) (srcs : List β) : (updZip g dst srcs).length = dst.length := by
  unfold updZip
  simp; omega

@[simp] theorem length_zipUpdate (f : T → T → T → T) (k : ℕ) (o w v : List T) : (zipUpdate f k o w v).length = o.length := by
  unfold zipUpdate
  simp; omega

theorem length_fromComplex_max (cs : List (Cx T)) (orig : List T) : (fromComplex cs orig).length = max (2 * cs.length) orig.length := by
  unfold fromComplex
  rw [List.length_append, length_flattenComplex, List.length_drop]
  omega

/-- One step through a method body.  Side conditions of unchecked accesses are left to `omega`. -/
macro "gstep" : tactic => `(tactic| first
  | with_reducible refine Good.ok ?_
  | with_reducible refine Good.bindOk ?_
  | with_reducible refine Good.bind (Good.rd _ _) fun _ _ => ?_
  | with_reducible refine Good.bind (Good.wr _ _ _) fun _ _ => ?_
  | with_reducible refine Good.bind (Good.rdU (by first | omega | (dsimp only at *; omega))) fun _ _ => ?_
  | with_reducible refine Good.bind (Good.wrU (by first | omega | (dsimp only at *; omega))) fun _ _ => ?_
  | with_reducible refine Good.bind (Good.csub (by first | (intro _; omega) | (intro _; dsimp only at *; omega) | exact fun h => Bool.noConfusion h)) fun _ _ => ?_
  | with_reducible refine Good.bind (Good.strideLoop _ _ _ _ _ _ _) fun _ _ => ?_
  | with_reducible refine Good.bind (Good.rdMirror _ _ _) fun _ _ => ?_
  | with_reducible refine Good.bind (Good.copyFromSlice _ _) fun _ _ => ?_
  | with_reducible refine Good.bind (Good.splitAtMut _ _) (Prod.rec fun _ _ => And.rec fun _ => And.rec fun _ _ => ?_)
  | with_reducible refine Good.bind (Good.process (by first | assumption | exact mSafe_false.2 (by assumption)) _ _) (Prod.rec fun _ _ => And.rec fun _ _ => ?_)
  | with_reducible refine Good.bind (Good.callProc (by first | assumption | exact mSafe_false.2 (by assumption)) _ _) (Prod.rec fun _ _ => And.rec fun _ _ => ?_)
  | with_reducible refine Good.bind (Good.forLen fun _ _ _ _ _ => ?_) fun _ _ => ?_
  | with_reducible refine Good.bind (Good.forLen3 fun _ _ _ _ _ _ _ _ _ => ?_) (Prod.rec fun _ => Prod.rec fun _ _ => And.rec fun _ => And.rec fun _ _ => ?_)
  | with_reducible refine Good.bind (Good.forLen2 fun _ _ _ _ _ _ _ => ?_) (Prod.rec fun _ _ => And.rec fun _ _ => ?_)
  | with_reducible refine Good.bind (Good.forLen1 fun _ _ _ _ _ _ => ?_) (Prod.rec fun _ _ _ => ?_)
  | with_reducible refine Good.bind (Good.fillWhileInput (fun _ => ?_) _ _ _) (Prod.rec fun _ => Prod.rec fun _ _ _ => ?_)
  | with_reducible refine Good.bind (Good.fillWhileFft (fun _ => ?_) _ _ _) fun _ _ => ?_
  | with_reducible refine Good.bind (Good.mdctLoop _ _ _ _ _ fun _ _ => ?_) fun _ _ => ?_
  | with_reducible refine Good.bind (Good.iteLen fun _ => ?_) fun _ _ => ?_
  | with_reducible refine Good.bind (Good.iteNat (fun _ => ?_) fun _ => ?_) fun _ _ => ?_
  | with_reducible refine Good.ite (fun _ => ?_) fun _ => ?_
  | with_reducible refine Good.mono (Good.forLen fun _ _ _ _ _ => ?_) fun _ _ => ?_
  | with_reducible refine Good.mono (Good.callProc (by first | assumption | exact mSafe_false.2 (by assumption)) _ _) (Prod.rec fun _ _ => And.rec fun _ _ => ?_)
  | with_reducible refine Good.mono (Good.csub (by first | (intro _; omega) | (intro _; dsimp only at *; omega) | exact fun h => Bool.noConfusion h)) fun _ _ => ?_
  | with_reducible refine Good.mono (Good.wr _ _ _) fun _ _ => ?_
  | with_reducible refine Good.mono (Good.wrU (by first | omega | (dsimp only at *; omega))) fun _ _ => ?_
  | dsimp only at *
  )

/-- What remains are equations between lengths. -/
macro "glen" : tactic => `(tactic| (
  try dsimp only at *
  simp only [true_and, and_true, length_fromComplex_max, length_intoComplex, List.length_append, List.length_reverse, length_assignZip, length_zipUpdate, List.length_take, List.length_drop] at *
  omega))

macro "gauto" : tactic => `(tactic| (
  refine memorySafe_validateBuffers fun _ _ _ _ => ?_
  repeat' gstep
  all_goals first | exact trivial | omega | glen))

theorem Dct1Naive.memorySafe_dct1 (x : Dct1Naive T) : MemorySafe x.dct1 := by
  unfold Dct1Naive.dct1
  gauto

theorem Dst1Naive.memorySafe_dst1 (x : Dst1Naive T) : MemorySafe x.dst1 := by
  unfold Dst1Naive.dst1
  gauto

theorem Type2And3Naive.memorySafe_dct2 (x : Type2And3Naive T) : MemorySafe x.dct2 := by
  unfold Type2And3Naive.dct2
  gauto

theorem Type2And3Naive.memorySafe_dct3 (x : Type2And3Naive T) : MemorySafe x.dct3 := by
  unfold Type2And3Naive.dct3
  gauto

theorem Type2And3Naive.memorySafe_dst2 (x : Type2And3Naive T) : MemorySafe x.dst2 := by
  unfold Type2And3Naive.dst2
  gauto

theorem Type2And3Naive.memorySafe_dst3 (x : Type2And3Naive T) : MemorySafe x.dst3 := by
  unfold Type2And3Naive.dst3
  gauto

theorem Type4Naive.memorySafe_dct4 (x : Type4Naive T) : MemorySafe x.dct4 := by
  unfold Type4Naive.dct4
  gauto

theorem Type4Naive.memorySafe_dst4 (x : Type4Naive T) : MemorySafe x.dst4 := by
  unfold Type4Naive.dst4
  gauto

theorem Dct5Naive.memorySafe_dct5 (x : Dct5Naive T) : MemorySafe x.dct5 := by
  unfold Dct5Naive.dct5
  gauto

theorem Dst5Naive.memorySafe_dst5 (x : Dst5Naive T) : MemorySafe x.dst5 := by
  unfold Dst5Naive.dst5
  gauto

theorem Dct6And7Naive.memorySafe_dct6 (x : Dct6And7Naive T) : MemorySafe x.dct6 := by
  unfold Dct6And7Naive.dct6
  gauto

theorem Dct6And7Naive.memorySafe_dct7 (x : Dct6And7Naive T) : MemorySafe x.dct7 := by
  unfold Dct6And7Naive.dct7
  gauto

theorem Dst6And7Naive.memorySafe_dst6 (x : Dst6And7Naive T) : MemorySafe x.dst6 := by
  unfold Dst6And7Naive.dst6
  gauto

theorem Dst6And7Naive.memorySafe_dst7 (x : Dst6And7Naive T) : MemorySafe x.dst7 := by
  unfold Dst6And7Naive.dst7
  gauto

theorem Dct8Naive.memorySafe_dct8 (x : Dct8Naive T) : MemorySafe x.dct8 := by
  unfold Dct8Naive.dct8
  gauto

theorem Dst8Naive.memorySafe_dst8 (x : Dst8Naive T) : MemorySafe x.dst8 := by
  unfold Dst8Naive.dst8
  gauto

theorem Dct1ConvertToFft.memorySafe_dct1 (x : Dct1ConvertToFft T) (hf : x.fft.MemorySafe) : MemorySafe x.dct1 := by
  unfold Dct1ConvertToFft.dct1
  gauto

theorem Dst1ConvertToFft.memorySafe_dst1 (x : Dst1ConvertToFft T) (hf : x.fft.MemorySafe) : MemorySafe x.dst1 := by
  unfold Dst1ConvertToFft.dst1
  gauto

theorem Type2And3ConvertToFft.memorySafe_dct2 (x : Type2And3ConvertToFft T) (hf : x.fft.MemorySafe) : MemorySafe x.dct2 := by
  unfold Type2And3ConvertToFft.dct2
  gauto

theorem Type2And3ConvertToFft.memorySafe_dct3 (x : Type2And3ConvertToFft T) (hf : x.fft.MemorySafe) : MemorySafe x.dct3 := by
  unfold Type2And3ConvertToFft.dct3
  gauto

theorem Type2And3ConvertToFft.memorySafe_dst2 (x : Type2And3ConvertToFft T) (hf : x.fft.MemorySafe) : MemorySafe x.dst2 := by
  unfold Type2And3ConvertToFft.dst2
  gauto

theorem Type2And3ConvertToFft.memorySafe_dst3 (x : Type2And3ConvertToFft T) (hf : x.fft.MemorySafe) : MemorySafe x.dst3 := by
  unfold Type2And3ConvertToFft.dst3
  gauto

theorem Type4ConvertToFftOdd.memorySafe_dct4 (x : Type4ConvertToFftOdd T) (hf : x.fft.MemorySafe) : MemorySafe x.dct4 := by
  unfold Type4ConvertToFftOdd.dct4
  gauto

theorem Type4ConvertToFftOdd.memorySafe_dst4 (x : Type4ConvertToFftOdd T) (hf : x.fft.MemorySafe) : MemorySafe x.dst4 := by
  unfold Type4ConvertToFftOdd.dst4
  gauto

theorem Dst6And7ConvertToFft.memorySafe_dst6 (x : Dst6And7ConvertToFft T) (hf : x.fft.MemorySafe) : MemorySafe x.dst6 := by
  unfold Dst6And7ConvertToFft.dst6
  gauto

theorem Dst6And7ConvertToFft.memorySafe_dst7 (x : Dst6And7ConvertToFft T) (hf : x.fft.MemorySafe) : MemorySafe x.dst7 := by
  unfold Dst6And7ConvertToFft.dst7
  gauto

theorem Type2And3SplitRadix.mSafe_dct2 (x : Type2And3SplitRadix T) (h1 : 1 ≤ x.twiddles.length) (hh : MSafe z x.halfDct.dct2)
    (hq : MSafe z x.quarterDct.dct2) : MSafe z x.dct2 := by
  unfold Type2And3SplitRadix.dct2 Type2And3SplitRadix.scratchLen Type2And3SplitRadix.len
  refine mSafe_validateBuffers fun _ _ _ _ => ?_
  repeat' gstep
  all_goals first | exact trivial | omega | glen

theorem Type2And3SplitRadix.mSafe_dct3 (x : Type2And3SplitRadix T) (h1 : 1 ≤ x.twiddles.length) (hh : MSafe z x.halfDct.dct3)
    (hq : MSafe z x.quarterDct.dct3) : MSafe z x.dct3 := by
  unfold Type2And3SplitRadix.dct3 Type2And3SplitRadix.scratchLen Type2And3SplitRadix.len
  refine mSafe_validateBuffers fun _ _ _ _ => ?_
  repeat' gstep
  all_goals first | exact trivial | omega | glen

theorem length_negOdds (cnt : ℕ) (buf : List T) : match negOdds cnt buf with
    | .ok b => b.length = buf.length
    | .error p => p.1 = .index := by
  unfold negOdds
  have : ∀ (l : List ℕ) (b : List T), match (l.foldlM (fun b i => match b[2 * i + 1]? with
      | some v => .ok (b.set (2 * i + 1) (-v))
      | none => .error (.index, b)) b : Except (Err × List T) (List T)) with
    | .ok b' => b'.length = b.length
    | .error p => p.1 = .index := by
    intro l
    induction l with
    | nil => exact fun b => rfl
    | cons i l ih =>
      intro b
      rw [List.foldlM_cons]
      cases b[2 * i + 1]? with
      | none => exact rfl
      | some v =>
        have := ih (b.set (2 * i + 1) (-v))
        rw [List.length_set] at this
        exact this
  exact this _ buf

theorem Type2And3SplitRadix.mSafe_dst2 (x : Type2And3SplitRadix T) (h : MSafe z x.dct2) : MSafe z x.dst2 := by
  intro m
  unfold Type2And3SplitRadix.dst2
  have hn := length_negOdds (x.len / 2) m.buf
  cases e : negOdds (x.len / 2) m.buf with
  | error p =>
    rw [e] at hn
    obtain ⟨e', b⟩ := p
    obtain rfl : e' = .index := hn
    exact id
  | ok b =>
    rw [e] at hn
    dsimp only at hn ⊢
    have := h ⟨b, m.scr⟩
    cases e2 : x.dct2 ⟨b, m.scr⟩ with
    | panic e m' => rw [e2] at this; exact this
    | ok m' =>
      rw [e2] at this
      exact ⟨by simpa using this.1.trans hn, this.2⟩

theorem Type2And3SplitRadix.mSafe_dst3 (x : Type2And3SplitRadix T) (h : MSafe z x.dct3) : MSafe z x.dst3 := by
  intro m
  unfold Type2And3SplitRadix.dst3
  have := h ⟨m.buf.reverse, m.scr⟩
  cases e2 : x.dct3 ⟨m.buf.reverse, m.scr⟩ with
  | panic e m' => rw [e2] at this; exact this
  | ok m' =>
    rw [e2] at this
    dsimp only at this ⊢
    have hn := length_negOdds (x.len / 2) m'.buf
    cases e : negOdds (x.len / 2) m'.buf with
    | error p =>
      rw [e] at hn
      obtain ⟨e', b⟩ := p
      obtain rfl : e' = .index := hn
      exact id
    | ok b =>
      rw [e] at hn
      dsimp only at hn ⊢
      exact ⟨by simpa using hn.trans this.1, this.2⟩

theorem Good.runInnerPair {p1 p2 : Proc T} (h1 : MemorySafe p1) (h2 : MemorySafe p2) (a b c d : List T) :
    Good false (fun r => r.1.length = a.length ∧ r.2.1.length = b.length ∧ r.2.2.1.length = c.length ∧ r.2.2.2.length = d.length)
      (runInnerPair p1 p2 a b c d) := by
  unfold RustDct.runInnerPair
  refine Good.ite (fun _ => ?_) fun _ => ?_
  all_goals
    repeat' gstep
    all_goals first | exact trivial | omega | glen

theorem Type4ConvertToType3Even.memorySafe_dct4 (x : Type4ConvertToType3Even T) (h3 : MemorySafe x.innerDct.dct3) (hs : MemorySafe x.innerDct.dst3) :
    MemorySafe x.dct4 := by
  unfold Type4ConvertToType3Even.dct4
  refine memorySafe_validateBuffers fun _ _ _ _ => ?_
  repeat' first
    | with_reducible refine Good.bind (Good.runInnerPair h3 hs _ _ _ _) (Prod.rec fun _ => Prod.rec fun _ => Prod.rec fun _ _ => And.rec fun _ => And.rec fun _ => And.rec fun _ _ => ?_)
    | gstep
  all_goals first | exact trivial | omega | glen

theorem Type4ConvertToType3Even.memorySafe_dst4 (x : Type4ConvertToType3Even T) (h3 : MemorySafe x.innerDct.dct3) (hs : MemorySafe x.innerDct.dst3) :
    MemorySafe x.dst4 := by
  unfold Type4ConvertToType3Even.dst4
  refine memorySafe_validateBuffers fun _ _ _ _ => ?_
  repeat' first
    | with_reducible refine Good.bind (Good.runInnerPair hs h3 _ _ _ _) (Prod.rec fun _ => Prod.rec fun _ => Prod.rec fun _ _ => And.rec fun _ => And.rec fun _ => And.rec fun _ _ => ?_)
    | gstep
  all_goals first | exact trivial | omega | glen

theorem MdctNaive.memorySafe_mdct (x : MdctNaive T) : MemorySafeMdct x.mdct := by
  unfold MdctNaive.mdct
  refine memorySafe_validateMdct fun _ _ _ _ _ _ _ _ => ?_
  repeat' gstep
  all_goals first | exact trivial | omega | glen

theorem MdctNaive.memorySafe_imdct (x : MdctNaive T) : MemorySafeImdct x.imdct := by
  unfold MdctNaive.imdct
  refine memorySafe_validateImdct fun _ _ _ _ _ _ _ _ => ?_
  repeat' gstep
  all_goals first | exact trivial | omega | glen

theorem MdctViaDct4.memorySafe_mdct (x : MdctViaDct4 T) (h : MemorySafe x.dct.dct4) : MemorySafeMdct x.mdct := by
  unfold MdctViaDct4.mdct
  refine memorySafe_validateMdct fun _ _ _ _ _ _ _ _ => ?_
  repeat' gstep
  all_goals first | exact trivial | omega | glen

theorem MdctViaDct4.memorySafe_imdct (x : MdctViaDct4 T) (h : MemorySafe x.dct.dct4) : MemorySafeImdct x.imdct := by
  unfold MdctViaDct4.imdct
  refine memorySafe_validateImdct fun _ _ _ _ _ _ _ _ => ?_
  repeat' gstep
  all_goals first | exact trivial | omega | glen

theorem Type2And3Butterfly2.mSafe : MSafe z (Type2And3Butterfly2.new (T := T)).toObj.dct2 ∧ MSafe z (Type2And3Butterfly2.new (T := T)).toObj.dct3 ∧
    MSafe z (Type2And3Butterfly2.new (T := T)).toObj.dst2 ∧ MSafe z (Type2And3Butterfly2.new (T := T)).toObj.dst3 :=
  ⟨Type2And3Butterfly2.total_dct2.elim fun _ h => mSafe_of h (Type2And3Butterfly2.rejects_dct2 Type2And3Butterfly2.new),
    Type2And3Butterfly2.total_dct3.elim fun _ h => mSafe_of h (Type2And3Butterfly2.rejects_dct3 Type2And3Butterfly2.new),
    Type2And3Butterfly2.total_dst2.elim fun _ h => mSafe_of h (Type2And3Butterfly2.rejects_dst2 Type2And3Butterfly2.new),
    Type2And3Butterfly2.total_dst3.elim fun _ h => mSafe_of h (Type2And3Butterfly2.rejects_dst3 Type2And3Butterfly2.new)⟩

theorem Type2And3Butterfly3.mSafe : MSafe z (Type2And3Butterfly3.new (T := T)).toObj.dct2 ∧ MSafe z (Type2And3Butterfly3.new (T := T)).toObj.dct3 ∧
    MSafe z (Type2And3Butterfly3.new (T := T)).toObj.dst2 ∧ MSafe z (Type2And3Butterfly3.new (T := T)).toObj.dst3 :=
  ⟨Type2And3Butterfly3.total_dct2.elim fun _ h => mSafe_of h (Type2And3Butterfly3.rejects_dct2 Type2And3Butterfly3.new),
    Type2And3Butterfly3.total_dct3.elim fun _ h => mSafe_of h (Type2And3Butterfly3.rejects_dct3 Type2And3Butterfly3.new),
    Type2And3Butterfly3.total_dst2.elim fun _ h => mSafe_of h (Type2And3Butterfly3.rejects_dst2 Type2And3Butterfly3.new),
    Type2And3Butterfly3.total_dst3.elim fun _ h => mSafe_of h (Type2And3Butterfly3.rejects_dst3 Type2And3Butterfly3.new)⟩

theorem Type2And3Butterfly4.mSafe : MSafe z (Type2And3Butterfly4.new (T := T)).toObj.dct2 ∧ MSafe z (Type2And3Butterfly4.new (T := T)).toObj.dct3 ∧
    MSafe z (Type2And3Butterfly4.new (T := T)).toObj.dst2 ∧ MSafe z (Type2And3Butterfly4.new (T := T)).toObj.dst3 :=
  ⟨Type2And3Butterfly4.total_dct2.elim fun _ h => mSafe_of h (Type2And3Butterfly4.rejects_dct2 Type2And3Butterfly4.new),
    Type2And3Butterfly4.total_dct3.elim fun _ h => mSafe_of h (Type2And3Butterfly4.rejects_dct3 Type2And3Butterfly4.new),
    Type2And3Butterfly4.total_dst2.elim fun _ h => mSafe_of h (Type2And3Butterfly4.rejects_dst2 Type2And3Butterfly4.new),
    Type2And3Butterfly4.total_dst3.elim fun _ h => mSafe_of h (Type2And3Butterfly4.rejects_dst3 Type2And3Butterfly4.new)⟩

theorem Type2And3Butterfly8.mSafe : MSafe z (Type2And3Butterfly8.new (T := T)).toObj.dct2 ∧ MSafe z (Type2And3Butterfly8.new (T := T)).toObj.dct3 ∧
    MSafe z (Type2And3Butterfly8.new (T := T)).toObj.dst2 ∧ MSafe z (Type2And3Butterfly8.new (T := T)).toObj.dst3 :=
  ⟨Type2And3Butterfly8.total_dct2.elim fun _ h => mSafe_of h (Type2And3Butterfly8.rejects_dct2 Type2And3Butterfly8.new),
    Type2And3Butterfly8.total_dct3.elim fun _ h => mSafe_of h (Type2And3Butterfly8.rejects_dct3 Type2And3Butterfly8.new),
    Type2And3Butterfly8.total_dst2.elim fun _ h => mSafe_of h (Type2And3Butterfly8.rejects_dst2 Type2And3Butterfly8.new),
    Type2And3Butterfly8.total_dst3.elim fun _ h => mSafe_of h (Type2And3Butterfly8.rejects_dst3 Type2And3Butterfly8.new)⟩

theorem Type2And3Butterfly16.mSafe : MSafe z (Type2And3Butterfly16.new (T := T)).toObj.dct2 ∧ MSafe z (Type2And3Butterfly16.new (T := T)).toObj.dct3 ∧
    MSafe z (Type2And3Butterfly16.new (T := T)).toObj.dst2 ∧ MSafe z (Type2And3Butterfly16.new (T := T)).toObj.dst3 :=
  ⟨Type2And3Butterfly16.total_dct2.elim fun _ h => mSafe_of h (Type2And3Butterfly16.rejects_dct2 Type2And3Butterfly16.new),
    Type2And3Butterfly16.total_dct3.elim fun _ h => mSafe_of h (Type2And3Butterfly16.rejects_dct3 Type2And3Butterfly16.new),
    Type2And3Butterfly16.total_dst2.elim fun _ h => mSafe_of h (Type2And3Butterfly16.rejects_dst2 Type2And3Butterfly16.new),
    Type2And3Butterfly16.total_dst3.elim fun _ h => mSafe_of h (Type2And3Butterfly16.rejects_dst3 Type2And3Butterfly16.new)⟩

theorem Type2And3SplitRadix.one_le_of_new {half quarter : Obj23 T} {x : Type2And3SplitRadix T} (h : Type2And3SplitRadix.new half quarter = .ok x) :
    1 ≤ x.twiddles.length ∧ x.halfDct = half ∧ x.quarterDct = quarter := by
  unfold Type2And3SplitRadix.new at h
  dsimp only at h
  split at h
  · cases h
  · split at h
    · cases h
    · injection h with h
      subst h
      refine ⟨?_, rfl, rfl⟩
      rename_i h1 h2
      have h1 := (of_not_not h1).2
      have h2 := of_not_not h2
      simp only [List.length_map, List.length_range]
      omega

theorem Type2And3SplitRadix.mSafe {half quarter : Obj23 T} {x : Type2And3SplitRadix T} (h : Type2And3SplitRadix.new half quarter = .ok x)
    (h2 : MSafe z half.dct2) (h3 : MSafe z half.dct3) (q2 : MSafe z quarter.dct2) (q3 : MSafe z quarter.dct3) :
    MSafe z x.toObj.dct2 ∧ MSafe z x.toObj.dct3 ∧ MSafe z x.toObj.dst2 ∧ MSafe z x.toObj.dst3 := by
  obtain ⟨h1, rfl, rfl⟩ := Type2And3SplitRadix.one_le_of_new h
  have a := x.mSafe_dct2 h1 h2 q2
  have b := x.mSafe_dct3 h1 h3 q3
  exact ⟨a, b, x.mSafe_dst2 a, x.mSafe_dst3 b⟩

theorem mSafe_true {p : Proc T} (h : MemorySafe p) (h' : NoWrap p) : MSafe true p := by
  intro m
  have := h m
  have := h' m
  cases e : p m with
  | ok m' => simp_all
  | panic e m' => simp_all [badErr_true]

theorem MSafe.noWrap {p : Proc T} (h : MSafe true p) : NoWrap p := by
  intro m e m' he
  have := h m
  rw [he] at this
  exact fun h => this (badErr_true.2 (.inr h))

theorem MSafe.memorySafe {p : Proc T} (h : MSafe z p) : MemorySafe p := by
  intro m
  have := h m
  cases e : p m with
  | ok m' => rw [e] at this; exact this
  | panic e m' => rw [e] at this; exact fun h => this (by rw [h]; trivial)

theorem Dct1ConvertToFft.fft_of_new {fft : Fft T} {x : Dct1ConvertToFft T} (h : Dct1ConvertToFft.new fft = .ok x) : x.fft = fft := by
  obtain ⟨-, -, rfl⟩ := Dct1ConvertToFft.new_shape h; rfl
theorem Dst1ConvertToFft.fft_of_new {fft : Fft T} {x : Dst1ConvertToFft T} (h : Dst1ConvertToFft.new fft = .ok x) : x.fft = fft := by
  obtain ⟨-, -, -, rfl⟩ := Dst1ConvertToFft.new_shape h; rfl
theorem Type2And3ConvertToFft.fft_of_new {fft : Fft T} {x : Type2And3ConvertToFft T} (h : Type2And3ConvertToFft.new fft = .ok x) : x.fft = fft := by
  obtain ⟨-, rfl⟩ := Type2And3ConvertToFft.new_shape h; rfl
theorem Type4ConvertToFftOdd.fft_of_new {fft : Fft T} {x : Type4ConvertToFftOdd T} (h : Type4ConvertToFftOdd.new fft = .ok x) : x.fft = fft := by
  obtain ⟨-, -, rfl⟩ := Type4ConvertToFftOdd.new_shape h; rfl
theorem Dst6And7ConvertToFft.fft_of_new {fft : Fft T} {x : Dst6And7ConvertToFft T} (h : Dst6And7ConvertToFft.new fft = .ok x) : x.fft = fft := by
  obtain ⟨-, -, rfl⟩ := Dst6And7ConvertToFft.new_shape h; rfl

end
end RustDct
