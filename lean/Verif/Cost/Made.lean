import Verif.Counting
import Verif.Cost.Naive
import Verif.Cost.ConvertFft
import Verif.Cost.Butterflies
import Verif.Cost.SplitRadix
import Verif.Cost.Mdct
import Verif.Proofs.Methods
/-!
# The running times of all instances
-/

set_option linter.all false

namespace RustDct.Counted

section
variable {T : Type} {F : Type} [F64 F] [DctNum T F]
variable {okFft : Fft T → Prop} {cost : Fft T → Nat}

/-! ### Counting versions exist, and only for instances the constructors return -/

theorem CountsDct1.made {o : Obj1 T} {c} (h : CountsDct1 okFft cost o c) : MadeDct1 okFft o := by
  cases h with
  | naive h => exact .naive h
  | fft hf h => exact .fft hf h
theorem CountsDst1.made {o : Obj1 T} {c} (h : CountsDst1 okFft cost o c) : MadeDst1 okFft o := by
  cases h with
  | naive h => exact .naive h
  | fft hf h => exact .fft hf h
theorem Counts23.made {o : Obj23 T} {c} (h : Counts23 okFft cost o c) : Made23 okFft o := by
  induction h with
  | naive h => exact .naive h
  | butterfly2 => exact .butterfly2
  | butterfly3 => exact .butterfly3
  | butterfly4 => exact .butterfly4
  | butterfly8 => exact .butterfly8
  | butterfly16 => exact .butterfly16
  | fft hf h => exact .fft hf h
  | splitRadix hh hq sh sq h ih iq => exact .splitRadix ih iq sh sq h
theorem Counts4.made {o : Obj4 T} {c} (h : Counts4 okFft cost o c) : Made4 okFft o := by
  cases h with
  | naive h => exact .naive h
  | fft hf h => exact .fft hf h
  | type3 hi h => exact .type3 hi.made h

theorem exists_dct1 {o : Obj1 T} (h : MadeDct1 okFft o) : ∃ c, CountsDct1 okFft cost o c := by
  cases h with
  | naive h => exact ⟨_, .naive h⟩
  | fft hf h => exact ⟨_, .fft hf h⟩
theorem exists_dst1 {o : Obj1 T} (h : MadeDst1 okFft o) : ∃ c, CountsDst1 okFft cost o c := by
  cases h with
  | naive h => exact ⟨_, .naive h⟩
  | fft hf h => exact ⟨_, .fft hf h⟩
theorem exists_23 {o : Obj23 T} (h : Made23 okFft o) : ∃ c, Counts23 okFft cost o c := by
  induction h with
  | naive h => exact ⟨_, .naive h⟩
  | butterfly2 => exact ⟨_, .butterfly2⟩
  | butterfly3 => exact ⟨_, .butterfly3⟩
  | butterfly4 => exact ⟨_, .butterfly4⟩
  | butterfly8 => exact ⟨_, .butterfly8⟩
  | butterfly16 => exact ⟨_, .butterfly16⟩
  | fft hf h => exact ⟨_, .fft hf h⟩
  | splitRadix hh hq sh sq h ih iq =>
    obtain ⟨ch, ih⟩ := ih
    obtain ⟨cq, iq⟩ := iq
    exact ⟨_, .splitRadix ih iq sh sq h⟩
theorem exists_4 {o : Obj4 T} (h : Made4 okFft o) : ∃ c, Counts4 okFft cost o c := by
  cases h with
  | naive h => exact ⟨_, .naive h⟩
  | fft hf h => exact ⟨_, .fft hf h⟩
  | type3 hi h =>
    obtain ⟨ci, hi⟩ := exists_23 (cost := cost) hi
    exact ⟨_, .type3 hi h⟩
theorem exists_dst67 {o : Obj67 T} (h : MadeDst67 okFft o) : ∃ c, CountsDst67 okFft cost o c := by
  cases h with
  | naive h => exact ⟨_, .naive h⟩
  | fft hf h => exact ⟨_, .fft hf h⟩
theorem exists_mdct {o : MdctObj T} {w : List T} (h : MadeMdct okFft w o) : ∃ c, CountsMdct okFft cost o c := by
  cases h with
  | naive h => exact ⟨_, .naive h⟩
  | viaDct4 hi h =>
    obtain ⟨ci, hi⟩ := exists_4 (cost := cost) hi
    exact ⟨_, .viaDct4 hi h⟩

/-! ### Counting does not change what a method does -/

/-- Some bounds for the four methods of a type 2/3 instance. -/
structure Takes23 (o : Obj23 T) (k2 k3 l2 l3 : Nat) (c : CObj23 T) : Prop where
  dct2 : Takes o.dct2 k2 c.dct2
  dct3 : Takes o.dct3 k3 c.dct3
  dst2 : Takes o.dst2 l2 c.dst2
  dst3 : TakesAt o.len o.dst3 l3 c.dst3

theorem Takes23.mono {o : Obj23 T} {c : CObj23 T} {k2 k3 l2 l3 k2' k3' l2' l3' : Nat} (h : Takes23 o k2 k3 l2 l3 c) (h2 : k2 ≤ k2') (h3 : k3 ≤ k3') (h2' : l2 ≤ l2')
    (h3' : l3 ≤ l3') : Takes23 o k2' k3' l2' l3' c :=
  ⟨h.dct2.mono h2, h.dct3.mono h3, h.dst2.mono h2', h.dst3.mono h3'⟩

theorem keeps_length {p : Proc T} {n s : Nat} {C : (Nat → T) → Nat → T} (h : RunsV p n s C) (hr : Rejects p n s) {m m' : Mem T} (e : p m = .ok m') : m'.buf.length = n := by
  by_cases hv : ValidCall n s m
  · obtain ⟨b, sc⟩ := m
    obtain ⟨h1, h2⟩ := hv
    by_cases hb : b = []
    · subst hb
      have h1 : n = 0 := by simpa using h1.symm
      subst h1
      rcases Classical.em (Nonempty T) with ⟨⟨t⟩⟩ | hT
      · obtain ⟨scr', e', -⟩ := h (fun _ => t) sc h2
        rw [show (vec 0 fun _ => t) = ([] : List T) from rfl] at e'
        rw [e] at e'
        injection e' with e'
        subst e'
        rfl
      · obtain ⟨b', s'⟩ := m'
        cases b' with
        | nil => rfl
        | cons x _ => exact absurd ⟨x⟩ hT
    · obtain ⟨x, xs, rfl⟩ := List.exists_cons_of_ne_nil hb
      have : vec n (fun i => ((x :: xs)[i]?).getD x) = x :: xs := by
        apply List.ext_getElem
        · simpa [vec] using h1.symm
        · intro i hi hi'
          rw [getElem_vec]
          simp only [List.getElem?_eq_getElem hi', Option.getD_some]
      obtain ⟨scr', e', -⟩ := h (fun i => ((x :: xs)[i]?).getD x) sc h2
      rw [this, e] at e'
      injection e' with e'
      subst e'
      simp [vec]
  · rw [hr m hv] at e
    cases e

theorem splitRadix_takes {half quarter : Obj23 T} {ch cq : CObj23 T} {x : RustDct.Type2And3SplitRadix T} (hok : ∀ f, okFft f → FftSane f) (mh : Made23 okFft half) (mq : Made23 okFft quarter)
    (sh : half.scratchLen ≤ half.len * 2) (sq : quarter.scratchLen ≤ half.len * 2) (h : RustDct.Type2And3SplitRadix.new half quarter = .ok x) {k2 k3 q2 q3 : Nat}
    (h2 : Takes half.dct2 k2 ch.dct2) (h3 : Takes half.dct3 k3 ch.dct3) (g2 : Takes quarter.dct2 q2 cq.dct2) (g3 : Takes quarter.dct3 q3 cq.dct3) :
    Takes23 x.toObj (k2 + 2 * q2 + 9 * x.len + 10) (k3 + 2 * q3 + 9 * x.len + 10) (k2 + 2 * q2 + 13 * x.len + 10) (k3 + 2 * q3 + 13 * x.len + 10)
      ⟨Type2And3SplitRadix.dct2 ch cq x, Type2And3SplitRadix.dct3 ch cq x, Type2And3SplitRadix.dst2 ch cq x, Type2And3SplitRadix.dst3 ch cq x⟩ := by
  have ok := ((Made23.splitRadix mh mq sh sq h).mono hok).ok
  obtain ⟨h1, hq, hp, rfl⟩ := Type2And3SplitRadix.new_shape h
  have d2 := Type2And3SplitRadix.dct2_takes (half := ch) (quarter := cq) (RustDct.Type2And3SplitRadix.inst quarter.len half quarter) h2 g2
  have d3 := Type2And3SplitRadix.dct3_takes (half := ch) (quarter := cq) (RustDct.Type2And3SplitRadix.inst quarter.len half quarter) h3 g3
  obtain ⟨C, hC⟩ := ok.dct2
  refine ⟨d2, d3, (Type2And3SplitRadix.dst2_takes _ d2 ?_).mono (by omega), (Type2And3SplitRadix.dst3_takes _ d3).mono (by omega)⟩
  intro m m' e
  exact keeps_length hC ok.rdct2 e

theorem Counts23.takes (hok : ∀ f, okFft f → FftSane f) {o : Obj23 T} {c} (h : Counts23 okFft cost o c) : ∃ k, Takes23 o k k k k c := by
  induction h with
  | naive h => exact ⟨_, Type2And3Naive.dct2_takes _, Type2And3Naive.dct3_takes _, Type2And3Naive.dst2_takes _, (Type2And3Naive.dst3_takes _).at _⟩
  | butterfly2 => exact ⟨_, Type2And3Butterfly2.dct2_takes RustDct.Type2And3Butterfly2.new, Type2And3Butterfly2.dct3_takes RustDct.Type2And3Butterfly2.new, Type2And3Butterfly2.dst2_takes RustDct.Type2And3Butterfly2.new, (Type2And3Butterfly2.dst3_takes RustDct.Type2And3Butterfly2.new).at _⟩
  | butterfly3 => exact ⟨_, Type2And3Butterfly3.dct2_takes RustDct.Type2And3Butterfly3.new, Type2And3Butterfly3.dct3_takes RustDct.Type2And3Butterfly3.new, Type2And3Butterfly3.dst2_takes RustDct.Type2And3Butterfly3.new, (Type2And3Butterfly3.dst3_takes RustDct.Type2And3Butterfly3.new).at _⟩
  | butterfly4 => exact ⟨_, Type2And3Butterfly4.dct2_takes RustDct.Type2And3Butterfly4.new, Type2And3Butterfly4.dct3_takes RustDct.Type2And3Butterfly4.new, Type2And3Butterfly4.dst2_takes RustDct.Type2And3Butterfly4.new, (Type2And3Butterfly4.dst3_takes RustDct.Type2And3Butterfly4.new).at _⟩
  | butterfly8 => exact ⟨_, Type2And3Butterfly8.dct2_takes RustDct.Type2And3Butterfly8.new, Type2And3Butterfly8.dct3_takes RustDct.Type2And3Butterfly8.new, Type2And3Butterfly8.dst2_takes RustDct.Type2And3Butterfly8.new, (Type2And3Butterfly8.dst3_takes RustDct.Type2And3Butterfly8.new).at _⟩
  | butterfly16 => exact ⟨_, Type2And3Butterfly16.dct2_takes RustDct.Type2And3Butterfly16.new, Type2And3Butterfly16.dct3_takes RustDct.Type2And3Butterfly16.new, Type2And3Butterfly16.dst2_takes RustDct.Type2And3Butterfly16.new, (Type2And3Butterfly16.dst3_takes RustDct.Type2And3Butterfly16.new).at _⟩
  | fft hf h => exact ⟨_, Type2And3ConvertToFft.dct2_takes cost _, Type2And3ConvertToFft.dct3_takes cost _, Type2And3ConvertToFft.dst2_takes cost _, (Type2And3ConvertToFft.dst3_takes cost _).at _⟩
  | @splitRadix half quarter ch cq x hh hq sh sq h ih iq =>
    obtain ⟨k, ih⟩ := ih
    obtain ⟨l, iq⟩ := iq
    have := splitRadix_takes hok hh.made hq.made sh sq h ih.dct2 ih.dct3 iq.dct2 iq.dct3
    exact ⟨k + 2 * l + 13 * x.len + 10, this.mono (by omega) (by omega) (by omega) (by omega)⟩

theorem Takes23.same {o : Obj23 T} {c : CObj23 T} {a b d e : Nat} (h : Takes23 o a b d e c) :
    (∀ m, (c.dct2 m).1 = o.dct2 m) ∧ (∀ m, (c.dct3 m).1 = o.dct3 m) ∧ (∀ m, (c.dst2 m).1 = o.dst2 m) ∧ ∀ m, (c.dst3 m).1 = o.dst3 m :=
  ⟨h.dct2.same, h.dct3.same, h.dst2.same, h.dst3.same⟩

/-! ### Calls with a buffer of the wrong length take no step -/

theorem validateBuffer_wrong {m : Mem T} {n : Nat} {f : List T → Run (List T)} (h : m.buf.length ≠ n) : (Counted.validateBuffer m n f).2 = 0 := by
  unfold Counted.validateBuffer
  exact if_neg h
theorem validateBuffers_wrong {m : Mem T} {n s : Nat} {f : List T → List T → Run (List T × List T)} (h : m.buf.length ≠ n) : (Counted.validateBuffers m n s f).2 = 0 := by
  unfold Counted.validateBuffers
  exact if_neg fun e => h e.1

theorem Counts23.wrong2 {o : Obj23 T} {c} (h : Counts23 okFft cost o c) {m : Mem T} (hm : m.buf.length ≠ o.len) : (c.dct2 m).2 = 0 := by
  cases h <;> first | exact validateBuffers_wrong hm | exact validateBuffer_wrong hm
theorem Counts23.wrong3 {o : Obj23 T} {c} (h : Counts23 okFft cost o c) {m : Mem T} (hm : m.buf.length ≠ o.len) : (c.dct3 m).2 = 0 := by
  cases h <;> first | exact validateBuffers_wrong hm | exact validateBuffer_wrong hm
theorem Counts4.wrong {o : Obj4 T} {c} (h : Counts4 okFft cost o c) {m : Mem T} (hm : m.buf.length ≠ o.len) : (c.dct4 m).2 = 0 := by
  cases h <;> first | exact validateBuffers_wrong hm | exact validateBuffer_wrong hm

theorem Takes.ofWithin {p : Proc T} {c : CProc T} {n k j : Nat} (h : Takes p j c) (hw : ∀ m : Mem T, m.buf.length ≠ n → (c m).2 = 0) (hk : c.within n k) : Takes p k c :=
  ⟨h.same, fun m => by
    by_cases e : m.buf.length = n
    · exact hk m e
    · rw [hw m e]; omega⟩

theorem Takes.within {p : Proc T} {c : CProc T} {k : Nat} (h : Takes p k c) (n : Nat) : c.within n k := fun m _ => h.le m
theorem TakesAt.within {p : Proc T} {c : CProc T} {n k : Nat} (h : TakesAt n p k c) : c.within n k := h.le

theorem Counts4.takes (hok : ∀ f, okFft f → FftSane f) {o : Obj4 T} {c} (h : Counts4 okFft cost o c) :
    ∃ k, Takes o.dct4 k c.dct4 ∧ Takes o.dst4 k c.dst4 := by
  cases h with
  | naive h => exact ⟨_, Type4Naive.dct4_takes _, Type4Naive.dst4_takes _⟩
  | fft hf h => exact ⟨_, Type4ConvertToFftOdd.dct4_takes cost _, Type4ConvertToFftOdd.dst4_takes cost _⟩
  | @type3 inner ci x hi h =>
    obtain ⟨k, hk⟩ := hi.takes hok
    rw [Type4ConvertToType3Even.new_eq rfl] at h
    injection h with h
    subst h
    have e := Type4ConvertToType3Even.inst_len inner.len inner
    exact ⟨_, Type4ConvertToType3Even.dct4_takes _ (by omega) (hk.dct3.at _) (by rw [e, Nat.mul_div_cancel_left _ (by omega)]; exact hk.dst3),
      Type4ConvertToType3Even.dst4_takes _ (by omega) (hk.dct3.at _) (by rw [e, Nat.mul_div_cancel_left _ (by omega)]; exact hk.dst3)⟩

theorem CountsMdct.takes (hok : ∀ f, okFft f → FftSane f) {o : MdctObj T} {c} (h : CountsMdct okFft cost o c) :
    ∃ k, TakesM o.mdct k c.mdct ∧ TakesI o.imdct k c.imdct := by
  cases h with
  | naive h => exact ⟨_, MdctNaive.mdct_takes _, MdctNaive.imdct_takes _⟩
  | @viaDct4 inner ci w x hi h =>
    obtain ⟨k, hk, -⟩ := hi.takes hok
    obtain ⟨h1, h2, rfl⟩ := MdctViaDct4.new_shape h
    exact ⟨_, MdctViaDct4.mdct_takes _ hk, MdctViaDct4.imdct_takes _ hk⟩

end
end RustDct.Counted
