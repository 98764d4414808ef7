import Verif.Cost.Logic
/-!
# Steps of the split-radix algorithm and of the type 4 algorithm of even lengths
-/

set_option linter.all false
set_option maxHeartbeats 4000000
set_option maxRecDepth 8000

namespace RustDct.Counted

variable {T F : Type} [F64 F] [DctNum T F] {kh kq : Nat} {half quarter inner : CObj23 T}

theorem Type2And3SplitRadix.dct2_takes (s : RustDct.Type2And3SplitRadix T) (hh : Takes s.halfDct.dct2 kh half.dct2) (hq : Takes s.quarterDct.dct2 kq quarter.dct2) :
    Takes s.dct2 (kh + 2 * kq + 9 * s.len + 10) (Type2And3SplitRadix.dct2 half quarter s) := by
  takes
  norm_num
  omega

theorem Type2And3SplitRadix.dct3_takes (s : RustDct.Type2And3SplitRadix T) (hh : Takes s.halfDct.dct3 kh half.dct3) (hq : Takes s.quarterDct.dct3 kq quarter.dct3) :
    Takes s.dct3 (kh + 2 * kq + 9 * s.len + 10) (Type2And3SplitRadix.dct3 half quarter s) := by
  takes
  norm_num
  omega

theorem Type2And3SplitRadix.dst2_takes {k : Nat} (s : RustDct.Type2And3SplitRadix T) (h : Takes s.dct2 k (Type2And3SplitRadix.dct2 half quarter s))
    (hlen : ∀ m m', s.dct2 m = .ok m' → m'.buf.length = s.len) : Takes s.dst2 (k + 4 * s.len) (Type2And3SplitRadix.dst2 half quarter s) := by
  have key : ∀ m, (Type2And3SplitRadix.dst2 half quarter s m).1 = s.dst2 m ∧ (Type2And3SplitRadix.dst2 half quarter s m).2 ≤ k + 4 * s.len := by
    intro m
    unfold Type2And3SplitRadix.dst2 RustDct.Type2And3SplitRadix.dst2 negOdds
    cases hn : RustDct.negOdds (s.len / 2) m.buf with
    | error e => exact ⟨rfl, by dsimp only; omega⟩
    | ok b =>
      have h1 := h.same ⟨b, m.scr⟩
      have h2 := h.le ⟨b, m.scr⟩
      have h3 := hlen ⟨b, m.scr⟩
      dsimp only
      generalize Type2And3SplitRadix.dct2 half quarter s ⟨b, m.scr⟩ = x at h1 h2
      generalize s.dct2 ⟨b, m.scr⟩ = y at h1 h3
      obtain ⟨x, l⟩ := x
      dsimp only at h1 h2
      subst h1
      cases x with
      | ok m' =>
        have := h3 m' rfl
        exact ⟨rfl, by dsimp only; omega⟩
      | panic e m' => exact ⟨rfl, by dsimp only; omega⟩
  exact ⟨fun m => (key m).1, fun m => (key m).2⟩

theorem Type2And3SplitRadix.dst3_takes {k : Nat} (s : RustDct.Type2And3SplitRadix T) (h : Takes s.dct3 k (Type2And3SplitRadix.dct3 half quarter s)) :
    TakesAt s.len s.dst3 (k + 4 * s.len) (Type2And3SplitRadix.dst3 half quarter s) := by
  have key : ∀ m, (Type2And3SplitRadix.dst3 half quarter s m).1 = s.dst3 m ∧ (Type2And3SplitRadix.dst3 half quarter s m).2 ≤ 2 * m.buf.length + k + 3 * (s.len / 2) := by
    intro m
    unfold Type2And3SplitRadix.dst3 RustDct.Type2And3SplitRadix.dst3 negOdds
    have h1 := h.same ⟨m.buf.reverse, m.scr⟩
    have h2 := h.le ⟨m.buf.reverse, m.scr⟩
    generalize Type2And3SplitRadix.dct3 half quarter s ⟨m.buf.reverse, m.scr⟩ = x at h1 h2
    generalize s.dct3 ⟨m.buf.reverse, m.scr⟩ = y at h1
    obtain ⟨x, l⟩ := x
    dsimp only at h1 h2
    subst h1
    cases x with
    | ok m' =>
      dsimp only
      cases RustDct.negOdds (s.len / 2) m'.buf with
      | error e => exact ⟨rfl, by dsimp only; omega⟩
      | ok b => exact ⟨rfl, by dsimp only; omega⟩
    | panic e m' => exact ⟨rfl, by dsimp only; omega⟩
  exact ⟨fun m => (key m).1, fun m hm => by have := (key m).2; omega⟩

theorem CRel.runInnerPair {ρ ρ' : Type} {r : ρ → ρ' → Prop} {n k k' l : Nat} {p p' : Proc T} {c c' : CProc T} {first second buffer extra : List T}
    {f : List T × List T × List T × List T → Run ρ} {f' : List T × List T × List T × List T → Except Err ρ'}
    (h : TakesAt n p k c) (h' : TakesAt n p' k' c') (h1 : first.length = n) (h2 : second.length = n)
    (hf : ∀ a, CRel r l (f a) (f' a)) :
    CRel r (k + k' + l) (Counted.runInnerPair c c' first second buffer extra >>= f) (RustDct.runInnerPair p p' first second buffer extra >>= f') := by
  refine CRel.bindEq ?_ hf
  unfold Counted.runInnerPair RustDct.runInnerPair
  split
  · refine CRel.mono (k := k + (k' + 0)) ?_ (by omega)
    refine CRel.bindEq (CRel.callProcAt h h1) fun a => ?_
    refine CRel.bindEq (CRel.callProcAt h' h2) fun b => ?_
    exact CRel.pure rfl
  · refine CRel.mono (k := k + (k' + 0)) ?_ (by omega)
    refine CRel.bindEq (CRel.callProcAt h h1) fun a => ?_
    refine CRel.bindEq (CRel.callProcAt h' h2) fun b => ?_
    exact CRel.pure rfl

macro_rules
  | `(tactic| capp) => `(tactic| exact CRel.runInnerPair (by assumption) (by assumption) (by omega) (by omega)
      (by intro _; (try casesm* _ × _); (try dsimp -zeta only); crel))

theorem Type4ConvertToType3Even.dct4_takes {k k' : Nat} (s : RustDct.Type4ConvertToType3Even T) (he : s.len % 2 = 0) (h : TakesAt (s.len / 2) s.innerDct.dct3 k inner.dct3)
    (h' : TakesAt (s.len / 2) s.innerDct.dst3 k' inner.dst3) :
    Takes s.dct4 (k + k' + 9 * s.len + 10) (Type4ConvertToType3Even.dct4 inner s) := by
  takes
  norm_num
  omega

theorem Type4ConvertToType3Even.dst4_takes {k k' : Nat} (s : RustDct.Type4ConvertToType3Even T) (he : s.len % 2 = 0) (h : TakesAt (s.len / 2) s.innerDct.dct3 k inner.dct3)
    (h' : TakesAt (s.len / 2) s.innerDct.dst3 k' inner.dst3) :
    Takes s.dst4 (k + k' + 9 * s.len + 10) (Type4ConvertToType3Even.dst4 inner s) := by
  takes
  norm_num
  omega

end RustDct.Counted
