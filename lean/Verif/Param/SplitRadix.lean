import Verif.Param.Logic
import Verif.Model.SplitRadix
/-!
# Related runs: split radix, and type 4 by type 3
-/

set_option linter.all false

namespace RustDct

variable {T T' F F' : Type} [F64 F] [DctNum T F] [F64 F'] [DctNum T' F'] (P : Param T T')

theorem runInnerPair_rel {α α' : Type} {r : α → α' → Prop} {p q : Proc α} {p' q' : Proc α'} (hp : ProcRel r p p') (hq : ProcRel r q q') {a b c d : List α} {a' b' c' d' : List α'}
    (ha : LRel r a a') (hb : LRel r b b') (hc : LRel r c c') (hd : LRel r d d') :
    ERel (PRl (LRel r) (PRl (LRel r) (PRl (LRel r) (LRel r)))) (runInnerPair p q a b c d) (runInnerPair p' q' a' b' c' d') := by
  unfold runInnerPair
  rw [hd.length_eq]
  erel

macro_rules
  | `(tactic| erel0) => `(tactic| (guard_head runInnerPair; exact runInnerPair_rel (by assumption) (by assumption) (by drel) (by drel) (by drel) (by drel)))

namespace Param

structure Split (s : Type2And3SplitRadix T) (s' : Type2And3SplitRadix T') : Prop where
  half : Obj23Rel P.d s.halfDct s'.halfDct
  quarter : Obj23Rel P.d s.quarterDct s'.quarterDct
  twiddles : LRel (CxRel P.c) s.twiddles s'.twiddles

theorem split_len {s : Type2And3SplitRadix T} {s' : Type2And3SplitRadix T'} (h : P.Split s s') : s.len = s'.len := by
  unfold Type2And3SplitRadix.len
  rw [h.twiddles.length_eq]

theorem split_dct2 {s : Type2And3SplitRadix T} {s' : Type2And3SplitRadix T'} (h : P.Split s s') : ProcRel P.d s.dct2 s'.dct2 := by
  mrel P.split_len h, P.split_len h
  obtain ⟨⟨_, _, _, _, _, _⟩, ⟨_, _, _, _, _, _⟩, _⟩ := h
  erel

theorem split_dct3 {s : Type2And3SplitRadix T} {s' : Type2And3SplitRadix T'} (h : P.Split s s') : ProcRel P.d s.dct3 s'.dct3 := by
  mrel P.split_len h, P.split_len h
  obtain ⟨⟨_, _, _, _, _, _⟩, ⟨_, _, _, _, _, _⟩, _⟩ := h
  erel

theorem negOdds_rel {b : List T} {b' : List T'} (h : LRel P.d b b') (n : Nat) :
    (∃ c c', negOdds n b = .ok c ∧ negOdds n b' = .ok c' ∧ LRel P.d c c') ∨ ∃ e c c', negOdds n b = .error (e, c) ∧ negOdds n b' = .error (e, c') ∧ LRel P.d c c' := by
  unfold negOdds
  generalize List.range n = l
  induction l generalizing b b' with
  | nil => exact .inl ⟨b, b', rfl, rfl, h⟩
  | cons i l ih =>
    rw [List.foldlM_cons, List.foldlM_cons]
    rcases h.get? (2 * i + 1) with ⟨h1, h2⟩ | ⟨a, a', h1, h2, h3⟩
    · rw [h1, h2]
      exact .inr ⟨_, _, _, rfl, rfl, h⟩
    · rw [h1, h2]
      exact ih (h.set _ (P.d_neg h3))

theorem split_dst2 {s : Type2And3SplitRadix T} {s' : Type2And3SplitRadix T'} (h : P.Split s s') : ProcRel P.d s.dst2 s'.dst2 := by
  intro m m' hm
  unfold Type2And3SplitRadix.dst2
  rw [P.split_len h]
  rcases P.negOdds_rel hm.1 (s'.len / 2) with ⟨c, c', e1, e2, h3⟩ | ⟨e, c, c', e1, e2, h3⟩
  · rw [e1, e2]
    have := P.split_dct2 h ⟨c, m.scr⟩ ⟨c', m'.scr⟩ ⟨h3, hm.2⟩
    revert this
    dsimp only
    generalize s.dct2 ⟨c, m.scr⟩ = x
    generalize s'.dct2 ⟨c', m'.scr⟩ = x'
    intro h
    cases h with
    | ok h => exact .ok ⟨h.1.rev, h.2⟩
    | panic => exact .panic
    | panicMem h => exact .panicMem h
  · rw [e1, e2]
    exact .panicMem ⟨h3, hm.2⟩

theorem split_dst3 {s : Type2And3SplitRadix T} {s' : Type2And3SplitRadix T'} (h : P.Split s s') : ProcRel P.d s.dst3 s'.dst3 := by
  intro m m' hm
  unfold Type2And3SplitRadix.dst3
  rw [P.split_len h]
  have := P.split_dct3 h ⟨m.buf.reverse, m.scr⟩ ⟨m'.buf.reverse, m'.scr⟩ ⟨hm.1.rev, hm.2⟩
  revert this
  generalize s.dct3 ⟨m.buf.reverse, m.scr⟩ = x
  generalize s'.dct3 ⟨m'.buf.reverse, m'.scr⟩ = x'
  intro h
  cases h with
  | ok h =>
    rcases P.negOdds_rel h.1 (s'.len / 2) with ⟨c, c', e1, e2, h3⟩ | ⟨e, c, c', e1, e2, h3⟩
    · dsimp only
      rw [e1, e2]
      exact .ok ⟨h3, h.2⟩
    · dsimp only
      rw [e1, e2]
      exact .panicMem ⟨h3, h.2⟩
  | panic => exact .panic
  | panicMem h => exact .panicMem h

theorem split_obj {s : Type2And3SplitRadix T} {s' : Type2And3SplitRadix T'} (h : P.Split s s') : Obj23Rel P.d s.toObj s'.toObj :=
  ⟨P.split_len h, P.split_len h, P.split_dct2 h, P.split_dct3 h, P.split_dst2 h, P.split_dst3 h⟩

theorem split_new {a b : Obj23 T} {a' b' : Obj23 T'} (ha : Obj23Rel P.d a a') (hb : Obj23Rel P.d b b') :
    ERel P.Split (Type2And3SplitRadix.new a b) (Type2And3SplitRadix.new a' b') := by
  unfold Type2And3SplitRadix.new
  rw [ha.len, hb.len]
  refine ERel.ite Iff.rfl (fun _ => .error) fun _ => ERel.ite Iff.rfl (fun _ => .error) fun _ => .ok ⟨ha, hb, LRel.ofMap fun i => P.c_conj (P.c_twiddle _ _)⟩

structure Even4 (s : Type4ConvertToType3Even T) (s' : Type4ConvertToType3Even T') : Prop where
  inner : Obj23Rel P.d s.innerDct s'.innerDct
  twiddles : LRel (CxRel P.c) s.twiddles s'.twiddles
  scratchLen : s.scratchLen = s'.scratchLen

theorem even4_len {s : Type4ConvertToType3Even T} {s' : Type4ConvertToType3Even T'} (h : P.Even4 s s') : s.len = s'.len := by
  unfold Type4ConvertToType3Even.len
  rw [h.twiddles.length_eq]

theorem even4_dct4 {s : Type4ConvertToType3Even T} {s' : Type4ConvertToType3Even T'} (h : P.Even4 s s') : ProcRel P.d s.dct4 s'.dct4 := by
  mrel P.even4_len h, h.scratchLen
  obtain ⟨⟨_, _, _, _, _, _⟩, _, _⟩ := h
  erel

theorem even4_dst4 {s : Type4ConvertToType3Even T} {s' : Type4ConvertToType3Even T'} (h : P.Even4 s s') : ProcRel P.d s.dst4 s'.dst4 := by
  mrel P.even4_len h, h.scratchLen
  obtain ⟨⟨_, _, _, _, _, _⟩, _, _⟩ := h
  erel

theorem even4_obj {s : Type4ConvertToType3Even T} {s' : Type4ConvertToType3Even T'} (h : P.Even4 s s') : Obj4Rel P.d s.toObj s'.toObj :=
  ⟨P.even4_len h, h.scratchLen, P.even4_dct4 h, P.even4_dst4 h⟩

theorem even4_new {a : Obj23 T} {a' : Obj23 T'} (ha : Obj23Rel P.d a a') : ERel P.Even4 (Type4ConvertToType3Even.new a) (Type4ConvertToType3Even.new a') := by
  unfold Type4ConvertToType3Even.new
  rw [ha.len, ha.scratchLen]
  exact .ok ⟨ha, LRel.ofMap fun i => P.c_conj (P.c_twiddle _ _), rfl⟩

end Param
end RustDct
