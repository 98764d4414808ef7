import Verif.Param.Logic
import Verif.Model.Butterflies
/-!
# Related runs: the fixed-size kernels
-/

set_option linter.all false

namespace RustDct

variable {T T' F F' : Type} [F64 F] [DctNum T F] [F64 F'] [DctNum T' F'] (P : Param T T')

namespace Param

structure B3 (s : Type2And3Butterfly3 T) (s' : Type2And3Butterfly3 T') : Prop where
  twiddle : P.c s.twiddle s'.twiddle

structure B4 (s : Type2And3Butterfly4 T) (s' : Type2And3Butterfly4 T') : Prop where
  twiddle : CxRel P.c s.twiddle s'.twiddle

structure B8 (s : Type2And3Butterfly8 T) (s' : Type2And3Butterfly8 T') : Prop where
  butterfly4 : P.B4 s.butterfly4 s'.butterfly4
  twiddles : LRel (CxRel P.c) s.twiddles s'.twiddles

structure B16 (s : Type2And3Butterfly16 T) (s' : Type2And3Butterfly16 T') : Prop where
  butterfly8 : P.B8 s.butterfly8 s'.butterfly8
  butterfly4 : P.B4 s.butterfly4 s'.butterfly4
  twiddles : LRel (CxRel P.c) s.twiddles s'.twiddles

theorem b3_new : P.B3 Type2And3Butterfly3.new Type2And3Butterfly3.new := ⟨P.c_twiddleRe 1 12⟩

theorem b4_new : P.B4 Type2And3Butterfly4.new Type2And3Butterfly4.new := ⟨P.c_conj (P.c_twiddle 1 16)⟩

theorem b8_new : P.B8 Type2And3Butterfly8.new Type2And3Butterfly8.new :=
  ⟨P.b4_new, .cons (P.c_conj (P.c_twiddle 1 32)) (.cons (P.c_conj (P.c_twiddle 3 32)) .nil)⟩

theorem b16_new : P.B16 Type2And3Butterfly16.new Type2And3Butterfly16.new :=
  ⟨P.b8_new, P.b4_new, .cons (P.c_conj (P.c_twiddle 1 64)) (.cons (P.c_conj (P.c_twiddle 3 64)) (.cons (P.c_conj (P.c_twiddle 5 64)) (.cons (P.c_conj (P.c_twiddle 7 64)) .nil)))⟩

theorem b2_scatteredDct2 {b : List T} {b' : List T'} (h : LRel P.d b b') {i j : Nat} :
    ERel (LRel P.d) (Type2And3Butterfly2.scatteredDct2 b i j) (Type2And3Butterfly2.scatteredDct2 b' i j) := by
  unfold Type2And3Butterfly2.scatteredDct2
  erel

macro_rules
  | `(tactic| erel0) => `(tactic| (guard_head Type2And3Butterfly2.scatteredDct2; with_reducible exact Param.b2_scatteredDct2 _ (by assumption)))

theorem b2_scatteredDct3 {b : List T} {b' : List T'} (h : LRel P.d b b') {i j : Nat} :
    ERel (LRel P.d) (Type2And3Butterfly2.scatteredDct3 b i j) (Type2And3Butterfly2.scatteredDct3 b' i j) := by
  unfold Type2And3Butterfly2.scatteredDct3
  erel

macro_rules
  | `(tactic| erel0) => `(tactic| (guard_head Type2And3Butterfly2.scatteredDct3; with_reducible exact Param.b2_scatteredDct3 _ (by assumption)))

theorem b2_inplaceDct2 {s : Type2And3Butterfly2 T} {s' : Type2And3Butterfly2 T'} {b : List T} {b' : List T'} (h : LRel P.d b b') :
    ERel (LRel P.d) (s.inplaceDct2 b) (s'.inplaceDct2 b') := by
  unfold Type2And3Butterfly2.inplaceDct2
  erel

macro_rules
  | `(tactic| erel0) => `(tactic| (guard_head Type2And3Butterfly2.inplaceDct2; with_reducible exact Param.b2_inplaceDct2 _ (by drel)))

theorem b2_inplaceDct3 {s : Type2And3Butterfly2 T} {s' : Type2And3Butterfly2 T'} {b : List T} {b' : List T'} (h : LRel P.d b b') :
    ERel (LRel P.d) (s.inplaceDct3 b) (s'.inplaceDct3 b') := by
  unfold Type2And3Butterfly2.inplaceDct3
  erel

macro_rules
  | `(tactic| erel0) => `(tactic| (guard_head Type2And3Butterfly2.inplaceDct3; with_reducible exact Param.b2_inplaceDct3 _ (by drel)))

theorem b2_inplaceDst2 {s : Type2And3Butterfly2 T} {s' : Type2And3Butterfly2 T'} {b : List T} {b' : List T'} (h : LRel P.d b b') :
    ERel (LRel P.d) (s.inplaceDst2 b) (s'.inplaceDst2 b') := by
  unfold Type2And3Butterfly2.inplaceDst2
  erel

macro_rules
  | `(tactic| erel0) => `(tactic| (guard_head Type2And3Butterfly2.inplaceDst2; with_reducible exact Param.b2_inplaceDst2 _ (by drel)))

theorem b2_inplaceDst3 {s : Type2And3Butterfly2 T} {s' : Type2And3Butterfly2 T'} {b : List T} {b' : List T'} (h : LRel P.d b b') :
    ERel (LRel P.d) (s.inplaceDst3 b) (s'.inplaceDst3 b') := by
  unfold Type2And3Butterfly2.inplaceDst3
  erel

macro_rules
  | `(tactic| erel0) => `(tactic| (guard_head Type2And3Butterfly2.inplaceDst3; with_reducible exact Param.b2_inplaceDst3 _ (by drel)))

theorem b2_dct2 {s : Type2And3Butterfly2 T} {s' : Type2And3Butterfly2 T'} : ProcRel P.d s.dct2 s'.dct2 := by
  intro m m' hm
  refine validateBuffer_rel hm fun h => ?_
  erel

theorem b2_dct3 {s : Type2And3Butterfly2 T} {s' : Type2And3Butterfly2 T'} : ProcRel P.d s.dct3 s'.dct3 := by
  intro m m' hm
  refine validateBuffer_rel hm fun h => ?_
  erel

theorem b2_dst2 {s : Type2And3Butterfly2 T} {s' : Type2And3Butterfly2 T'} : ProcRel P.d s.dst2 s'.dst2 := by
  intro m m' hm
  refine validateBuffer_rel hm fun h => ?_
  erel

theorem b2_dst3 {s : Type2And3Butterfly2 T} {s' : Type2And3Butterfly2 T'} : ProcRel P.d s.dst3 s'.dst3 := by
  intro m m' hm
  refine validateBuffer_rel hm fun h => ?_
  erel

theorem b2_obj {s : Type2And3Butterfly2 T} {s' : Type2And3Butterfly2 T'} : Obj23Rel P.d s.toObj s'.toObj :=
  ⟨rfl, rfl, P.b2_dct2 (s := s) (s' := s'), P.b2_dct3 (s := s) (s' := s'), P.b2_dst2 (s := s) (s' := s'), P.b2_dst3 (s := s) (s' := s')⟩

theorem b3_inplaceDct2 {s : Type2And3Butterfly3 T} {s' : Type2And3Butterfly3 T'} (hs : P.B3 s s') {b : List T} {b' : List T'} (h : LRel P.d b b') :
    ERel (LRel P.d) (s.inplaceDct2 b) (s'.inplaceDct2 b') := by
  unfold Type2And3Butterfly3.inplaceDct2
  obtain ⟨ht⟩ := hs
  erel

macro_rules
  | `(tactic| erel0) => `(tactic| (guard_head Type2And3Butterfly3.inplaceDct2; with_reducible exact Param.b3_inplaceDct2 _ (by assumption) (by drel)))

theorem b3_inplaceDct3 {s : Type2And3Butterfly3 T} {s' : Type2And3Butterfly3 T'} (hs : P.B3 s s') {b : List T} {b' : List T'} (h : LRel P.d b b') :
    ERel (LRel P.d) (s.inplaceDct3 b) (s'.inplaceDct3 b') := by
  unfold Type2And3Butterfly3.inplaceDct3
  obtain ⟨ht⟩ := hs
  erel

macro_rules
  | `(tactic| erel0) => `(tactic| (guard_head Type2And3Butterfly3.inplaceDct3; with_reducible exact Param.b3_inplaceDct3 _ (by assumption) (by drel)))

theorem b3_inplaceDst2 {s : Type2And3Butterfly3 T} {s' : Type2And3Butterfly3 T'} (hs : P.B3 s s') {b : List T} {b' : List T'} (h : LRel P.d b b') :
    ERel (LRel P.d) (s.inplaceDst2 b) (s'.inplaceDst2 b') := by
  unfold Type2And3Butterfly3.inplaceDst2
  obtain ⟨ht⟩ := hs
  erel

macro_rules
  | `(tactic| erel0) => `(tactic| (guard_head Type2And3Butterfly3.inplaceDst2; with_reducible exact Param.b3_inplaceDst2 _ (by assumption) (by drel)))

theorem b3_inplaceDst3 {s : Type2And3Butterfly3 T} {s' : Type2And3Butterfly3 T'} (hs : P.B3 s s') {b : List T} {b' : List T'} (h : LRel P.d b b') :
    ERel (LRel P.d) (s.inplaceDst3 b) (s'.inplaceDst3 b') := by
  unfold Type2And3Butterfly3.inplaceDst3
  obtain ⟨ht⟩ := hs
  erel

macro_rules
  | `(tactic| erel0) => `(tactic| (guard_head Type2And3Butterfly3.inplaceDst3; with_reducible exact Param.b3_inplaceDst3 _ (by assumption) (by drel)))

theorem b3_dct2 {s : Type2And3Butterfly3 T} {s' : Type2And3Butterfly3 T'} (hs : P.B3 s s') : ProcRel P.d s.dct2 s'.dct2 := fun m m' hm => validateBuffer_rel hm (P.b3_inplaceDct2 hs)

theorem b3_dct3 {s : Type2And3Butterfly3 T} {s' : Type2And3Butterfly3 T'} (hs : P.B3 s s') : ProcRel P.d s.dct3 s'.dct3 := fun m m' hm => validateBuffer_rel hm (P.b3_inplaceDct3 hs)

theorem b3_dst2 {s : Type2And3Butterfly3 T} {s' : Type2And3Butterfly3 T'} (hs : P.B3 s s') : ProcRel P.d s.dst2 s'.dst2 := fun m m' hm => validateBuffer_rel hm (P.b3_inplaceDst2 hs)

theorem b3_dst3 {s : Type2And3Butterfly3 T} {s' : Type2And3Butterfly3 T'} (hs : P.B3 s s') : ProcRel P.d s.dst3 s'.dst3 := fun m m' hm => validateBuffer_rel hm (P.b3_inplaceDst3 hs)

theorem b3_obj {s : Type2And3Butterfly3 T} {s' : Type2And3Butterfly3 T'} (hs : P.B3 s s') : Obj23Rel P.d s.toObj s'.toObj :=
  ⟨rfl, rfl, P.b3_dct2 hs, P.b3_dct3 hs, P.b3_dst2 hs, P.b3_dst3 hs⟩

theorem b4_inplaceDct2 {s : Type2And3Butterfly4 T} {s' : Type2And3Butterfly4 T'} (hs : P.B4 s s') {b : List T} {b' : List T'} (h : LRel P.d b b') :
    ERel (LRel P.d) (s.inplaceDct2 b) (s'.inplaceDct2 b') := by
  unfold Type2And3Butterfly4.inplaceDct2
  obtain ⟨ht⟩ := hs
  erel

macro_rules
  | `(tactic| erel0) => `(tactic| (guard_head Type2And3Butterfly4.inplaceDct2; with_reducible exact Param.b4_inplaceDct2 _ (by assumption) (by drel)))

theorem b4_inplaceDct3 {s : Type2And3Butterfly4 T} {s' : Type2And3Butterfly4 T'} (hs : P.B4 s s') {b : List T} {b' : List T'} (h : LRel P.d b b') :
    ERel (LRel P.d) (s.inplaceDct3 b) (s'.inplaceDct3 b') := by
  unfold Type2And3Butterfly4.inplaceDct3
  obtain ⟨ht⟩ := hs
  erel

macro_rules
  | `(tactic| erel0) => `(tactic| (guard_head Type2And3Butterfly4.inplaceDct3; with_reducible exact Param.b4_inplaceDct3 _ (by assumption) (by drel)))

theorem b4_inplaceDst2 {s : Type2And3Butterfly4 T} {s' : Type2And3Butterfly4 T'} (hs : P.B4 s s') {b : List T} {b' : List T'} (h : LRel P.d b b') :
    ERel (LRel P.d) (s.inplaceDst2 b) (s'.inplaceDst2 b') := by
  unfold Type2And3Butterfly4.inplaceDst2
  obtain ⟨ht⟩ := hs
  erel

macro_rules
  | `(tactic| erel0) => `(tactic| (guard_head Type2And3Butterfly4.inplaceDst2; with_reducible exact Param.b4_inplaceDst2 _ (by assumption) (by drel)))

theorem b4_inplaceDst3 {s : Type2And3Butterfly4 T} {s' : Type2And3Butterfly4 T'} (hs : P.B4 s s') {b : List T} {b' : List T'} (h : LRel P.d b b') :
    ERel (LRel P.d) (s.inplaceDst3 b) (s'.inplaceDst3 b') := by
  unfold Type2And3Butterfly4.inplaceDst3
  obtain ⟨ht⟩ := hs
  erel

macro_rules
  | `(tactic| erel0) => `(tactic| (guard_head Type2And3Butterfly4.inplaceDst3; with_reducible exact Param.b4_inplaceDst3 _ (by assumption) (by drel)))

theorem b4_dct2 {s : Type2And3Butterfly4 T} {s' : Type2And3Butterfly4 T'} (hs : P.B4 s s') : ProcRel P.d s.dct2 s'.dct2 := fun m m' hm => validateBuffer_rel hm (P.b4_inplaceDct2 hs)

theorem b4_dct3 {s : Type2And3Butterfly4 T} {s' : Type2And3Butterfly4 T'} (hs : P.B4 s s') : ProcRel P.d s.dct3 s'.dct3 := fun m m' hm => validateBuffer_rel hm (P.b4_inplaceDct3 hs)

theorem b4_dst2 {s : Type2And3Butterfly4 T} {s' : Type2And3Butterfly4 T'} (hs : P.B4 s s') : ProcRel P.d s.dst2 s'.dst2 := fun m m' hm => validateBuffer_rel hm (P.b4_inplaceDst2 hs)

theorem b4_dst3 {s : Type2And3Butterfly4 T} {s' : Type2And3Butterfly4 T'} (hs : P.B4 s s') : ProcRel P.d s.dst3 s'.dst3 := fun m m' hm => validateBuffer_rel hm (P.b4_inplaceDst3 hs)

theorem b4_obj {s : Type2And3Butterfly4 T} {s' : Type2And3Butterfly4 T'} (hs : P.B4 s s') : Obj23Rel P.d s.toObj s'.toObj :=
  ⟨rfl, rfl, P.b4_dct2 hs, P.b4_dct3 hs, P.b4_dst2 hs, P.b4_dst3 hs⟩

theorem b8_inplaceDct2 {s : Type2And3Butterfly8 T} {s' : Type2And3Butterfly8 T'} (hs : P.B8 s s') {b : List T} {b' : List T'} (h : LRel P.d b b') :
    ERel (LRel P.d) (s.inplaceDct2 b) (s'.inplaceDct2 b') := by
  unfold Type2And3Butterfly8.inplaceDct2
  obtain ⟨h4, ht⟩ := hs
  erel

macro_rules
  | `(tactic| erel0) => `(tactic| (guard_head Type2And3Butterfly8.inplaceDct2; with_reducible exact Param.b8_inplaceDct2 _ (by assumption) (by drel)))

theorem b8_inplaceDct3 {s : Type2And3Butterfly8 T} {s' : Type2And3Butterfly8 T'} (hs : P.B8 s s') {b : List T} {b' : List T'} (h : LRel P.d b b') :
    ERel (LRel P.d) (s.inplaceDct3 b) (s'.inplaceDct3 b') := by
  unfold Type2And3Butterfly8.inplaceDct3
  obtain ⟨h4, ht⟩ := hs
  erel

macro_rules
  | `(tactic| erel0) => `(tactic| (guard_head Type2And3Butterfly8.inplaceDct3; with_reducible exact Param.b8_inplaceDct3 _ (by assumption) (by drel)))

theorem b8_inplaceDst2 {s : Type2And3Butterfly8 T} {s' : Type2And3Butterfly8 T'} (hs : P.B8 s s') {b : List T} {b' : List T'} (h : LRel P.d b b') :
    ERel (LRel P.d) (s.inplaceDst2 b) (s'.inplaceDst2 b') := by
  unfold Type2And3Butterfly8.inplaceDst2
  obtain ⟨h4, ht⟩ := hs
  erel

macro_rules
  | `(tactic| erel0) => `(tactic| (guard_head Type2And3Butterfly8.inplaceDst2; with_reducible exact Param.b8_inplaceDst2 _ (by assumption) (by drel)))

theorem b8_inplaceDst3 {s : Type2And3Butterfly8 T} {s' : Type2And3Butterfly8 T'} (hs : P.B8 s s') {b : List T} {b' : List T'} (h : LRel P.d b b') :
    ERel (LRel P.d) (s.inplaceDst3 b) (s'.inplaceDst3 b') := by
  unfold Type2And3Butterfly8.inplaceDst3
  obtain ⟨h4, ht⟩ := hs
  erel

macro_rules
  | `(tactic| erel0) => `(tactic| (guard_head Type2And3Butterfly8.inplaceDst3; with_reducible exact Param.b8_inplaceDst3 _ (by assumption) (by drel)))

theorem b8_dct2 {s : Type2And3Butterfly8 T} {s' : Type2And3Butterfly8 T'} (hs : P.B8 s s') : ProcRel P.d s.dct2 s'.dct2 := fun m m' hm => validateBuffer_rel hm (P.b8_inplaceDct2 hs)

theorem b8_dct3 {s : Type2And3Butterfly8 T} {s' : Type2And3Butterfly8 T'} (hs : P.B8 s s') : ProcRel P.d s.dct3 s'.dct3 := fun m m' hm => validateBuffer_rel hm (P.b8_inplaceDct3 hs)

theorem b8_dst2 {s : Type2And3Butterfly8 T} {s' : Type2And3Butterfly8 T'} (hs : P.B8 s s') : ProcRel P.d s.dst2 s'.dst2 := fun m m' hm => validateBuffer_rel hm (P.b8_inplaceDst2 hs)

theorem b8_dst3 {s : Type2And3Butterfly8 T} {s' : Type2And3Butterfly8 T'} (hs : P.B8 s s') : ProcRel P.d s.dst3 s'.dst3 := fun m m' hm => validateBuffer_rel hm (P.b8_inplaceDst3 hs)

theorem b8_obj {s : Type2And3Butterfly8 T} {s' : Type2And3Butterfly8 T'} (hs : P.B8 s s') : Obj23Rel P.d s.toObj s'.toObj :=
  ⟨rfl, rfl, P.b8_dct2 hs, P.b8_dct3 hs, P.b8_dst2 hs, P.b8_dst3 hs⟩

set_option maxHeartbeats 1000000

theorem b16_inplaceDct2 {s : Type2And3Butterfly16 T} {s' : Type2And3Butterfly16 T'} (hs : P.B16 s s') {b : List T} {b' : List T'} (h : LRel P.d b b') :
    ERel (LRel P.d) (s.inplaceDct2 b) (s'.inplaceDct2 b') := by
  unfold Type2And3Butterfly16.inplaceDct2
  obtain ⟨h8, h4, ht⟩ := hs
  erel

macro_rules
  | `(tactic| erel0) => `(tactic| (guard_head Type2And3Butterfly16.inplaceDct2; with_reducible exact Param.b16_inplaceDct2 _ (by assumption) (by drel)))

theorem b16_inplaceDct3 {s : Type2And3Butterfly16 T} {s' : Type2And3Butterfly16 T'} (hs : P.B16 s s') {b : List T} {b' : List T'} (h : LRel P.d b b') :
    ERel (LRel P.d) (s.inplaceDct3 b) (s'.inplaceDct3 b') := by
  unfold Type2And3Butterfly16.inplaceDct3
  obtain ⟨h8, h4, ht⟩ := hs
  erel

macro_rules
  | `(tactic| erel0) => `(tactic| (guard_head Type2And3Butterfly16.inplaceDct3; with_reducible exact Param.b16_inplaceDct3 _ (by assumption) (by drel)))

theorem b16_inplaceDst2 {s : Type2And3Butterfly16 T} {s' : Type2And3Butterfly16 T'} (hs : P.B16 s s') {b : List T} {b' : List T'} (h : LRel P.d b b') :
    ERel (LRel P.d) (s.inplaceDst2 b) (s'.inplaceDst2 b') := by
  unfold Type2And3Butterfly16.inplaceDst2
  obtain ⟨h8, h4, ht⟩ := hs
  erel

macro_rules
  | `(tactic| erel0) => `(tactic| (guard_head Type2And3Butterfly16.inplaceDst2; with_reducible exact Param.b16_inplaceDst2 _ (by assumption) (by drel)))

theorem b16_inplaceDst3 {s : Type2And3Butterfly16 T} {s' : Type2And3Butterfly16 T'} (hs : P.B16 s s') {b : List T} {b' : List T'} (h : LRel P.d b b') :
    ERel (LRel P.d) (s.inplaceDst3 b) (s'.inplaceDst3 b') := by
  unfold Type2And3Butterfly16.inplaceDst3
  obtain ⟨h8, h4, ht⟩ := hs
  erel

macro_rules
  | `(tactic| erel0) => `(tactic| (guard_head Type2And3Butterfly16.inplaceDst3; with_reducible exact Param.b16_inplaceDst3 _ (by assumption) (by drel)))

theorem b16_dct2 {s : Type2And3Butterfly16 T} {s' : Type2And3Butterfly16 T'} (hs : P.B16 s s') : ProcRel P.d s.dct2 s'.dct2 := fun m m' hm => validateBuffer_rel hm (P.b16_inplaceDct2 hs)

theorem b16_dct3 {s : Type2And3Butterfly16 T} {s' : Type2And3Butterfly16 T'} (hs : P.B16 s s') : ProcRel P.d s.dct3 s'.dct3 := fun m m' hm => validateBuffer_rel hm (P.b16_inplaceDct3 hs)

theorem b16_dst2 {s : Type2And3Butterfly16 T} {s' : Type2And3Butterfly16 T'} (hs : P.B16 s s') : ProcRel P.d s.dst2 s'.dst2 := fun m m' hm => validateBuffer_rel hm (P.b16_inplaceDst2 hs)

theorem b16_dst3 {s : Type2And3Butterfly16 T} {s' : Type2And3Butterfly16 T'} (hs : P.B16 s s') : ProcRel P.d s.dst3 s'.dst3 := fun m m' hm => validateBuffer_rel hm (P.b16_inplaceDst3 hs)

theorem b16_obj {s : Type2And3Butterfly16 T} {s' : Type2And3Butterfly16 T'} (hs : P.B16 s s') : Obj23Rel P.d s.toObj s'.toObj :=
  ⟨rfl, rfl, P.b16_dct2 hs, P.b16_dct3 hs, P.b16_dst2 hs, P.b16_dst3 hs⟩

end Param
end RustDct
