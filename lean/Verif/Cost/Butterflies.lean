import Verif.Cost.Logic
/-!
# Steps of the butterflies
-/

set_option linter.all false
set_option maxHeartbeats 8000000
set_option maxRecDepth 16000

namespace RustDct.Counted

variable {T F : Type} [F64 F] [DctNum T F]

theorem Type2And3Butterfly2.scatteredDct2_rel (b : List T) (i j : Nat) : CRel Eq 10 (Type2And3Butterfly2.scatteredDct2 b i j) (RustDct.Type2And3Butterfly2.scatteredDct2 b i j) := by
  refine CRel.mono (k := _) (by unfold Type2And3Butterfly2.scatteredDct2 RustDct.Type2And3Butterfly2.scatteredDct2; crel) ?_
  norm_num

theorem Type2And3Butterfly2.scatteredDct3_rel (b : List T) (i j : Nat) : CRel Eq 10 (Type2And3Butterfly2.scatteredDct3 b i j) (RustDct.Type2And3Butterfly2.scatteredDct3 b i j) := by
  refine CRel.mono (k := _) (by unfold Type2And3Butterfly2.scatteredDct3 RustDct.Type2And3Butterfly2.scatteredDct3; crel) ?_
  norm_num

macro_rules
  | `(tactic| capp) => `(tactic| first
    | (guard_head Type2And3Butterfly2.scatteredDct2; exact Type2And3Butterfly2.scatteredDct2_rel _ _ _)
    | (guard_head Type2And3Butterfly2.scatteredDct3; exact Type2And3Butterfly2.scatteredDct3_rel _ _ _))

theorem Type2And3Butterfly2.inplaceDct2_rel (s : RustDct.Type2And3Butterfly2 T) (b : List T) : CRel Eq 10 (Type2And3Butterfly2.inplaceDct2 s b) (s.inplaceDct2 b) := by
  refine CRel.mono (k := _) (by unfold Type2And3Butterfly2.inplaceDct2 RustDct.Type2And3Butterfly2.inplaceDct2; crel) ?_
  norm_num

theorem Type2And3Butterfly2.inplaceDct3_rel (s : RustDct.Type2And3Butterfly2 T) (b : List T) : CRel Eq 10 (Type2And3Butterfly2.inplaceDct3 s b) (s.inplaceDct3 b) := by
  refine CRel.mono (k := _) (by unfold Type2And3Butterfly2.inplaceDct3 RustDct.Type2And3Butterfly2.inplaceDct3; crel) ?_
  norm_num

theorem Type2And3Butterfly2.inplaceDst2_rel (s : RustDct.Type2And3Butterfly2 T) (b : List T) : CRel Eq 10 (Type2And3Butterfly2.inplaceDst2 s b) (s.inplaceDst2 b) := by
  refine CRel.mono (k := _) (by unfold Type2And3Butterfly2.inplaceDst2 RustDct.Type2And3Butterfly2.inplaceDst2; crel) ?_
  norm_num

theorem Type2And3Butterfly2.inplaceDst3_rel (s : RustDct.Type2And3Butterfly2 T) (b : List T) : CRel Eq 10 (Type2And3Butterfly2.inplaceDst3 s b) (s.inplaceDst3 b) := by
  refine CRel.mono (k := _) (by unfold Type2And3Butterfly2.inplaceDst3 RustDct.Type2And3Butterfly2.inplaceDst3; crel) ?_
  norm_num

macro_rules
  | `(tactic| capp) => `(tactic| first
    | (guard_head Type2And3Butterfly2.inplaceDct2; exact Type2And3Butterfly2.inplaceDct2_rel _ _)
    | (guard_head Type2And3Butterfly2.inplaceDct3; exact Type2And3Butterfly2.inplaceDct3_rel _ _)
    | (guard_head Type2And3Butterfly2.inplaceDst2; exact Type2And3Butterfly2.inplaceDst2_rel _ _)
    | (guard_head Type2And3Butterfly2.inplaceDst3; exact Type2And3Butterfly2.inplaceDst3_rel _ _))

theorem Type2And3Butterfly3.inplaceDct2_rel (s : RustDct.Type2And3Butterfly3 T) (b : List T) : CRel Eq 17 (Type2And3Butterfly3.inplaceDct2 s b) (s.inplaceDct2 b) := by
  refine CRel.mono (k := _) (by unfold Type2And3Butterfly3.inplaceDct2 RustDct.Type2And3Butterfly3.inplaceDct2; crel) ?_
  norm_num

theorem Type2And3Butterfly3.inplaceDct3_rel (s : RustDct.Type2And3Butterfly3 T) (b : List T) : CRel Eq 17 (Type2And3Butterfly3.inplaceDct3 s b) (s.inplaceDct3 b) := by
  refine CRel.mono (k := _) (by unfold Type2And3Butterfly3.inplaceDct3 RustDct.Type2And3Butterfly3.inplaceDct3; crel) ?_
  norm_num

theorem Type2And3Butterfly3.inplaceDst2_rel (s : RustDct.Type2And3Butterfly3 T) (b : List T) : CRel Eq 17 (Type2And3Butterfly3.inplaceDst2 s b) (s.inplaceDst2 b) := by
  refine CRel.mono (k := _) (by unfold Type2And3Butterfly3.inplaceDst2 RustDct.Type2And3Butterfly3.inplaceDst2; crel) ?_
  norm_num

theorem Type2And3Butterfly3.inplaceDst3_rel (s : RustDct.Type2And3Butterfly3 T) (b : List T) : CRel Eq 17 (Type2And3Butterfly3.inplaceDst3 s b) (s.inplaceDst3 b) := by
  refine CRel.mono (k := _) (by unfold Type2And3Butterfly3.inplaceDst3 RustDct.Type2And3Butterfly3.inplaceDst3; crel) ?_
  norm_num

theorem Type2And3Butterfly4.inplaceDct2_rel (s : RustDct.Type2And3Butterfly4 T) (b : List T) : CRel Eq 35 (Type2And3Butterfly4.inplaceDct2 s b) (s.inplaceDct2 b) := by
  refine CRel.mono (k := _) (by unfold Type2And3Butterfly4.inplaceDct2 RustDct.Type2And3Butterfly4.inplaceDct2; crel) ?_
  norm_num

theorem Type2And3Butterfly4.inplaceDct3_rel (s : RustDct.Type2And3Butterfly4 T) (b : List T) : CRel Eq 35 (Type2And3Butterfly4.inplaceDct3 s b) (s.inplaceDct3 b) := by
  refine CRel.mono (k := _) (by unfold Type2And3Butterfly4.inplaceDct3 RustDct.Type2And3Butterfly4.inplaceDct3; crel) ?_
  norm_num

theorem Type2And3Butterfly4.inplaceDst2_rel (s : RustDct.Type2And3Butterfly4 T) (b : List T) : CRel Eq 35 (Type2And3Butterfly4.inplaceDst2 s b) (s.inplaceDst2 b) := by
  refine CRel.mono (k := _) (by unfold Type2And3Butterfly4.inplaceDst2 RustDct.Type2And3Butterfly4.inplaceDst2; crel) ?_
  norm_num

theorem Type2And3Butterfly4.inplaceDst3_rel (s : RustDct.Type2And3Butterfly4 T) (b : List T) : CRel Eq 35 (Type2And3Butterfly4.inplaceDst3 s b) (s.inplaceDst3 b) := by
  refine CRel.mono (k := _) (by unfold Type2And3Butterfly4.inplaceDst3 RustDct.Type2And3Butterfly4.inplaceDst3; crel) ?_
  norm_num

macro_rules
  | `(tactic| capp) => `(tactic| first
    | (guard_head Type2And3Butterfly4.inplaceDct2; exact Type2And3Butterfly4.inplaceDct2_rel _ _)
    | (guard_head Type2And3Butterfly4.inplaceDct3; exact Type2And3Butterfly4.inplaceDct3_rel _ _)
    | (guard_head Type2And3Butterfly4.inplaceDst2; exact Type2And3Butterfly4.inplaceDst2_rel _ _)
    | (guard_head Type2And3Butterfly4.inplaceDst3; exact Type2And3Butterfly4.inplaceDst3_rel _ _))

theorem Type2And3Butterfly8.inplaceDct2_rel (s : RustDct.Type2And3Butterfly8 T) (b : List T) : CRel Eq 150 (Type2And3Butterfly8.inplaceDct2 s b) (s.inplaceDct2 b) := by
  refine CRel.mono (k := _) (by unfold Type2And3Butterfly8.inplaceDct2 RustDct.Type2And3Butterfly8.inplaceDct2; crel) ?_
  norm_num

theorem Type2And3Butterfly8.inplaceDct3_rel (s : RustDct.Type2And3Butterfly8 T) (b : List T) : CRel Eq 150 (Type2And3Butterfly8.inplaceDct3 s b) (s.inplaceDct3 b) := by
  refine CRel.mono (k := _) (by unfold Type2And3Butterfly8.inplaceDct3 RustDct.Type2And3Butterfly8.inplaceDct3; crel) ?_
  norm_num

theorem Type2And3Butterfly8.inplaceDst2_rel (s : RustDct.Type2And3Butterfly8 T) (b : List T) : CRel Eq 150 (Type2And3Butterfly8.inplaceDst2 s b) (s.inplaceDst2 b) := by
  refine CRel.mono (k := _) (by unfold Type2And3Butterfly8.inplaceDst2 RustDct.Type2And3Butterfly8.inplaceDst2; crel) ?_
  norm_num

theorem Type2And3Butterfly8.inplaceDst3_rel (s : RustDct.Type2And3Butterfly8 T) (b : List T) : CRel Eq 150 (Type2And3Butterfly8.inplaceDst3 s b) (s.inplaceDst3 b) := by
  refine CRel.mono (k := _) (by unfold Type2And3Butterfly8.inplaceDst3 RustDct.Type2And3Butterfly8.inplaceDst3; crel) ?_
  norm_num

macro_rules
  | `(tactic| capp) => `(tactic| first
    | (guard_head Type2And3Butterfly8.inplaceDct2; exact Type2And3Butterfly8.inplaceDct2_rel _ _)
    | (guard_head Type2And3Butterfly8.inplaceDct3; exact Type2And3Butterfly8.inplaceDct3_rel _ _)
    | (guard_head Type2And3Butterfly8.inplaceDst2; exact Type2And3Butterfly8.inplaceDst2_rel _ _)
    | (guard_head Type2And3Butterfly8.inplaceDst3; exact Type2And3Butterfly8.inplaceDst3_rel _ _))

theorem Type2And3Butterfly16.inplaceDct2_rel (s : RustDct.Type2And3Butterfly16 T) (b : List T) : CRel Eq 400 (Type2And3Butterfly16.inplaceDct2 s b) (s.inplaceDct2 b) := by
  refine CRel.mono (k := _) (by unfold Type2And3Butterfly16.inplaceDct2 RustDct.Type2And3Butterfly16.inplaceDct2; crel) ?_
  norm_num

theorem Type2And3Butterfly16.inplaceDct3_rel (s : RustDct.Type2And3Butterfly16 T) (b : List T) : CRel Eq 400 (Type2And3Butterfly16.inplaceDct3 s b) (s.inplaceDct3 b) := by
  refine CRel.mono (k := _) (by unfold Type2And3Butterfly16.inplaceDct3 RustDct.Type2And3Butterfly16.inplaceDct3; crel) ?_
  norm_num

theorem Type2And3Butterfly16.inplaceDst2_rel (s : RustDct.Type2And3Butterfly16 T) (b : List T) : CRel Eq 400 (Type2And3Butterfly16.inplaceDst2 s b) (s.inplaceDst2 b) := by
  refine CRel.mono (k := _) (by unfold Type2And3Butterfly16.inplaceDst2 RustDct.Type2And3Butterfly16.inplaceDst2; crel) ?_
  norm_num

theorem Type2And3Butterfly16.inplaceDst3_rel (s : RustDct.Type2And3Butterfly16 T) (b : List T) : CRel Eq 400 (Type2And3Butterfly16.inplaceDst3 s b) (s.inplaceDst3 b) := by
  refine CRel.mono (k := _) (by unfold Type2And3Butterfly16.inplaceDst3 RustDct.Type2And3Butterfly16.inplaceDst3; crel) ?_
  norm_num

theorem Type2And3Butterfly2.dct2_takes (s : RustDct.Type2And3Butterfly2 T) : Takes s.dct2 10 (Type2And3Butterfly2.dct2 s) := by
  takes1
  norm_num

theorem Type2And3Butterfly2.dct3_takes (s : RustDct.Type2And3Butterfly2 T) : Takes s.dct3 10 (Type2And3Butterfly2.dct3 s) := by
  takes1
  norm_num

theorem Type2And3Butterfly2.dst2_takes (s : RustDct.Type2And3Butterfly2 T) : Takes s.dst2 10 (Type2And3Butterfly2.dst2 s) := by
  takes1
  norm_num

theorem Type2And3Butterfly2.dst3_takes (s : RustDct.Type2And3Butterfly2 T) : Takes s.dst3 10 (Type2And3Butterfly2.dst3 s) := by
  takes1
  norm_num

theorem Type2And3Butterfly3.dct2_takes (s : RustDct.Type2And3Butterfly3 T) : Takes s.dct2 17 (Type2And3Butterfly3.dct2 s) :=
  Takes.buffer fun b _ => Type2And3Butterfly3.inplaceDct2_rel s b

theorem Type2And3Butterfly3.dct3_takes (s : RustDct.Type2And3Butterfly3 T) : Takes s.dct3 17 (Type2And3Butterfly3.dct3 s) :=
  Takes.buffer fun b _ => Type2And3Butterfly3.inplaceDct3_rel s b

theorem Type2And3Butterfly3.dst2_takes (s : RustDct.Type2And3Butterfly3 T) : Takes s.dst2 17 (Type2And3Butterfly3.dst2 s) :=
  Takes.buffer fun b _ => Type2And3Butterfly3.inplaceDst2_rel s b

theorem Type2And3Butterfly3.dst3_takes (s : RustDct.Type2And3Butterfly3 T) : Takes s.dst3 17 (Type2And3Butterfly3.dst3 s) :=
  Takes.buffer fun b _ => Type2And3Butterfly3.inplaceDst3_rel s b

theorem Type2And3Butterfly4.dct2_takes (s : RustDct.Type2And3Butterfly4 T) : Takes s.dct2 35 (Type2And3Butterfly4.dct2 s) :=
  Takes.buffer fun b _ => Type2And3Butterfly4.inplaceDct2_rel s b

theorem Type2And3Butterfly4.dct3_takes (s : RustDct.Type2And3Butterfly4 T) : Takes s.dct3 35 (Type2And3Butterfly4.dct3 s) :=
  Takes.buffer fun b _ => Type2And3Butterfly4.inplaceDct3_rel s b

theorem Type2And3Butterfly4.dst2_takes (s : RustDct.Type2And3Butterfly4 T) : Takes s.dst2 35 (Type2And3Butterfly4.dst2 s) :=
  Takes.buffer fun b _ => Type2And3Butterfly4.inplaceDst2_rel s b

theorem Type2And3Butterfly4.dst3_takes (s : RustDct.Type2And3Butterfly4 T) : Takes s.dst3 35 (Type2And3Butterfly4.dst3 s) :=
  Takes.buffer fun b _ => Type2And3Butterfly4.inplaceDst3_rel s b

theorem Type2And3Butterfly8.dct2_takes (s : RustDct.Type2And3Butterfly8 T) : Takes s.dct2 150 (Type2And3Butterfly8.dct2 s) :=
  Takes.buffer fun b _ => Type2And3Butterfly8.inplaceDct2_rel s b

theorem Type2And3Butterfly8.dct3_takes (s : RustDct.Type2And3Butterfly8 T) : Takes s.dct3 150 (Type2And3Butterfly8.dct3 s) :=
  Takes.buffer fun b _ => Type2And3Butterfly8.inplaceDct3_rel s b

theorem Type2And3Butterfly8.dst2_takes (s : RustDct.Type2And3Butterfly8 T) : Takes s.dst2 150 (Type2And3Butterfly8.dst2 s) :=
  Takes.buffer fun b _ => Type2And3Butterfly8.inplaceDst2_rel s b

theorem Type2And3Butterfly8.dst3_takes (s : RustDct.Type2And3Butterfly8 T) : Takes s.dst3 150 (Type2And3Butterfly8.dst3 s) :=
  Takes.buffer fun b _ => Type2And3Butterfly8.inplaceDst3_rel s b

theorem Type2And3Butterfly16.dct2_takes (s : RustDct.Type2And3Butterfly16 T) : Takes s.dct2 400 (Type2And3Butterfly16.dct2 s) :=
  Takes.buffer fun b _ => Type2And3Butterfly16.inplaceDct2_rel s b

theorem Type2And3Butterfly16.dct3_takes (s : RustDct.Type2And3Butterfly16 T) : Takes s.dct3 400 (Type2And3Butterfly16.dct3 s) :=
  Takes.buffer fun b _ => Type2And3Butterfly16.inplaceDct3_rel s b

theorem Type2And3Butterfly16.dst2_takes (s : RustDct.Type2And3Butterfly16 T) : Takes s.dst2 400 (Type2And3Butterfly16.dst2 s) :=
  Takes.buffer fun b _ => Type2And3Butterfly16.inplaceDst2_rel s b

theorem Type2And3Butterfly16.dst3_takes (s : RustDct.Type2And3Butterfly16 T) : Takes s.dst3 400 (Type2And3Butterfly16.dst3 s) :=
  Takes.buffer fun b _ => Type2And3Butterfly16.inplaceDst3_rel s b

end RustDct.Counted
