import Verif.Param.Logic
import Verif.Model.Naive
/-!
# Related runs: the naive algorithms
-/

set_option linter.all false

namespace RustDct

variable {T T' F F' : Type} [F64 F] [DctNum T F] [F64 F'] [DctNum T' F'] (P : Param T T')

theorem strideLoop_rel {α β α' β' : Type} {r : α → α' → Prop} {w : β → β' → Prop} {tw : List β} {tw' : List β'} (ht : LRel w tw tw') {scr : List α} {scr' : List α'} (hs : LRel r scr scr')
    {st : Nat} {f : α → α → β → α} {f' : α' → α' → β' → α'} (hf : ∀ {a a' x x' y y'}, r a a' → r x x' → w y y' → r (f a x y) (f' a' x' y')) {lo : Nat} {c : α} {c' : α'} (hc : r c c') {i : Nat} :
    ERel (PRl r Eq) (strideLoop tw scr st f lo c i) (strideLoop tw' scr' st f' lo c' i) := by
  unfold strideLoop
  refine ERel.forRangeP hs.length_eq ⟨hc, rfl⟩ fun i a a' b b' ha hb => ?_
  subst hb
  dsimp only
  rw [ht.length_eq]
  refine (ERel.rd ht).bind fun y y' hy => (ERel.rd hs).bind fun x x' hx => ?_
  exact ERel.ite Iff.rfl (fun _ => .ok ⟨hf ha hx hy, rfl⟩) fun _ => .ok ⟨hf ha hx hy, rfl⟩

macro_rules
  | `(tactic| erel0) => `(tactic| (guard_head strideLoop; exact strideLoop_rel (by drel) (by drel) (by intros; beta_reduce; drel) (by drel)))

namespace Param

theorem dct1_len {s : Dct1Naive T} {s' : Dct1Naive T'} (ht : LRel P.c s.twiddles s'.twiddles) : s.len = s'.len := by
  unfold Dct1Naive.len
  rw [ht.length_eq]

theorem dct1_dct1 {s : Dct1Naive T} {s' : Dct1Naive T'} (ht : LRel P.c s.twiddles s'.twiddles) : ProcRel P.d s.dct1 s'.dct1 := by
  mrel P.dct1_len ht, P.dct1_len ht
  erel

theorem dct1_obj {s : Dct1Naive T} {s' : Dct1Naive T'} (ht : LRel P.c s.twiddles s'.twiddles) : Obj1Rel P.d s.toObj s'.toObj :=
  ⟨P.dct1_len ht, P.dct1_len ht, P.dct1_dct1 ht⟩

theorem dct1_new (n : Nat) : ERel (fun (s : Dct1Naive T) (s' : Dct1Naive T') => LRel P.c s.twiddles s'.twiddles) (Dct1Naive.new n) (Dct1Naive.new n) :=
  ERel.ite Iff.rfl (fun _ => .error) fun _ => ERel.bindEq .csub fun _ => ERel.ok (LRel.ofMap fun i => P.c_from (P.f_cos (P.f_mul (P.f_div P.f_pi (P.f_nat _)) (P.f_nat i))))

theorem dst1_len {s : Dst1Naive T} {s' : Dst1Naive T'} (ht : LRel P.c s.twiddles s'.twiddles) : s.len = s'.len := by
  unfold Dst1Naive.len
  rw [ht.length_eq]

theorem dst1_dst1 {s : Dst1Naive T} {s' : Dst1Naive T'} (ht : LRel P.c s.twiddles s'.twiddles) : ProcRel P.d s.dst1 s'.dst1 := by
  mrel P.dst1_len ht, P.dst1_len ht
  erel

theorem dst1_obj {s : Dst1Naive T} {s' : Dst1Naive T'} (ht : LRel P.c s.twiddles s'.twiddles) : Obj1Rel P.d s.toObj s'.toObj :=
  ⟨P.dst1_len ht, P.dst1_len ht, P.dst1_dst1 ht⟩

theorem dst1_new (n : Nat) : ERel (fun (s : Dst1Naive T) (s' : Dst1Naive T') => LRel P.c s.twiddles s'.twiddles) (Dst1Naive.new n) (Dst1Naive.new n) :=
  ERel.ok (LRel.ofMap fun i => P.c_from (P.f_sin (P.f_mul (P.f_div P.f_pi (P.f_nat _)) (P.f_nat i))))

theorem t23_len {s : Type2And3Naive T} {s' : Type2And3Naive T'} (ht : LRel (CxRel P.c) s.twiddles s'.twiddles) : s.len = s'.len := by
  unfold Type2And3Naive.len
  rw [ht.length_eq]

theorem t23_dct2 {s : Type2And3Naive T} {s' : Type2And3Naive T'} (ht : LRel (CxRel P.c) s.twiddles s'.twiddles) : ProcRel P.d s.dct2 s'.dct2 := by
  mrel P.t23_len ht, P.t23_len ht
  erel

theorem t23_dct3 {s : Type2And3Naive T} {s' : Type2And3Naive T'} (ht : LRel (CxRel P.c) s.twiddles s'.twiddles) : ProcRel P.d s.dct3 s'.dct3 := by
  mrel P.t23_len ht, P.t23_len ht
  erel

theorem t23_dst2 {s : Type2And3Naive T} {s' : Type2And3Naive T'} (ht : LRel (CxRel P.c) s.twiddles s'.twiddles) : ProcRel P.d s.dst2 s'.dst2 := by
  mrel P.t23_len ht, P.t23_len ht
  erel

theorem t23_dst3 {s : Type2And3Naive T} {s' : Type2And3Naive T'} (ht : LRel (CxRel P.c) s.twiddles s'.twiddles) : ProcRel P.d s.dst3 s'.dst3 := by
  mrel P.t23_len ht, P.t23_len ht
  erel

theorem t23_obj {s : Type2And3Naive T} {s' : Type2And3Naive T'} (ht : LRel (CxRel P.c) s.twiddles s'.twiddles) : Obj23Rel P.d s.toObj s'.toObj :=
  ⟨P.t23_len ht, P.t23_len ht, P.t23_dct2 ht, P.t23_dct3 ht, P.t23_dst2 ht, P.t23_dst3 ht⟩

theorem t23_new (n : Nat) : ERel (fun (s : Type2And3Naive T) (s' : Type2And3Naive T') => LRel (CxRel P.c) s.twiddles s'.twiddles) (Type2And3Naive.new n) (Type2And3Naive.new n) :=
  ERel.ok (LRel.ofMap fun i => P.c_twiddle i _)

theorem t4_len {s : Type4Naive T} {s' : Type4Naive T'} (ht : LRel (CxRel P.c) s.twiddles s'.twiddles) : s.len = s'.len := by
  unfold Type4Naive.len
  rw [ht.length_eq]

theorem t4_dct4 {s : Type4Naive T} {s' : Type4Naive T'} (ht : LRel (CxRel P.c) s.twiddles s'.twiddles) : ProcRel P.d s.dct4 s'.dct4 := by
  mrel P.t4_len ht, P.t4_len ht
  erel

theorem t4_dst4 {s : Type4Naive T} {s' : Type4Naive T'} (ht : LRel (CxRel P.c) s.twiddles s'.twiddles) : ProcRel P.d s.dst4 s'.dst4 := by
  mrel P.t4_len ht, P.t4_len ht
  erel

theorem t4_obj {s : Type4Naive T} {s' : Type4Naive T'} (ht : LRel (CxRel P.c) s.twiddles s'.twiddles) : Obj4Rel P.d s.toObj s'.toObj :=
  ⟨P.t4_len ht, P.t4_len ht, P.t4_dct4 ht, P.t4_dst4 ht⟩

theorem t4_new (n : Nat) : ERel (fun (s : Type4Naive T) (s' : Type4Naive T') => LRel (CxRel P.c) s.twiddles s'.twiddles) (Type4Naive.new n) (Type4Naive.new n) :=
  ERel.ok (LRel.ofMap fun i => P.c_twiddleHalf i _)

theorem dct5_len {s : Dct5Naive T} {s' : Dct5Naive T'} (ht : LRel P.c s.twiddles s'.twiddles) : s.len = s'.len := by
  unfold Dct5Naive.len
  rw [ht.length_eq]

theorem dct5_dct5 {s : Dct5Naive T} {s' : Dct5Naive T'} (ht : LRel P.c s.twiddles s'.twiddles) : ProcRel P.d s.dct5 s'.dct5 := by
  mrel P.dct5_len ht, P.dct5_len ht
  erel

theorem dct5_obj {s : Dct5Naive T} {s' : Dct5Naive T'} (ht : LRel P.c s.twiddles s'.twiddles) : Obj1Rel P.d s.toObj s'.toObj :=
  ⟨P.dct5_len ht, P.dct5_len ht, P.dct5_dct5 ht⟩

theorem dct5_new (n : Nat) : ERel (fun (s : Dct5Naive T) (s' : Dct5Naive T') => LRel P.c s.twiddles s'.twiddles) (Dct5Naive.new n) (Dct5Naive.new n) :=
  ERel.bindEq .csub fun _ => ERel.ok (LRel.ofMap fun i => P.c_from (P.f_cos (P.f_mul (P.f_div P.f_pi (P.f_sub (P.f_nat _) P.f_half)) (P.f_nat i))))

theorem dst5_len {s : Dst5Naive T} {s' : Dst5Naive T'} (ht : LRel P.c s.twiddles s'.twiddles) : s.len = s'.len := by
  unfold Dst5Naive.len
  rw [ht.length_eq]

theorem dst5_dst5 {s : Dst5Naive T} {s' : Dst5Naive T'} (ht : LRel P.c s.twiddles s'.twiddles) : ProcRel P.d s.dst5 s'.dst5 := by
  mrel P.dst5_len ht, P.dst5_len ht
  erel

theorem dst5_obj {s : Dst5Naive T} {s' : Dst5Naive T'} (ht : LRel P.c s.twiddles s'.twiddles) : Obj1Rel P.d s.toObj s'.toObj :=
  ⟨P.dst5_len ht, P.dst5_len ht, P.dst5_dst5 ht⟩

theorem dst5_new (n : Nat) : ERel (fun (s : Dst5Naive T) (s' : Dst5Naive T') => LRel P.c s.twiddles s'.twiddles) (Dst5Naive.new n) (Dst5Naive.new n) :=
  ERel.ok (LRel.ofMap fun i => P.c_from (P.f_sin (P.f_mul (P.f_div P.f_pi (P.f_add (P.f_nat _) P.f_half)) (P.f_nat i))))

theorem dct67_len {s : Dct6And7Naive T} {s' : Dct6And7Naive T'} (ht : LRel P.c s.twiddles s'.twiddles) : s.len = s'.len := by
  unfold Dct6And7Naive.len
  rw [ht.length_eq]

theorem dct67_dct6 {s : Dct6And7Naive T} {s' : Dct6And7Naive T'} (ht : LRel P.c s.twiddles s'.twiddles) : ProcRel P.d s.dct6 s'.dct6 := by
  mrel P.dct67_len ht, P.dct67_len ht
  erel

theorem dct67_dct7 {s : Dct6And7Naive T} {s' : Dct6And7Naive T'} (ht : LRel P.c s.twiddles s'.twiddles) : ProcRel P.d s.dct7 s'.dct7 := by
  mrel P.dct67_len ht, P.dct67_len ht
  erel

theorem dct67_obj {s : Dct6And7Naive T} {s' : Dct6And7Naive T'} (ht : LRel P.c s.twiddles s'.twiddles) : Obj67Rel P.d s.toObj s'.toObj :=
  ⟨P.dct67_len ht, P.dct67_len ht, P.dct67_dct6 ht, P.dct67_dct7 ht⟩

theorem dct67_new (n : Nat) : ERel (fun (s : Dct6And7Naive T) (s' : Dct6And7Naive T') => LRel P.c s.twiddles s'.twiddles) (Dct6And7Naive.new n) (Dct6And7Naive.new n) :=
  ERel.bindEq .csub fun _ => ERel.bindEq .csub fun _ => ERel.ok (LRel.ofMap fun i => P.c_from (P.f_cos (P.f_mul (P.f_div P.f_pi (P.f_nat _)) (P.f_nat i))))

theorem dst67_len {s : Dst6And7Naive T} {s' : Dst6And7Naive T'} (ht : LRel P.c s.twiddles s'.twiddles) : s.len = s'.len := by
  unfold Dst6And7Naive.len
  rw [ht.length_eq]

theorem dst67_dst6 {s : Dst6And7Naive T} {s' : Dst6And7Naive T'} (ht : LRel P.c s.twiddles s'.twiddles) : ProcRel P.d s.dst6 s'.dst6 := by
  mrel P.dst67_len ht, P.dst67_len ht
  erel

theorem dst67_dst7 {s : Dst6And7Naive T} {s' : Dst6And7Naive T'} (ht : LRel P.c s.twiddles s'.twiddles) : ProcRel P.d s.dst7 s'.dst7 := by
  mrel P.dst67_len ht, P.dst67_len ht
  erel

theorem dst67_obj {s : Dst6And7Naive T} {s' : Dst6And7Naive T'} (ht : LRel P.c s.twiddles s'.twiddles) : Obj67Rel P.d s.toObj s'.toObj :=
  ⟨P.dst67_len ht, P.dst67_len ht, P.dst67_dst6 ht, P.dst67_dst7 ht⟩

theorem dst67_new (n : Nat) : ERel (fun (s : Dst6And7Naive T) (s' : Dst6And7Naive T') => LRel P.c s.twiddles s'.twiddles) (Dst6And7Naive.new n) (Dst6And7Naive.new n) :=
  ERel.ok (LRel.ofMap fun i => P.c_from (P.f_sin (P.f_mul (P.f_div P.f_pi (P.f_nat _)) (P.f_nat i))))

theorem dct8_len {s : Dct8Naive T} {s' : Dct8Naive T'} (ht : LRel P.c s.twiddles s'.twiddles) : s.len = s'.len := by
  unfold Dct8Naive.len
  rw [ht.length_eq]

theorem dct8_dct8 {s : Dct8Naive T} {s' : Dct8Naive T'} (ht : LRel P.c s.twiddles s'.twiddles) : ProcRel P.d s.dct8 s'.dct8 := by
  mrel P.dct8_len ht, P.dct8_len ht
  erel

theorem dct8_obj {s : Dct8Naive T} {s' : Dct8Naive T'} (ht : LRel P.c s.twiddles s'.twiddles) : Obj1Rel P.d s.toObj s'.toObj :=
  ⟨P.dct8_len ht, P.dct8_len ht, P.dct8_dct8 ht⟩

theorem dct8_new (n : Nat) : ERel (fun (s : Dct8Naive T) (s' : Dct8Naive T') => LRel P.c s.twiddles s'.twiddles) (Dct8Naive.new n) (Dct8Naive.new n) :=
  ERel.ok (LRel.ofMap fun i => P.c_from (P.f_cos (P.f_mul (P.f_div P.f_pi (P.f_nat _)) (P.f_add (P.f_nat i) P.f_half))))

theorem dst8_len {s : Dst8Naive T} {s' : Dst8Naive T'} (ht : LRel P.c s.twiddles s'.twiddles) : s.len = s'.len := by
  unfold Dst8Naive.len
  rw [ht.length_eq]

theorem dst8_dst8 {s : Dst8Naive T} {s' : Dst8Naive T'} (ht : LRel P.c s.twiddles s'.twiddles) : ProcRel P.d s.dst8 s'.dst8 := by
  mrel P.dst8_len ht, P.dst8_len ht
  erel

theorem dst8_obj {s : Dst8Naive T} {s' : Dst8Naive T'} (ht : LRel P.c s.twiddles s'.twiddles) : Obj1Rel P.d s.toObj s'.toObj :=
  ⟨P.dst8_len ht, P.dst8_len ht, P.dst8_dst8 ht⟩

theorem dst8_new (n : Nat) : ERel (fun (s : Dst8Naive T) (s' : Dst8Naive T') => LRel P.c s.twiddles s'.twiddles) (Dst8Naive.new n) (Dst8Naive.new n) :=
  ERel.bindEq .csub fun _ => ERel.bindEq .csub fun _ => ERel.ok (LRel.ofMap fun i => P.c_from (P.f_sin (P.f_mul (P.f_div P.f_pi (P.f_nat _)) (P.f_add (P.f_nat i) P.f_half))))

end Param
end RustDct
