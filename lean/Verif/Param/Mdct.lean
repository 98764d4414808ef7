import Verif.Param.Logic
import Verif.Model.Mdct
/-!
# Related runs: the MDCT
-/

set_option linter.all false

namespace RustDct

variable {T T' F F' : Type} [F64 F] [DctNum T F] [F64 F'] [DctNum T' F'] (P : Param T T')

theorem validateMdct_rel' {α α' : Type} {r : α → α' → Prop} {a b : List α} {a' b' : List α'} (ha : LRel r a a') (hb : LRel r b b') {m : Mem α} {m' : Mem α'} (h : MemRel r m m')
    {n n' k k' : Nat} (hn : n = n') (hk : k = k') {f : List α → List α → Except Err (List α × List α)} {f' : List α' → List α' → Except Err (List α' × List α')}
    (hf : ∀ {b b' s s'}, LRel r b b' → LRel r s s' → ERel (PRl (LRel r) (LRel r)) (f b s) (f' b' s')) : ORel (MemRel r) (validateMdct a b m n k f) (validateMdct a' b' m' n' k' f') := by
  subst hn; subst hk; exact validateMdct_rel ha hb h hf

theorem validateImdct_rel' {α α' : Type} {r : α → α' → Prop} {a : List α} {a' : List α'} (ha : LRel r a a') {m : IMem α} {m' : IMem α'} (h : IMemRel r m m') {n n' k k' : Nat} (hn : n = n') (hk : k = k')
    {f : List α → List α → List α → Except Err (List α × List α × List α)} {f' : List α' → List α' → List α' → Except Err (List α' × List α' × List α')}
    (hf : ∀ {b b' c c' s s'}, LRel r b b' → LRel r c c' → LRel r s s' → ERel (PRl (LRel r) (PRl (LRel r) (LRel r))) (f b c s) (f' b' c' s')) :
    ORel (IMemRel r) (validateImdct a m n k f) (validateImdct a' m' n' k' f') := by
  subst hn; subst hk; exact validateImdct_rel ha h hf

namespace Param

theorem mdctLoop_rel {tw : List T} {tw' : List T'} (ht : LRel P.c tw tw') {cnt cnt' st : Nat} (hc : cnt = cnt') {f : Nat → T → Except Err T} {f' : Nat → T' → Except Err T'}
    (hf : ∀ i {x x'}, P.c x x' → ERel P.d (f i x) (f' i x')) {a : T} {a' : T'} (ha : P.d a a') {i : Nat} :
    ERel (PRl P.d Eq) (mdctLoop tw cnt st f a i) (mdctLoop tw' cnt' st f' a' i) := by
  unfold mdctLoop
  refine ERel.forRangeP hc ⟨ha, rfl⟩ fun i a a' b b' ha hb => ?_
  subst hb
  dsimp only
  rw [ht.length_eq]
  refine (ERel.rd ht).bind fun y y' hy => (hf i hy).bind fun x x' hx => ?_
  exact ERel.ite Iff.rfl (fun _ => .ok ⟨P.d_add ha hx, rfl⟩) fun _ => .ok ⟨P.d_add ha hx, rfl⟩

macro_rules
  | `(tactic| erel0) => `(tactic| (guard_head mdctLoop; exact Param.mdctLoop_rel _ (by drel) (by nrel) (by intros; beta_reduce; erel) (by drel)))

structure MNaive (s : MdctNaive T) (s' : MdctNaive T') : Prop where
  twiddles : LRel P.c s.twiddles s'.twiddles
  window : LRel P.c s.window s'.window

theorem mnaive_len {s : MdctNaive T} {s' : MdctNaive T'} (h : P.MNaive s s') : s.len = s'.len := by
  unfold MdctNaive.len
  rw [h.twiddles.length_eq]

theorem mnaive_mdct {s : MdctNaive T} {s' : MdctNaive T'} (h : P.MNaive s s') {a a' b b' m m'} (ha : LRel P.d a a') (hb : LRel P.d b b') (hm : MemRel P.d m m') :
    ORel (MemRel P.d) (s.mdct a b m) (s'.mdct a' b' m') := by
  refine validateMdct_rel' ha hb hm (P.mnaive_len h) rfl fun hb' hs => ?_
  obtain ⟨ht, hw⟩ := h
  rw [ht.length_eq]
  erel

theorem mnaive_imdct {s : MdctNaive T} {s' : MdctNaive T'} (h : P.MNaive s s') {a a' m m'} (ha : LRel P.d a a') (hm : IMemRel P.d m m') :
    ORel (IMemRel P.d) (s.imdct a m) (s'.imdct a' m') := by
  refine validateImdct_rel' ha hm (P.mnaive_len h) rfl fun hb hc hs => ?_
  obtain ⟨ht, hw⟩ := h
  rw [ht.length_eq, ha.length_eq]
  erel

theorem mnaive_obj {s : MdctNaive T} {s' : MdctNaive T'} (h : P.MNaive s s') : MdctObjRel P.d s.toObj s'.toObj :=
  ⟨P.mnaive_len h, rfl, P.mnaive_mdct h, P.mnaive_imdct h⟩

theorem mnaive_new {w : Nat → List T} {w' : Nat → List T'} (n : Nat) (hw : LRel P.c (w (n * 2)) (w' (n * 2))) : ERel P.MNaive (MdctNaive.new n w) (MdctNaive.new n w') := by
  unfold MdctNaive.new
  dsimp only
  rw [hw.length_eq]
  exact ERel.ite Iff.rfl (fun _ => .error) fun _ => ERel.ite Iff.rfl (fun _ => .error) fun _ =>
    .ok ⟨LRel.ofMap fun i => P.c_from (P.f_cos (P.f_mul (P.f_div (P.f_mul P.f_half P.f_pi) (P.f_nat _)) (P.f_add (P.f_nat _) P.f_half))), hw⟩

structure MVia (s : MdctViaDct4 T) (s' : MdctViaDct4 T') : Prop where
  dct : Obj4Rel P.d s.dct s'.dct
  window : LRel P.c s.window s'.window
  scratchLen : s.scratchLen = s'.scratchLen

theorem zipUpdate_rel {f : T → T → T → T} {f' : T' → T' → T' → T'} {k k' : Nat} (hk : k = k') {o w v : List T} {o' w' v' : List T'}
    (ho : LRel P.d o o') (hw : LRel P.c w w') (hv : LRel P.d v v')
    (hf : ∀ {a a' b b' c c'}, P.d a a' → P.c b b' → P.d c c' → P.d (f a b c) (f' a' b' c')) : LRel P.d (zipUpdate f k o w v) (zipUpdate f' k' o' w' v') := by
  subst hk
  unfold zipUpdate
  exact (ho.take k).app (LRel.updZip (ho.drop k) (LRel.zip (hw.drop k) hv) fun h1 h2 => hf h1 h2.1 h2.2)

macro_rules
  | `(tactic| drel) => `(tactic| (guard_head zipUpdate; exact Param.zipUpdate_rel _ (by nrel) (by drel) (by drel) (by drel) (by intros; beta_reduce; drel)))

theorem mvia_mdct {s : MdctViaDct4 T} {s' : MdctViaDct4 T'} (h : P.MVia s s') {a a' b b' m m'} (ha : LRel P.d a a') (hb : LRel P.d b b') (hm : MemRel P.d m m') :
    ORel (MemRel P.d) (s.mdct a b m) (s'.mdct a' b' m') := by
  have hl : s.len = s'.len := h.dct.len
  refine validateMdct_rel' ha hb hm hl h.scratchLen fun hb' hs => ?_
  obtain ⟨⟨_, _, hd, _⟩, hw, _⟩ := h
  rw [hl]
  erel

theorem mvia_imdct {s : MdctViaDct4 T} {s' : MdctViaDct4 T'} (h : P.MVia s s') {a a' m m'} (ha : LRel P.d a a') (hm : IMemRel P.d m m') :
    ORel (IMemRel P.d) (s.imdct a m) (s'.imdct a' m') := by
  have hl : s.len = s'.len := h.dct.len
  refine validateImdct_rel' ha hm hl h.scratchLen fun hb hc hs => ?_
  obtain ⟨⟨_, _, hd, _⟩, hw, _⟩ := h
  rw [hl]
  erel

theorem mvia_obj {s : MdctViaDct4 T} {s' : MdctViaDct4 T'} (h : P.MVia s s') : MdctObjRel P.d s.toObj s'.toObj :=
  ⟨h.dct.len, h.scratchLen, P.mvia_mdct h, P.mvia_imdct h⟩

theorem mvia_new {i : Obj4 T} {i' : Obj4 T'} (hi : Obj4Rel P.d i i') {w : Nat → List T} {w' : Nat → List T'} (hw : LRel P.c (w (i.len * 2)) (w' (i.len * 2))) :
    ERel P.MVia (MdctViaDct4.new i w) (MdctViaDct4.new i' w') := by
  unfold MdctViaDct4.new
  dsimp only
  rw [← hi.len, ← hi.scratchLen, hw.length_eq]
  exact ERel.ite Iff.rfl (fun _ => .error) fun _ => ERel.ite Iff.rfl (fun _ => .error) fun _ => .ok ⟨hi, hw, rfl⟩

end Param
end RustDct
