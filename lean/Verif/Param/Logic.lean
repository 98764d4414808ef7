import Lean.Elab.Tactic
import Verif.Param
/-!
# Rules for relating runs over two number types
-/

set_option linter.all false

namespace RustDct

section
variable {α β γ δ α' β' γ' δ' : Type} {r : α → α' → Prop} {s : β → β' → Prop} {q : γ → γ' → Prop}

theorem PRl.mk {a : α} {a' : α'} {b : β} {b' : β'} (h1 : r a a') (h2 : s b b') : PRl r s (a, b) (a', b') := ⟨h1, h2⟩

theorem ERel.elim {x : Except Err α} {x' : Except Err α'} (h : ERel r x x') : (∃ a a', x = .ok a ∧ x' = .ok a' ∧ r a a') ∨ ∃ e, x = .error e ∧ x' = .error e := by
  cases h with
  | ok h => exact .inl ⟨_, _, rfl, rfl, h⟩
  | error => exact .inr ⟨_, rfl, rfl⟩

theorem ERel.bind {x : Except Err α} {x' : Except Err α'} {f : α → Except Err β} {f' : α' → Except Err β'} (h : ERel r x x')
    (hf : ∀ a a', r a a' → ERel s (f a) (f' a')) : ERel s (x >>= f) (x' >>= f') := by
  cases h with
  | ok h => exact hf _ _ h
  | error => exact .error

theorem ERel.bindEq {x x' : Except Err α} {f : α → Except Err β} {f' : α → Except Err β'} (h : ERel Eq x x')
    (hf : ∀ a, ERel s (f a) (f' a)) : ERel s (x >>= f) (x' >>= f') :=
  h.bind fun a a' e => e ▸ hf a

theorem ERel.bindP {x : Except Err (α × β)} {x' : Except Err (α' × β')} {f : α × β → Except Err γ} {f' : α' × β' → Except Err γ'} (h : ERel (PRl r s) x x')
    (hf : ∀ a a' b b', r a a' → s b b' → ERel q (f (a, b)) (f' (a', b'))) : ERel q (x >>= f) (x' >>= f') :=
  h.bind fun a a' e => hf _ _ _ _ e.1 e.2

theorem ERel.bindP3 {x : Except Err (α × β × γ)} {x' : Except Err (α' × β' × γ')} {f : α × β × γ → Except Err δ} {f' : α' × β' × γ' → Except Err δ'} {t : δ → δ' → Prop}
    (h : ERel (PRl r (PRl s q)) x x') (hf : ∀ a a' b b' c c', r a a' → s b b' → q c c' → ERel t (f (a, b, c)) (f' (a', b', c'))) : ERel t (x >>= f) (x' >>= f') :=
  h.bind fun a a' e => hf _ _ _ _ _ _ e.1 e.2.1 e.2.2

theorem ERel.bindP4 {ε ε' : Type} {u : ε → ε' → Prop} {x : Except Err (α × β × γ × ε)} {x' : Except Err (α' × β' × γ' × ε')} {f : α × β × γ × ε → Except Err δ}
    {f' : α' × β' × γ' × ε' → Except Err δ'} {t : δ → δ' → Prop} (h : ERel (PRl r (PRl s (PRl q u))) x x')
    (hf : ∀ a a' b b' c c' d d', r a a' → s b b' → q c c' → u d d' → ERel t (f (a, b, c, d)) (f' (a', b', c', d'))) : ERel t (x >>= f) (x' >>= f') :=
  h.bind fun a a' e => hf _ _ _ _ _ _ _ _ e.1 e.2.1 e.2.2.1 e.2.2.2

theorem PRl.fst {x : α × β} {x' : α' × β'} (h : PRl r s x x') : r x.1 x'.1 := h.1
theorem PRl.snd {x : α × β} {x' : α' × β'} (h : PRl r s x x') : s x.2 x'.2 := h.2

theorem ERel.map {x : Except Err α} {x' : Except Err α'} {f : α → β} {f' : α' → β'} (h : ERel r x x') (hf : ∀ a a', r a a' → s (f a) (f' a')) :
    ERel s (x.map f) (x'.map f') := by
  cases h with
  | ok h => exact .ok (hf _ _ h)
  | error => exact .error

theorem ERel.ite {p p' : Prop} [Decidable p] [Decidable p'] (hp : p ↔ p') {x y : Except Err α} {x' y' : Except Err α'} (h1 : p' → ERel r x x') (h2 : ¬ p' → ERel r y y') :
    ERel r (if p then x else y) (if p' then x' else y') := by
  by_cases h : p'
  · rw [if_pos h, if_pos (hp.2 h)]; exact h1 h
  · rw [if_neg h, if_neg (fun a => h (hp.1 a))]; exact h2 h

theorem ERel.csub {a b : Nat} : ERel Eq (RustDct.csub a b) (RustDct.csub a b) := by
  unfold RustDct.csub; split
  · exact .ok rfl
  · exact .error

theorem ERel.csub' {a b a' b' : Nat} (ha : a = a') (hb : b = b') : ERel Eq (RustDct.csub a b) (RustDct.csub a' b') := by
  subst ha; subst hb; exact .csub

theorem LRel.get? {l : List α} {l' : List α'} (h : LRel r l l') (i : Nat) : (l[i]? = none ∧ l'[i]? = none) ∨ ∃ a a', l[i]? = some a ∧ l'[i]? = some a' ∧ r a a' := by
  have hl := h.length_eq
  by_cases hi : i < l.length
  · right
    have hi' : i < l'.length := hl ▸ hi
    exact ⟨l[i], l'[i], List.getElem?_eq_getElem hi, List.getElem?_eq_getElem hi', (List.forall₂_iff_get.1 h).2 i hi hi'⟩
  · left
    exact ⟨List.getElem?_eq_none (by omega), List.getElem?_eq_none (by omega)⟩

theorem ERel.rd {l : List α} {l' : List α'} (h : LRel r l l') {i : Nat} : ERel r (RustDct.rd l i) (RustDct.rd l' i) := by
  unfold RustDct.rd
  rcases h.get? i with ⟨h1, h2⟩ | ⟨a, a', h1, h2, h3⟩
  · rw [h1, h2]; exact .error
  · rw [h1, h2]; exact .ok h3

theorem ERel.rdU {l : List α} {l' : List α'} (h : LRel r l l') {i : Nat} : ERel r (RustDct.rdU l i) (RustDct.rdU l' i) := by
  unfold RustDct.rdU
  rcases h.get? i with ⟨h1, h2⟩ | ⟨a, a', h1, h2, h3⟩
  · rw [h1, h2]; exact .error
  · rw [h1, h2]; exact .ok h3

theorem LRel.set {l : List α} {l' : List α'} (h : LRel r l l') (i : Nat) {a : α} {a' : α'} (ha : r a a') : LRel r (l.set i a) (l'.set i a') := by
  induction h generalizing i with
  | nil => simp
  | cons h1 h2 ih =>
    cases i with
    | zero => exact .cons ha h2
    | succ i => exact .cons h1 (ih i)

theorem ERel.wr {l : List α} {l' : List α'} (h : LRel r l l') {i : Nat} {a : α} {a' : α'} (ha : r a a') : ERel (LRel r) (RustDct.wr l i a) (RustDct.wr l' i a') := by
  unfold RustDct.wr
  rw [h.length_eq]
  exact .ite Iff.rfl (fun _ => .ok (h.set i ha)) fun _ => .error

theorem ERel.wrU {l : List α} {l' : List α'} (h : LRel r l l') {i : Nat} {a : α} {a' : α'} (ha : r a a') : ERel (LRel r) (RustDct.wrU l i a) (RustDct.wrU l' i a') := by
  unfold RustDct.wrU
  rw [h.length_eq]
  exact .ite Iff.rfl (fun _ => .ok (h.set i ha)) fun _ => .error

theorem LRel.take {l : List α} {l' : List α'} (h : LRel r l l') (k : Nat) : LRel r (l.take k) (l'.take k) := List.forall₂_take k h
theorem LRel.drop {l : List α} {l' : List α'} (h : LRel r l l') (k : Nat) : LRel r (l.drop k) (l'.drop k) := List.forall₂_drop k h
theorem LRel.rev {l : List α} {l' : List α'} (h : LRel r l l') : LRel r l.reverse l'.reverse := List.forall₂_reverse_iff.2 h
theorem LRel.app {l m : List α} {l' m' : List α'} (h : LRel r l l') (h' : LRel r m m') : LRel r (l ++ m) (l' ++ m') := List.rel_append h h'

theorem ERel.splitAtMut {l : List α} {l' : List α'} (h : LRel r l l') {k : Nat} :
    ERel (PRl (LRel r) (LRel r)) (RustDct.splitAtMut l k) (RustDct.splitAtMut l' k) := by
  unfold RustDct.splitAtMut
  rw [h.length_eq]
  exact .ite Iff.rfl (fun _ => .ok ⟨h.take k, h.drop k⟩) fun _ => .error

theorem ERel.splitAtMut' {l : List α} {l' : List α'} (h : LRel r l l') {k k' : Nat} (hk : k = k') :
    ERel (PRl (LRel r) (LRel r)) (RustDct.splitAtMut l k) (RustDct.splitAtMut l' k') := by
  subst hk; exact .splitAtMut h

theorem ERel.copyFromSlice {l m : List α} {l' m' : List α'} (h : LRel r l l') (h' : LRel r m m') : ERel (LRel r) (RustDct.copyFromSlice l m) (RustDct.copyFromSlice l' m') := by
  unfold RustDct.copyFromSlice
  rw [h.length_eq, h'.length_eq]
  exact .ite Iff.rfl (fun _ => .ok h') fun _ => .error

theorem ERel.foldlM {l : List β} {a : α} {a' : α'} {f : α → β → Except Err α} {f' : α' → β → Except Err α'} (h : r a a')
    (hf : ∀ b a a', r a a' → ERel r (f a b) (f' a' b)) : ERel r (l.foldlM f a) (l.foldlM f' a') := by
  induction l generalizing a a' with
  | nil => exact .ok h
  | cons b l ih =>
    rw [List.foldlM_cons, List.foldlM_cons]
    exact (hf b _ _ h).bind fun _ _ h => ih h

theorem ERel.forRange {lo hi : Nat} {a : α} {a' : α'} {f : Nat → α → Except Err α} {f' : Nat → α' → Except Err α'} (h : r a a')
    (hf : ∀ i a a', r a a' → ERel r (f i a) (f' i a')) : ERel r (RustDct.forRange lo hi a f) (RustDct.forRange lo hi a' f') :=
  ERel.foldlM h fun i a a' h => hf i a a' h

theorem ERel.forRange' {lo hi hi' : Nat} {a : α} {a' : α'} {f : Nat → α → Except Err α} {f' : Nat → α' → Except Err α'} (hh : hi = hi') (h : r a a')
    (hf : ∀ i a a', r a a' → ERel r (f i a) (f' i a')) : ERel r (RustDct.forRange lo hi a f) (RustDct.forRange lo hi' a' f') := by
  subst hh; exact .forRange h hf

theorem ERel.forRangeP {lo hi hi' : Nat} {a : α × β} {a' : α' × β'} {f : Nat → α × β → Except Err (α × β)} {f' : Nat → α' × β' → Except Err (α' × β')} (hh : hi = hi')
    (h : PRl r s a a') (hf : ∀ i a a' b b', r a a' → s b b' → ERel (PRl r s) (f i (a, b)) (f' i (a', b'))) :
    ERel (PRl r s) (RustDct.forRange lo hi a f) (RustDct.forRange lo hi' a' f') :=
  .forRange' hh h fun i a a' h => hf i _ _ _ _ h.1 h.2

theorem ERel.forRangeP3 {lo hi hi' : Nat} {a : α × β × γ} {a' : α' × β' × γ'} {f : Nat → α × β × γ → Except Err (α × β × γ)}
    {f' : Nat → α' × β' × γ' → Except Err (α' × β' × γ')} (hh : hi = hi') (h : PRl r (PRl s q) a a')
    (hf : ∀ i a a' b b' c c', r a a' → s b b' → q c c' → ERel (PRl r (PRl s q)) (f i (a, b, c)) (f' i (a', b', c'))) :
    ERel (PRl r (PRl s q)) (RustDct.forRange lo hi a f) (RustDct.forRange lo hi' a' f') :=
  .forRange' hh h fun i a a' h => hf i _ _ _ _ _ _ h.1 h.2.1 h.2.2

theorem LRel.zipW {l : List α} {l' : List α'} {m : List β} {m' : List β'} {f : α → β → γ} {f' : α' → β' → γ'} (h : LRel r l l') (h' : LRel s m m')
    (hf : ∀ {a a' b b'}, r a a' → s b b' → q (f a b) (f' a' b')) : LRel q (List.zipWith f l m) (List.zipWith f' l' m') := by
  induction h generalizing m m' with
  | nil => simp
  | cons h1 h2 ih =>
    cases h' with
    | nil => simp
    | cons h3 h4 => exact .cons (hf h1 h3) (ih h4)

theorem LRel.zip {l : List α} {l' : List α'} {m : List β} {m' : List β'} (h : LRel r l l') (h' : LRel s m m') : LRel (PRl r s) (l.zip m) (l'.zip m') :=
  LRel.zipW h h' fun a b => ⟨a, b⟩

theorem LRel.updZip {l : List α} {l' : List α'} {m : List β} {m' : List β'} {f : α → β → α} {f' : α' → β' → α'} (h : LRel r l l') (h' : LRel s m m')
    (hf : ∀ {a a' b b'}, r a a' → s b b' → r (f a b) (f' a' b')) : LRel r (RustDct.updZip f l m) (RustDct.updZip f' l' m') := by
  unfold RustDct.updZip
  rw [h'.length_eq]
  exact (LRel.zipW h h' hf).app (h.drop _)

theorem LRel.assignZip {l : List α} {l' : List α'} {m : List β} {m' : List β'} {f : β → α} {f' : β' → α'} (h : LRel r l l') (h' : LRel s m m')
    (hf : ∀ {b b'}, s b b' → r (f b) (f' b')) : LRel r (RustDct.assignZip f l m) (RustDct.assignZip f' l' m') :=
  LRel.updZip h h' fun _ => hf

theorem LRel.ofMap {l : List γ} {f : γ → α} {f' : γ → α'} (hf : ∀ i, r (f i) (f' i)) : LRel r (l.map f) (l.map f') := by
  induction l with
  | nil => exact .nil
  | cons a l ih => exact .cons (hf a) ih

theorem LRel.foldl {l : List β} {l' : List β'} {a : α} {a' : α'} {f : α → β → α} {f' : α' → β' → α'} (h : LRel s l l') (ha : r a a')
    (hf : ∀ {a a' b b'}, r a a' → s b b' → r (f a b) (f' a' b')) : r (l.foldl f a) (l'.foldl f' a') := by
  induction h generalizing a a' with
  | nil => exact ha
  | cons h1 h2 ih => exact ih (hf ha h1)

theorem LRel.rep {n : Nat} {a : α} {a' : α'} (h : r a a') : LRel r (List.replicate n a) (List.replicate n a') := by
  induction n with
  | zero => exact .nil
  | succ n ih => exact .cons h ih

theorem CxRel.mk {a b : α} {a' b' : α'} (h1 : r a a') (h2 : r b b') : CxRel r ⟨a, b⟩ ⟨a', b'⟩ := ⟨h1, h2⟩

theorem LRel.intoComplex : {l : List α} → {l' : List α'} → LRel r l l' → LRel (CxRel r) (RustDct.intoComplex l) (RustDct.intoComplex l')
  | _, _, .nil => .nil
  | _, _, .cons _ .nil => .nil
  | _, _, .cons h1 (.cons h2 h3) => .cons ⟨h1, h2⟩ (LRel.intoComplex h3)

theorem LRel.flattenComplex : {l : List (Cx α)} → {l' : List (Cx α')} → LRel (CxRel r) l l' → LRel r (RustDct.flattenComplex l) (RustDct.flattenComplex l')
  | _, _, .nil => .nil
  | _, _, .cons h1 h2 => .cons h1.1 (.cons h1.2 (LRel.flattenComplex h2))

theorem LRel.fromComplex {c : List (Cx α)} {c' : List (Cx α')} {l : List α} {l' : List α'} (h : LRel (CxRel r) c c') (h' : LRel r l l') :
    LRel r (RustDct.fromComplex c l) (RustDct.fromComplex c' l') := by
  unfold RustDct.fromComplex
  rw [h.length_eq]
  exact h.flattenComplex.app (h'.drop _)

/-! ### Calls -/

theorem afterErrorHelper_rel {M M' : Type} {R : M → M' → Prop} {m : M} {m' : M'} (h : R m m') (x : Except Err Unit) : ORel R (afterErrorHelper x m) (afterErrorHelper x m') := by
  unfold afterErrorHelper
  cases x with
  | error e => exact .panicMem h
  | ok u => exact .ok h

theorem validateBuffer_rel {m : Mem α} {m' : Mem α'} (h : MemRel r m m') {n : Nat} {f : List α → Except Err (List α)} {f' : List α' → Except Err (List α')}
    (hf : ∀ {b b'}, LRel r b b' → ERel (LRel r) (f b) (f' b')) : ORel (MemRel r) (validateBuffer m n f) (validateBuffer m' n f') := by
  unfold validateBuffer
  rw [h.1.length_eq]
  split
  · exact afterErrorHelper_rel h _
  · rcases (hf h.1).elim with ⟨a, a', e, e', h'⟩ | ⟨e, e1, e2⟩
    · rw [e, e']; exact .ok ⟨h', h.2⟩
    · rw [e1, e2]; exact .panic

theorem validateBuffers_rel {m : Mem α} {m' : Mem α'} (h : MemRel r m m') {n k : Nat} {f : List α → List α → Except Err (List α × List α)} {f' : List α' → List α' → Except Err (List α' × List α')}
    (hf : ∀ {b b' s s'}, LRel r b b' → LRel r s s' → ERel (PRl (LRel r) (LRel r)) (f b s) (f' b' s')) : ORel (MemRel r) (validateBuffers m n k f) (validateBuffers m' n k f') := by
  unfold validateBuffers
  rw [h.1.length_eq, h.2.length_eq]
  split
  · exact afterErrorHelper_rel h _
  · split
    · rcases (hf h.1 (h.2.take k)).elim with ⟨a, a', e, e', h'⟩ | ⟨e, e1, e2⟩
      · rw [e, e']; exact .ok ⟨h'.1, h'.2.app (h.2.drop k)⟩
      · rw [e1, e2]; exact .panic
    · exact afterErrorHelper_rel h _

theorem validateBuffers_rel' {m : Mem α} {m' : Mem α'} (h : MemRel r m m') {n n' k k' : Nat} (hn : n = n') (hk : k = k')
    {f : List α → List α → Except Err (List α × List α)} {f' : List α' → List α' → Except Err (List α' × List α')}
    (hf : ∀ {b b' s s'}, LRel r b b' → LRel r s s' → ERel (PRl (LRel r) (LRel r)) (f b s) (f' b' s')) : ORel (MemRel r) (validateBuffers m n k f) (validateBuffers m' n' k' f') := by
  subst hn; subst hk; exact validateBuffers_rel h hf

theorem validateMdct_rel {a b : List α} {a' b' : List α'} (ha : LRel r a a') (hb : LRel r b b') {m : Mem α} {m' : Mem α'} (h : MemRel r m m') {n k : Nat}
    {f : List α → List α → Except Err (List α × List α)} {f' : List α' → List α' → Except Err (List α' × List α')}
    (hf : ∀ {b b' s s'}, LRel r b b' → LRel r s s' → ERel (PRl (LRel r) (LRel r)) (f b s) (f' b' s')) : ORel (MemRel r) (validateMdct a b m n k f) (validateMdct a' b' m' n k f') := by
  unfold validateMdct
  rw [h.1.length_eq, h.2.length_eq, ha.length_eq, hb.length_eq]
  split
  · exact afterErrorHelper_rel h _
  · split
    · rcases (hf h.1 (h.2.take k)).elim with ⟨a, a', e, e', h'⟩ | ⟨e, e1, e2⟩
      · rw [e, e']; exact .ok ⟨h'.1, h'.2.app (h.2.drop k)⟩
      · rw [e1, e2]; exact .panic
    · exact afterErrorHelper_rel h _

theorem validateImdct_rel {a : List α} {a' : List α'} (ha : LRel r a a') {m : IMem α} {m' : IMem α'} (h : IMemRel r m m') {n k : Nat}
    {f : List α → List α → List α → Except Err (List α × List α × List α)} {f' : List α' → List α' → List α' → Except Err (List α' × List α' × List α')}
    (hf : ∀ {b b' c c' s s'}, LRel r b b' → LRel r c c' → LRel r s s' → ERel (PRl (LRel r) (PRl (LRel r) (LRel r))) (f b c s) (f' b' c' s')) :
    ORel (IMemRel r) (validateImdct a m n k f) (validateImdct a' m' n k f') := by
  unfold validateImdct
  rw [h.1.length_eq, h.2.1.length_eq, h.2.2.length_eq, ha.length_eq]
  split
  · exact afterErrorHelper_rel h _
  · split
    · rcases (hf h.1 h.2.1 (h.2.2.take k)).elim with ⟨a, a', e, e', h'⟩ | ⟨e, e1, e2⟩
      · rw [e, e']; exact .ok ⟨h'.1, h'.2.1, h'.2.2.app (h.2.2.drop k)⟩
      · rw [e1, e2]; exact .panic
    · exact afterErrorHelper_rel h _

theorem callProc_rel {p : Proc α} {p' : Proc α'} (hp : ProcRel r p p') {b s : List α} {b' s' : List α'} (hb : LRel r b b') (hs : LRel r s s') :
    ERel (PRl (LRel r) (LRel r)) (callProc p b s) (callProc p' b' s') := by
  unfold callProc
  have := hp ⟨b, s⟩ ⟨b', s'⟩ ⟨hb, hs⟩
  revert this
  generalize p ⟨b, s⟩ = x
  generalize p' ⟨b', s'⟩ = x'
  intro h
  cases h with
  | ok h => exact .ok ⟨h.1, h.2⟩
  | panic => exact .error
  | panicMem h => exact .error
end

/-! ### Numbers -/

section
variable {T T' F F' : Type} [F64 F] [DctNum T F] [F64 F'] [DctNum T' F'] (P : Param T T')

namespace Param

theorem c_half : P.c (thalf T) (thalf T') := P.c_from P.f_half
theorem c_two : P.c (ttwo T) (ttwo T') := P.c_from (P.f_nat 2)

theorem d_ite {p : Prop} [Decidable p] {x y : T} {x' y' : T'} (h1 : P.d x x') (h2 : P.d y y') : P.d (if p then x else y) (if p then x' else y') := by
  split <;> assumption

theorem c_ite {p : Prop} [Decidable p] {x y : T} {x' y' : T'} (h1 : P.c x x') (h2 : P.c y y') : P.c (if p then x else y) (if p then x' else y') := by
  split <;> assumption

theorem d_mulRe {x : Cx T} {x' : Cx T'} {y : Cx T} {y' : Cx T'} (hx : CxRel P.d x x') (hy : CxRel P.c y y') : CxRel P.d (Cx.mul x y) (Cx.mul x' y') :=
  ⟨P.d_sub (P.d_mul hx.1 hy.1) (P.d_mul hx.2 hy.2), P.d_add (P.d_mul hx.1 hy.2) (P.d_mul hx.2 hy.1)⟩

theorem d_scale {x : Cx T} {x' : Cx T'} {y : T} {y' : T'} (hx : CxRel P.d x x') (hy : P.c y y') : CxRel P.d (Cx.scale x y) (Cx.scale x' y') :=
  ⟨P.d_mul hx.1 hy, P.d_mul hx.2 hy⟩

theorem d_ofRe {x : T} {x' : T'} (hx : P.d x x') : CxRel P.d (Cx.ofRe x) (Cx.ofRe x') := ⟨hx, P.d_zero⟩

theorem d_cneg {x : Cx T} {x' : Cx T'} (hx : CxRel P.d x x') : CxRel P.d (Cx.neg x) (Cx.neg x') := ⟨P.d_neg hx.1, P.d_neg hx.2⟩

theorem f_angle (n : Nat) : P.f (angleConstant n : F) (angleConstant n : F') := P.f_div (P.f_mul P.f_pi (P.f_neg (P.f_nat 2))) (P.f_nat n)

theorem c_twiddle (i n : Nat) : CxRel P.c (singleTwiddle i n) (singleTwiddle i n) :=
  ⟨P.c_from (P.f_mul (P.f_nat 1) (P.f_cos (P.f_mul (P.f_angle n) (P.f_nat i)))), P.c_from (P.f_mul (P.f_nat 1) (P.f_sin (P.f_mul (P.f_angle n) (P.f_nat i))))⟩

theorem c_twiddleRe (i n : Nat) : P.c (singleTwiddleRe i n) (singleTwiddleRe i n) := P.c_from (P.f_cos (P.f_mul (P.f_angle n) (P.f_nat i)))

theorem c_twiddleHalf (i n : Nat) : CxRel P.c (singleTwiddleHalfoffset i n) (singleTwiddleHalfoffset i n) :=
  ⟨P.c_from (P.f_mul (P.f_nat 1) (P.f_cos (P.f_mul (P.f_angle n) (P.f_add (P.f_nat i) P.f_half)))),
    P.c_from (P.f_mul (P.f_nat 1) (P.f_sin (P.f_mul (P.f_angle n) (P.f_add (P.f_nat i) P.f_half))))⟩

theorem d_re {x : Cx T} {x' : Cx T'} (h : CxRel P.d x x') : P.d x.re x'.re := h.1
theorem d_im {x : Cx T} {x' : Cx T'} (h : CxRel P.d x x') : P.d x.im x'.im := h.2
theorem c_re {x : Cx T} {x' : Cx T'} (h : CxRel P.c x x') : P.c x.re x'.re := h.1
theorem c_im {x : Cx T} {x' : Cx T'} (h : CxRel P.c x x') : P.c x.im x'.im := h.2

theorem c_conj {x : Cx T} {x' : Cx T'} (h : CxRel P.c x x') : CxRel P.c (Cx.conj x) (Cx.conj x') := ⟨h.1, P.c_neg h.2⟩

end Param
end

/-! ### Tactics -/

open Lean Elab Tactic Meta in
/-- Succeeds if the left one of the two expressions which the goal relates is an application of the given constant. -/
elab "guard_head " id:ident : tactic => do
  let t ← instantiateMVars (← (← getMainGoal).getType)
  let args := t.consumeMData.getAppArgs
  if args.size < 2 then throwError "guard_head"
  let e := (args[args.size - 2]!).consumeMData
  let n ← realizeGlobalConstNoOverload id
  let ok := match e with
    | .proj s i _ => (s == ``Cx && i == 0 && n == ``Cx.re) || (s == ``Cx && i == 1 && n == ``Cx.im)
    | _ => e.getAppFn.isConstOf n
  unless ok do throwError "guard_head"

/-- Closes goals relating expressions without side effects. -/
syntax "drel" : tactic
macro_rules
  | `(tactic| drel) => `(tactic| first
    | assumption
    | (guard_head Cx.mk; exact CxRel.mk (by drel) (by drel))
    | (guard_head Prod.mk; exact PRl.mk (by drel) (by drel))
    | (guard_head HAdd.hAdd; exact Param.d_add _ (by drel) (by drel))
    | (guard_head HSub.hSub; exact Param.d_sub _ (by drel) (by drel))
    | (guard_head Neg.neg; exact Param.d_neg _ (by drel))
    | (guard_head HMul.hMul; exact Param.d_mul _ (by drel) (by drel))
    | (guard_head HMul.hMul; exact Param.d_mul' _ (by drel) (by drel))
    | (guard_head ite; exact Param.d_ite _ (by drel) (by drel))
    | (guard_head Cx.re; exact Param.d_re _ (by drel))
    | (guard_head Cx.im; exact Param.d_im _ (by drel))
    | (guard_head Cx.re; exact Param.c_re _ (by drel))
    | (guard_head Cx.im; exact Param.c_im _ (by drel))
    | (guard_head thalf; first | exact Param.c_half _ | exact Param.c_half ‹_›)
    | (guard_head ttwo; first | exact Param.c_two _ | exact Param.c_two ‹_›)
    | (guard_head DctNum.fracSqrt2; first | exact Param.c_fracSqrt2 _ | exact Param.c_fracSqrt2 ‹_›)
    | (guard_head DctNum.sqrt2; first | exact Param.c_sqrt2 _ | exact Param.c_sqrt2 ‹_›)
    | (guard_head OfNat.ofNat; exact Param.d_zero _)
    | (guard_head OfNat.ofNat; first | exact Param.c_one _ | exact Param.c_one ‹_›)
    | (guard_head Neg.neg; exact Param.c_neg _ (by drel))
    | (guard_head HMul.hMul; exact Param.c_mul _ (by drel) (by drel))
    | (guard_head ite; exact Param.c_ite _ (by drel) (by drel))
    | (guard_head Cx.mul; exact Param.d_mulRe _ (by drel) (by drel))
    | (guard_head Cx.scale; exact Param.d_scale _ (by drel) (by drel))
    | (guard_head Cx.ofRe; exact Param.d_ofRe _ (by drel))
    | (guard_head Cx.neg; exact Param.d_cneg _ (by drel))
    | (guard_head Cx.conj; exact Param.c_conj _ (by drel))
    | (guard_head Prod.fst; exact PRl.fst (by assumption))
    | (guard_head Prod.snd; exact PRl.snd (by assumption))
    | (guard_head assignZip; exact LRel.assignZip (by drel) (by drel) (by intros; beta_reduce; drel))
    | (guard_head updZip; exact LRel.updZip (by drel) (by drel) (by intros; beta_reduce; drel))
    | (guard_head List.zipWith; exact LRel.zipW (by drel) (by drel) (by intros; beta_reduce; drel))
    | (guard_head List.zip; exact LRel.zip (by drel) (by drel))
    | (guard_head List.foldl; exact LRel.foldl (by drel) (by drel) (by intros; beta_reduce; drel))
    | (guard_head List.nil; exact List.Forall₂.nil)
    | (guard_head List.cons; exact List.Forall₂.cons (by drel) (by drel))
    | (guard_head List.reverse; exact LRel.rev (by drel))
    | (guard_head List.take; exact LRel.take (by drel) _)
    | (guard_head List.drop; exact LRel.drop (by drel) _)
    | (guard_head HAppend.hAppend; exact LRel.app (by drel) (by drel))
    | (guard_head intoComplex; exact LRel.intoComplex (by drel))
    | (guard_head fromComplex; exact LRel.fromComplex (by drel) (by drel)))

open Lean Elab Tactic Meta in
/-- Succeeds if the left one of the two related computations is a sequence starting with an application of the given constant. -/
elab "guard_bind " id:ident : tactic => do
  let t ← instantiateMVars (← (← getMainGoal).getType)
  let args := t.consumeMData.getAppArgs
  if args.size < 2 then throwError "guard_bind"
  let e := (args[args.size - 2]!).consumeMData
  unless e.getAppFn.isConstOf ``Bind.bind do throwError "guard_bind"
  let eargs := e.getAppArgs
  if eargs.size < 6 then throwError "guard_bind"
  let n ← realizeGlobalConstNoOverload id
  unless (eargs[4]!).consumeMData.getAppFn.isConstOf n do throwError "guard_bind"

theorem ERel.letR {α β α' β' : Type} {s : α → α' → Prop} {r : β → β' → Prop} {v : α} {v' : α'} {f : α → Except Err β} {f' : α' → Except Err β'} (h : s v v')
    (hf : ∀ x x', s x x' → ERel r (f x) (f' x')) : ERel r (f v) (f' v') := hf _ _ h

open Lean Elab Tactic Meta in
/-- Turns `ERel r (let x := v; b) (let x' := v'; b')` into `∀ x x', ?s x x' → ERel r b b'`. -/
elab "erel_let" : tactic => withMainContext do
  let g ← getMainGoal
  let t ← instantiateMVars (← g.getType)
  let t := t.consumeMData
  let args := t.getAppArgs
  unless t.getAppFn.isConstOf ``ERel && args.size == 5 do throwError "erel_let"
  match (args[3]!).consumeMData, (args[4]!).consumeMData with
  | .letE n ty v b _, .letE n' ty' v' b' _ =>
    if v.isLambda then
      let g' ← g.replaceTargetDefEq (mkAppN t.getAppFn #[args[0]!, args[1]!, args[2]!, ← Core.betaReduce (b.instantiate1 v), ← Core.betaReduce (b'.instantiate1 v')])
      replaceMainGoal [g']
      return
    let f := Expr.lam n ty b .default
    let f' := Expr.lam n' ty' b' .default
    let st ← if ty.isConstOf ``Nat then pure (mkApp (mkConst ``Eq [1]) ty) else mkFreshExprMVar (← mkArrow ty (← mkArrow ty' (mkSort .zero)))
    let h ← mkFreshExprMVar (mkApp2 st v v')
    let hft ← withLocalDeclD n ty fun x => withLocalDeclD n' ty' fun x' => do
      withLocalDeclD `h (mkApp2 st x x') fun hh =>
        mkForallFVars #[x, x', hh] (mkAppN t.getAppFn #[args[0]!, args[1]!, args[2]!, b.instantiate1 x, b'.instantiate1 x'])
    let hf ← mkFreshExprSyntheticOpaqueMVar hft
    let pf := mkAppN (mkConst ``ERel.letR) #[ty, args[0]!, ty', args[1]!, st, args[2]!, v, v', f, f', h, hf]
    g.assign pf
    replaceMainGoal [h.mvarId!, hf.mvarId!]
  | _, _ => throwError "erel_let"

open Lean Elab Tactic Meta in
/-- Succeeds if the left one of the two related computations, or its first step if it is a sequence, computes a tuple with the given number of components. -/
elab "guard_tuple " k:num : tactic => withMainContext do
  let t ← instantiateMVars (← (← getMainGoal).getType)
  let args := t.consumeMData.getAppArgs
  if args.size < 2 then throwError "guard_tuple"
  let e := (args[args.size - 2]!).consumeMData
  let e := if e.getAppFn.isConstOf ``Bind.bind then (e.getAppArgs[4]!).consumeMData else e
  let ty ← instantiateMVars (← inferType e)
  let ty := ty.consumeMData.getAppArgs.back!
  let rec cnt (ty : Expr) (fuel : Nat) : Nat := match fuel with
    | 0 => 1
    | f + 1 => if ty.consumeMData.isAppOfArity ``Prod 2 then 1 + cnt ty.consumeMData.appArg! f else 1
  unless cnt ty 10 == k.getNat do throwError "guard_tuple"

/-- Equality of sizes. -/
syntax "nrel" : tactic
macro_rules
  | `(tactic| nrel) => `(tactic| first
    | rfl
    | assumption
    | (guard_head List.length; exact List.Forall₂.length_eq (by drel))
    | (guard_head HAdd.hAdd; exact congrArg₂ _ (by nrel) (by nrel))
    | (guard_head HSub.hSub; exact congrArg₂ _ (by nrel) (by nrel))
    | (guard_head HMul.hMul; exact congrArg₂ _ (by nrel) (by nrel))
    | (guard_head HDiv.hDiv; exact congrArg₂ _ (by nrel) (by nrel))
    | (guard_head HMod.hMod; exact congrArg₂ _ (by nrel) (by nrel))
    | (guard_head Min.min; exact congrArg₂ _ (by nrel) (by nrel)))

/-- Closes goals relating single computations. -/
syntax "erel0" : tactic

/-- Runs through a sequence of computations. -/
syntax "erel" : tactic

macro_rules
  | `(tactic| erel0) => `(tactic| first
    | (guard_head csub; with_reducible exact ERel.csub)
    | (guard_head rd; with_reducible exact ERel.rd (by drel))
    | (guard_head rdU; with_reducible exact ERel.rdU (by drel))
    | (guard_head wr; with_reducible exact ERel.wr (by drel) (by drel))
    | (guard_head wrU; with_reducible exact ERel.wrU (by drel) (by drel))
    | (guard_head splitAtMut; with_reducible exact ERel.splitAtMut' (by drel) (by nrel))
    | (guard_head copyFromSlice; with_reducible exact ERel.copyFromSlice (by drel) (by drel))
    | (guard_head Except.ok; with_reducible exact ERel.ok (by drel))
    | (guard_head Except.error; with_reducible exact ERel.error)
    | (guard_head callProc; with_reducible exact callProc_rel (by assumption) (by drel) (by drel))
    | (guard_head forRange; guard_tuple 3; exact ERel.forRangeP3 (by nrel) (by drel) (by intros; dsimp -zeta only; erel))
    | (guard_head forRange; guard_tuple 2; exact ERel.forRangeP (by nrel) (by drel) (by intros; dsimp -zeta only; erel))
    | (guard_head forRange; exact ERel.forRange' (by nrel) (by drel) (by intros; beta_reduce; erel))
    | (guard_head ite; exact ERel.ite Iff.rfl (by intros; erel) (by intros; erel))
    | (guard_head Fft.process; exact FftRel.process (by assumption) (by drel) (by drel))
    | (guard_head csub; with_reducible exact ERel.csub' (by nrel) (by nrel)))

/-- One step through a sequence of computations. -/
syntax "erel1" : tactic
macro_rules
  | `(tactic| erel1) => `(tactic| first
    | (erel_let <;> [nrel; (intro _ _ h; subst h)])
    | (erel_let <;> [drel; intro _ _ _])
    | (erel_let; guard_head ite)
    | (guard_bind csub; with_reducible refine ERel.bindEq ERel.csub fun _ => ?_)
    | (guard_bind csub; with_reducible refine ERel.bindEq (ERel.csub' (by nrel) (by nrel)) fun _ => ?_)
    | (guard_bind Except.ok; with_reducible refine ERel.bindEq (ERel.ok rfl) fun _ => ?_)
    | (guard_head Bind.bind; guard_tuple 2; with_reducible refine ERel.bindP (by erel0) fun _ _ _ _ _ _ => ?_; subst_vars; dsimp -zeta only)
    | (guard_head Bind.bind; guard_tuple 3; with_reducible refine ERel.bindP3 (by erel0) fun _ _ _ _ _ _ _ _ _ => ?_; subst_vars; dsimp -zeta only)
    | (guard_head Bind.bind; guard_tuple 4; with_reducible refine ERel.bindP4 (by erel0) fun _ _ _ _ _ _ _ _ _ _ _ _ => ?_; subst_vars; dsimp -zeta only)
    | (guard_head Bind.bind; with_reducible refine ERel.bind (by erel0) fun _ _ _ => ?_)
    | (guard_head ite; exact ERel.ite Iff.rfl (by intros; erel) (by intros; erel))
    | erel0)

macro_rules
  | `(tactic| erel) => `(tactic| repeat erel1)

/-- The start of a proof about a method with scratch space. -/
macro "mrel " hl:term ", " hs:term : tactic => `(tactic| (
  intro m m' hm
  have hl := $hl
  refine validateBuffers_rel' hm hl $hs fun hb hs => ?_
  try rw [List.Forall₂.length_eq hb]))

end RustDct
