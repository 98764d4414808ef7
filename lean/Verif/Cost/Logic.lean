import Lean.Elab.Tactic
import Mathlib.Tactic.Ring
import Mathlib.Tactic.Linarith
import Verif.Param.Logic
import Verif.Model.CountedMethods
/-!
# Rules for counting steps
-/

set_option linter.all false

namespace RustDct.Counted

/-- The counting run `c` has the same outcome as `e`, up to `r`, and takes at most `k` steps. -/
structure CRel {α α' : Type} (r : α → α' → Prop) (k : Nat) (c : Run α) (e : Except Err α') : Prop where
  rel : ERel r c.1 e
  le : c.2 ≤ k

/-- The same list, of length `n`. -/
structure LE {α : Type} (n : Nat) (l l' : List α) : Prop where
  eq : l = l'
  len : l.length = n

/-- `b` has the value `a`, computed by at most `k` operations. -/
structure Num {α β : Type} [Cell α β] (k : Nat) (b : β) (a : α) : Prop where
  val : Cell.store b = a
  le : Cell.ops α b ≤ k

/-- Array literals. -/
structure Arr {T : Type} (k : Nat) (l : List (Cn T)) (l' : List T) : Prop where
  val : l.map (·.val) = l'
  le : (l.map (·.cnt)).sum + l.length ≤ k

section
variable {α β γ δ α' β' γ' δ' : Type} {r : α → α' → Prop} {s : β → β' → Prop} {q : γ → γ' → Prop} {k l n : Nat}

theorem CRel.mono {c : Run α} {e : Except Err α'} (h : CRel r k c e) (hk : k ≤ l) : CRel r l c e := ⟨h.rel, h.le.trans hk⟩

theorem CRel.eq {c : Run α} {e : Except Err α} (h : CRel Eq k c e) : c.1 = e := by
  rcases h.rel.elim with ⟨a, a', h1, h2, h3⟩ | ⟨e, h1, h2⟩
  · rw [h1, h2, h3]
  · rw [h1, h2]

theorem ERel.weaken {r' : α → α' → Prop} {x : Except Err α} {x' : Except Err α'} (h : ERel r x x') (hr : ∀ a a', r a a' → r' a a') : ERel r' x x' := by
  cases h with
  | ok h => exact .ok (hr _ _ h)
  | error => exact .error

theorem CRel.weaken {r' : α → α' → Prop} {c : Run α} {e : Except Err α'} (h : CRel r k c e) (hr : ∀ a a', r a a' → r' a a') : CRel r' k c e :=
  ⟨ERel.weaken h.rel hr, h.le⟩

theorem CRel.pure {a : α} {a' : α'} (h : r a a') : CRel r 0 (Pure.pure a) (.ok a') := ⟨.ok h, le_rfl⟩

theorem CRel.bind {x : Run α} {x' : Except Err α'} {f : α → Run β} {f' : α' → Except Err β'} (h : CRel r k x x')
    (hf : ∀ a a', r a a' → CRel s l (f a) (f' a')) : CRel s (k + l) (x >>= f) (x' >>= f') := by
  obtain ⟨h1, h2⟩ := h
  obtain ⟨c, m⟩ := x
  dsimp only at h1 h2
  rcases h1.elim with ⟨a, a', rfl, rfl, h3⟩ | ⟨e, rfl, rfl⟩
  · obtain ⟨h4, h5⟩ := hf a a' h3
    exact ⟨h4, Nat.add_le_add h2 h5⟩
  · exact ⟨.error, h2.trans (Nat.le_add_right _ _)⟩

theorem CRel.bindEq {x : Run α} {x' : Except Err α} {f : α → Run β} {f' : α → Except Err β'} (h : CRel Eq k x x')
    (hf : ∀ a, CRel s l (f a) (f' a)) : CRel s (k + l) (x >>= f) (x' >>= f') := h.bind fun a a' e => e ▸ hf a

theorem CRel.bindL {x : Run (List α)} {x' : Except Err (List α)} {f : List α → Run β} {f' : List α → Except Err β'} (h : CRel (LE n) k x x')
    (hf : ∀ a : List α, a.length = n → CRel s l (f a) (f' a)) : CRel s (k + l) (x >>= f) (x' >>= f') :=
  h.bind fun a a' e => by obtain ⟨rfl, h⟩ := e; exact hf a h

theorem CRel.bindCsub {a b : Nat} {f : Nat → Run β} {f' : Nat → Except Err β'} (hf : CRel s l (f (a - b)) (f' (a - b))) :
    CRel s l (Counted.csub a b >>= f) (RustDct.csub a b >>= f') := by
  by_cases h : b ≤ a
  · have e : RustDct.csub a b = .ok (a - b) := if_pos h
    have e' : (Counted.csub a b : Run Nat) = (.ok (a - b), 0) := by rw [Counted.csub, e]
    rw [e, e']
    exact ⟨hf.rel, by show 0 + _ ≤ _; rw [Nat.zero_add]; exact hf.le⟩
  · have e : RustDct.csub a b = .error .overflow := if_neg h
    have e' : (Counted.csub a b : Run Nat) = (.error .overflow, 0) := by rw [Counted.csub, e]
    rw [e, e']
    exact ⟨.error, Nat.zero_le _⟩

theorem CRel.csub {a b : Nat} : CRel Eq 0 (Counted.csub a b) (RustDct.csub a b) := by
  refine ⟨?_, le_rfl⟩
  exact ERel.csub

/-- The model binds a value to a variable. -/
theorem CRel.bindOk {x : Run α} {v : α'} {f : α → Run β} {f' : α' → Except Err β'} (h : CRel r k x (.ok v))
    (hf : ∀ a a', r a a' → CRel s l (f a) (f' a')) : CRel s (k + l) (x >>= f) (f' v) := h.bind hf

theorem CRel.ite {p : Prop} [Decidable p] {x y : Run α} {x' y' : Except Err α'} (h1 : p → CRel r k x x') (h2 : ¬ p → CRel r l y y') :
    CRel r (max k l) (if p then x else y) (if p then x' else y') := by
  by_cases h : p
  · rw [if_pos h, if_pos h]; exact (h1 h).mono (le_max_left _ _)
  · rw [if_neg h, if_neg h]; exact (h2 h).mono (le_max_right _ _)

end

section
variable {α β γ δ ε ζ : Type} [Cell α β] [Cell γ δ] [Cell ε ζ] {k l n : Nat}

theorem Num.load (a : α) : Num 0 (Cell.load a : β) a := ⟨Cell.store_load a, le_of_eq (Cell.ops_load a)⟩

theorem Num.mono {a : α} {b : β} (h : Num k b a) (hk : k ≤ l) : Num l b a := ⟨h.val, h.le.trans hk⟩

theorem CRel.ofMap {x : Except Err α} : CRel (Num 0) 1 ((x.map Cell.load : Except Err β), 1) x := by
  refine ⟨?_, le_rfl⟩
  cases x with
  | ok a => exact .ok (Num.load a)
  | error e => exact .error

theorem CRel.rd {m : List α} {i : Nat} : CRel (Num 0) 1 (Counted.rd m i : Run β) (RustDct.rd m i) := CRel.ofMap
theorem CRel.rdU {m : List α} {i : Nat} : CRel (Num 0) 1 (Counted.rdU m i : Run β) (RustDct.rdU m i) := CRel.ofMap

theorem CRel.wr {m : List α} {i : Nat} {v : β} {v' : α} (hm : m.length = n) (h : Num k v v') :
    CRel (LE n) (k + 1) (Counted.wr m i v) (RustDct.wr m i v') := by
  obtain ⟨rfl, h⟩ := h
  refine ⟨?_, Nat.add_le_add_right h 1⟩
  show ERel _ (RustDct.wr m i _) _
  unfold RustDct.wr
  split
  · exact .ok ⟨rfl, by simpa using hm⟩
  · exact .error

theorem CRel.wrU {m : List α} {i : Nat} {v : β} {v' : α} (hm : m.length = n) (h : Num k v v') :
    CRel (LE n) (k + 1) (Counted.wrU m i v) (RustDct.wrU m i v') := by
  obtain ⟨rfl, h⟩ := h
  refine ⟨?_, Nat.add_le_add_right h 1⟩
  show ERel _ (RustDct.wrU m i _) _
  unfold RustDct.wrU
  split
  · exact .ok ⟨rfl, by simpa using hm⟩
  · exact .error

theorem CRel.wr' {m : List α} {i : Nat} {v : β} {v' : α} (h : Num k v v') : CRel Eq (k + 1) (Counted.wr m i v) (RustDct.wr m i v') :=
  (CRel.wr rfl h).weaken fun _ _ h => h.eq

theorem CRel.wrU' {m : List α} {i : Nat} {v : β} {v' : α} (h : Num k v v') : CRel Eq (k + 1) (Counted.wrU m i v) (RustDct.wrU m i v') :=
  (CRel.wrU rfl h).weaken fun _ _ h => h.eq

theorem sum_le {ι : Type} (m : List ι) (f : ι → Nat) {c : Nat} (h : ∀ i, f i ≤ c) : (m.map f).sum ≤ m.length * c := by
  induction m with
  | nil => simp
  | cons a m ih =>
    simp only [List.map_cons, List.sum_cons, List.length_cons]
    have := h a
    rw [Nat.add_mul]; omega

theorem CRel.updZip {f : β → δ → β} {f' : α → γ → α} {dst : List α} {srcs : List γ} (hn : min dst.length srcs.length ≤ n)
    (hf : ∀ b a d c, Num 0 b a → Num 0 d c → Num k (f b d) (f' a c)) :
    CRel (LE dst.length) (n * (k + 3)) (Counted.updZip f dst srcs) (.ok (RustDct.updZip f' dst srcs)) := by
  refine ⟨?_, ?_⟩
  · have : (fun a c => Cell.store (f (Cell.load a) (Cell.load c))) = f' := by
      funext a c
      exact (hf _ a _ c (Num.load a) (Num.load c)).val
    show ERel _ (.ok (RustDct.updZip _ dst srcs)) _
    rw [this]
    refine .ok ⟨rfl, ?_⟩
    simp only [RustDct.updZip, List.length_append, List.length_zipWith, List.length_drop]
    omega
  · refine (sum_le _ _ (c := k + 3) fun p => ?_).trans (Nat.mul_le_mul_right _ ?_)
    · exact Nat.add_le_add_right (hf _ _ _ _ (Num.load p.1) (Num.load p.2)).le 3
    · simpa using hn

theorem CRel.assignZip {g : δ → β} {g' : γ → α} {dst : List α} {srcs : List γ} (hn : min dst.length srcs.length ≤ n)
    (hg : ∀ d c, Num 0 d c → Num k (g d) (g' c)) :
    CRel (LE dst.length) (n * (k + 3)) (Counted.assignZip g dst srcs) (.ok (RustDct.assignZip g' dst srcs)) :=
  CRel.updZip hn fun b a d c _ h => hg d c h

theorem CRel.zipWith {f : β → δ → ζ} {f' : α → γ → ε} {m : List α} {m' : List γ} (hn : min m.length m'.length ≤ n)
    (hf : ∀ b a d c, Num 0 b a → Num 0 d c → Num k (f b d) (f' a c)) :
    CRel Eq (n * (k + 2)) (Counted.zipWith f m m' : Run (List ε)) (.ok (List.zipWith f' m m')) := by
  refine ⟨?_, ?_⟩
  · have : (fun a c => Cell.store (f (Cell.load a) (Cell.load c))) = f' := by
      funext a c
      exact (hf _ a _ c (Num.load a) (Num.load c)).val
    show ERel _ (.ok (List.zipWith _ m m')) _
    rw [this]
    exact .ok rfl
  · refine (sum_le _ _ (c := k + 2) fun p => ?_).trans (Nat.mul_le_mul_right _ ?_)
    · exact Nat.add_le_add_right (hf _ _ _ _ (Num.load p.1) (Num.load p.2)).le 2
    · simpa using hn

end

section
variable {α α' β β' σ σ' : Type} {r : σ → σ' → Prop} {k n : Nat}

theorem CRel.map {g : α → β} {x : Run α} {v : α} (h : CRel Eq k x (.ok v)) : CRel Eq k (g <$> x) (.ok (g v)) := by
  obtain ⟨h1, h2⟩ := h
  obtain ⟨c, m⟩ := x
  dsimp only at h1 h2
  cases h1 with
  | ok h => subst h; exact ⟨.ok rfl, h2⟩

theorem CRel.mapL {g : List α → β} {x : Run (List α)} {v : List α} (h : CRel (LE n) k x (.ok v)) : CRel Eq k (g <$> x) (.ok (g v)) :=
  CRel.map (h.weaken fun _ _ h => h.eq)

theorem CRel.foldlM {m : List β} {a : σ} {a' : σ'} {f : σ → β → Run σ} {f' : σ' → β → Except Err σ'} (h : r a a')
    (hf : ∀ b a a', r a a' → CRel r k (f a b) (f' a' b)) : CRel r (m.length * k) (m.foldlM f a) (m.foldlM f' a') := by
  induction m generalizing a a' with
  | nil => exact ⟨.ok h, Nat.zero_le _⟩
  | cons b m ih =>
    rw [List.foldlM_cons, List.foldlM_cons, List.length_cons, Nat.add_mul, Nat.one_mul, Nat.add_comm]
    exact (hf b _ _ h).bind fun _ _ h => ih h

theorem CRel.forRange {lo hi : Nat} {a : σ} {a' : σ'} {f : Nat → σ → Run σ} {f' : Nat → σ' → Except Err σ'} (hn : hi - lo ≤ n) (h : r a a')
    (hf : ∀ i a a', r a a' → CRel r k (f i a) (f' i a')) : CRel r (n * k) (Counted.forRange lo hi a f) (RustDct.forRange lo hi a' f') := by
  refine (CRel.foldlM (k := k) h fun i a a' h => hf i a a' h).mono (Nat.mul_le_mul_right _ ?_)
  simpa using hn

theorem CRel.forRangeEq {lo hi : Nat} {a : σ} {f : Nat → σ → Run σ} {f' : Nat → σ → Except Err σ} (hn : hi - lo ≤ n)
    (hf : ∀ i a, CRel Eq k (f i a) (f' i a)) : CRel Eq (n * k) (Counted.forRange lo hi a f) (RustDct.forRange lo hi a f') :=
  CRel.forRange hn rfl fun i a a' h => h ▸ hf i a

theorem CRel.splitAtMut {m : List α} {i : Nat} : CRel Eq 0 (Counted.splitAtMut m i) (RustDct.splitAtMut m i) := by
  refine ⟨?_, le_rfl⟩
  show ERel _ (RustDct.splitAtMut m i) _
  generalize RustDct.splitAtMut m i = x
  cases x with
  | ok a => exact .ok rfl
  | error e => exact .error

theorem CRel.refl {e : Except Err α} : CRel Eq k (e, k) e := by
  refine ⟨?_, le_rfl⟩
  cases e with
  | ok a => exact .ok rfl
  | error e => exact .error

theorem CRel.copyFromSlice {m m' : List α} (h : m'.length = n) : CRel (LE n) (2 * n) (Counted.copyFromSlice m m') (RustDct.copyFromSlice m m') := by
  refine ⟨?_, by show 2 * m'.length ≤ _; rw [h]⟩
  show ERel _ (RustDct.copyFromSlice m m') _
  unfold RustDct.copyFromSlice
  split
  · exact .ok ⟨rfl, h⟩
  · exact .error

end

section
variable {T F : Type} [F64 F] [DctNum T F] {k l n : Nat} {x y : Cn T} {x' y' : T}

theorem Num.add (hx : Num k x x') (hy : Num l y y') : Num (k + l + 1) (x + y) (x' + y') :=
  ⟨by rw [← hx.val, ← hy.val]; rfl, Nat.add_le_add_right (Nat.add_le_add hx.le hy.le) 1⟩
theorem Num.sub (hx : Num k x x') (hy : Num l y y') : Num (k + l + 1) (x - y) (x' - y') :=
  ⟨by rw [← hx.val, ← hy.val]; rfl, Nat.add_le_add_right (Nat.add_le_add hx.le hy.le) 1⟩
theorem Num.mul (hx : Num k x x') (hy : Num l y y') : Num (k + l + 1) (x * y) (x' * y') :=
  ⟨by rw [← hx.val, ← hy.val]; rfl, Nat.add_le_add_right (Nat.add_le_add hx.le hy.le) 1⟩
theorem Num.neg (hx : Num k x x') : Num (k + 1) (-x) (-x') :=
  ⟨by rw [← hx.val]; rfl, Nat.add_le_add_right hx.le 1⟩
theorem Num.zero : Num 0 (0 : Cn T) (0 : T) := ⟨rfl, le_rfl⟩
theorem Num.one : Num 0 (1 : Cn T) (1 : T) := ⟨rfl, le_rfl⟩
theorem Num.half : Num 0 (thalf (Cn T)) (thalf T) := ⟨rfl, le_rfl⟩
theorem Num.two : Num 0 (ttwo (Cn T)) (ttwo T) := ⟨rfl, le_rfl⟩
theorem Num.sqrt2 : Num 0 (DctNum.sqrt2 : Cn T) (DctNum.sqrt2 : T) := ⟨rfl, le_rfl⟩
theorem Num.fracSqrt2 : Num 0 (DctNum.fracSqrt2 : Cn T) (DctNum.fracSqrt2 : T) := ⟨rfl, le_rfl⟩
theorem Num.lit : Num 0 (lit x' : Cn T) x' := ⟨rfl, le_rfl⟩

theorem Num.ite {p : Prop} [Decidable p] (hx : Num k x x') (hy : Num l y y') : Num (max k l) (if p then x else y) (if p then x' else y') := by
  split
  · exact hx.mono (le_max_left _ _)
  · exact hy.mono (le_max_right _ _)

variable {c d : Cx (Cn T)} {c' d' : Cx T}

theorem Num.re (h : Num k c c') : Num k c.re c'.re :=
  ⟨by rw [← h.val]; rfl, (Nat.le_add_right _ _).trans h.le⟩
theorem Num.im (h : Num k c c') : Num k c.im c'.im :=
  ⟨by rw [← h.val]; rfl, (Nat.le_add_left _ _).trans h.le⟩
theorem Num.reOf (h : Num k c c') : Num k (reOf c) c'.re := ⟨by rw [← h.val]; rfl, h.le⟩
theorem Num.cmk (hx : Num k x x') (hy : Num l y y') : Num (k + l) (⟨x, y⟩ : Cx (Cn T)) (⟨x', y'⟩ : Cx T) :=
  ⟨by rw [← hx.val, ← hy.val]; rfl, Nat.add_le_add hx.le hy.le⟩
theorem Num.ofRe (hx : Num k x x') : Num k (Cx.ofRe x) (Cx.ofRe x') := ⟨by rw [← hx.val]; rfl, hx.le⟩
theorem Num.cmul (hc : Num k c c') (hd : Num l d d') : Num (2 * k + 2 * l + 6) (Cx.mul c d) (Cx.mul c' d') := by
  refine ⟨by rw [← hc.val, ← hd.val]; rfl, ?_⟩
  have h1 : c.re.cnt + c.im.cnt ≤ k := hc.le
  have h2 : d.re.cnt + d.im.cnt ≤ l := hd.le
  show ((c.re.cnt + d.re.cnt + 1) + (c.im.cnt + d.im.cnt + 1) + 1) + ((c.re.cnt + d.im.cnt + 1) + (c.im.cnt + d.re.cnt + 1) + 1) ≤ _
  omega
theorem Num.scale (hc : Num k c c') (hy : Num l y y') : Num (k + 2 * l + 2) (Cx.scale c y) (Cx.scale c' y') := by
  refine ⟨by rw [← hc.val, ← hy.val]; rfl, ?_⟩
  have h1 : c.re.cnt + c.im.cnt ≤ k := hc.le
  have h2 : y.cnt ≤ l := hy.le
  show (c.re.cnt + y.cnt + 1) + (c.im.cnt + y.cnt + 1) ≤ _
  omega
theorem Num.cneg (hc : Num k c c') : Num (k + 2) (Cx.neg c) (Cx.neg c') := by
  refine ⟨by rw [← hc.val]; rfl, ?_⟩
  have h1 : c.re.cnt + c.im.cnt ≤ k := hc.le
  show (c.re.cnt + 1) + (c.im.cnt + 1) ≤ _
  omega

theorem CRel.arith (h : Num k x x') : CRel (Num 0) k (arith x) (.ok x') := ⟨.ok ⟨h.val, le_rfl⟩, h.le⟩
theorem CRel.arithC (h : Num k c c') : CRel (Num 0) k (arithC c) (.ok c') := ⟨.ok ⟨h.val, le_rfl⟩, h.le⟩

theorem CRel.sumSlice {m : List T} (h : m.length = n) : CRel (Num 0) (2 * n) (sumSlice m) (.ok (m.foldl (fun acc e => acc + e) 0)) :=
  ⟨.ok ⟨rfl, le_rfl⟩, by show 2 * m.length ≤ _; rw [h]⟩

theorem Arr.nil : Arr 0 ([] : List (Cn T)) [] := ⟨rfl, le_rfl⟩
theorem Arr.cons {m : List (Cn T)} {m' : List T} (hx : Num k x x') (h : Arr l m m') : Arr (k + l + 1) (x :: m) (x' :: m') := by
  refine ⟨by rw [← hx.val, ← h.val]; rfl, ?_⟩
  have h1 : x.cnt ≤ k := hx.le
  have h2 := h.le
  simp only [List.map_cons, List.sum_cons, List.length_cons]
  omega

theorem CRel.arr {m : List (Cn T)} {m' : List T} (h : Arr k m m') : CRel Eq k (arr m) (.ok m') := ⟨.ok h.val, h.le⟩
end

section
variable {α β γ δ : Type} [Cell α β] [Cell γ δ] {k : Nat}
theorem Num.fst {p : β × δ} {p' : α × γ} (h : Num k p p') : Num k p.1 p'.1 := ⟨by rw [← h.val]; rfl, (Nat.le_add_right _ _).trans h.le⟩
theorem Num.snd {p : β × δ} {p' : α × γ} (h : Num k p p') : Num k p.2 p'.2 := ⟨by rw [← h.val]; rfl, (Nat.le_add_left _ _).trans h.le⟩
end

/-- Related accumulators, equal indices. -/
def St {T : Type} (a : Cn T × Nat) (a' : T × Nat) : Prop := Num 0 a.1 a'.1 ∧ a.2 = a'.2

/-- A counting method computes what the model's method computes, in at most `k` steps. -/
structure Takes {T : Type} (p : Proc T) (k : Nat) (c : CProc T) : Prop where
  same : ∀ m, (c m).1 = p m
  le : ∀ m, (c m).2 ≤ k

/-- The same, with the bound for buffers of length `n`. -/
structure TakesAt {T : Type} (n : Nat) (p : Proc T) (k : Nat) (c : CProc T) : Prop where
  same : ∀ m, (c m).1 = p m
  le : ∀ m, m.buf.length = n → (c m).2 ≤ k

section
variable {T : Type} {k : Nat}

theorem TakesAt.mono {n : Nat} {p : Proc T} {c : CProc T} {l : Nat} (h : TakesAt n p k c) (hl : k ≤ l) : TakesAt n p l c :=
  ⟨h.same, fun m hm => (h.le m hm).trans hl⟩

theorem Takes.at {p : Proc T} {c : CProc T} (h : Takes p k c) (n : Nat) : TakesAt n p k c := ⟨h.same, fun m _ => h.le m⟩

theorem Takes.mono {p : Proc T} {c : CProc T} {l : Nat} (h : Takes p k c) (hl : k ≤ l) : Takes p l c := ⟨h.same, fun m => (h.le m).trans hl⟩

theorem validateBuffer_congr {m : Mem T} {n : Nat} {f f' : List T → Except Err (List T)} (h : ∀ b, b.length = n → f b = f' b) :
    RustDct.validateBuffer m n f = RustDct.validateBuffer m n f' := by
  unfold RustDct.validateBuffer
  split
  · rfl
  · rename_i hm
    rw [h m.buf (by simpa using hm)]

theorem validateBuffers_congr {m : Mem T} {n s : Nat} {f f' : List T → List T → Except Err (List T × List T)}
    (h : ∀ b c, b.length = n → c.length = s → f b c = f' b c) : RustDct.validateBuffers m n s f = RustDct.validateBuffers m n s f' := by
  unfold RustDct.validateBuffers
  split
  · rfl
  · split
    · rename_i hm hs
      rw [h m.buf (m.scr.take s) (by simpa using hm) (by simpa using hs)]
    · rfl

theorem Takes.buffer {n : Nat} {f : List T → Run (List T)} {f' : List T → Except Err (List T)} (h : ∀ b, b.length = n → CRel Eq k (f b) (f' b)) :
    Takes (fun m => RustDct.validateBuffer m n f') k (fun m => Counted.validateBuffer m n f) := by
  refine ⟨fun m => validateBuffer_congr fun b hb => (h b hb).eq, fun m => ?_⟩
  unfold Counted.validateBuffer
  dsimp only
  split
  · exact (h m.buf ‹_›).le
  · exact Nat.zero_le _

theorem Takes.buffers {n s : Nat} {f : List T → List T → Run (List T × List T)} {f' : List T → List T → Except Err (List T × List T)}
    (h : ∀ b c, b.length = n → c.length = s → CRel Eq k (f b c) (f' b c)) :
    Takes (fun m => RustDct.validateBuffers m n s f') k (fun m => Counted.validateBuffers m n s f) := by
  refine ⟨fun m => validateBuffers_congr fun b c hb hc => (h b c hb hc).eq, fun m => ?_⟩
  unfold Counted.validateBuffers
  dsimp only
  split
  · rename_i hm
    exact (h m.buf (m.scr.take s) hm.1 (by simpa using hm.2)).le
  · exact Nat.zero_le _

theorem CRel.callProc {p : Proc T} {c : CProc T} (h : Takes p k c) {b s : List T} : CRel Eq k (Counted.callProc c b s) (RustDct.callProc p b s) := by
  have : (fun m => (c m).1) = p := funext h.same
  refine ⟨?_, h.le _⟩
  show ERel _ (RustDct.callProc (fun m => (c m).1) b s) _
  rw [this]
  generalize RustDct.callProc p b s = x
  cases x with
  | ok a => exact .ok rfl
  | error e => exact .error

theorem CRel.callProcAt {n : Nat} {p : Proc T} {c : CProc T} (h : TakesAt n p k c) {b s : List T} (hb : b.length = n) :
    CRel Eq k (Counted.callProc c b s) (RustDct.callProc p b s) := by
  have : (fun m => (c m).1) = p := funext h.same
  refine ⟨?_, h.le _ hb⟩
  show ERel _ (RustDct.callProc (fun m => (c m).1) b s) _
  rw [this]
  generalize RustDct.callProc p b s = x
  cases x with
  | ok a => exact .ok rfl
  | error e => exact .error

theorem CRel.fftCall {cost : Fft T → Nat} {fft : Fft T} {b s : List (Cx T)} : CRel Eq (cost fft) (fftCall cost fft b s) (fft.process b s) := CRel.refl
end

/-! ### Tactics -/

open Lean Elab Tactic Meta in
/-- If the second computation starts with the definition of a variable: replaces the variable if it is a size or a list, or if the first computation does the
same, otherwise makes it a step. -/
elab "crel_let" : tactic => withMainContext do
  let g ← getMainGoal
  let t ← instantiateMVars (← g.getType)
  let t := t.consumeMData
  let args := t.getAppArgs
  unless t.getAppFn.isConstOf ``CRel && args.size == 6 do throwError "crel_let"
  let lhs := (args[4]!).consumeMData
  let rhs := (args[5]!).consumeMData
  match lhs, rhs with
  | .letE _ _ v b _, .letE _ _ v' b' _ =>
    let g' ← g.replaceTargetDefEq (mkAppN t.getAppFn (args.set! 4 (← Core.betaReduce (b.instantiate1 v)) |>.set! 5 (← Core.betaReduce (b'.instantiate1 v'))))
    replaceMainGoal [g']
  | .letE _ _ v b _, _ =>
    let g' ← g.replaceTargetDefEq (mkAppN t.getAppFn (args.set! 4 (← Core.betaReduce (b.instantiate1 v))))
    replaceMainGoal [g']
  | _, .letE n ty v b _ =>
    let e ← mkAppOptM ``Bind.bind #[mkApp (mkConst ``Except [0, 0]) (mkConst ``Err), none, ty, args[1]!, ← mkAppOptM ``Except.ok #[mkConst ``Err, ty, v], Expr.lam n ty b .default]
    let g' ← g.replaceTargetDefEq (mkAppN t.getAppFn (args.set! 5 e))
    replaceMainGoal [g']
  | _, _ => throwError "crel_let"

/-- Bounds of lengths. -/
syntax "lbound" : tactic
macro_rules
  | `(tactic| lbound) => `(tactic| first
    | exact Nat.sub_le _ _
    | exact (Nat.sub_le _ _).trans ((Nat.min_le_left _ _).trans (by simp only [*]; exact le_rfl))
    | exact (Nat.sub_le _ _).trans (by simp only [List.length_reverse, *]; exact le_rfl))

/-- Closes goals `Num ?k x x'`. -/
syntax "vrel" : tactic
macro_rules
  | `(tactic| vrel) => `(tactic| first
    | assumption
    | (guard_head HAdd.hAdd; exact Num.add (by vrel) (by vrel))
    | (guard_head HSub.hSub; exact Num.sub (by vrel) (by vrel))
    | (guard_head HMul.hMul; exact Num.mul (by vrel) (by vrel))
    | (guard_head Neg.neg; exact Num.neg (by vrel))
    | (guard_head ite; exact Num.ite (by vrel) (by vrel))
    | (guard_head Cx.re; exact Num.re (by vrel))
    | (guard_head Cx.im; exact Num.im (by vrel))
    | (guard_head reOf; exact Num.reOf (by vrel))
    | (guard_head Cx.mk; exact Num.cmk (by vrel) (by vrel))
    | (guard_head Cx.mul; exact Num.cmul (by vrel) (by vrel))
    | (guard_head Cx.scale; exact Num.scale (by vrel) (by vrel))
    | (guard_head Cx.ofRe; exact Num.ofRe (by vrel))
    | (guard_head Cx.neg; exact Num.cneg (by vrel))
    | (guard_head Prod.fst; exact Num.fst (by vrel))
    | (guard_head Prod.snd; exact Num.snd (by vrel))
    | exact Num.lit
    | exact Num.half
    | exact Num.two
    | exact Num.sqrt2
    | exact Num.fracSqrt2
    | exact Num.zero
    | exact Num.one)

/-- Closes goals `Arr ?k x x'`. -/
syntax "arel" : tactic
macro_rules
  | `(tactic| arel) => `(tactic| first
    | exact Arr.nil
    | exact Arr.cons (by vrel) (by arel))

section
variable {α β γ δ ε ζ ρ ρ' σ σ' : Type} {r : ρ → ρ' → Prop} {k l n : Nat}

theorem CRel.bindRd [Cell α β] {m : List α} {i : Nat} {f : β → Run ρ} {f' : α → Except Err ρ'} (hf : ∀ b a, Num 0 b a → CRel r l (f b) (f' a)) :
    CRel r (1 + l) (Counted.rd m i >>= f) (RustDct.rd m i >>= f') := CRel.bind CRel.rd hf

theorem CRel.bindRdU [Cell α β] {m : List α} {i : Nat} {f : β → Run ρ} {f' : α → Except Err ρ'} (hf : ∀ b a, Num 0 b a → CRel r l (f b) (f' a)) :
    CRel r (1 + l) (Counted.rdU m i >>= f) (RustDct.rdU m i >>= f') := CRel.bind CRel.rdU hf

theorem CRel.bindWr [Cell α β] {m : List α} {i : Nat} {v : β} {v' : α} {f : List α → Run ρ} {f' : List α → Except Err ρ'} (hm : m.length = n) (h : Num k v v')
    (hf : ∀ b : List α, b.length = n → CRel r l (f b) (f' b)) : CRel r (k + 1 + l) (Counted.wr m i v >>= f) (RustDct.wr m i v' >>= f') := CRel.bindL (CRel.wr hm h) hf

theorem CRel.bindWrU [Cell α β] {m : List α} {i : Nat} {v : β} {v' : α} {f : List α → Run ρ} {f' : List α → Except Err ρ'} (hm : m.length = n) (h : Num k v v')
    (hf : ∀ b : List α, b.length = n → CRel r l (f b) (f' b)) : CRel r (k + 1 + l) (Counted.wrU m i v >>= f) (RustDct.wrU m i v' >>= f') := CRel.bindL (CRel.wrU hm h) hf

theorem CRel.bindCopy {m m' : List α} {f : List α → Run ρ} {f' : List α → Except Err ρ'} (hm : m'.length = n)
    (hf : ∀ b : List α, b.length = n → CRel r l (f b) (f' b)) : CRel r (2 * n + l) (Counted.copyFromSlice m m' >>= f) (RustDct.copyFromSlice m m' >>= f') :=
  CRel.bindL (CRel.copyFromSlice hm) hf

theorem CRel.bindSum {T F : Type} [F64 F] [DctNum T F] {m b : List T} {i n' : Nat} {f : List T → Run ρ} {f' : List T → Except Err ρ'} (hm : m.length = n)
    (hb : b.length = n') (hf : ∀ b : List T, b.length = n' → CRel r l (f b) (f' b)) :
    CRel r (2 * n + (0 + 1 + l)) (Counted.sumSlice m >>= fun t => Counted.wr b i t >>= f) (RustDct.wr b i (m.foldl (fun acc e => acc + e) 0) >>= f') :=
  CRel.bindOk (f' := fun t => RustDct.wr b i t >>= f') (CRel.sumSlice hm) fun t t' ht => CRel.bindWr hb ht hf

theorem CRel.bindSplit {m : List α} {i : Nat} {f : List α × List α → Run ρ} {f' : List α × List α → Except Err ρ'}
    (hf : ∀ a b : List α, a.length = i → b.length = m.length - i → CRel r l (f (a, b)) (f' (a, b))) :
    CRel r l (Counted.splitAtMut m i >>= f) (RustDct.splitAtMut m i >>= f') := by
  refine (CRel.bind (r := fun a a' => a = a' ∧ a.1.length = i ∧ a.2.length = m.length - i) (k := 0) (l := l) ⟨?_, le_rfl⟩ ?_).mono (by omega)
  · show ERel _ (RustDct.splitAtMut m i) _
    unfold RustDct.splitAtMut
    split
    · exact .ok ⟨rfl, by simpa using ‹_›, by simp⟩
    · exact .error
  · rintro ⟨a, b⟩ _ ⟨rfl, h1, h2⟩
    exact hf a b h1 h2

theorem CRel.okR {x : Run α} {x' : Except Err σ} {q : α → σ → Prop} (h : CRel q k x x') : CRel q k x (x' >>= fun y => Except.ok y) := by
  cases x' with
  | ok a => exact h
  | error e => exact h

/-- The same two lists, of lengths `n` and `n'`. -/
structure LE2 (n n' : Nat) (a a' : List α × List β) : Prop where
  eq : a = a'
  len1 : a.1.length = n
  len2 : a.2.length = n'

theorem CRel.forRange2 {lo hi n n1 n2 : Nat} {a : List α} {b : List β} {f : Nat → List α × List β → Run (List α × List β)}
    {f' : Nat → List α × List β → Except Err (List α × List β)} (h1 : a.length = n1) (h2 : b.length = n2) (hn : hi - lo ≤ n)
    (hf : ∀ i (a : List α) (b : List β), a.length = n1 → b.length = n2 → CRel (LE2 n1 n2) k (f i (a, b)) (f' i (a, b))) :
    CRel (LE2 n1 n2) (n * k) (Counted.forRange lo hi (a, b) f) (RustDct.forRange lo hi (a, b) f') :=
  CRel.forRange hn ⟨rfl, h1, h2⟩ fun i a a' h => by
    obtain ⟨a, b⟩ := a
    obtain ⟨rfl, h1, h2⟩ := h
    exact hf i _ _ h1 h2

theorem CRel.bind2 {n1 n2 : Nat} {x : Run (List α × List β)} {x' : Except Err (List α × List β)} {f : List α × List β → Run ρ} {f' : List α × List β → Except Err ρ'}
    (h : CRel (LE2 n1 n2) k x x') (hf : ∀ (a : List α) (b : List β), a.length = n1 → b.length = n2 → CRel r l (f (a, b)) (f' (a, b))) :
    CRel r (k + l) (x >>= f) (x' >>= f') :=
  h.bind fun a a' h => by
    obtain ⟨a, b⟩ := a
    obtain ⟨rfl, h1, h2⟩ := h
    exact hf _ _ h1 h2

/-- Lists and a number. -/
structure Sgn [Cell γ δ] (a : α × δ) (a' : α × γ) : Prop where
  eq : a.1 = a'.1
  num : Num 0 a.2 a'.2

theorem CRel.forRangeSgn [Cell γ δ] {lo hi : Nat} {a : α} {x : δ} {x' : γ} {f : Nat → α × δ → Run (α × δ)} {f' : Nat → α × γ → Except Err (α × γ)}
    (hn : hi - lo ≤ n) (hx : Num 0 x x') (hf : ∀ i a x x', Num 0 x x' → CRel Sgn k (f i (a, x)) (f' i (a, x'))) :
    CRel Sgn (n * k) (Counted.forRange lo hi (a, x) f) (RustDct.forRange lo hi (a, x') f') :=
  CRel.forRange hn ⟨rfl, hx⟩ fun i a a' h => by
    obtain ⟨a, x⟩ := a
    obtain ⟨a', x'⟩ := a'
    obtain ⟨rfl, h⟩ := h
    exact hf i _ _ _ h

theorem CRel.bindSgn [Cell γ δ] {x : Run (α × δ)} {x' : Except Err (α × γ)} {f : α × δ → Run ρ} {f' : α × γ → Except Err ρ'} (h : CRel Sgn k x x')
    (hf : ∀ a x x', Num 0 x x' → CRel r l (f (a, x)) (f' (a, x'))) : CRel r (k + l) (x >>= f) (x' >>= f') :=
  h.bind fun a a' h => by
    obtain ⟨a, x⟩ := a
    obtain ⟨a', x'⟩ := a'
    obtain ⟨rfl, h⟩ := h
    exact hf _ _ _ h

theorem CRel.bindSgnPure {T F : Type} [F64 F] [DctNum T F] {b : α} {x : Cn T} {x' : T} (h : Num k x x') :
    CRel Sgn (k + 0) (Counted.arith x >>= fun y => (Pure.pure (b, y) : Run (α × Cn T))) (Except.ok (b, x')) :=
  CRel.bindOk (f' := fun y => Except.ok (b, y)) (CRel.arith h) fun y y' hy => CRel.pure ⟨rfl, hy⟩

theorem CRel.bindAssign [Cell α β] [Cell γ δ] {g : δ → β} {g' : γ → α} {dst : List α} {srcs : List γ} {f : List α → Run ρ} {f' : List α → Except Err ρ'}
    (hn : min dst.length srcs.length ≤ n) (hg : ∀ d c, Num 0 d c → Num k (g d) (g' c))
    (hf : ∀ b : List α, b.length = dst.length → CRel r l (f b) (f' b)) :
    CRel r (n * (k + 3) + l) (Counted.assignZip g dst srcs >>= f) (Except.ok (RustDct.assignZip g' dst srcs) >>= f') :=
  CRel.bindL (CRel.assignZip hn hg) hf

end

/-- Lemmas about functions called by the methods. -/
syntax "capp" : tactic

/-- A bound of the number of iterations of a zip. -/
syntax "zbound" : tactic
macro_rules
  | `(tactic| zbound) => `(tactic| first
    | exact (Nat.min_le_right _ _).trans (by simp only [List.length_reverse, List.length_drop, *]; exact le_rfl)
    | exact (Nat.min_le_left _ _).trans (by simp only [List.length_reverse, List.length_drop, *]; exact le_rfl))

syntax "crel" : tactic

open Lean Elab Tactic Meta

private def headOf (e : Expr) : MetaM (Name × Array Expr) := do
  let e := e.consumeMData
  return (e.getAppFn.constName?.getD .anonymous, e.getAppArgs)

elab_rules : tactic
  | `(tactic| crel) => withMainContext do
    let g ← getMainGoal
    let t ← instantiateMVars (← g.getType)
    let t := t.consumeMData
    let args := t.getAppArgs
    unless t.getAppFn.isConstOf ``CRel && args.size == 6 do throwError "crel: {t}"
    let c := (args[4]!).consumeMData
    let e := (args[5]!).consumeMData
    if c.isLet || e.isLet then
      evalTactic (← `(tactic| (crel_let; crel)))
      return
    let (h, as) ← headOf c
    if h == ``Bind.bind then
      let (h', as') ← headOf as[4]!
      match h' with
      | ``Counted.csub => evalTactic (← `(tactic| exact CRel.bindCsub (by crel)))
      | ``Counted.rd => evalTactic (← `(tactic| exact CRel.bindRd (by intro _ _ _; crel)))
      | ``Counted.rdU => evalTactic (← `(tactic| exact CRel.bindRdU (by intro _ _ _; crel)))
      | ``Counted.wr => evalTactic (← `(tactic| exact CRel.bindWr (by first | assumption | rfl) (by vrel) (by intro _ _; crel)))
      | ``Counted.wrU => evalTactic (← `(tactic| exact CRel.bindWrU (by first | assumption | rfl) (by vrel) (by intro _ _; crel)))
      | ``Counted.copyFromSlice => evalTactic (← `(tactic| exact CRel.bindCopy (by assumption) (by intro _ _; crel)))
      | ``Counted.splitAtMut => evalTactic (← `(tactic| exact CRel.bindSplit (by intro _ _ _ _; dsimp -zeta only; crel)))
      | ``Counted.arith =>
        if e.getAppFn.isConstOf ``Except.ok then evalTactic (← `(tactic| exact CRel.bindSgnPure (by vrel)))
        else evalTactic (← `(tactic| exact CRel.bind (CRel.arith (by vrel)) (by intro _ _ _; crel)))
      | ``Counted.arithC => evalTactic (← `(tactic| exact CRel.bind (CRel.arithC (by vrel)) (by intro _ _ _; crel)))
      | ``Counted.sumSlice => evalTactic (← `(tactic| exact CRel.bindSum (by assumption) (by assumption) (by intro _ _; crel)))
      | ``Counted.assignZip => evalTactic (← `(tactic| exact CRel.bindAssign (by zbound) (by intro _ _ _; vrel) (by intro _ _; crel)))
      | ``Counted.strideLoop => evalTactic (← `(tactic| capp))
      | ``Counted.mdctLoop => evalTactic (← `(tactic| capp))
      | ``Counted.rdMirror => evalTactic (← `(tactic| capp))
      | ``Counted.zipUpdate => evalTactic (← `(tactic| capp))
      | ``Counted.runInnerPair => evalTactic (← `(tactic| capp))
      | ``Counted.forRange =>
        let st := as'[0]!.consumeMData
        if st.isAppOfArity ``Prod 2 && st.appArg!.getAppFn.isConstOf ``Cn then
          evalTactic (← `(tactic| exact CRel.bindSgn (by crel) (by intro _ _ _ _; dsimp -zeta only; crel)))
        else if st.isAppOfArity ``Prod 2 && st.appArg!.getAppFn.isConstOf ``List then
          evalTactic (← `(tactic| exact CRel.bind2 (by crel) (by intro _ _ _ _; dsimp -zeta only; crel)))
        else
          evalTactic (← `(tactic| exact CRel.bindEq (by crel) (by intro _; (try casesm* _ × _); (try dsimp -zeta only); crel)))
      | _ => evalTactic (← `(tactic| exact CRel.bindEq (by crel) (by intro _; (try casesm* _ × _); (try dsimp -zeta only); crel)))
      return
    if (← headOf e).1 == ``Bind.bind then
      evalTactic (← `(tactic| exact CRel.okR (by crel)))
      return
    match h with
    | ``Counted.csub => evalTactic (← `(tactic| exact CRel.csub))
    | ``Counted.rd => evalTactic (← `(tactic| exact CRel.rd))
    | ``Counted.rdU => evalTactic (← `(tactic| exact CRel.rdU))
    | ``Counted.wr => evalTactic (← `(tactic| exact CRel.wr' (by vrel)))
    | ``Counted.wrU => evalTactic (← `(tactic| exact CRel.wrU' (by vrel)))
    | ``Counted.arr => evalTactic (← `(tactic| exact CRel.arr (by arel)))
    | ``Pure.pure => evalTactic (← `(tactic| exact CRel.pure (by first | rfl | exact ⟨rfl, by vrel⟩ | exact ⟨rfl, by assumption, by assumption⟩ | vrel)))
    | ``Counted.callProc => evalTactic (← `(tactic| exact CRel.callProc (by assumption)))
    | ``Counted.fftCall => evalTactic (← `(tactic| exact CRel.fftCall))
    | ``ite => evalTactic (← `(tactic| exact CRel.ite (by intro _; crel) (by intro _; crel)))
    | ``Functor.map => evalTactic (← `(tactic| first | exact CRel.mapL (by crel) | exact CRel.map (by crel)))
    | ``Counted.assignZip => evalTactic (← `(tactic| exact CRel.assignZip (by zbound) (by intro _ _ _; vrel)))
    | ``Counted.updZip => evalTactic (← `(tactic| exact CRel.updZip (by zbound) (by intro _ _ _ _ _ _; vrel)))
    | ``Counted.zipWith => evalTactic (← `(tactic| exact CRel.zipWith (by first | exact (Nat.min_le_left _ _).trans (by simp only [*]; exact le_rfl) | zbound) (by intro _ _ _ _ _ _; vrel)))
    | ``Counted.forRange =>
      let st := as[0]!.consumeMData
      if st.isAppOfArity ``Prod 2 && st.appArg!.getAppFn.isConstOf ``Cn then
        evalTactic (← `(tactic| exact CRel.forRangeSgn (by lbound) (by vrel) (by intro _ _ _ _ _; dsimp -zeta only; crel)))
      else if st.isAppOfArity ``Prod 2 && st.appArg!.getAppFn.isConstOf ``List then
        evalTactic (← `(tactic| exact CRel.forRange2 (by assumption) (by assumption) (by lbound) (by intro _ _ _ _ _; dsimp -zeta only; crel)))
      else
        evalTactic (← `(tactic| exact CRel.forRangeEq (by lbound) (by intro _ _; (try casesm* _ × _); (try dsimp -zeta only); crel)))
    | _ => evalTactic (← `(tactic| capp))

/-! ### The MDCT -/

/-- The same for `mdct`. -/
structure TakesM {T : Type} (p : List T → List T → Mem T → Outcome (Mem T)) (k : Nat) (c : List T → List T → Mem T → Outcome (Mem T) × Nat) : Prop where
  same : ∀ a b m, (c a b m).1 = p a b m
  le : ∀ a b m, (c a b m).2 ≤ k

/-- The same for `imdct`. -/
structure TakesI {T : Type} (p : List T → IMem T → Outcome (IMem T)) (k : Nat) (c : List T → IMem T → Outcome (IMem T) × Nat) : Prop where
  same : ∀ a m, (c a m).1 = p a m
  le : ∀ a m, (c a m).2 ≤ k

section
variable {T : Type} {k : Nat}

theorem TakesM.mono {p : List T → List T → Mem T → Outcome (Mem T)} {c : List T → List T → Mem T → Outcome (Mem T) × Nat} {l : Nat} (h : TakesM p k c) (hl : k ≤ l) :
    TakesM p l c := ⟨h.same, fun a b m => (h.le a b m).trans hl⟩

theorem TakesI.mono {p : List T → IMem T → Outcome (IMem T)} {c : List T → IMem T → Outcome (IMem T) × Nat} {l : Nat} (h : TakesI p k c) (hl : k ≤ l) :
    TakesI p l c := ⟨h.same, fun a m => (h.le a m).trans hl⟩

theorem validateMdct_congr {a b : List T} {m : Mem T} {n s : Nat} {f f' : List T → List T → Except Err (List T × List T)}
    (h : a.length = n → b.length = n → ∀ o c, o.length = n → c.length = s → f o c = f' o c) : RustDct.validateMdct a b m n s f = RustDct.validateMdct a b m n s f' := by
  unfold RustDct.validateMdct
  split
  · rfl
  · rename_i hm
    simp only [not_or, not_not] at hm
    split
    · rename_i hs
      rw [h hm.1 hm.2.1 m.buf (m.scr.take s) hm.2.2 (by simpa using hs)]
    · rfl

theorem validateImdct_congr {a : List T} {m : IMem T} {n s : Nat} {f f' : List T → List T → List T → Except Err (List T × List T × List T)}
    (h : a.length = n → ∀ o o' c, o.length = n → o'.length = n → c.length = s → f o o' c = f' o o' c) : RustDct.validateImdct a m n s f = RustDct.validateImdct a m n s f' := by
  unfold RustDct.validateImdct
  split
  · rfl
  · rename_i hm
    simp only [not_or, not_not] at hm
    split
    · rename_i hs
      rw [h hm.1 m.outA m.outB (m.scr.take s) hm.2.1 hm.2.2 (by simpa using hs)]
    · rfl

theorem TakesM.intro {n s : Nat} {f : List T → List T → List T → List T → Run (List T × List T)} {f' : List T → List T → List T → List T → Except Err (List T × List T)}
    (h : ∀ a b o c, a.length = n → b.length = n → o.length = n → c.length = s → CRel Eq k (f a b o c) (f' a b o c)) :
    TakesM (fun a b m => RustDct.validateMdct a b m n s (f' a b)) k (fun a b m => Counted.validateMdct a b m n s (f a b)) := by
  refine ⟨fun a b m => validateMdct_congr fun ha hb o c ho hc => (h a b o c ha hb ho hc).eq, fun a b m => ?_⟩
  unfold Counted.validateMdct
  dsimp only
  split
  · rename_i hm
    exact (h a b m.buf (m.scr.take s) hm.1 hm.2.1 hm.2.2.1 (by simpa using hm.2.2.2)).le
  · exact Nat.zero_le _

theorem TakesI.intro {n s : Nat} {f : List T → List T → List T → List T → Run (List T × List T × List T)}
    {f' : List T → List T → List T → List T → Except Err (List T × List T × List T)}
    (h : ∀ a o o' c, a.length = n → o.length = n → o'.length = n → c.length = s → CRel Eq k (f a o o' c) (f' a o o' c)) :
    TakesI (fun a m => RustDct.validateImdct a m n s (f' a)) k (fun a m => Counted.validateImdct a m n s (f a)) := by
  refine ⟨fun a m => validateImdct_congr fun ha o o' c ho ho' hc => (h a o o' c ha ho ho' hc).eq, fun a m => ?_⟩
  unfold Counted.validateImdct
  dsimp only
  split
  · rename_i hm
    exact (h a m.outA m.outB (m.scr.take s) hm.1 hm.2.1 hm.2.2.1 (by simpa using hm.2.2.2)).le
  · exact Nat.zero_le _
end

/-- Proves what a method computes and a bound of its steps; leaves the comparison of the bounds. -/
macro "takes" : tactic => `(tactic| refine Takes.mono (k := _) (by exact Takes.buffers (by intro buffer scratch hb hs; crel)) ?_)

/-- The same for methods without scratch. -/
macro "takes1" : tactic => `(tactic| refine Takes.mono (k := _) (by exact Takes.buffer (by intro buffer hb; crel)) ?_)

end RustDct.Counted
