import Verif.Model.Num
import Mathlib.Tactic.Common
/-!
# Lists as tabulated functions, and evaluation of the execution primitives on them
-/

namespace RustDct

/-- The list `[f 0, …, f (n-1)]`. -/
def vec {α : Type} (n : Nat) (f : Nat → α) : List α := (List.range n).map f

/-- The function tabulated by a list (0 outside). -/
def fn {α : Type} [Zero α] (l : List α) : Nat → α := fun i => l[i]?.getD 0

instance {T : Type} [Zero T] : Zero (Cx T) := ⟨⟨0, 0⟩⟩

section
variable {α β γ : Type}

@[simp] theorem length_vec (n : Nat) (f : Nat → α) : (vec n f).length = n := by simp [vec]

theorem getElem?_vec (n : Nat) (f : Nat → α) (i : Nat) :
    (vec n f)[i]? = if i < n then some (f i) else none := by
  unfold vec
  rw [List.getElem?_map]
  by_cases h : i < n
  · simp [h]
  · simp [h]

@[simp] theorem getElem_vec (n : Nat) (f : Nat → α) (i : Nat) (h : i < (vec n f).length) : (vec n f)[i] = f i := by
  simp [vec]

theorem getElem?_vec_lt {n : Nat} {f : Nat → α} {i : Nat} (h : i < n) : (vec n f)[i]? = some (f i) := by
  simp [h]

theorem list_ext_vec {n : Nat} {f : Nat → α} {l : List α} (hl : l.length = n)
    (h : ∀ i, i < n → l[i]? = some (f i)) : l = vec n f := by
  apply List.ext_getElem?
  intro i
  by_cases hi : i < n
  · rw [h i hi, getElem?_vec_lt hi]
  · rw [getElem?_vec, if_neg hi]
    simp; omega

theorem vec_congr {n : Nat} {f g : Nat → α} (h : ∀ i, i < n → f i = g i) : vec n f = vec n g := by
  apply list_ext_vec (by simp)
  intro i hi
  rw [getElem?_vec_lt hi, h i hi]

theorem vec_congr' {n m : Nat} {f g : Nat → α} (hn : n = m) (h : ∀ i, i < n → f i = g i) : vec n f = vec m g := by
  subst hn; exact vec_congr h

theorem vec_inj {n : Nat} {f g : Nat → α} (h : vec n f = vec n g) (i : Nat) (hi : i < n) : f i = g i := by
  have := congrArg (fun l => l[i]?) h
  simpa [hi] using this

theorem eq_vec_fn [Zero α] (l : List α) : l = vec l.length (fn l) := by
  apply list_ext_vec rfl
  intro i hi
  simp [fn, List.getElem?_eq_getElem hi]

theorem exists_vec [Zero α] {n : Nat} {l : List α} (h : l.length = n) : ∃ f, l = vec n f :=
  ⟨fn l, by subst h; exact eq_vec_fn l⟩

theorem fn_vec [Zero α] {n : Nat} {f : Nat → α} {i : Nat} (h : i < n) : fn (vec n f) i = f i := by
  simp [fn, h]

@[simp] theorem vec_zero (f : Nat → α) : vec 0 f = [] := rfl

theorem vec_succ (n : Nat) (f : Nat → α) : vec (n + 1) f = f 0 :: vec n (fun i => f (i + 1)) := by
  simp [vec, List.range_succ_eq_map, Function.comp_def]

/-! ### list operations -/

theorem take_vec (n k : Nat) (f : Nat → α) (h : k ≤ n) : (vec n f).take k = vec k f := by
  apply list_ext_vec (by simp; omega)
  intro i hi
  rw [List.getElem?_take_of_lt hi, getElem?_vec_lt (by omega)]

theorem drop_vec (n k : Nat) (f : Nat → α) : (vec n f).drop k = vec (n - k) (fun i => f (k + i)) := by
  apply list_ext_vec (by simp)
  intro i hi
  rw [List.getElem?_drop, getElem?_vec_lt (by omega)]

theorem append_vec (n m : Nat) (f g : Nat → α) :
    vec n f ++ vec m g = vec (n + m) (fun i => if i < n then f i else g (i - n)) := by
  apply list_ext_vec (by simp)
  intro i hi
  by_cases h : i < n
  · rw [List.getElem?_append_left (by simpa using h), getElem?_vec_lt h, if_pos h]
  · rw [List.getElem?_append_right (by simpa using h), length_vec, getElem?_vec_lt (by omega), if_neg h]

theorem reverse_vec (n : Nat) (f : Nat → α) : (vec n f).reverse = vec n (fun i => f (n - 1 - i)) := by
  apply list_ext_vec (by simp)
  intro i hi
  rw [List.getElem?_reverse (by simpa using hi), length_vec, getElem?_vec_lt (by omega)]

theorem zipWith_vec (g : α → β → γ) (n m : Nat) (f₁ : Nat → α) (f₂ : Nat → β) :
    List.zipWith g (vec n f₁) (vec m f₂) = vec (min n m) (fun i => g (f₁ i) (f₂ i)) := by
  apply list_ext_vec (by simp)
  intro i hi
  rw [List.getElem?_zipWith, getElem?_vec_lt (by omega), getElem?_vec_lt (by omega)]

theorem zip_vec (n m : Nat) (f₁ : Nat → α) (f₂ : Nat → β) :
    (vec n f₁).zip (vec m f₂) = vec (min n m) (fun i => (f₁ i, f₂ i)) := by
  rw [List.zip, zipWith_vec]

theorem updZip_vec (u : α → β → α) (n m : Nat) (f : Nat → α) (g : Nat → β) :
    updZip u (vec n f) (vec m g) = vec n (fun i => if i < m then u (f i) (g i) else f i) := by
  unfold updZip
  rw [zipWith_vec, length_vec, drop_vec, append_vec]
  refine vec_congr' (by omega) fun i hi => ?_
  by_cases h : i < m
  · rw [if_pos (by omega), if_pos h]
  · rw [if_neg (by omega), if_neg h]
    congr 1; omega

theorem assignZip_vec (u : β → α) (n m : Nat) (f : Nat → α) (g : Nat → β) :
    assignZip u (vec n f) (vec m g) = vec n (fun i => if i < m then u (g i) else f i) := by
  unfold assignZip; rw [updZip_vec]

theorem set_vec (n : Nat) (f : Nat → α) (i : Nat) (v : α) :
    (vec n f).set i v = vec n (fun j => if j = i then v else f j) := by
  apply list_ext_vec (by simp)
  intro j hj
  rw [List.getElem?_set]
  by_cases h : i = j
  · subst h; simp [hj]
  · simp [h, Ne.symm h, hj]

theorem map_vec (n : Nat) (f : Nat → α) (g : α → β) : (vec n f).map g = vec n (fun i => g (f i)) := by
  simp [vec, Function.comp_def]

theorem replicate_eq_vec (n : Nat) (v : α) : List.replicate n v = vec n (fun _ => v) := by
  apply list_ext_vec (by simp)
  intro i hi
  simp [hi]

theorem map_range_eq_vec (n : Nat) (f : Nat → α) : (List.range n).map f = vec n f := rfl

end

/-! ### complex views -/

section
variable {T : Type}

@[simp] theorem length_intoComplex : ∀ l : List T, (intoComplex l).length = l.length / 2
  | [] => by simp [intoComplex]
  | [_] => by simp [intoComplex]
  | _ :: _ :: r => by simp [intoComplex, length_intoComplex r]; omega

theorem getElem?_intoComplex : ∀ (l : List T) (i : Nat) (a b : T), l[2 * i]? = some a → l[2 * i + 1]? = some b →
    (intoComplex l)[i]? = some ⟨a, b⟩
  | [], i, a, b, h, _ => by simp at h
  | [_], i, a, b, _, h => by simp at h
  | x :: y :: r, 0, a, b, h1, h2 => by simp_all [intoComplex]
  | x :: y :: r, i + 1, a, b, h1, h2 => by
    simp only [intoComplex, List.getElem?_cons_succ]
    apply getElem?_intoComplex r i a b
    · simpa [Nat.mul_add] using h1
    · simpa [Nat.mul_add] using h2

theorem intoComplex_vec (n : Nat) (f : Nat → T) :
    intoComplex (vec n f) = vec (n / 2) (fun i => ⟨f (2 * i), f (2 * i + 1)⟩) := by
  apply list_ext_vec (by simp)
  intro i hi
  apply getElem?_intoComplex
  · rw [getElem?_vec_lt (by omega)]
  · rw [getElem?_vec_lt (by omega)]

@[simp] theorem length_flattenComplex : ∀ l : List (Cx T), (flattenComplex l).length = 2 * l.length
  | [] => rfl
  | _ :: r => by simp [flattenComplex, length_flattenComplex r]; omega

theorem getElem?_flattenComplex : ∀ (l : List (Cx T)) (i : Nat),
    (flattenComplex l)[i]? = (l[i / 2]?).map (fun c => if i % 2 = 0 then c.re else c.im)
  | [], i => by simp [flattenComplex]
  | c :: r, 0 => by simp [flattenComplex]
  | c :: r, 1 => by simp [flattenComplex]
  | c :: r, i + 2 => by
    simp only [flattenComplex, List.getElem?_cons_succ]
    rw [getElem?_flattenComplex r i]
    have h1 : (i + 2) / 2 = i / 2 + 1 := by omega
    have h2 : (i + 2) % 2 = i % 2 := by omega
    rw [h1, h2, List.getElem?_cons_succ]

theorem flattenComplex_vec (n : Nat) (c : Nat → Cx T) :
    flattenComplex (vec n c) = vec (2 * n) (fun i => if i % 2 = 0 then (c (i / 2)).re else (c (i / 2)).im) := by
  apply list_ext_vec (by simp)
  intro i hi
  rw [getElem?_flattenComplex, getElem?_vec_lt (by omega)]
  rfl

theorem length_fromComplex (cs : List (Cx T)) (orig : List T) (h : 2 * cs.length ≤ orig.length) :
    (fromComplex cs orig).length = orig.length := by
  simp [fromComplex]; omega

end

/-! ### execution primitives -/

section
variable {α σ : Type}

@[simp] theorem ok_bind {ε α β : Type} (a : α) (f : α → Except ε β) : (Except.ok a >>= f) = f a := rfl
@[simp] theorem error_bind {ε α β : Type} (e : ε) (f : α → Except ε β) :
    ((Except.error e : Except ε α) >>= f) = .error e := rfl

theorem rd_vec {n : Nat} {f : Nat → α} {i : Nat} (h : i < n) : rd (vec n f) i = .ok (f i) := by
  simp [rd, h]
theorem rdU_vec {n : Nat} {f : Nat → α} {i : Nat} (h : i < n) : rdU (vec n f) i = .ok (f i) := by
  simp [rdU, h]
theorem wr_vec {n : Nat} {f : Nat → α} {i : Nat} {v : α} (h : i < n) :
    wr (vec n f) i v = .ok (vec n (fun j => if j = i then v else f j)) := by
  simp [wr, h, set_vec]
theorem wrU_vec {n : Nat} {f : Nat → α} {i : Nat} {v : α} (h : i < n) :
    wrU (vec n f) i v = .ok (vec n (fun j => if j = i then v else f j)) := by
  simp [wrU, h, set_vec]
theorem csub_ok {a b : Nat} (h : b ≤ a) : csub a b = .ok (a - b) := by simp [csub, h]
theorem splitAtMut_vec {n k : Nat} {f : Nat → α} (h : k ≤ n) :
    splitAtMut (vec n f) k = .ok (vec k f, vec (n - k) (fun i => f (k + i))) := by
  simp [splitAtMut, h, take_vec, drop_vec]
theorem copyFromSlice_vec {n : Nat} {f g : Nat → α} :
    copyFromSlice (vec n f) (vec n g) = .ok (vec n g) := by simp [copyFromSlice]

theorem forRange_eq {lo hi : Nat} {s : σ} {f : Nat → σ → Except Err σ} (g : Nat → σ)
    (hs : s = g lo) (hstep : ∀ i, lo ≤ i → i < hi → f i (g i) = .ok (g (i + 1))) (h : lo ≤ hi) :
    forRange lo hi s f = .ok (g hi) := by
  obtain ⟨k, rfl⟩ := Nat.exists_eq_add_of_le h
  subst hs
  unfold forRange
  rw [Nat.add_sub_cancel_left]
  clear h
  induction k generalizing lo with
  | zero => rfl
  | succ k ih =>
    rw [List.range'_succ, List.foldlM_cons, hstep lo (Nat.le_refl _) (by omega)]
    rw [ok_bind]
    have := ih (lo := lo + 1) (fun i h1 h2 => hstep i (by omega) (by omega))
    rw [this]
    congr 2; omega

/-- Loop rule with an invariant, when the final state need not be known exactly. -/
theorem forRange_inv {lo hi : Nat} {s : σ} {f : Nat → σ → Except Err σ} (P : Nat → σ → Prop)
    (hs : P lo s) (hstep : ∀ i st, lo ≤ i → i < hi → P i st → ∃ st', f i st = .ok st' ∧ P (i + 1) st') (h : lo ≤ hi) :
    ∃ st', forRange lo hi s f = .ok st' ∧ P hi st' := by
  obtain ⟨k, rfl⟩ := Nat.exists_eq_add_of_le h
  unfold forRange
  rw [Nat.add_sub_cancel_left]
  clear h
  induction k generalizing lo s with
  | zero => exact ⟨s, rfl, hs⟩
  | succ k ih =>
    rw [List.range'_succ, List.foldlM_cons]
    obtain ⟨st', h1, h2⟩ := hstep lo s (Nat.le_refl _) (by omega) hs
    rw [h1, ok_bind]
    have := ih (lo := lo + 1) h2 (fun i st a b => hstep i st (by omega) (by omega))
    rwa [show lo + 1 + k = lo + (k + 1) by omega] at this

end

/-! ### runs -/

section
variable {T : Type}

/-- On every tabulated buffer of length `n` and every sufficient scratch, the call returns with the buffer given
by `C`, whatever scratch contained; scratch keeps its length and everything beyond the first `s` elements. -/
def RunsV (p : Proc T) (n s : Nat) (C : (Nat → T) → Nat → T) : Prop :=
  ∀ (f : Nat → T) (scr : List T), s ≤ scr.length →
    ∃ scr', p ⟨vec n f, scr⟩ = .ok ⟨vec n (C f), scr'⟩ ∧ scr'.length = scr.length ∧ scr'.drop s = scr.drop s

theorem runsV_of_body {n s : Nat} {body : List T → List T → Except Err (List T × List T)}
    {C : (Nat → T) → Nat → T}
    (h : ∀ f sc, sc.length = s → ∃ sc', body (vec n f) sc = .ok (vec n (C f), sc') ∧ sc'.length = s) :
    RunsV (fun m => validateBuffers m n s body) n s C := by
  intro f scr hs
  obtain ⟨sc', h1, h2⟩ := h f (scr.take s) (by simp; omega)
  refine ⟨sc' ++ scr.drop s, ?_, by simp; omega, by simp [h2]⟩
  simp [validateBuffers, hs, h1]

theorem RunsV.congr {p : Proc T} {n s : Nat} {C D : (Nat → T) → Nat → T} (h : RunsV p n s C)
    (hcd : ∀ f k, k < n → C f k = D f k) : RunsV p n s D := by
  intro f scr hs
  obtain ⟨scr', h1, h2⟩ := h f scr hs
  exact ⟨scr', by rw [h1, vec_congr (fun k hk => hcd f k hk)], h2⟩

/-- What an enclosing algorithm needs of an inner transform it calls: as `RunsV`, but the inner call may overwrite all of
the scratch slice it is handed. -/
def RunsW (p : Proc T) (n s : Nat) (C : (Nat → T) → Nat → T) : Prop :=
  ∀ (f : Nat → T) (scr : List T), s ≤ scr.length →
    ∃ scr', p ⟨vec n f, scr⟩ = .ok ⟨vec n (C f), scr'⟩ ∧ scr'.length = scr.length

theorem RunsV.weak {p : Proc T} {n s : Nat} {C : (Nat → T) → Nat → T} (h : RunsV p n s C) : RunsW p n s C := by
  intro f scr hs
  obtain ⟨scr', h1, h2, -⟩ := h f scr hs
  exact ⟨scr', h1, h2⟩

theorem RunsW.callProc {p : Proc T} {n s : Nat} {C : (Nat → T) → Nat → T} (h : RunsW p n s C)
    (f : Nat → T) {m : Nat} (g : Nat → T) (hs : s ≤ m) [Zero T] :
    ∃ g', callProc p (vec n f) (vec m g) = .ok (vec n (C f), vec m g') := by
  obtain ⟨scr', h1, h2⟩ := h f (vec m g) (by simpa using hs)
  rw [length_vec] at h2
  obtain ⟨g', rfl⟩ := exists_vec h2
  exact ⟨g', by simp [RustDct.callProc, h1]⟩

end

end RustDct
