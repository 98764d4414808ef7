import Verif.Proofs.ButterfliesRuns
/-!
# The public unsafe methods of the butterflies

`Framed n r x y`: `y` does to `l ++ r` what `x` does to `l`.  `Hits x`: undefined behaviour.
-/

set_option linter.all false

namespace RustDct

section
variable {T : Type}

/-- The run `y` ends as the run `x`, with `r` behind the list. -/
def Framed (n : Nat) (r : List T) (x y : Except Err (List T)) : Prop := y = x.map (· ++ r) ∧ ∀ l, x = .ok l → l.length = n

theorem rdU_append {l r : List T} {i : Nat} (h : i < l.length) : rdU (l ++ r) i = rdU l i := by
  unfold rdU; rw [List.getElem?_append_left h]

theorem wrU_append {l r : List T} {i : Nat} {v : T} (h : i < l.length) : wrU (l ++ r) i v = .ok (l.set i v ++ r) := by
  unfold wrU; rw [if_pos (by simp; omega), List.set_append_left _ _ h]

theorem Framed.done {n : Nat} {r l : List T} (h : l.length = n) : Framed n r (.ok l) (.ok (l ++ r)) :=
  ⟨rfl, fun _ e => by injection e with e; rw [← e, h]⟩

theorem Framed.same {n : Nat} {r : List T} {α : Type} {x : Except Err α} {f g : α → Except Err (List T)} (h : ∀ a, Framed n r (f a) (g a)) :
    Framed n r (x >>= f) (x >>= g) := by
  cases x with
  | error e => exact ⟨rfl, fun _ e => by cases e⟩
  | ok a => exact h a

theorem Framed.read {n : Nat} {r l : List T} {i : Nat} {f g : T → Except Err (List T)} (hl : l.length = n) (hi : i < n)
    (h : ∀ a, Framed n r (f a) (g a)) : Framed n r (rdU l i >>= f) (rdU (l ++ r) i >>= g) := by
  rw [rdU_append (by omega)]; exact .same h

theorem Framed.write {n : Nat} {r l : List T} {i : Nat} {v : T} {f g : List T → Except Err (List T)} (hl : l.length = n) (hi : i < n)
    (h : ∀ l', l'.length = n → Framed n r (f l') (g (l' ++ r))) : Framed n r (wrU l i v >>= f) (wrU (l ++ r) i v >>= g) := by
  rw [wrU_append (by omega), show wrU l i v = .ok (l.set i v) from if_pos (by omega)]
  exact h _ (by simpa using hl)

theorem Framed.call {n : Nat} {r : List T} {x y : Except Err (List T)} {f g : List T → Except Err (List T)} (hx : Framed n r x y)
    (h : ∀ l', l'.length = n → Framed n r (f l') (g (l' ++ r))) : Framed n r (x >>= f) (y >>= g) := by
  obtain ⟨rfl, hl⟩ := hx
  cases x with
  | error e => exact ⟨rfl, fun _ e => by cases e⟩
  | ok a => exact h a (hl a rfl)

theorem Framed.foldlM {n : Nat} {r : List T} {F G : List T → Nat → Except Err (List T)} :
    ∀ {l : List T} (is : List Nat), l.length = n → (∀ i ∈ is, ∀ l : List T, l.length = n → Framed n r (F l i) (G (l ++ r) i)) →
      Framed n r (is.foldlM F l) (is.foldlM G (l ++ r))
  | l, [], hl, _ => .done hl
  | l, i :: is, hl, h => by
    rw [List.foldlM_cons, List.foldlM_cons]
    exact .call (h i (by simp) l hl) fun l' hl' => Framed.foldlM is hl' fun j hj => h j (by simp [hj])

theorem Framed.loop {n lo hi : Nat} {r l : List T} {F G : Nat → List T → Except Err (List T)} (hl : l.length = n)
    (h : ∀ i, i < hi → ∀ l : List T, l.length = n → Framed n r (F i l) (G i (l ++ r))) : Framed n r (forRange lo hi l F) (forRange lo hi (l ++ r) G) := by
  unfold forRange
  refine Framed.foldlM _ hl fun i hi l hl => ?_
  rw [List.mem_range'_1] at hi
  exact h i (by omega) l hl

/-- Undefined behaviour. -/
def Hits {α : Type} (x : Except Err α) : Prop := x = .error .ub

theorem Hits.now {l : List T} {i : Nat} {α : Type} {f : T → Except Err α} (h : l.length ≤ i) : Hits (rdU l i >>= f) := by
  unfold rdU; rw [List.getElem?_eq_none h]; rfl

theorem Hits.nowW {l : List T} {i : Nat} {v : T} {α : Type} {f : List T → Except Err α} (h : l.length ≤ i) : Hits (wrU l i v >>= f) := by
  unfold wrU; rw [if_neg (by omega)]; rfl

theorem Hits.read {l : List T} {i : Nat} {α : Type} {f : T → Except Err α} (h : ∀ a, Hits (f a)) : Hits (rdU l i >>= f) := by
  unfold rdU; cases l[i]? with
  | none => rfl
  | some a => exact h a

theorem Hits.write {l : List T} {i : Nat} {v : T} {α : Type} {f : List T → Except Err α} (h : ∀ l', l'.length = l.length → Hits (f l')) :
    Hits (wrU l i v >>= f) := by
  unfold wrU; split
  · exact h _ (by simp)
  · rfl

theorem Hits.call {x : Except Err (List T)} {α : Type} {f : List T → Except Err α} (hx : (∃ l, x = .ok l) ∨ x = .error .ub) (h : ∀ l', Hits (f l')) :
    Hits (x >>= f) := by
  rcases hx with ⟨l, rfl⟩ | rfl
  · exact h l
  · rfl

theorem Hits.stop {α β : Type} {x : Except Err β} {f : β → Except Err α} (hx : Hits x) : Hits (x >>= f) := by
  rw [hx]; rfl

end

section
variable {T : Type} {F : Type} [F64 F] [DctNum T F]

attribute [local irreducible] rdU wrU rd wr Framed forRange

macro "framed" : tactic => `(tactic| repeat' first
  | exact Framed.done (by assumption)
  | (refine Framed.read (by assumption) (by omega) fun _ => ?_)
  | (refine Framed.write (by assumption) (by omega) fun _ _ => ?_)
  | (refine Framed.call (Framed.loop (by assumption) fun _ _ _ _ => ?_) fun _ _ => ?_)
  | (refine Framed.same fun _ => ?_))

macro "hits" : tactic => `(tactic| repeat' first
  | exact Hits.now (by omega)
  | exact Hits.nowW (by omega)
  | (refine Hits.read fun _ => ?_)
  | (refine Hits.write fun _ _ => ?_))

theorem Type2And3Butterfly2.framed_scatteredDct2 {n i j : Nat} {l r : List T} (h : l.length = n) (hi : i < n) (hj : j < n) :
    Framed n r (Type2And3Butterfly2.scatteredDct2 l i j) (Type2And3Butterfly2.scatteredDct2 (l ++ r) i j) := by
  unfold Type2And3Butterfly2.scatteredDct2
  repeat' first
    | exact Framed.done (by assumption)
    | (refine Framed.read (by assumption) (by omega) fun _ => ?_)
    | (refine Framed.write (by assumption) (by omega) fun _ _ => ?_)

theorem Type2And3Butterfly2.framed_scatteredDct3 {n i j : Nat} {l r : List T} (h : l.length = n) (hi : i < n) (hj : j < n) :
    Framed n r (Type2And3Butterfly2.scatteredDct3 l i j) (Type2And3Butterfly2.scatteredDct3 (l ++ r) i j) := by
  unfold Type2And3Butterfly2.scatteredDct3
  repeat' first
    | exact Framed.done (by assumption)
    | (refine Framed.read (by assumption) (by omega) fun _ => ?_)
    | (refine Framed.write (by assumption) (by omega) fun _ _ => ?_)

theorem Type2And3Butterfly2.framed_Dct2 (self : Type2And3Butterfly2 T) {l r : List T} (h : l.length = 2) : Framed 2 r (self.inplaceDct2 l) (self.inplaceDct2 (l ++ r)) := by
  unfold Type2And3Butterfly2.inplaceDct2
  framed

theorem Type2And3Butterfly2.framed_Dct3 (self : Type2And3Butterfly2 T) {l r : List T} (h : l.length = 2) : Framed 2 r (self.inplaceDct3 l) (self.inplaceDct3 (l ++ r)) := by
  unfold Type2And3Butterfly2.inplaceDct3
  framed

theorem Type2And3Butterfly2.framed_Dst2 (self : Type2And3Butterfly2 T) {l r : List T} (h : l.length = 2) : Framed 2 r (self.inplaceDst2 l) (self.inplaceDst2 (l ++ r)) := by
  unfold Type2And3Butterfly2.inplaceDst2
  framed

theorem Type2And3Butterfly2.framed_Dst3 (self : Type2And3Butterfly2 T) {l r : List T} (h : l.length = 2) : Framed 2 r (self.inplaceDst3 l) (self.inplaceDst3 (l ++ r)) := by
  unfold Type2And3Butterfly2.inplaceDst3
  framed

theorem Type2And3Butterfly3.framed_Dct2 (self : Type2And3Butterfly3 T) {l r : List T} (h : l.length = 3) : Framed 3 r (self.inplaceDct2 l) (self.inplaceDct2 (l ++ r)) := by
  unfold Type2And3Butterfly3.inplaceDct2
  framed

theorem Type2And3Butterfly3.framed_Dct3 (self : Type2And3Butterfly3 T) {l r : List T} (h : l.length = 3) : Framed 3 r (self.inplaceDct3 l) (self.inplaceDct3 (l ++ r)) := by
  unfold Type2And3Butterfly3.inplaceDct3
  framed

theorem Type2And3Butterfly3.framed_Dst2 (self : Type2And3Butterfly3 T) {l r : List T} (h : l.length = 3) : Framed 3 r (self.inplaceDst2 l) (self.inplaceDst2 (l ++ r)) := by
  unfold Type2And3Butterfly3.inplaceDst2
  framed

theorem Type2And3Butterfly3.framed_Dst3 (self : Type2And3Butterfly3 T) {l r : List T} (h : l.length = 3) : Framed 3 r (self.inplaceDst3 l) (self.inplaceDst3 (l ++ r)) := by
  unfold Type2And3Butterfly3.inplaceDst3
  framed

theorem Type2And3Butterfly4.framed_Dct2 (self : Type2And3Butterfly4 T) {l r : List T} (h : l.length = 4) : Framed 4 r (self.inplaceDct2 l) (self.inplaceDct2 (l ++ r)) := by
  unfold Type2And3Butterfly4.inplaceDct2
  repeat' first
    | exact Framed.done (by assumption)
    | (refine Framed.read (by assumption) (by decide) fun _ => ?_)
    | (refine Framed.write (by assumption) (by decide) fun _ _ => ?_)
    | (refine Framed.call (Type2And3Butterfly2.framed_scatteredDct2 (by assumption) (by decide) (by decide)) fun _ _ => ?_)

theorem Type2And3Butterfly4.framed_Dct3 (self : Type2And3Butterfly4 T) {l r : List T} (h : l.length = 4) : Framed 4 r (self.inplaceDct3 l) (self.inplaceDct3 (l ++ r)) := by
  unfold Type2And3Butterfly4.inplaceDct3
  repeat' first
    | exact Framed.done (by assumption)
    | (refine Framed.read (by assumption) (by decide) fun _ => ?_)
    | (refine Framed.write (by assumption) (by decide) fun _ _ => ?_)
    | (refine Framed.call (Type2And3Butterfly2.framed_scatteredDct3 (by assumption) (by decide) (by decide)) fun _ _ => ?_)

theorem Type2And3Butterfly4.framed_Dst2 (self : Type2And3Butterfly4 T) {l r : List T} (h : l.length = 4) : Framed 4 r (self.inplaceDst2 l) (self.inplaceDst2 (l ++ r)) := by
  unfold Type2And3Butterfly4.inplaceDst2
  repeat' first
    | exact Framed.done (by assumption)
    | (refine Framed.read (by assumption) (by decide) fun _ => ?_)
    | (refine Framed.write (by assumption) (by decide) fun _ _ => ?_)
    | (refine Framed.call (Type2And3Butterfly2.framed_scatteredDct2 (by assumption) (by decide) (by decide)) fun _ _ => ?_)

theorem Type2And3Butterfly4.framed_Dst3 (self : Type2And3Butterfly4 T) {l r : List T} (h : l.length = 4) : Framed 4 r (self.inplaceDst3 l) (self.inplaceDst3 (l ++ r)) := by
  unfold Type2And3Butterfly4.inplaceDst3
  repeat' first
    | exact Framed.done (by assumption)
    | (refine Framed.read (by assumption) (by decide) fun _ => ?_)
    | (refine Framed.write (by assumption) (by decide) fun _ _ => ?_)
    | (refine Framed.call (Type2And3Butterfly2.framed_scatteredDct3 (by assumption) (by decide) (by decide)) fun _ _ => ?_)

theorem Type2And3Butterfly8.framed_Dct2 (self : Type2And3Butterfly8 T) {l r : List T} (h : l.length = 8) : Framed 8 r (self.inplaceDct2 l) (self.inplaceDct2 (l ++ r)) := by
  unfold Type2And3Butterfly8.inplaceDct2
  framed

theorem Type2And3Butterfly8.framed_Dct3 (self : Type2And3Butterfly8 T) {l r : List T} (h : l.length = 8) : Framed 8 r (self.inplaceDct3 l) (self.inplaceDct3 (l ++ r)) := by
  unfold Type2And3Butterfly8.inplaceDct3
  framed

theorem Type2And3Butterfly8.framed_Dst2 (self : Type2And3Butterfly8 T) {l r : List T} (h : l.length = 8) : Framed 8 r (self.inplaceDst2 l) (self.inplaceDst2 (l ++ r)) := by
  unfold Type2And3Butterfly8.inplaceDst2
  framed

theorem Type2And3Butterfly8.framed_Dst3 (self : Type2And3Butterfly8 T) {l r : List T} (h : l.length = 8) : Framed 8 r (self.inplaceDst3 l) (self.inplaceDst3 (l ++ r)) := by
  unfold Type2And3Butterfly8.inplaceDst3
  framed

theorem Type2And3Butterfly16.framed_Dct2 (self : Type2And3Butterfly16 T) {l r : List T} (h : l.length = 16) : Framed 16 r (self.inplaceDct2 l) (self.inplaceDct2 (l ++ r)) := by
  unfold Type2And3Butterfly16.inplaceDct2
  framed

theorem Type2And3Butterfly16.framed_Dct3 (self : Type2And3Butterfly16 T) {l r : List T} (h : l.length = 16) : Framed 16 r (self.inplaceDct3 l) (self.inplaceDct3 (l ++ r)) := by
  unfold Type2And3Butterfly16.inplaceDct3
  framed

theorem Type2And3Butterfly16.framed_Dst2 (self : Type2And3Butterfly16 T) {l r : List T} (h : l.length = 16) : Framed 16 r (self.inplaceDst2 l) (self.inplaceDst2 (l ++ r)) := by
  unfold Type2And3Butterfly16.inplaceDst2
  framed

theorem Type2And3Butterfly16.framed_Dst3 (self : Type2And3Butterfly16 T) {l r : List T} (h : l.length = 16) : Framed 16 r (self.inplaceDst3 l) (self.inplaceDst3 (l ++ r)) := by
  unfold Type2And3Butterfly16.inplaceDst3
  framed

theorem Type2And3Butterfly2.hits_scatteredDct2 {n i j : Nat} {l : List T} {α : Type} {f : List T → Except Err α} (hl : l.length ≤ n)
    (h : ∀ l' : List T, l'.length ≤ n → Hits (f l')) : Hits (Type2And3Butterfly2.scatteredDct2 l i j >>= f) := by
  unfold Type2And3Butterfly2.scatteredDct2
  simp only [bind_assoc]
  repeat' first
    | (refine Hits.read fun _ => ?_)
    | (refine Hits.write fun _ _ => ?_)
    | exact h _ (by omega)

theorem Type2And3Butterfly2.hits_scatteredDct3 {n i j : Nat} {l : List T} {α : Type} {f : List T → Except Err α} (hl : l.length ≤ n)
    (h : ∀ l' : List T, l'.length ≤ n → Hits (f l')) : Hits (Type2And3Butterfly2.scatteredDct3 l i j >>= f) := by
  unfold Type2And3Butterfly2.scatteredDct3
  simp only [bind_assoc]
  repeat' first
    | (refine Hits.read fun _ => ?_)
    | (refine Hits.write fun _ _ => ?_)
    | exact h _ (by omega)

theorem Type2And3Butterfly2.hits_Dct2 (self : Type2And3Butterfly2 T) {l : List T} (h : l.length < 2) : Hits (self.inplaceDct2 l) := by
  unfold Type2And3Butterfly2.inplaceDct2
  repeat' first
    | exact Hits.now (by omega)
    | exact Hits.nowW (by omega)
    | (refine Hits.read fun _ => ?_)
    | (refine Hits.write fun _ _ => ?_)

theorem Type2And3Butterfly2.hits_Dct3 (self : Type2And3Butterfly2 T) {l : List T} (h : l.length < 2) : Hits (self.inplaceDct3 l) := by
  unfold Type2And3Butterfly2.inplaceDct3
  repeat' first
    | exact Hits.now (by omega)
    | exact Hits.nowW (by omega)
    | (refine Hits.read fun _ => ?_)
    | (refine Hits.write fun _ _ => ?_)

theorem Type2And3Butterfly2.hits_Dst2 (self : Type2And3Butterfly2 T) {l : List T} (h : l.length < 2) : Hits (self.inplaceDst2 l) := by
  unfold Type2And3Butterfly2.inplaceDst2
  repeat' first
    | exact Hits.now (by omega)
    | exact Hits.nowW (by omega)
    | (refine Hits.read fun _ => ?_)
    | (refine Hits.write fun _ _ => ?_)

theorem Type2And3Butterfly2.hits_Dst3 (self : Type2And3Butterfly2 T) {l : List T} (h : l.length < 2) : Hits (self.inplaceDst3 l) := by
  unfold Type2And3Butterfly2.inplaceDst3
  repeat' first
    | exact Hits.now (by omega)
    | exact Hits.nowW (by omega)
    | (refine Hits.read fun _ => ?_)
    | (refine Hits.write fun _ _ => ?_)

theorem Type2And3Butterfly3.hits_Dct2 (self : Type2And3Butterfly3 T) {l : List T} (h : l.length < 3) : Hits (self.inplaceDct2 l) := by
  unfold Type2And3Butterfly3.inplaceDct2
  repeat' first
    | exact Hits.now (by omega)
    | exact Hits.nowW (by omega)
    | (refine Hits.read fun _ => ?_)
    | (refine Hits.write fun _ _ => ?_)

theorem Type2And3Butterfly3.hits_Dct3 (self : Type2And3Butterfly3 T) {l : List T} (h : l.length < 3) : Hits (self.inplaceDct3 l) := by
  unfold Type2And3Butterfly3.inplaceDct3
  repeat' first
    | exact Hits.now (by omega)
    | exact Hits.nowW (by omega)
    | (refine Hits.read fun _ => ?_)
    | (refine Hits.write fun _ _ => ?_)

theorem Type2And3Butterfly3.hits_Dst2 (self : Type2And3Butterfly3 T) {l : List T} (h : l.length < 3) : Hits (self.inplaceDst2 l) := by
  unfold Type2And3Butterfly3.inplaceDst2
  repeat' first
    | exact Hits.now (by omega)
    | exact Hits.nowW (by omega)
    | (refine Hits.read fun _ => ?_)
    | (refine Hits.write fun _ _ => ?_)

theorem Type2And3Butterfly3.hits_Dst3 (self : Type2And3Butterfly3 T) {l : List T} (h : l.length < 3) : Hits (self.inplaceDst3 l) := by
  unfold Type2And3Butterfly3.inplaceDst3
  repeat' first
    | exact Hits.now (by omega)
    | exact Hits.nowW (by omega)
    | (refine Hits.read fun _ => ?_)
    | (refine Hits.write fun _ _ => ?_)

theorem Type2And3Butterfly4.hits_Dct2 (self : Type2And3Butterfly4 T) {l : List T} (h : l.length < 4) : Hits (self.inplaceDct2 l) := by
  unfold Type2And3Butterfly4.inplaceDct2
  repeat' first
    | exact Hits.now (by omega)
    | exact Hits.nowW (by omega)
    | (refine Hits.read fun _ => ?_)
    | (refine Hits.write fun _ _ => ?_)
    | (refine Type2And3Butterfly2.hits_scatteredDct2 (n := 3) (by omega) fun _ _ => ?_)

theorem Type2And3Butterfly4.hits_Dct3 (self : Type2And3Butterfly4 T) {l : List T} (h : l.length < 4) : Hits (self.inplaceDct3 l) := by
  unfold Type2And3Butterfly4.inplaceDct3
  repeat' first
    | exact Hits.now (by omega)
    | exact Hits.nowW (by omega)
    | (refine Hits.read fun _ => ?_)
    | (refine Hits.write fun _ _ => ?_)
    | (refine Type2And3Butterfly2.hits_scatteredDct3 (n := 3) (by omega) fun _ _ => ?_)

theorem Type2And3Butterfly4.hits_Dst2 (self : Type2And3Butterfly4 T) {l : List T} (h : l.length < 4) : Hits (self.inplaceDst2 l) := by
  unfold Type2And3Butterfly4.inplaceDst2
  repeat' first
    | exact Hits.now (by omega)
    | exact Hits.nowW (by omega)
    | (refine Hits.read fun _ => ?_)
    | (refine Hits.write fun _ _ => ?_)
    | (refine Type2And3Butterfly2.hits_scatteredDct2 (n := 3) (by omega) fun _ _ => ?_)

theorem Type2And3Butterfly4.hits_Dst3 (self : Type2And3Butterfly4 T) {l : List T} (h : l.length < 4) : Hits (self.inplaceDst3 l) := by
  unfold Type2And3Butterfly4.inplaceDst3
  repeat' first
    | exact Hits.now (by omega)
    | exact Hits.nowW (by omega)
    | (refine Hits.read fun _ => ?_)
    | (refine Hits.write fun _ _ => ?_)
    | (refine Type2And3Butterfly2.hits_scatteredDct3 (n := 3) (by omega) fun _ _ => ?_)

theorem Type2And3Butterfly8.hits_Dct2 (self : Type2And3Butterfly8 T) {l : List T} (h : l.length < 8) : Hits (self.inplaceDct2 l) := by
  unfold Type2And3Butterfly8.inplaceDct2
  repeat' first
    | exact Hits.now (by omega)
    | exact Hits.nowW (by omega)
    | (refine Hits.read fun _ => ?_)
    | (refine Hits.write fun _ _ => ?_)
    | (refine Hits.call (.inl ⟨_, (Type2And3Butterfly4.ex_dct3 self.butterfly4 _ _ _ _).choose_spec.choose_spec.choose_spec.choose_spec⟩) fun _ => ?_)

theorem Type2And3Butterfly8.hits_Dct3 (self : Type2And3Butterfly8 T) {l : List T} (h : l.length < 8) : Hits (self.inplaceDct3 l) := by
  unfold Type2And3Butterfly8.inplaceDct3
  repeat' first
    | exact Hits.now (by omega)
    | exact Hits.nowW (by omega)
    | (refine Hits.read fun _ => ?_)
    | (refine Hits.write fun _ _ => ?_)
    | (refine Hits.call (.inl ⟨_, (Type2And3Butterfly4.ex_dct3 self.butterfly4 _ _ _ _).choose_spec.choose_spec.choose_spec.choose_spec⟩) fun _ => ?_)

theorem Type2And3Butterfly8.hits_Dst2 (self : Type2And3Butterfly8 T) {l : List T} (h : l.length < 8) : Hits (self.inplaceDst2 l) := by
  unfold Type2And3Butterfly8.inplaceDst2
  repeat' first
    | exact Hits.now (by omega)
    | exact Hits.nowW (by omega)
    | (refine Hits.read fun _ => ?_)
    | (refine Hits.write fun _ _ => ?_)
    | (refine Hits.call (.inl ⟨_, (Type2And3Butterfly4.ex_dct3 self.butterfly4 _ _ _ _).choose_spec.choose_spec.choose_spec.choose_spec⟩) fun _ => ?_)

theorem Type2And3Butterfly8.hits_Dst3 (self : Type2And3Butterfly8 T) {l : List T} (h : l.length < 8) : Hits (self.inplaceDst3 l) := by
  unfold Type2And3Butterfly8.inplaceDst3
  repeat' first
    | exact Hits.now (by omega)
    | exact Hits.nowW (by omega)
    | (refine Hits.read fun _ => ?_)
    | (refine Hits.write fun _ _ => ?_)
    | (refine Hits.call (.inl ⟨_, (Type2And3Butterfly4.ex_dct3 self.butterfly4 _ _ _ _).choose_spec.choose_spec.choose_spec.choose_spec⟩) fun _ => ?_)

theorem Type2And3Butterfly16.hits_Dct2 (self : Type2And3Butterfly16 T) (ht : ∃ a b, self.butterfly8.twiddles = [a, b]) {l : List T} (h : l.length < 16) : Hits (self.inplaceDct2 l) := by
  have hs : ∃ a b, self.butterfly8.twiddles = [a, b] := ht
  obtain ⟨a, b, hs⟩ := hs
  unfold Type2And3Butterfly16.inplaceDct2
  repeat' first
    | exact Hits.now (by omega)
    | exact Hits.nowW (by omega)
    | (refine Hits.read fun _ => ?_)
    | (refine Hits.write fun _ _ => ?_)
    | (refine Hits.call (.inl ⟨_, (Type2And3Butterfly8.ex_dct3 self.butterfly8 hs _ _ _ _ _ _ _ _).choose_spec.choose_spec.choose_spec.choose_spec.choose_spec.choose_spec.choose_spec.choose_spec⟩) fun _ => ?_)

theorem Type2And3Butterfly16.hits_Dct3 (self : Type2And3Butterfly16 T) (ht : ∃ a b, self.butterfly8.twiddles = [a, b]) {l : List T} (h : l.length < 16) : Hits (self.inplaceDct3 l) := by
  have hs : ∃ a b, self.butterfly8.twiddles = [a, b] := ht
  obtain ⟨a, b, hs⟩ := hs
  unfold Type2And3Butterfly16.inplaceDct3
  repeat' first
    | exact Hits.now (by omega)
    | exact Hits.nowW (by omega)
    | (refine Hits.read fun _ => ?_)
    | (refine Hits.write fun _ _ => ?_)
    | (refine Hits.call (.inl ⟨_, (Type2And3Butterfly8.ex_dct3 self.butterfly8 hs _ _ _ _ _ _ _ _).choose_spec.choose_spec.choose_spec.choose_spec.choose_spec.choose_spec.choose_spec.choose_spec⟩) fun _ => ?_)

theorem Type2And3Butterfly16.hits_Dst2 (self : Type2And3Butterfly16 T) (ht : ∃ a b, self.butterfly8.twiddles = [a, b]) {l : List T} (h : l.length < 16) : Hits (self.inplaceDst2 l) := by
  have hs : ∃ a b, self.butterfly8.twiddles = [a, b] := ht
  obtain ⟨a, b, hs⟩ := hs
  unfold Type2And3Butterfly16.inplaceDst2
  repeat' first
    | exact Hits.now (by omega)
    | exact Hits.nowW (by omega)
    | (refine Hits.read fun _ => ?_)
    | (refine Hits.write fun _ _ => ?_)
    | (refine Hits.call (.inl ⟨_, (Type2And3Butterfly8.ex_dct3 self.butterfly8 hs _ _ _ _ _ _ _ _).choose_spec.choose_spec.choose_spec.choose_spec.choose_spec.choose_spec.choose_spec.choose_spec⟩) fun _ => ?_)

theorem Type2And3Butterfly16.hits_Dst3 (self : Type2And3Butterfly16 T) (ht : ∃ a b, self.butterfly8.twiddles = [a, b]) {l : List T} (h : l.length < 16) : Hits (self.inplaceDst3 l) := by
  have hs : ∃ a b, self.butterfly8.twiddles = [a, b] := ht
  obtain ⟨a, b, hs⟩ := hs
  unfold Type2And3Butterfly16.inplaceDst3
  repeat' first
    | exact Hits.now (by omega)
    | exact Hits.nowW (by omega)
    | (refine Hits.read fun _ => ?_)
    | (refine Hits.write fun _ _ => ?_)
    | (refine Hits.call (.inl ⟨_, (Type2And3Butterfly8.ex_dct3 self.butterfly8 hs _ _ _ _ _ _ _ _).choose_spec.choose_spec.choose_spec.choose_spec.choose_spec.choose_spec.choose_spec.choose_spec⟩) fun _ => ?_)

end
end RustDct
