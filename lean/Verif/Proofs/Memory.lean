import Verif.Memory
import Verif.Proofs.PlannerMade
import Verif.Proofs.MadeMdct
import Mathlib.Algebra.Order.BigOperators.Group.Finset
/-!
# What planner calls add to the caches
-/

set_option linter.all false

namespace RustDct

section
variable {T : Type} {F : Type} [F64 F] [DctNum T F]

theorem Planner.Holds.grows {s s' : Planner T} (g : Grows s s') {c : Cache × Nat} {k : Nat} (h : s.Holds c k) : s'.Holds c k := by
  obtain ⟨c, n⟩ := c
  cases c <;> obtain ⟨a, e, o⟩ := h
  · exact ⟨a, g.dct1 _ _ e, o⟩
  · exact ⟨a, g.dst1 _ _ e, o⟩
  · exact ⟨a, g.dct23 _ _ e, o⟩
  · exact ⟨a, g.dct4 _ _ e, o⟩
  · exact ⟨a, g.dct5 _ _ e, o⟩
  · exact ⟨a, g.dst5 _ _ e, o⟩
  · exact ⟨a, g.dct6 _ _ e, o⟩
  · exact ⟨a, g.dst6 _ _ e, o⟩
  · exact ⟨a, g.dct8 _ _ e, o⟩
  · exact ⟨a, g.dst8 _ _ e, o⟩
  · exact ⟨a, g.mdct _ _ e, o⟩

theorem Planner.Holds.not_free {s : Planner T} {c : Cache × Nat} {k : Nat} (h : s.Holds c k) : ¬ s.Free c := by
  obtain ⟨c, n⟩ := c
  cases c <;> obtain ⟨a, e, o⟩ := h <;> simp [Planner.Free, e]

theorem none_of_grows {α : Type} {x y : Option α} (h : ∀ a, x = some a → y = some a) (hy : y = none) : x = none := by
  cases x with
  | none => rfl
  | some a => rw [h a rfl] at hy; cases hy

theorem Planner.Free.grows {s s' : Planner T} (g : Grows s s') {c : Cache × Nat} (h : s'.Free c) : s.Free c := by
  obtain ⟨c, n⟩ := c
  cases c
  · exact none_of_grows (g.dct1 _) h
  · exact none_of_grows (g.dst1 _) h
  · exact none_of_grows (g.dct23 _) h
  · exact none_of_grows (g.dct4 _) h
  · exact none_of_grows (g.dct5 _) h
  · exact none_of_grows (g.dst5 _) h
  · exact none_of_grows (g.dct6 _) h
  · exact none_of_grows (g.dst6 _) h
  · exact none_of_grows (g.dct8 _) h
  · exact none_of_grows (g.dst8 _) h
  · exact none_of_grows (g.mdct _) h

/-- From `s` to `s'` the planner has gained instances that keep at most `w` numbers, and `b` instances were made and not stored. -/
def Adds (s s' : Planner T) (b w : Nat) : Prop :=
  Grows s s' ∧ ∃ (N : Finset (Cache × Nat)) (size : Cache × Nat → Nat),
    (∀ c ∈ N, s.Free c ∧ s'.Holds c (size c)) ∧ (∀ c, c ∉ N → s.Free c → s'.Free c) ∧ s.nextId + N.card + b ≤ s'.nextId ∧ ∑ c ∈ N, size c ≤ w

theorem Adds.refl (s : Planner T) : Adds s s 0 0 := ⟨.refl s, ∅, fun _ => 0, by simp, fun _ _ h => h, by simp, by simp⟩

theorem Adds.mono {s s' : Planner T} {b b' w w' : Nat} (h : Adds s s' b w) (hb : b' ≤ b) (hw : w ≤ w') : Adds s s' b' w' :=
  let ⟨g, N, size, a, b, d, c⟩ := h
  ⟨g, N, size, a, b, by omega, c.trans hw⟩

theorem Adds.trans {s s1 s2 : Planner T} {b b' v w : Nat} (h : Adds s s1 b v) (k : Adds s1 s2 b' w) : Adds s s2 (b + b') (v + w) := by
  obtain ⟨g, N, f, a, b, d, c⟩ := h
  obtain ⟨g', N', f', a', b', d', c'⟩ := k
  have dis : ∀ x ∈ N', x ∉ N := fun x hx hx' => (a x hx').2.not_free (a' x hx).1
  refine ⟨g.trans g', N ∪ N', fun x => if x ∈ N then f x else f' x, fun x hx => ?_, fun x hx h => ?_, ?_, ?_⟩
  · rcases Finset.mem_union.1 hx with hx | hx
    · exact ⟨(a x hx).1, by beta_reduce; rw [if_pos hx]; exact (a x hx).2.grows g'⟩
    · exact ⟨(a' x hx).1.grows g, by beta_reduce; rw [if_neg (dis x hx)]; exact (a' x hx).2⟩
  · simp only [Finset.mem_union, not_or] at hx
    exact b' x hx.2 (b x hx.1 h)
  · rw [Finset.card_union_of_disjoint (Finset.disjoint_right.2 dis)]
    omega
  · rw [Finset.sum_union (Finset.disjoint_right.2 dis)]
    refine Nat.add_le_add (le_trans (le_of_eq (Finset.sum_congr rfl fun x hx => if_pos hx)) c) (le_trans (le_of_eq (Finset.sum_congr rfl fun x hx => if_neg (dis x hx))) c')

theorem Adds.within {s s' : Planner T} {b w t : Nat} (h : Adds s s' b w) (k : s.Within s.nextId t) : s'.Within s'.nextId (t + w) := by
  obtain ⟨g, N, f, a, b, d, c⟩ := h
  obtain ⟨M, f', a', b', d', c'⟩ := k
  have dis : ∀ x ∈ N, x ∉ M := fun x hx hx' => (a' x hx').not_free (a x hx).1
  refine ⟨M ∪ N, fun x => if x ∈ M then f' x else f x, fun x hx => ?_, fun x hx => ?_, ?_, ?_⟩
  · rcases Finset.mem_union.1 hx with hx | hx
    · beta_reduce; rw [if_pos hx]; exact (a' x hx).grows g
    · beta_reduce; rw [if_neg (dis x hx)]; exact (a x hx).2
  · simp only [Finset.mem_union, not_or] at hx
    exact b x hx.2 (b' x hx.1)
  · rw [Finset.card_union_of_disjoint (Finset.disjoint_right.2 dis)]
    omega
  · rw [Finset.sum_union (Finset.disjoint_right.2 dis)]
    refine Nat.add_le_add (le_trans (le_of_eq (Finset.sum_congr rfl fun x hx => if_pos hx)) c') (le_trans (le_of_eq (Finset.sum_congr rfl fun x hx => if_neg (dis x hx))) c)

/-- Storing one instance. -/
theorem Adds.store {s s1 s2 : Planner T} {w k : Nat} {c : Cache × Nat} (h : Adds s s1 1 w) (g : Grows s s2) (h0 : s.Free c) (hc : s2.Holds c k)
    (hi : s2.nextId = s1.nextId) (hH : ∀ x j, x ≠ c → s1.Holds x j → s2.Holds x j) (hF : ∀ x, x ≠ c → s1.Free x → s2.Free x) : Adds s s2 0 (w + k) := by
  obtain ⟨-, N, f, a, b, e, d⟩ := h
  refine ⟨g, insert c N, Function.update f c k, fun x hx => ?_, fun x hx hf => ?_, ?_, ?_⟩
  · by_cases e : x = c
    · subst e; rw [Function.update_self]; exact ⟨h0, hc⟩
    · rw [Function.update_of_ne e]
      have hx := (Finset.mem_insert.1 hx).resolve_left e
      exact ⟨(a x hx).1, hH x _ e (a x hx).2⟩
  · simp only [Finset.mem_insert, not_or] at hx
    exact hF x hx.1 (b x hx.2 hf)
  · have := Finset.card_insert_le c N
    omega
  · rw [← Finset.insert_erase (Finset.mem_insert_self c N), Finset.sum_insert (Finset.notMem_erase _ _), Function.update_self, Nat.add_comm]
    refine Nat.add_le_add_right (le_trans (le_trans (le_of_eq (Finset.sum_congr rfl fun x hx => Function.update_of_ne (Finset.mem_erase.1 hx).1 _ _)) ?_) d) k
    exact Finset.sum_le_sum_of_subset fun x hx => (Finset.mem_insert.1 (Finset.mem_erase.1 hx).2).resolve_left (Finset.mem_erase.1 hx).1

variable {planFft : Nat → Fft T} {W : Nat → (Nat → List T) → Prop}

/-- Running `m` adds at most `w`; a returned instance satisfies `P`, and `b` instances were made and not stored. -/
def Charges (planFft : Nat → Fft T) (W : Nat → (Nat → List T) → Prop) {α : Type} (m : PlanM T (Arc α)) (b w : Nat) (P : α → Prop) : Prop :=
  ∀ s, Inv planFft W s →
    match m s with
    | .ok a s' => Adds s s' b w ∧ P a.val
    | .error _ s' => Adds s s' 0 w

theorem Charges.mono {α : Type} {m : PlanM T (Arc α)} {b w w' : Nat} {P P' : α → Prop} (h : Charges planFft W m b w P) (hw : w ≤ w') (hP : ∀ a, P a → P' a) :
    Charges planFft W m b w' P' := by
  intro s hs
  have := h s hs
  cases hm : m s with
  | ok a s' => rw [hm] at this; exact ⟨this.1.mono le_rfl hw, hP _ this.2⟩
  | error e s' => rw [hm] at this; exact Adds.mono this le_rfl hw

theorem Charges.arcNew {α : Type} {x : Except Err α} {P : α → Prop} (h : ∀ v, x = .ok v → P v) : Charges planFft W (arcNew x : PlanM T (Arc α)) 1 0 P := by
  intro s hs
  cases x with
  | error e => exact Adds.refl s
  | ok v =>
    refine ⟨⟨{ Grows.refl s with nextId := Nat.le_succ _ }, ∅, fun _ => 0, by simp, fun c _ h => ?_, by simp, by simp⟩, h v rfl⟩
    obtain ⟨c, n⟩ := c
    cases c <;> exact h

theorem Charges.bind {α β : Type} {m : PlanM T (Arc α)} {r : Except Err α} {post} {k : Arc α → PlanM T (Arc β)} {b b' v w : Nat} {P : α → Prop} {Q : β → Prop}
    (h : Charges planFft W m b v P) (hy : Yields planFft W m r post) (hk : ∀ a, r = .ok a.val → Charges planFft W (k a) b' w Q) : Charges planFft W (m >>= k) b' (v + w) Q := by
  intro s hs
  rw [bind_run]
  have h1 := h s hs
  have y1 := hy s hs
  cases hm : m s with
  | error e s' => rw [hm] at h1; exact Adds.mono h1 le_rfl (Nat.le_add_right _ _)
  | ok a s' =>
    rw [hm] at h1 y1
    have h2 := hk a y1.1 s' y1.2.1
    dsimp only
    cases hm2 : k a s' with
    | error e s2 => rw [hm2] at h2; exact (Adds.trans h1.1 h2).mono (Nat.zero_le _) le_rfl
    | ok b s2 => rw [hm2] at h2; exact ⟨(h1.1.trans h2.1).mono (by omega) le_rfl, h2.2⟩

theorem Charges.cached {α : Type} {look : Planner T → Option (Arc α)} {store : Planner T → Arc α → Planner T} {mk : PlanM T (Arc α)} {v w : Nat} {P : α → Nat → Prop} {c : Cache × Nat}
    (h : Charges planFft W mk 1 v fun a => ∃ k ≤ w, P a k) (hg : ∀ s, Inv planFft W s → Grows s (finalState (cachePlan look store mk s)))
    (h0 : ∀ s : Planner T, look s = none → s.Free c) (hs : ∀ s a k, P a.val k → (store s a).Holds c k ∧ (store s a).nextId = s.nextId)
    (hH : ∀ (s : Planner T) a x j, x ≠ c → s.Holds x j → (store s a).Holds x j) (hF : ∀ (s : Planner T) a x, x ≠ c → s.Free x → (store s a).Free x) :
    Charges planFft W (cachePlan look store mk) 0 (v + w) fun _ => True := by
  intro s hi
  have hg := hg s hi
  rw [cachePlan_run] at hg ⊢
  cases hl : look s with
  | some a => exact ⟨(Adds.refl s).mono le_rfl (Nat.zero_le _), trivial⟩
  | none =>
    rw [hl] at hg
    dsimp only at hg ⊢
    have h1 := h s hi
    cases hm : mk s with
    | error e s' => rw [hm] at h1; exact Adds.mono h1 le_rfl (Nat.le_add_right _ _)
    | ok a s' =>
      rw [hm] at h1 hg
      obtain ⟨h1, k, hk, hP⟩ := h1
      exact ⟨(h1.store hg (h0 s hl) (hs s' a k hP).1 (hs s' a k hP).2 (fun x j => hH s' a x j) (fun x => hF s' a x)).mono le_rfl (by omega), trivial⟩

macro "cells_held" : tactic => `(tactic| (
  rintro s a ⟨c, n⟩ j hne h
  cases c <;> obtain ⟨b, e, o⟩ := h <;> first
    | exact ⟨b, e, o⟩
    | exact ⟨b, (insertCache_ne _ _ (fun hh => hne (by rw [hh]))).trans e, o⟩))

macro "cells_free" : tactic => `(tactic| (
  rintro s a ⟨c, n⟩ hne e
  cases c <;> first
    | exact e
    | exact (insertCache_ne _ _ (fun hh => hne (by rw [hh]))).trans e))

theorem charges_dct1 (hf : PlanFftShape planFft) (n : Nat) : Charges planFft W (planDct1 planFft n) 0 (if n < 10 then 2 * n else 0) fun _ => True := by
  have y := planDct1_yields (planFft := planFft) (W := W) n
  rw [planDct1_eq] at y ⊢
  rw [← Nat.zero_add (if n < 10 then 2 * n else 0)]
  refine Charges.cached (c := (.dct1, n)) (P := Own1) ?_ (fun s hs => (y.final hs).2) (fun s h => h) (fun s a k h => ⟨⟨a, insertCache_self _ _ _, h⟩, rfl⟩) ?_ ?_
  · unfold planNewDct1
    split
    · refine .arcNew fun v hv => ?_
      obtain ⟨x, hx, rfl⟩ := map_ok hv
      obtain ⟨_, w, rfl⟩ := Dct1Naive.new_shape hx
      exact ⟨_, by simp <;> omega, .dct1Naive _⟩
    · refine .arcNew fun v hv => ?_
      obtain ⟨x, hx, rfl⟩ := map_ok hv
      exact ⟨_, Nat.zero_le _, .dct1Fft _⟩
  · cells_held
  · cells_free

theorem charges_dst1 (hf : PlanFftShape planFft) (n : Nat) : Charges planFft W (planDst1 planFft n) 0 (if n < 25 then 2 * n + 2 else 0) fun _ => True := by
  have y := planDst1_yields (planFft := planFft) (W := W) n
  rw [planDst1_eq] at y ⊢
  rw [← Nat.zero_add (if n < 25 then 2 * n + 2 else 0)]
  refine Charges.cached (c := (.dst1, n)) (P := Own1) ?_ (fun s hs => (y.final hs).2) (fun s h => h) (fun s a k h => ⟨⟨a, insertCache_self _ _ _, h⟩, rfl⟩) ?_ ?_
  · unfold planNewDst1
    split
    · refine .arcNew fun v hv => ?_
      obtain ⟨x, hx, rfl⟩ := map_ok hv
      obtain ⟨_, w, rfl⟩ := Dst1Naive.new_shape hx
      exact ⟨_, by simp <;> omega, .dst1Naive _⟩
    · refine .arcNew fun v hv => ?_
      obtain ⟨x, hx, rfl⟩ := map_ok hv
      exact ⟨_, Nat.zero_le _, .dst1Fft _⟩
  · cells_held
  · cells_free

theorem charges_dst6 (hf : PlanFftShape planFft) (n : Nat) : Charges planFft W (planDst6 planFft n) 0 (if n < 45 then 4 * n + 2 else 0) fun _ => True := by
  have y := planDst6_yields (planFft := planFft) (W := W) n
  rw [planDst6_eq] at y ⊢
  rw [← Nat.zero_add (if n < 45 then 4 * n + 2 else 0)]
  refine Charges.cached (c := (.dst67, n)) (P := Own67) ?_ (fun s hs => (y.final hs).2) (fun s h => h) (fun s a k h => ⟨⟨a, insertCache_self _ _ _, h⟩, rfl⟩) ?_ ?_
  · unfold planNewDst6
    split
    · refine .arcNew fun v hv => ?_
      obtain ⟨x, hx, rfl⟩ := map_ok hv
      obtain ⟨_, w, rfl⟩ := Dst6And7Naive.new_shape hx
      exact ⟨_, by simp <;> omega, .dstNaive _⟩
    · refine .arcNew fun v hv => ?_
      obtain ⟨x, hx, rfl⟩ := map_ok hv
      exact ⟨_, Nat.zero_le _, .dstFft _⟩
  · cells_held
  · cells_free

theorem charges_dct5 (hf : PlanFftShape planFft) (n : Nat) : Charges planFft W (planDct5 n) 0 (2 * n) fun _ => True := by
  have y := planDct5_yields (planFft := planFft) (W := W) n
  rw [planDct5_eq] at y ⊢
  rw [← Nat.zero_add (2 * n)]
  refine Charges.cached (c := (.dct5, n)) (P := Own1) ?_ (fun s hs => (y.final hs).2) (fun s h => h) (fun s a k h => ⟨⟨a, insertCache_self _ _ _, h⟩, rfl⟩) ?_ ?_
  · refine .arcNew fun v hv => ?_
    obtain ⟨x, hx, rfl⟩ := map_ok hv
    obtain ⟨_, w, rfl⟩ := Dct5Naive.new_shape hx
    exact ⟨_, by simp <;> omega, .dct5Naive _⟩
  · cells_held
  · cells_free

theorem charges_dst5 (hf : PlanFftShape planFft) (n : Nat) : Charges planFft W (planDst5 n) 0 (2 * n + 1) fun _ => True := by
  have y := planDst5_yields (planFft := planFft) (W := W) n
  rw [planDst5_eq] at y ⊢
  rw [← Nat.zero_add (2 * n + 1)]
  refine Charges.cached (c := (.dst5, n)) (P := Own1) ?_ (fun s hs => (y.final hs).2) (fun s h => h) (fun s a k h => ⟨⟨a, insertCache_self _ _ _, h⟩, rfl⟩) ?_ ?_
  · refine .arcNew fun v hv => ?_
    obtain ⟨x, hx, rfl⟩ := map_ok hv
    obtain ⟨_, w, rfl⟩ := Dst5Naive.new_shape hx
    exact ⟨_, by simp <;> omega, .dst5Naive _⟩
  · cells_held
  · cells_free

theorem charges_dct6 (hf : PlanFftShape planFft) (n : Nat) : Charges planFft W (planDct6 n) 0 (4 * n) fun _ => True := by
  have y := planDct6_yields (planFft := planFft) (W := W) n
  rw [planDct6_eq] at y ⊢
  rw [← Nat.zero_add (4 * n)]
  refine Charges.cached (c := (.dct67, n)) (P := Own67) ?_ (fun s hs => (y.final hs).2) (fun s h => h) (fun s a k h => ⟨⟨a, insertCache_self _ _ _, h⟩, rfl⟩) ?_ ?_
  · refine .arcNew fun v hv => ?_
    obtain ⟨x, hx, rfl⟩ := map_ok hv
    obtain ⟨_, w, rfl⟩ := Dct6And7Naive.new_shape hx
    exact ⟨_, by simp <;> omega, .dctNaive _⟩
  · cells_held
  · cells_free

theorem charges_dct8 (hf : PlanFftShape planFft) (n : Nat) : Charges planFft W (planDct8 n) 0 (4 * n + 2) fun _ => True := by
  have y := planDct8_yields (planFft := planFft) (W := W) n
  rw [planDct8_eq] at y ⊢
  rw [← Nat.zero_add (4 * n + 2)]
  refine Charges.cached (c := (.dct8, n)) (P := Own1) ?_ (fun s hs => (y.final hs).2) (fun s h => h) (fun s a k h => ⟨⟨a, insertCache_self _ _ _, h⟩, rfl⟩) ?_ ?_
  · refine .arcNew fun v hv => ?_
    obtain ⟨x, hx, rfl⟩ := map_ok hv
    obtain ⟨_, w, rfl⟩ := Dct8Naive.new_shape hx
    exact ⟨_, by simp <;> omega, .dct8Naive _⟩
  · cells_held
  · cells_free

theorem charges_dst8 (hf : PlanFftShape planFft) (n : Nat) : Charges planFft W (planDst8 n) 0 (4 * n) fun _ => True := by
  have y := planDst8_yields (planFft := planFft) (W := W) n
  rw [planDst8_eq] at y ⊢
  rw [← Nat.zero_add (4 * n)]
  refine Charges.cached (c := (.dst8, n)) (P := Own1) ?_ (fun s hs => (y.final hs).2) (fun s h => h) (fun s a k h => ⟨⟨a, insertCache_self _ _ _, h⟩, rfl⟩) ?_ ?_
  · refine .arcNew fun v hv => ?_
    obtain ⟨x, hx, rfl⟩ := map_ok hv
    obtain ⟨_, w, rfl⟩ := Dst8Naive.new_shape hx
    exact ⟨_, by simp <;> omega, .dst8Naive _⟩
  · cells_held
  · cells_free

theorem canon23_len (hf : PlanFftShape planFft) {n : Nat} {o : Obj23 T} (h : canon23 planFft n = .ok o) : o.len = n := by
  obtain ⟨o', e, -, l, -⟩ := canon23_induct' (planFft := planFft) hf (P := fun _ _ => True) trivial trivial trivial trivial trivial (fun _ _ _ _ _ _ _ _ _ _ _ => trivial) (fun _ _ _ => trivial) n
  rw [e] at h
  injection h with h
  rw [← h, l]

theorem charges_dct2 (hf : PlanFftShape planFft) (n : Nat) : Charges planFft W (planDct2 planFft n) 0 (2 * n) fun _ => True := by
  induction n using Nat.strongRecOn with
  | ind n ih =>
    have y := planDct2_yields (planFft := planFft) (W := W) n
    rw [planDct2_eq] at y ⊢
    have fin : ∀ {v w : Nat}, v + w ≤ 2 * n → (Charges planFft W (planNewDct2 planFft n) 1 v fun a => ∃ k ≤ w, Own23 a k) → Charges planFft W
        (cachePlan (fun s => s.dct23Cache n) (fun s a => { s with dct23Cache := insertCache s.dct23Cache n a }) (planNewDct2 planFft n)) 0 (2 * n) fun _ => True := fun {v w} hv h => by
      refine (Charges.cached (c := (.dct23, n)) (P := Own23) (w := w) h (fun s hs => (y.final hs).2) (fun s h => h) (fun s a k h => ⟨⟨a, insertCache_self _ _ _, h⟩, rfl⟩) ?_ ?_).mono hv (fun _ h => h)
      · cells_held
      · cells_free
    by_cases hb : dct2Butterflies.contains n = true
    · refine fin (v := 0) (w := 2 * n) (by omega) ?_
      rw [planNewDct2, if_pos hb]
      unfold planDct2Butterfly
      simp [dct2Butterflies] at hb
      rcases hb with rfl | rfl | rfl | rfl | rfl
      · exact Charges.arcNew (x := .ok Type2And3Butterfly2.new.toObj) fun v hv => by injection hv with hv; subst hv; exact ⟨_, by decide, .butterfly2 _⟩
      · exact Charges.arcNew (x := .ok Type2And3Butterfly3.new.toObj) fun v hv => by injection hv with hv; subst hv; exact ⟨_, by decide, .butterfly3 _⟩
      · exact Charges.arcNew (x := .ok Type2And3Butterfly4.new.toObj) fun v hv => by injection hv with hv; subst hv; exact ⟨_, by decide, .butterfly4 _⟩
      · exact Charges.arcNew (x := .ok Type2And3Butterfly8.new.toObj) fun v hv => by injection hv with hv; subst hv; exact ⟨_, by simp [Type2And3Butterfly8.new], .butterfly8 _⟩
      · exact Charges.arcNew (x := .ok Type2And3Butterfly16.new.toObj) fun v hv => by injection hv with hv; subst hv; exact ⟨_, by simp [Type2And3Butterfly16.new, Type2And3Butterfly8.new], .butterfly16 _⟩
    by_cases hp : isPowerOfTwo n = true ∧ n > 2
    · obtain ⟨q, hn, hq, p1, p2⟩ := pow2_shape (by simpa using hb) hp.1 hp.2
      refine fin (v := 2 * (n / 2) + (2 * (n / 4) + 0)) (w := n / 2) (by omega) ?_
      rw [planNewDct2, if_neg hb, dif_pos hp]
      refine (ih (n / 2) (by omega)).bind (planDct2_yields _) fun a ha => (ih (n / 4) (by omega)).bind (planDct2_yields _) fun b hb' => .arcNew fun v hv => ?_
      obtain ⟨x, hx, rfl⟩ := map_ok hv
      obtain ⟨-, -, -, rfl⟩ := Type2And3SplitRadix.new_shape hx
      refine ⟨_, ?_, .splitRadix _⟩
      have := canon23_len hf hb'
      simp [Type2And3SplitRadix.inst, this]
      omega
    · refine fin (v := 0) (w := 2 * n) (by omega) ?_
      rw [planNewDct2, if_neg hb, dif_neg hp]
      refine .arcNew fun v hv => ?_
      obtain ⟨x, hx, rfl⟩ := map_ok hv
      obtain ⟨-, rfl⟩ := Type2And3ConvertToFft.new_shape hx
      exact ⟨_, by simp [Type2And3ConvertToFft.inst, (hf n).1], .fft _⟩

theorem charges_dct4 (hf : PlanFftShape planFft) (n : Nat) : Charges planFft W (planDct4 planFft n) 0 (if n < 7 then 8 * n else 2 * n) fun _ => True := by
  have y := planDct4_yields (planFft := planFft) (W := W) n
  rw [planDct4_eq] at y ⊢
  have fin : ∀ {v w : Nat}, v + w ≤ (if n < 7 then 8 * n else 2 * n) → (Charges planFft W (planNewDct4 planFft n) 1 v fun a => ∃ k ≤ w, Own4 a k) → Charges planFft W
      (cachePlan (fun s => s.dct4Cache n) (fun s a => { s with dct4Cache := insertCache s.dct4Cache n a }) (planNewDct4 planFft n)) 0 (if n < 7 then 8 * n else 2 * n) fun _ => True := fun {v w} hv h => by
    refine (Charges.cached (c := (.dct4, n)) (P := Own4) (w := w) h (fun s hs => (y.final hs).2) (fun s h => h) (fun s a k h => ⟨⟨a, insertCache_self _ _ _, h⟩, rfl⟩) ?_ ?_).mono hv (fun _ h => h)
    · cells_held
    · cells_free
  have nv : Charges planFft W (arcNew ((Type4Naive.new (T := T) n).map Type4Naive.toObj)) 1 0 fun a => ∃ k ≤ 8 * n, Own4 a k := by
    refine .arcNew fun v hv => ?_
    obtain ⟨x, hx, rfl⟩ := map_ok hv
    obtain ⟨_, w, rfl⟩ := Type4Naive.new_shape hx
    exact ⟨_, by simp; omega, .naive _⟩
  by_cases he : n % 2 = 0
  · by_cases h6 : n < 6
    · refine fin (v := 0) (w := 8 * n) (by split <;> omega) ?_
      rw [planNewDct4, if_pos he, if_pos h6]
      exact nv
    · refine fin (v := 2 * (n / 2) + 0) (w := n) (by split <;> omega) ?_
      rw [planNewDct4, if_pos he, if_neg h6]
      refine (charges_dct2 hf (n / 2)).bind (planDct2_yields _) fun a ha => .arcNew fun v hv => ?_
      obtain ⟨x, hx, rfl⟩ := map_ok hv
      rw [Type4ConvertToType3Even.new_eq (canon23_len hf ha)] at hx
      injection hx with hx
      subst hx
      exact ⟨_, by simp [Type4ConvertToType3Even.inst]; omega, .even _⟩
  · by_cases h7 : n < 7
    · refine fin (v := 0) (w := 8 * n) (by split <;> omega) ?_
      rw [planNewDct4, if_neg he, if_pos h7]
      exact nv
    · refine fin (v := 0) (w := 0) (by split <;> omega) ?_
      rw [planNewDct4, if_neg he, if_neg h7]
      refine .arcNew fun v hv => ?_
      obtain ⟨x, hx, rfl⟩ := map_ok hv
      exact ⟨_, Nat.zero_le _, .odd _⟩

theorem canon4_len' (hf : PlanFftShape planFft) {n : Nat} {a : Obj4 T} (h : canon4 planFft n = .ok a) : a.len = n := by
  obtain ⟨i, h1, -, h3⟩ := canon4_made hf n
  rw [h] at h1
  injection h1 with h1
  rw [h1]; exact h3

theorem charges_mdct (hf : PlanFftShape planFft) (n : Nat) {w : Nat → List T} (hw : W n w) :
    Charges planFft W (planMdct planFft n w) 0 ((if n < 7 then 8 * n else 2 * n) + 2 * n) fun _ => True := by
  have y : ∀ s, Inv planFft W s → Grows s (finalState (planMdct planFft n w s)) := fun s hs => by
    have := planMdct_run (planFft := planFft) n hw s hs
    cases hm : planMdct planFft n w s with
    | ok a s' => rw [hm] at this; exact this.2.2.1
    | error e s' => rw [hm] at this; exact this.2.2
  rw [planMdct_eq] at y ⊢
  refine (Charges.cached (c := (.mdct, n)) (P := OwnMdct) (v := (if n < 7 then 8 * n else 2 * n) + 0) (w := 2 * n) ?_ y (fun s h => h) (fun s a k h => ⟨⟨a, insertCache_self _ _ _, h⟩, rfl⟩) ?_ ?_).mono (by omega) (fun _ h => h)
  · unfold planNewMdct
    refine (charges_dct4 hf n).bind (planDct4_yields _) fun a ha => .arcNew fun v hv => ?_
    obtain ⟨x, hx, rfl⟩ := map_ok hv
    obtain ⟨-, l, rfl⟩ := MdctViaDct4.new_shape hx
    refine ⟨_, ?_, .viaDct4 _⟩
    have : a.val.len = n := canon4_len' hf ha
    simp only
    rw [l, this]
    omega
  · cells_held
  · cells_free

end
end RustDct
