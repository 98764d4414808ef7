import Verif.Proofs.Memory
import Verif.Props.Planner
/-!
# C78: what a planner keeps is bounded by what it was asked for, each request counted once

`Planner.Within s count total` (`Verif/Memory.lean`): the planner keeps at most `count` instances, whose structs keep at most `total` numbers.
-/

set_option linter.all false

namespace RustDct

section
variable {T : Type} {F : Type} [F64 F] [DctNum T F] {planFft : Nat → Fft T} {W : Nat → (Nat → List T) → Prop}

/-! ### One call -/

/-- `m` makes one instance, or fails and changes nothing. -/
def Leaf {α : Type} (m : PlanM T (Arc α)) : Prop := ∀ s, (∃ a, m s = .ok a { s with nextId := s.nextId + 1 }) ∨ ∃ e, m s = .error e s

theorem Leaf.arcNew {α : Type} (x : Except Err α) : Leaf (arcNew x : PlanM T (Arc α)) := fun s => by
  cases x with
  | ok v => exact .inl ⟨_, rfl⟩
  | error e => exact .inr ⟨e, rfl⟩

theorem Leaf.ite {α : Type} {p : Prop} [Decidable p] {m m' : PlanM T (Arc α)} (h : Leaf m) (h' : Leaf m') : Leaf (if p then m else m') := by
  split <;> assumption

theorem Leaf.makes {α : Type} {m : PlanM T (Arc α)} (h : Leaf m) (s : Planner T) : (finalState (m s)).nextId ≤ s.nextId + 1 := by
  rcases h s with ⟨a, e⟩ | ⟨e', e⟩
  · rw [e]; exact le_rfl
  · rw [e]; exact Nat.le_add_right _ _

theorem bind_makes {α β : Type} {m : PlanM T (Arc α)} {k : Arc α → PlanM T (Arc β)} (h : ∀ a, Leaf (k a)) (s : Planner T) : (finalState ((m >>= k) s)).nextId ≤ (finalState (m s)).nextId + 1 := by
  rw [bind_run]
  cases m s with
  | error e s' => exact Nat.le_add_right _ _
  | ok a s' => exact (h a).makes s'

theorem cached_makes {α : Type} {look : Planner T → Option (Arc α)} {store : Planner T → Arc α → Planner T} {mk : PlanM T (Arc α)} (hs : ∀ s a, (store s a).nextId = s.nextId) {s : Planner T} {k : Nat}
    (h : (finalState (mk s)).nextId ≤ s.nextId + k) : (finalState (cachePlan look store mk s)).nextId ≤ s.nextId + k := by
  rw [cachePlan_run]
  cases look s with
  | some a => exact Nat.le_add_right _ _
  | none =>
    dsimp only
    cases hm : mk s with
    | error e s' => rw [hm] at h; exact h
    | ok a s' => rw [hm] at h; exact (le_of_eq (hs s' a)).trans h

/-- `m` does not touch the cache of MDCTs. -/
def NoMdct {α : Type} (m : PlanM T (Arc α)) : Prop := ∀ s, (finalState (m s)).mdctCache = s.mdctCache

theorem Leaf.noMdct {α : Type} {m : PlanM T (Arc α)} (h : Leaf m) : NoMdct m := fun s => by
  rcases h s with ⟨a, e⟩ | ⟨e', e⟩ <;> rw [e] <;> rfl

theorem NoMdct.bind {α β : Type} {m : PlanM T (Arc α)} {k : Arc α → PlanM T (Arc β)} (h : NoMdct m) (hk : ∀ a, NoMdct (k a)) : NoMdct (m >>= k) := fun s => by
  rw [bind_run]
  have h := h s
  cases hm : m s with
  | error e s' => rw [hm] at h; exact h
  | ok a s' => rw [hm] at h; exact (hk a s').trans h

theorem NoMdct.cached {α : Type} {look : Planner T → Option (Arc α)} {store : Planner T → Arc α → Planner T} {mk : PlanM T (Arc α)} (h : NoMdct mk) (hs : ∀ s a, (store s a).mdctCache = s.mdctCache) :
    NoMdct (cachePlan look store mk) := fun s => by
  rw [cachePlan_run]
  cases look s with
  | some a => rfl
  | none =>
    have h := h s
    dsimp only
    cases hm : mk s with
    | error e s' => rw [hm] at h; exact h
    | ok a s' => rw [hm] at h; exact (hs s' a).trans h

theorem noMdct_dct2 (n : Nat) : NoMdct (planDct2 planFft n) := by
  induction n using Nat.strongRecOn with
  | ind n ih =>
    rw [planDct2_eq]
    refine .cached ?_ fun _ _ => rfl
    by_cases hb : dct2Butterflies.contains n = true
    · rw [planNewDct2, if_pos hb]
      simp [dct2Butterflies] at hb
      rcases hb with rfl | rfl | rfl | rfl | rfl
      · exact (Leaf.arcNew (.ok Type2And3Butterfly2.new.toObj)).noMdct
      · exact (Leaf.arcNew (.ok Type2And3Butterfly3.new.toObj)).noMdct
      · exact (Leaf.arcNew (.ok Type2And3Butterfly4.new.toObj)).noMdct
      · exact (Leaf.arcNew (.ok Type2And3Butterfly8.new.toObj)).noMdct
      · exact (Leaf.arcNew (.ok Type2And3Butterfly16.new.toObj)).noMdct
    · by_cases hp : isPowerOfTwo n = true ∧ n > 2
      · rw [planNewDct2, if_neg hb, dif_pos hp]
        exact .bind (ih _ (by omega)) fun a => .bind (ih _ (by omega)) fun b => (Leaf.arcNew _).noMdct
      · rw [planNewDct2, if_neg hb, dif_neg hp]
        exact (Leaf.arcNew _).noMdct

theorem noMdct_dct4 (n : Nat) : NoMdct (planDct4 planFft n) := by
  rw [planDct4_eq]
  refine .cached ?_ fun _ _ => rfl
  unfold planNewDct4
  split
  · split
    · exact (Leaf.arcNew _).noMdct
    · exact .bind (noMdct_dct2 _) fun a => (Leaf.arcNew _).noMdct
  · split
    · exact (Leaf.arcNew _).noMdct
    · exact (Leaf.arcNew _).noMdct

/-- What is needed of a planner method to know what it adds: `c` is the cell of the cache that it fills. -/
structure Fills (planFft : Nat → Fft T) (W : Nat → (Nat → List T) → Prop) {α : Type} (m : PlanM T (Arc α)) (c : Cache × Nat) : Prop where
  charges : Charges planFft W m 0 (Cache.numbers c) fun _ => True
  makes : ∀ s, Inv planFft W s → (finalState (m s)).nextId ≤ s.nextId + Cache.instances c
  hit : ∀ s, ¬ s.Free c → finalState (m s) = s
  held : ∀ s a s', Inv planFft W s → m s = .ok a s' → ¬ s'.Free c
  fails : ∀ s e s', Inv planFft W s → m s = .error e s' → s' = s

theorem Fills.leaf {α : Type} {look : Planner T → Option (Arc α)} {store : Planner T → Arc α → Planner T} {mk : PlanM T (Arc α)} {c : Cache × Nat}
    (ch : Charges planFft W (cachePlan look store mk) 0 (Cache.numbers c) fun _ => True) (hl : Leaf mk) (hc : 1 ≤ Cache.instances c)
    (hk : ∀ s : Planner T, s.Free c ↔ look s = none) (hs : ∀ s a, (store s a).nextId = s.nextId) (hh : ∀ s a, look (store s a) ≠ none) : Fills planFft W (cachePlan look store mk) c where
  charges := ch
  makes s _ := by
    rw [cachePlan_run]
    cases look s with
    | some a => exact Nat.le_add_right _ _
    | none =>
      dsimp only
      rcases hl s with ⟨a, e⟩ | ⟨e', e⟩
      · rw [e]; dsimp only [finalState]; rw [hs]; dsimp only; omega
      · rw [e]; exact Nat.le_add_right _ _
  hit s h := by
    rw [hk] at h
    obtain ⟨a, ha⟩ := Option.ne_none_iff_exists'.1 h
    rw [cachePlan_run, ha]; rfl
  held s a s' _ h := by
    rw [hk]
    rw [cachePlan_run] at h
    cases hl' : look s with
    | some b => rw [hl'] at h; injection h with h1 h2; rw [← h2, hl']; simp
    | none =>
      rw [hl'] at h
      dsimp only at h
      rcases hl s with ⟨b, e⟩ | ⟨e', e⟩
      · rw [e] at h; injection h with h1 h2; rw [← h2]; exact hh _ _
      · rw [e] at h; cases h
  fails s e s' _ h := by
    rw [cachePlan_run] at h
    cases hl' : look s with
    | some b => rw [hl'] at h; cases h
    | none =>
      rw [hl'] at h
      dsimp only at h
      rcases hl s with ⟨b, e⟩ | ⟨e', e⟩
      · rw [e] at h; cases h
      · rw [e] at h; injection h with h1 h2; exact h2.symm

theorem fills_dct1 (hf : PlanFftShape planFft) (n : Nat) : Fills planFft W (planDct1 planFft n) (.dct1, n) := by
  have := charges_dct1 (W := W) hf n
  rw [planDct1_eq] at this ⊢
  exact .leaf this (by unfold planNewDct1; exact .ite (.arcNew _) (.arcNew _)) le_rfl (fun _ => Iff.rfl) (fun _ _ => rfl) fun s a => by simp [insertCache_self]

theorem fills_dst1 (hf : PlanFftShape planFft) (n : Nat) : Fills planFft W (planDst1 planFft n) (.dst1, n) := by
  have := charges_dst1 (W := W) hf n
  rw [planDst1_eq] at this ⊢
  exact .leaf this (by unfold planNewDst1; exact .ite (.arcNew _) (.arcNew _)) le_rfl (fun _ => Iff.rfl) (fun _ _ => rfl) fun s a => by simp [insertCache_self]

theorem fills_dst6 (hf : PlanFftShape planFft) (n : Nat) : Fills planFft W (planDst6 planFft n) (.dst67, n) := by
  have := charges_dst6 (W := W) hf n
  rw [planDst6_eq] at this ⊢
  exact .leaf this (by unfold planNewDst6; exact .ite (.arcNew _) (.arcNew _)) le_rfl (fun _ => Iff.rfl) (fun _ _ => rfl) fun s a => by simp [insertCache_self]

theorem fills_dct5 (hf : PlanFftShape planFft) (n : Nat) : Fills planFft W (planDct5 n) (.dct5, n) := by
  have := charges_dct5 (W := W) hf n
  rw [planDct5_eq] at this ⊢
  exact .leaf this (.arcNew _) le_rfl (fun _ => Iff.rfl) (fun _ _ => rfl) fun s a => by simp [insertCache_self]

theorem fills_dst5 (hf : PlanFftShape planFft) (n : Nat) : Fills planFft W (planDst5 n) (.dst5, n) := by
  have := charges_dst5 (W := W) hf n
  rw [planDst5_eq] at this ⊢
  exact .leaf this (.arcNew _) le_rfl (fun _ => Iff.rfl) (fun _ _ => rfl) fun s a => by simp [insertCache_self]

theorem fills_dct6 (hf : PlanFftShape planFft) (n : Nat) : Fills planFft W (planDct6 n) (.dct67, n) := by
  have := charges_dct6 (W := W) hf n
  rw [planDct6_eq] at this ⊢
  exact .leaf this (.arcNew _) le_rfl (fun _ => Iff.rfl) (fun _ _ => rfl) fun s a => by simp [insertCache_self]

theorem fills_dct8 (hf : PlanFftShape planFft) (n : Nat) : Fills planFft W (planDct8 n) (.dct8, n) := by
  have := charges_dct8 (W := W) hf n
  rw [planDct8_eq] at this ⊢
  exact .leaf this (.arcNew _) le_rfl (fun _ => Iff.rfl) (fun _ _ => rfl) fun s a => by simp [insertCache_self]

theorem fills_dst8 (hf : PlanFftShape planFft) (n : Nat) : Fills planFft W (planDst8 n) (.dst8, n) := by
  have := charges_dst8 (W := W) hf n
  rw [planDst8_eq] at this ⊢
  exact .leaf this (.arcNew _) le_rfl (fun _ => Iff.rfl) (fun _ _ => rfl) fun s a => by simp [insertCache_self]

theorem dct2_makes (hf : PlanFftShape planFft) (n : Nat) (s : Planner T) (hs : Inv planFft W s) : (finalState (planDct2 planFft n s)).nextId ≤ s.nextId + (Nat.log 2 n + 1) := by
  by_cases hp : isPowerOfTwo n = true ∧ n > 2
  · obtain ⟨k, rfl⟩ := (isPowerOfTwo_iff _).1 hp.1
    have hk : 1 ≤ k := by
      rcases Nat.eq_zero_or_pos k with rfl | h
      · simp at hp
      · exact h
    obtain ⟨a, s', e, h⟩ := planDct2_cost hf hs hk
    rw [e, Nat.log_pow (by norm_num)]
    dsimp only [finalState]
    omega
  · by_cases hb : dct2Butterflies.contains n = true
    · obtain ⟨a, s', e, h⟩ := planDct2_butterfly (planFft := planFft) (s := s) hb
      rw [e]; dsimp only [finalState]; omega
    · rw [planDct2_eq, cachePlan_run]
      cases s.dct23Cache n with
      | some a => exact Nat.le_add_right _ _
      | none =>
        rw [planNewDct2, if_neg hb, dif_neg hp]
        dsimp only
        rcases Leaf.arcNew (T := T) ((Type2And3ConvertToFft.new (planFft n)).map Type2And3ConvertToFft.toObj) s with ⟨a, e⟩ | ⟨e', e⟩
        · rw [e]; dsimp only [finalState]; omega
        · rw [e]; exact Nat.le_add_right _ _

theorem fills_dct2 (hf : PlanFftShape planFft) (n : Nat) : Fills planFft W (planDct2 planFft n) (.dct23, n) where
  charges := charges_dct2 hf n
  makes := dct2_makes hf n
  hit s h := by
    obtain ⟨a, e⟩ := planDct2_hit (planFft := planFft) (n := n) (s := s) h
    rw [e]; rfl
  held s a s' hs h := by
    have := planDct2_yields (planFft := planFft) (W := W) n s hs
    rw [h] at this
    show s'.dct23Cache n ≠ none
    rw [this.2.2.2]; simp
  fails s e s' hs h := by
    have := planDct2_yields (planFft := planFft) (W := W) n s hs
    rw [h] at this
    obtain ⟨o, ho, -⟩ := canon23_made hf n
    rw [this.1] at ho; cases ho

theorem fills_dct4 (hf : PlanFftShape planFft) (n : Nat) : Fills planFft W (planDct4 planFft n) (.dct4, n) where
  charges := charges_dct4 hf n
  makes s hs := by
    show _ ≤ _ + (Nat.log 2 n + 2)
    rw [planDct4_eq]
    refine cached_makes ?_ ?_
    · exact fun _ _ => rfl
    unfold planNewDct4
    by_cases he : n % 2 = 0
    · by_cases h6 : n < 6
      · rw [if_pos he, if_pos h6]
        have := (Leaf.arcNew (T := T) ((Type4Naive.new (T := T) n).map Type4Naive.toObj)).makes s
        omega
      · rw [if_pos he, if_neg h6]
        have h2 := dct2_makes (W := W) hf (n / 2) s hs
        have hlog : Nat.log 2 (n / 2) ≤ Nat.log 2 n := Nat.log_mono_right (Nat.div_le_self _ _)
        have := bind_makes (m := planDct3 planFft (n / 2)) (k := fun d => arcNew ((Type4ConvertToType3Even.new d.val).map Type4ConvertToType3Even.toObj)) (fun _ => .arcNew _) s
        refine this.trans ?_
        change (finalState (planDct2 planFft (n / 2) s)).nextId + 1 ≤ _
        omega
    · by_cases h7 : n < 7
      · rw [if_neg he, if_pos h7]
        have := (Leaf.arcNew (T := T) ((Type4Naive.new (T := T) n).map Type4Naive.toObj)).makes s
        omega
      · rw [if_neg he, if_neg h7]
        have := (Leaf.arcNew (T := T) ((Type4ConvertToFftOdd.new (planFft n)).map Type4ConvertToFftOdd.toObj)).makes s
        omega
  hit s h := by
    obtain ⟨a, ha⟩ := Option.ne_none_iff_exists'.1 h
    rw [planDct4_eq, cachePlan_run, ha]; rfl
  held s a s' hs h := by
    have := planDct4_yields (planFft := planFft) (W := W) n s hs
    rw [h] at this
    show s'.dct4Cache n ≠ none
    rw [this.2.2.2]; simp
  fails s e s' hs h := by
    have := planDct4_yields (planFft := planFft) (W := W) n s hs
    rw [h] at this
    obtain ⟨o, ho, -⟩ := canon4_made hf n
    rw [this.1] at ho; cases ho

/-- `plan_mdct` when the DCT4 is there. -/
theorem fills_mdct (hf : PlanFftShape planFft) {n : Nat} (w : Nat → List T) {d : Arc (Obj4 T)} (hd : d.val.len = n) :
    Fills planFft W (cachePlan (fun s => s.mdctCache n) (fun s a => { s with mdctCache := insertCache s.mdctCache n a })
      (arcNew ((MdctViaDct4.new d.val w).map MdctViaDct4.toObj))) (.mdct, n) := by
  refine .leaf ?_ (.arcNew _) le_rfl (fun _ => Iff.rfl) (fun _ _ => rfl) fun s a => by simp [insertCache_self]
  refine (Charges.cached (c := (.mdct, n)) (P := OwnMdct) (v := 0) (w := 2 * n) (.arcNew fun v hv => ?_) (fun s hs => ?_) (fun s h => h) ?_ ?_ ?_).mono
    (by show _ ≤ 2 * n; omega) (fun _ h => h)
  · obtain ⟨x, hx, rfl⟩ := map_ok hv
    obtain ⟨-, l, rfl⟩ := MdctViaDct4.new_shape hx
    refine ⟨_, ?_, .viaDct4 _⟩
    simp only
    rw [l, hd]
    omega
  · rw [cachePlan_run]
    cases hl : s.mdctCache n with
    | some a => exact Grows.refl s
    | none =>
      dsimp only
      cases (MdctViaDct4.new d.val w).map MdctViaDct4.toObj with
      | error e => exact Grows.refl s
      | ok v =>
        have hm := insertCache_grows (v := (⟨s.nextId, v⟩ : Arc (MdctObj T))) hl (fun _ _ h => h)
        exact { Grows.refl s with nextId := Nat.le_succ _, mdct := hm }
  · exact fun s a k h => ⟨⟨a, insertCache_self _ _ _, h⟩, rfl⟩
  · cells_held
  · cells_free

/-- What is kept is accounted for by the requests in `A`, which are answered from the caches. -/
structure Room (s : Planner T) (A : Finset (Cache × Nat)) : Prop where
  ids : s.nextId ≤ ∑ c ∈ A, Cache.instances c
  within : s.Within s.nextId (∑ c ∈ A, Cache.numbers c)
  held : ∀ c ∈ A, ¬ s.Free c

theorem Room.step {s : Planner T} {A : Finset (Cache × Nat)} (h : Room s A) {α : Type} {m : PlanM T (Arc α)} {c : Cache × Nat} (hm : Fills planFft W m c) (hs : Inv planFft W s) :
    ∃ A' ⊆ insert c A, Room (finalState (m s)) A' := by
  by_cases hc : s.Free c
  · have hA : c ∉ A := fun hA => h.held c hA hc
    have h1 := hm.charges s hs
    have h2 := hm.makes s hs
    cases e : m s with
    | error e' s' =>
      cases hm.fails s e' s' hs e
      exact ⟨A, Finset.subset_insert _ _, h⟩
    | ok a s' =>
      rw [e] at h1 h2
      dsimp only [finalState] at h2 ⊢
      refine ⟨insert c A, subset_rfl, ⟨?_, ?_, fun x hx => ?_⟩⟩
      · rw [Finset.sum_insert hA]
        have := h.ids
        omega
      · rw [Finset.sum_insert hA, Nat.add_comm]
        exact h1.1.within h.within
      · rcases Finset.mem_insert.1 hx with rfl | hx
        · exact hm.held s a s' hs e
        · exact fun hf => h.held x hx (hf.grows h1.1.1)
  · rw [hm.hit s hc]
    exact ⟨A, Finset.subset_insert _ _, h⟩

theorem Room.call (hf : PlanFftShape planFft) {s : Planner T} {A : Finset (Cache × Nat)} (h : Room s A) (c : PlanCall T) (hW : ∀ n w, c = .mdct n w → W n w) (hs : Inv planFft W s) :
    ∃ A' ⊆ A ∪ c.asks.toFinset, Room (c.run planFft s) A' := by
  have one : ∀ {α : Type} {m : PlanM T (Arc α)} {x : Cache × Nat}, Fills planFft W m x → c.asks = [x] → c.run planFft s = finalState (m s) → ∃ A' ⊆ A ∪ c.asks.toFinset, Room (c.run planFft s) A' := by
    intro α m x hm e1 e2
    obtain ⟨A', hA', h'⟩ := h.step hm hs
    rw [e1, e2]
    refine ⟨A', hA'.trans ?_, h'⟩
    intro y hy
    simp only [List.toFinset_cons, List.toFinset_nil, Finset.mem_union, Finset.mem_insert] at hy ⊢
    tauto
  cases c with
  | dct1 n => exact one (fills_dct1 hf n) rfl rfl
  | dct2 n => exact one (fills_dct2 hf n) rfl rfl
  | dct3 n => exact one (fills_dct2 hf n) rfl rfl
  | dct4 n => exact one (fills_dct4 hf n) rfl rfl
  | dct5 n => exact one (fills_dct5 hf n) rfl rfl
  | dct6 n => exact one (fills_dct6 hf n) rfl rfl
  | dct7 n => exact one (fills_dct6 hf n) rfl rfl
  | dct8 n => exact one (fills_dct8 hf n) rfl rfl
  | dst1 n => exact one (fills_dst1 hf n) rfl rfl
  | dst2 n => exact one (fills_dct2 hf n) rfl rfl
  | dst3 n => exact one (fills_dct2 hf n) rfl rfl
  | dst4 n => exact one (fills_dct4 hf n) rfl rfl
  | dst5 n => exact one (fills_dst5 hf n) rfl rfl
  | dst6 n => exact one (fills_dst6 hf n) rfl rfl
  | dst7 n => exact one (fills_dst6 hf n) rfl rfl
  | dst8 n => exact one (fills_dst8 hf n) rfl rfl
  | mdct n w =>
    have hd := planDct4_yields (planFft := planFft) (W := W) n s hs
    show ∃ A' ⊆ A ∪ (PlanCall.mdct n w).asks.toFinset, Room (finalState (planMdct planFft n w s)) A'
    rw [planMdct_eq, cachePlan_run]
    cases hl : s.mdctCache n with
    | some a => exact ⟨A, Finset.subset_union_left, h⟩
    | none =>
      obtain ⟨A1, hA1, h1⟩ := h.step (fills_dct4 (W := W) hf n) hs
      unfold planNewMdct
      rw [bind_run]
      dsimp only
      cases hm : planDct4 planFft n s with
      | error e s' =>
        rw [hm] at hd
        obtain ⟨o, ho, -⟩ := canon4_made hf n
        rw [hd.1] at ho; cases ho
      | ok d s1 =>
        rw [hm] at hd h1
        obtain ⟨A2, hA2, h2⟩ := h1.step (fills_mdct hf w (canon4_len' hf hd.1)) hd.2.1
        refine ⟨A2, fun y hy => ?_, ?_⟩
        · have h3 := hA2 hy
          rcases Finset.mem_insert.1 h3 with rfl | h3
          · simp [PlanCall.asks]
          · have h4 := hA1 h3
            rcases Finset.mem_insert.1 h4 with rfl | h4
            · simp [PlanCall.asks]
            · exact Finset.mem_union_left _ h4
        · dsimp only [finalState] at h2 ⊢
          rw [cachePlan_run] at h2
          have : s1.mdctCache n = none := by
            have := noMdct_dct4 (planFft := planFft) n s
            rw [hm] at this
            exact (congrFun this n).trans hl
          rw [this] at h2
          exact h2

/-! ### Every history -/

theorem asked_append (c d : List (PlanCall T)) : asked (c ++ d) = asked c ∪ asked d := by
  simp [asked, List.flatMap_append, List.toFinset_append]

theorem room (hf : PlanFftShape planFft) (calls : List (PlanCall T)) : ∃ A ⊆ asked calls, Room (plannerAfter planFft calls) A := by
  induction calls using List.reverseRecOn with
  | nil => exact ⟨∅, Finset.empty_subset _, ⟨Nat.le_refl _, ⟨∅, fun _ => 0, by simp, fun ⟨c, n⟩ _ => by cases c <;> rfl, by simp, by simp⟩, by simp⟩⟩
  | append_singleton r c ih =>
    obtain ⟨A, hA, h⟩ := ih
    have hi := (foldl_inv (planFft := planFft) (W := UsedWindow (r ++ [c])) r (fun m v hv => by unfold UsedWindow; simp [hv]) (Inv.new 0)).1
    obtain ⟨A', hA', h'⟩ := h.call (W := UsedWindow (r ++ [c])) hf c (fun n w e => by unfold UsedWindow; simp [e]) hi
    refine ⟨A', fun x hx => ?_, ?_⟩
    · rw [asked_append]
      rcases Finset.mem_union.1 (hA' hx) with h1 | h1
      · exact Finset.mem_union_left _ (hA h1)
      · exact Finset.mem_union_right _ (by simpa [asked] using h1)
    · rw [after_append]
      exact h'

/-- After any history of calls (also of calls that panicked), what the planner keeps is bounded by what it was asked for, every request counted once, however often
it was repeated: the number of instances by the sum of `Cache.instances`, the numbers in their tables by the sum of `Cache.numbers`. -/
theorem C78_memory (hf : PlanFftShape planFft) (calls : List (PlanCall T)) :
    (plannerAfter planFft calls).Within (∑ c ∈ asked calls, Cache.instances c) (∑ c ∈ asked calls, Cache.numbers c) := by
  obtain ⟨A, hA, h1, ⟨cells, size, a, b, d, e⟩, h3⟩ := room hf calls
  exact ⟨cells, size, a, b, (d.trans h1).trans (Finset.sum_le_sum_of_subset hA), e.trans (Finset.sum_le_sum_of_subset hA)⟩

/-- Also the number of instances ever created (`Planner.nextId` counts the calls of `Arc::new`) is bounded by the requests, each counted once. -/
theorem C78_created (hf : PlanFftShape planFft) (calls : List (PlanCall T)) : (plannerAfter planFft calls).nextId ≤ ∑ c ∈ asked calls, Cache.instances c := by
  obtain ⟨A, hA, h⟩ := room hf calls
  exact h.ids.trans (Finset.sum_le_sum_of_subset hA)

/-- The bound is linear in the lengths asked for: at most eight numbers per point and two more. -/
theorem C78_linear (c : Cache) (n : Nat) : Cache.numbers (c, n) ≤ 8 * n + 2 := by
  cases c <;> simp only [Cache.numbers] <;> (try split) <;> omega

/-- And the number of instances is logarithmic in each length asked for. -/
theorem C78_log (c : Cache) (n : Nat) : Cache.instances (c, n) ≤ Nat.log 2 n + 2 := by
  cases c <;> simp only [Cache.instances] <;> omega

/-- A history that asks for nothing new adds nothing to the bounds. -/
theorem C78_repeated (hf : PlanFftShape planFft) (calls more : List (PlanCall T)) (h : ∀ c ∈ more, ∀ x ∈ c.asks, x ∈ asked calls) :
    (plannerAfter planFft (calls ++ more)).Within (∑ c ∈ asked calls, Cache.instances c) (∑ c ∈ asked calls, Cache.numbers c) := by
  have : asked (calls ++ more) = asked calls := by
    rw [asked_append]
    refine Finset.union_eq_left.2 fun x hx => ?_
    simp only [asked, List.mem_toFinset, List.mem_flatMap] at hx
    obtain ⟨c, hc, hx⟩ := hx
    exact h c hc x hx
  rw [← this]
  exact C78_memory hf _

/-! ### Single instances, with everything they refer to -/

theorem whole23_canon (hf : PlanFftShape planFft) (n : Nat) : ∃ o, canon23 planFft n = .ok o ∧ (∃ k ≤ 2 * n, Whole23 o k) ∧ o.len = n := by
  obtain ⟨o, h1, h2, h3, -⟩ := canon23_induct (planFft := planFft) hf (P := fun n o => ∃ k ≤ 2 * n, Whole23 o k)
    ⟨_, by decide, .butterfly2 _⟩ ⟨_, by decide, .butterfly3 _⟩ ⟨_, by decide, .butterfly4 _⟩ ⟨_, by simp [Type2And3Butterfly8.new], .butterfly8 _⟩
    ⟨_, by simp [Type2And3Butterfly16.new, Type2And3Butterfly8.new], .butterfly16 _⟩
    (fun q half quarter hq hp lh lq sh sq ⟨a, ha, Ha⟩ ⟨b, hb, Hb⟩ => ⟨_, by simp [Type2And3SplitRadix.inst]; omega, .splitRadix (Type2And3SplitRadix.inst q half quarter) Ha Hb⟩)
    (fun n => ⟨_, by simp [Type2And3ConvertToFft.inst, (hf n).1], .fft _⟩) n
  exact ⟨o, h1, h2, h3⟩

theorem whole4_canon (hf : PlanFftShape planFft) {n : Nat} {o : Obj4 T} (h : canon4 planFft n = .ok o) : ∃ k ≤ (if n < 7 then 8 * n else 2 * n), Whole4 o k := by
  have nv : ∀ {o : Obj4 T}, (Type4Naive.new n).map Type4Naive.toObj = .ok o → ∃ k ≤ 8 * n, Whole4 o k := fun {o} h => by
    obtain ⟨x, hx, rfl⟩ := map_ok h
    obtain ⟨_, w, rfl⟩ := Type4Naive.new_shape hx
    exact ⟨_, by simp; omega, .naive _⟩
  unfold canon4 at h
  by_cases he : n % 2 = 0
  · rw [if_pos he] at h
    by_cases h6 : n < 6
    · rw [if_pos h6] at h
      rw [if_pos (by omega)]
      exact nv h
    · rw [if_neg h6] at h
      obtain ⟨i, h1, ⟨k, hk, hw⟩, h3⟩ := whole23_canon hf (n / 2)
      rw [h1] at h
      obtain ⟨x, hx, rfl⟩ := map_ok (show (Type4ConvertToType3Even.new i).map Type4ConvertToType3Even.toObj = .ok o from h)
      rw [Type4ConvertToType3Even.new_eq h3] at hx
      injection hx with hx
      subst hx
      refine ⟨_, ?_, .even (Type4ConvertToType3Even.inst (n / 2) i) hw⟩
      simp only [Type4ConvertToType3Even.inst, length_vec]
      split <;> omega
  · rw [if_neg he] at h
    by_cases h7 : n < 7
    · rw [if_pos h7] at h ⊢
      exact nv h
    · rw [if_neg h7] at h
      obtain ⟨x, hx, rfl⟩ := map_ok h
      exact ⟨_, Nat.zero_le _, .odd _⟩

/-- What the planner returns for types 2 and 3 keeps at most `2 * n` numbers, with all its inner instances, also for a length that it was not asked for before. -/
theorem C78_planned23 (hf : PlanFftShape planFft) (n : Nat) : Plans planFft (planDct2 planFft n) fun o => ∃ k ≤ Cache.numbers (.dct23, n), Whole23 o k := fun calls => by
  have := planDct2_yields (planFft := planFft) (W := UsedWindow calls) n _ (after_inv calls)
  obtain ⟨o, h1, h2, h3⟩ := whole23_canon hf n
  cases hm : planDct2 planFft n (plannerAfter planFft calls) with
  | error e s' => rw [hm, h1] at this; cases this.1
  | ok a s' =>
    rw [hm, h1] at this
    injection this.1 with e
    exact ⟨a, s', rfl, e ▸ h2⟩

theorem C78_planned4 (hf : PlanFftShape planFft) (n : Nat) : Plans planFft (planDct4 planFft n) fun o => ∃ k ≤ Cache.numbers (.dct4, n), Whole4 o k := fun calls => by
  have := planDct4_yields (planFft := planFft) (W := UsedWindow calls) n _ (after_inv calls)
  obtain ⟨o, h1, -⟩ := canon4_made hf n
  cases hm : planDct4 planFft n (plannerAfter planFft calls) with
  | error e s' => rw [hm, h1] at this; cases this.1
  | ok a s' =>
    rw [hm] at this
    exact ⟨a, s', rfl, whole4_canon hf this.1⟩

theorem C78_plannedMdct (hf : PlanFftShape planFft) {n : Nat} {w : Nat → List T} {calls : List (PlanCall T)} {a : Arc (MdctObj T)} {s' : Planner T}
    (h : planMdct planFft n w (plannerAfter planFft calls) = .ok a s') : ∃ k ≤ Cache.numbers (.dct4, n) + Cache.numbers (.mdct, n), WholeMdct a.val k := by
  have := planMdct_run (planFft := planFft) (W := UsedWindow (calls ++ [.mdct n w])) n (w := w) (by unfold UsedWindow; simp) (plannerAfter planFft calls)
    (foldl_inv (planFft := planFft) (W := UsedWindow (calls ++ [.mdct n w])) calls (fun m v hv => by unfold UsedWindow; simp [hv]) (Inv.new 0)).1
  rw [h] at this
  obtain ⟨⟨w', -, hc⟩, -⟩ := this
  unfold canonMdct at hc
  obtain ⟨i, h1, -, h3⟩ := canon4_made hf n
  rw [h1] at hc
  obtain ⟨x, hx, hx'⟩ := map_ok (show (MdctViaDct4.new i w').map MdctViaDct4.toObj = .ok a.val from hc)
  rw [← hx']
  obtain ⟨k, hk, hw⟩ := whole4_canon hf h1
  obtain ⟨-, l, rfl⟩ := MdctViaDct4.new_shape hx
  refine ⟨_, ?_, .viaDct4 _ hw⟩
  simp only [Cache.numbers]
  rw [l, h3]
  omega

/-- Every instance of types 2 and 3 made with the public constructors, however nested, keeps at most eight numbers per point. -/
theorem C78_made23 {okFft : Fft T → Prop} {o : Obj23 T} (h : Made23 okFft o) : ∃ k ≤ 8 * o.len, Whole23 o k := by
  induction h with
  | naive h =>
    obtain ⟨_, w, rfl⟩ := Type2And3Naive.new_shape h
    refine ⟨_, ?_, .naive _⟩
    show 2 * (vec _ w).length ≤ 8 * ((vec _ w).length / 4)
    simp only [length_vec]
    omega
  | butterfly2 => exact ⟨0, Nat.zero_le _, .butterfly2 _⟩
  | butterfly3 => exact ⟨1, Nat.le_of_lt (by show 1 < 8 * 3; decide), .butterfly3 _⟩
  | butterfly4 => exact ⟨2, Nat.le_of_lt (by show 2 < 8 * 4; decide), .butterfly4 _⟩
  | butterfly8 => exact ⟨6, Nat.le_of_lt (by show 6 < 8 * 8; decide), .butterfly8 _⟩
  | butterfly16 => exact ⟨16, Nat.le_of_lt (by show 16 < 8 * 16; decide), .butterfly16 _⟩
  | fft hf h =>
    obtain ⟨-, rfl⟩ := Type2And3ConvertToFft.new_shape h
    refine ⟨_, ?_, .fft _⟩
    show 2 * (vec _ _).length ≤ 8 * (vec _ _).length
    omega
  | splitRadix hh hq sh sq h ih iq =>
    obtain ⟨e, -, -, rfl⟩ := Type2And3SplitRadix.new_shape h
    obtain ⟨a, ha, Ha⟩ := ih
    obtain ⟨b, hb, Hb⟩ := iq
    refine ⟨_, ?_, .splitRadix _ Ha Hb⟩
    show 2 * (vec _ _).length + a + b ≤ 8 * ((vec _ _).length * 4)
    rw [length_vec]
    omega

theorem C78_made4 {okFft : Fft T → Prop} {o : Obj4 T} (h : Made4 okFft o) : ∃ k ≤ 8 * o.len, Whole4 o k := by
  cases h with
  | naive h =>
    obtain ⟨_, w, rfl⟩ := Type4Naive.new_shape h
    refine ⟨_, ?_, .naive _⟩
    show 2 * (vec _ w).length ≤ 8 * ((vec _ w).length / 4)
    simp only [length_vec]
    omega
  | fft hf h => exact ⟨0, Nat.zero_le _, .odd _⟩
  | type3 hi h =>
    obtain ⟨k, hk, hw⟩ := C78_made23 hi
    rw [Type4ConvertToType3Even.new_eq rfl] at h
    injection h with h
    subst h
    refine ⟨_, ?_, .even _ hw⟩
    show 2 * (vec _ _).length + k ≤ 8 * ((vec _ _).length * 2)
    rw [length_vec]
    omega

theorem C78_madeMdct {okFft : Fft T → Prop} {win : List T} {o : MdctObj T} (h : MadeMdct okFft win o) : ∃ k ≤ 10 * o.len, WholeMdct o k := by
  cases h with
  | naive h =>
    obtain ⟨he, l, t, rfl⟩ := MdctNaive.new_shape h
    refine ⟨_, ?_, .naive _⟩
    show (vec _ t).length + _ ≤ 10 * ((vec _ t).length / 4)
    simp only [length_vec]
    rw [l]
    omega
  | viaDct4 hi h =>
    obtain ⟨k, hk, hw⟩ := C78_made4 hi
    obtain ⟨-, l, rfl⟩ := MdctViaDct4.new_shape h
    refine ⟨_, ?_, .viaDct4 _ hw⟩
    show _ ≤ 10 * Obj4.len _
    simp only
    rw [l]
    omega

/-! ### Non-vacuity -/

/-- The bound is reached: a length that is not a power of two has a table of `2 * n` numbers. -/
theorem C78_reached (hf : PlanFftShape planFft) {n : Nat} (hb : dct2Butterflies.contains n = false) (hp : isPowerOfTwo n = false) :
    (plannerAfter planFft [.dct2 n]).Holds (.dct23, n) (Cache.numbers (.dct23, n)) := by
  show (finalState (planDct2 planFft n (Planner.new 0))).Holds _ _
  rw [planDct2_eq, cachePlan_run, show (Planner.new 0 : Planner T).dct23Cache n = none from rfl, planNewDct2, if_neg (by rw [hb]; simp), dif_neg (by rw [hp]; simp),
    Type2And3ConvertToFft.new_eq (hf n).2]
  refine ⟨_, insertCache_self _ _ _, ?_⟩
  have : Cache.numbers (.dct23, n) = 2 * (Type2And3ConvertToFft.inst (planFft n)).twiddles.length := by simp [Cache.numbers, Type2And3ConvertToFft.inst, (hf n).1]
  rw [this]
  exact .fft _

example (calls : List (PlanCall T)) : (plannerAfter (fun m => (dftFft m 0 : Fft T)) [.dct2 100, .dct2 100, .dst3 100, .mdct 50 fun _ => []]).Within 15 400 := by
  have := C78_memory (planFft := fun m => (dftFft m 0 : Fft T)) (fun m => ⟨rfl, rfl⟩) [.dct2 100, .dct2 100, .dst3 100, .mdct 50 fun _ => []]
  have l1 : Nat.log 2 100 = 6 := (Nat.log_eq_iff (by norm_num)).2 (by norm_num)
  have l2 : Nat.log 2 50 = 5 := (Nat.log_eq_iff (by norm_num)).2 (by norm_num)
  simpa [asked, PlanCall.asks, Cache.instances, Cache.numbers, l1, l2] using this

end
end RustDct
