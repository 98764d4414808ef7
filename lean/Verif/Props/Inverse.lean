import Verif.Proofs.Inverse
import Verif.Props.Transforms
import Verif.Props.Planner
/-!
# C17–C20, C39, C41, C44: inverses, linearity, symmetry and energy

Each theorem comes for all instances the public constructors can produce (`_made`) and for the instances the planner returns
after arbitrary histories (`_planned`; the two instances may even come from two different planners).  Over the reals.
-/

set_option linter.all false

namespace RustDct

variable {planFft : ℕ → Fft ℝ} {calls calls' : List (PlanCall ℝ)} {p q : Proc ℝ} {n s t : ℕ}

/-- C01–C16 in one statement. -/
theorem Method.performs {k : Kind} (h : Method FftContract k p n s) : PerformsZeroed p n s (Spec.onList k.specAt) := by
  cases h with
  | dct1 h hn => exact ⟨(C01_made h hn).1.zeroed, (C01_made h hn).2⟩
  | dct2 h => exact ⟨(C02_made h).1.zeroed, (C02_made h).2⟩
  | dct3 h hn => exact ⟨(C03_made h hn).1.zeroed, (C03_made h hn).2⟩
  | dct4 h hn => exact ⟨(C04_made h hn).1.zeroed, (C04_made h hn).2⟩
  | dct5 h => exact ⟨(C05_made h).1.zeroed, (C05_made h).2⟩
  | dct6 h => exact ⟨(C06_made h).1.zeroed, (C06_made h).2⟩
  | dct7 h => exact ⟨(C07_made h).1.zeroed, (C07_made h).2⟩
  | dct8 h => exact ⟨(C08_made h).1.zeroed, (C08_made h).2⟩
  | dst1 h => exact C09_made h
  | dst2 h => exact ⟨(C10_made h).1.zeroed, (C10_made h).2⟩
  | dst3 h hn => exact ⟨(C11_made h hn).1.zeroed, (C11_made h hn).2⟩
  | dst4 h hn => exact ⟨(C12_made h hn).1.zeroed, (C12_made h hn).2⟩
  | dst5 h => exact ⟨(C13_made h).1.zeroed, (C13_made h).2⟩
  | dst6 h => exact C14_made h
  | dst7 h => exact C15_made h
  | dst8 h => exact ⟨(C16_made h).1.zeroed, (C16_made h).2⟩

theorem Method.runs {k : Kind} (h : Method FftContract k p n s) (f : ℕ → ℝ) : processDefault s p (vec n f) = .ok (vec n (k.specAt n f)) := by
  rw [h.performs.2 _ (length_vec ..), onList_vec_local _ k.local]

theorem Planned.made {k : Kind} (hf : PlanFftContract planFft) (h : Planned planFft calls k p n s) : Method FftContract k p n s :=
  (h.method hf.shape).mono (FromPlan.contract hf)

theorem Method.two_le (h : Method FftContract .dct1 p n s) : 2 ≤ n := by cases h; assumption

theorem map_vec' {α β : Type} (g : α → β) (n : ℕ) (f : ℕ → α) : (vec n f).map g = vec n fun i => g (f i) := by
  simp [vec, Function.comp_def]

theorem inverse {k : Kind} (h : Method FftContract k p n s) (h' : Method FftContract k.inv q n t) : Scales p q n s t (k.scale n) := by
  intro buf hb
  obtain ⟨f, rfl⟩ := exists_vec hb
  refine ⟨_, h.runs f, ?_⟩
  rw [h'.runs, map_vec']
  congr 1
  exact vec_congr fun i hi => k.inv_spec (fun e => by subst e; exact h.two_le) f hi

/-! ### C17: types 2 and 3 invert each other, up to `n/2` -/

theorem C17_made :
    (Method FftContract .dct2 p n s → Method FftContract .dct3 q n t → Scales p q n s t (n / 2) ∧ Scales q p n t s (n / 2)) ∧
    (Method FftContract .dst2 p n s → Method FftContract .dst3 q n t → Scales p q n s t (n / 2) ∧ Scales q p n t s (n / 2)) :=
  ⟨fun h h' => ⟨inverse h h', inverse h' h⟩, fun h h' => ⟨inverse h h', inverse h' h⟩⟩

theorem C17_planned (hf : PlanFftContract planFft) :
    (Planned planFft calls .dct2 p n s → Planned planFft calls' .dct3 q n t → Scales p q n s t (n / 2) ∧ Scales q p n t s (n / 2)) ∧
    (Planned planFft calls .dst2 p n s → Planned planFft calls' .dst3 q n t → Scales p q n s t (n / 2) ∧ Scales q p n t s (n / 2)) :=
  ⟨fun h h' => C17_made.1 (h.made hf) (h'.made hf), fun h h' => C17_made.2 (h.made hf) (h'.made hf)⟩

/-! ### C18: type 4 inverts itself, up to `n/2` -/

theorem C18_made :
    (Method FftContract .dct4 p n s → Method FftContract .dct4 q n t → Scales p q n s t (n / 2)) ∧
    (Method FftContract .dst4 p n s → Method FftContract .dst4 q n t → Scales p q n s t (n / 2)) :=
  ⟨fun h h' => inverse h h', fun h h' => inverse h h'⟩

theorem C18_planned (hf : PlanFftContract planFft) :
    (Planned planFft calls .dct4 p n s → Planned planFft calls' .dct4 q n t → Scales p q n s t (n / 2)) ∧
    (Planned planFft calls .dst4 p n s → Planned planFft calls' .dst4 q n t → Scales p q n s t (n / 2)) :=
  ⟨fun h h' => C18_made.1 (h.made hf) (h'.made hf), fun h h' => C18_made.2 (h.made hf) (h'.made hf)⟩

/-! ### C19: type 1 inverts itself, up to `(n-1)/2` (cosine) and `(n+1)/2` (sine) -/

theorem C19_made :
    (Method FftContract .dct1 p n s → Method FftContract .dct1 q n t → Scales p q n s t ((n - 1) / 2)) ∧
    (Method FftContract .dst1 p n s → Method FftContract .dst1 q n t → Scales p q n s t ((n + 1) / 2)) :=
  ⟨fun h h' => inverse h h', fun h h' => inverse h h'⟩

theorem C19_planned (hf : PlanFftContract planFft) :
    (Planned planFft calls .dct1 p n s → Planned planFft calls' .dct1 q n t → Scales p q n s t ((n - 1) / 2)) ∧
    (Planned planFft calls .dst1 p n s → Planned planFft calls' .dst1 q n t → Scales p q n s t ((n + 1) / 2)) :=
  ⟨fun h h' => C19_made.1 (h.made hf) (h'.made hf), fun h h' => C19_made.2 (h.made hf) (h'.made hf)⟩

/-! ### C20: types 5 to 8 -/

theorem C20_made :
    (Method FftContract .dct5 p n s → Method FftContract .dct5 q n t → Scales p q n s t ((n - 1 / 2) / 2)) ∧
    (Method FftContract .dst5 p n s → Method FftContract .dst5 q n t → Scales p q n s t ((n + 1 / 2) / 2)) ∧
    (Method FftContract .dct6 p n s → Method FftContract .dct7 q n t →
      Scales p q n s t ((n - 1 / 2) / 2) ∧ Scales q p n t s ((n - 1 / 2) / 2)) ∧
    (Method FftContract .dst6 p n s → Method FftContract .dst7 q n t →
      Scales p q n s t ((n + 1 / 2) / 2) ∧ Scales q p n t s ((n + 1 / 2) / 2)) ∧
    (Method FftContract .dct8 p n s → Method FftContract .dct8 q n t → Scales p q n s t ((n + 1 / 2) / 2)) ∧
    (Method FftContract .dst8 p n s → Method FftContract .dst8 q n t → Scales p q n s t ((n - 1 / 2) / 2)) :=
  ⟨fun h h' => inverse h h', fun h h' => inverse h h', fun h h' => ⟨inverse h h', inverse h' h⟩,
    fun h h' => ⟨inverse h h', inverse h' h⟩, fun h h' => inverse h h', fun h h' => inverse h h'⟩

theorem C20_planned (hf : PlanFftContract planFft) :
    (Planned planFft calls .dct5 p n s → Planned planFft calls' .dct5 q n t → Scales p q n s t ((n - 1 / 2) / 2)) ∧
    (Planned planFft calls .dst5 p n s → Planned planFft calls' .dst5 q n t → Scales p q n s t ((n + 1 / 2) / 2)) ∧
    (Planned planFft calls .dct6 p n s → Planned planFft calls' .dct7 q n t →
      Scales p q n s t ((n - 1 / 2) / 2) ∧ Scales q p n t s ((n - 1 / 2) / 2)) ∧
    (Planned planFft calls .dst6 p n s → Planned planFft calls' .dst7 q n t →
      Scales p q n s t ((n + 1 / 2) / 2) ∧ Scales q p n t s ((n + 1 / 2) / 2)) ∧
    (Planned planFft calls .dct8 p n s → Planned planFft calls' .dct8 q n t → Scales p q n s t ((n + 1 / 2) / 2)) ∧
    (Planned planFft calls .dst8 p n s → Planned planFft calls' .dst8 q n t → Scales p q n s t ((n - 1 / 2) / 2)) :=
  ⟨fun h h' => C20_made.1 (h.made hf) (h'.made hf), fun h h' => C20_made.2.1 (h.made hf) (h'.made hf),
    fun h h' => C20_made.2.2.1 (h.made hf) (h'.made hf), fun h h' => C20_made.2.2.2.1 (h.made hf) (h'.made hf),
    fun h h' => C20_made.2.2.2.2.1 (h.made hf) (h'.made hf), fun h h' => C20_made.2.2.2.2.2 (h.made hf) (h'.made hf)⟩

/-! ### C39: linearity -/

theorem zipWith_vec' {α β γ : Type} (g : α → β → γ) (n : ℕ) (f : ℕ → α) (f' : ℕ → β) :
    List.zipWith g (vec n f) (vec n f') = vec n fun i => g (f i) (f' i) := by
  apply List.ext_getElem
  · simp
  · intro i h1 h2
    simp

theorem C39_made {k : Kind} (h : Method FftContract k p n s) : Linear p n s := by
  intro a b x y hx hy
  obtain ⟨f, rfl⟩ := exists_vec hx
  obtain ⟨g, rfl⟩ := exists_vec hy
  refine ⟨_, _, h.runs f, h.runs g, ?_⟩
  rw [zipWith_vec', zipWith_vec', h.runs]
  congr 1
  exact vec_congr fun i _ => k.linear a b f g i

theorem C39_planned {k : Kind} (hf : PlanFftContract planFft) (h : Planned planFft calls k p n s) : Linear p n s := C39_made (h.made hf)

theorem C39_zero {k : Kind} (h : Method FftContract k p n s) : processDefault s p (List.replicate n 0) = .ok (List.replicate n 0) := by
  have e : List.replicate n (0 : ℝ) = vec n fun _ => 0 := by
    apply List.ext_getElem <;> simp
  rw [e, h.runs]
  congr 1
  exact vec_congr fun i _ => by rw [k.specAt_eq]; simp

/-! ### C41: the sine transforms in terms of the cosine transforms -/

/-- Every second element negated, starting with the second. -/
def negOdd (l : List ℝ) : List ℝ := l.mapIdx fun i x => if i % 2 = 1 then -x else x

theorem negOdd_vec (n : ℕ) (f : ℕ → ℝ) : negOdd (vec n f) = vec n fun i => (-1) ^ i * f i := by
  apply List.ext_getElem
  · simp [negOdd]
  · intro i h1 h2
    simp only [negOdd, List.getElem_mapIdx, getElem_vec]
    split
    · rw [Odd.neg_one_pow (Nat.odd_iff.2 ‹_›)]; ring
    · rw [Even.neg_one_pow (Nat.even_iff.2 (by omega))]; ring

theorem reverse_vec' {α : Type} (n : ℕ) (f : ℕ → α) : (vec n f).reverse = vec n fun i => f (n - 1 - i) := by
  apply List.ext_getElem
  · simp
  · intro i h1 h2
    simp

theorem C41_made :
    (Method FftContract .dst2 p n s → Method FftContract .dct2 q n t → ∀ x : List ℝ, x.length = n →
      ∃ y, processDefault t q (negOdd x) = .ok y ∧ processDefault s p x = .ok y.reverse) ∧
    (Method FftContract .dst3 p n s → Method FftContract .dct3 q n t → ∀ x : List ℝ, x.length = n →
      ∃ y, processDefault t q x.reverse = .ok y ∧ processDefault s p x = .ok (negOdd y)) ∧
    (Method FftContract .dst4 p n s → Method FftContract .dct4 q n t → ∀ x : List ℝ, x.length = n →
      ∃ y, processDefault t q x.reverse = .ok y ∧ processDefault s p x = .ok (negOdd y)) := by
  refine ⟨fun h h' x hx => ?_, fun h h' x hx => ?_, fun h h' x hx => ?_⟩ <;> obtain ⟨f, rfl⟩ := exists_vec hx
  · refine ⟨_, by rw [negOdd_vec, h'.runs], ?_⟩
    rw [h.runs, reverse_vec']
    congr 1
    refine vec_congr fun i hi => ?_
    have := dst2At_eq (n := n) f (k := n - 1 - i) (by omega)
    rw [show n - 1 - (n - 1 - i) = i by omega] at this
    exact this
  · refine ⟨_, by rw [reverse_vec', h'.runs], ?_⟩
    rw [h.runs, negOdd_vec]
    congr 1
    exact vec_congr fun i hi => dst3At_eq f hi
  · refine ⟨_, by rw [reverse_vec', h'.runs], ?_⟩
    rw [h.runs, negOdd_vec]
    congr 1
    exact vec_congr fun i hi => dst4At_eq f hi

theorem C41_planned (hf : PlanFftContract planFft) :
    (Planned planFft calls .dst2 p n s → Planned planFft calls' .dct2 q n t → ∀ x : List ℝ, x.length = n →
      ∃ y, processDefault t q (negOdd x) = .ok y ∧ processDefault s p x = .ok y.reverse) ∧
    (Planned planFft calls .dst3 p n s → Planned planFft calls' .dct3 q n t → ∀ x : List ℝ, x.length = n →
      ∃ y, processDefault t q x.reverse = .ok y ∧ processDefault s p x = .ok (negOdd y)) ∧
    (Planned planFft calls .dst4 p n s → Planned planFft calls' .dct4 q n t → ∀ x : List ℝ, x.length = n →
      ∃ y, processDefault t q x.reverse = .ok y ∧ processDefault s p x = .ok (negOdd y)) :=
  ⟨fun h h' => C41_made.1 (h.made hf) (h'.made hf), fun h h' => C41_made.2.1 (h.made hf) (h'.made hf),
    fun h h' => C41_made.2.2 (h.made hf) (h'.made hf)⟩

/-! ### C44: energy -/

theorem sum_map_vec (n : ℕ) (f : ℕ → ℝ) : (vec n f).sum = ∑ i ∈ Finset.range n, f i := by
  induction n with
  | zero => simp
  | succ n ih => rw [Finset.sum_range_succ, ← ih, vec, vec, List.range_succ]; simp

/-- Parseval's identity for all sixteen transforms: with the boundary samples of each type weighted one half, as in the
transform itself, the energy is scaled by the same factor as in C17–C20. -/
theorem C44_weighted {k : Kind} (h : Method FftContract k p n s) (x : List ℝ) (hx : x.length = n) : ∃ y, processDefault s p x = .ok y ∧
    ∑ i ∈ Finset.range n, k.inv.weight n i * (y.getD i 0) ^ 2 = k.scale n * ∑ i ∈ Finset.range n, k.weight n i * (x.getD i 0) ^ 2 := by
  obtain ⟨f, rfl⟩ := exists_vec hx
  refine ⟨_, h.runs f, ?_⟩
  have e := k.parseval (n := n) (fun e => by subst e; exact h.two_le) f
  have g : ∀ (f : ℕ → ℝ) (w : ℕ → ℝ), ∑ i ∈ Finset.range n, w i * ((vec n f).getD i 0) ^ 2 = ∑ i ∈ Finset.range n, w i * (f i * f i) := fun f w =>
    Finset.sum_congr rfl fun i hi => by rw [List.getD_eq_getElem?_getD, getElem?_vec_lt (Finset.mem_range.1 hi), Option.getD_some]; ring
  rw [g, g, e]

theorem energy {k : Kind} (h : Method FftContract k p n s) (hw : ∀ i, k.weight n i = 1) (hw' : ∀ i, k.inv.weight n i = 1) :
    ScalesEnergy p n s (k.scale n) := by
  intro x hx
  obtain ⟨f, rfl⟩ := exists_vec hx
  refine ⟨_, h.runs f, ?_⟩
  have e := k.parseval (n := n) (fun e => by subst e; exact h.two_le) f
  simp only [hw, hw', one_mul] at e
  rw [map_vec', map_vec', sum_map_vec, sum_map_vec, e]

theorem C44_made :
    (Method FftContract .dct4 p n s → ScalesEnergy p n s (n / 2)) ∧
    (Method FftContract .dst4 p n s → ScalesEnergy p n s (n / 2)) ∧
    (Method FftContract .dst1 p n s → ScalesEnergy p n s ((n + 1) / 2)) ∧
    (Method FftContract .dst5 p n s → ScalesEnergy p n s ((n + 1 / 2) / 2)) ∧
    (Method FftContract .dst6 p n s → ScalesEnergy p n s ((n + 1 / 2) / 2)) ∧
    (Method FftContract .dst7 p n s → ScalesEnergy p n s ((n + 1 / 2) / 2)) ∧
    (Method FftContract .dct8 p n s → ScalesEnergy p n s ((n + 1 / 2) / 2)) := by
  refine ⟨?_, ?_, ?_, ?_, ?_, ?_, ?_⟩ <;> exact fun h => energy h (fun _ => rfl) (fun _ => rfl)

theorem C44_planned (hf : PlanFftContract planFft) :
    (Planned planFft calls .dct4 p n s → ScalesEnergy p n s (n / 2)) ∧
    (Planned planFft calls .dst4 p n s → ScalesEnergy p n s (n / 2)) ∧
    (Planned planFft calls .dst1 p n s → ScalesEnergy p n s ((n + 1) / 2)) ∧
    (Planned planFft calls .dst5 p n s → ScalesEnergy p n s ((n + 1 / 2) / 2)) ∧
    (Planned planFft calls .dst6 p n s → ScalesEnergy p n s ((n + 1 / 2) / 2)) ∧
    (Planned planFft calls .dst7 p n s → ScalesEnergy p n s ((n + 1 / 2) / 2)) ∧
    (Planned planFft calls .dct8 p n s → ScalesEnergy p n s ((n + 1 / 2) / 2)) := by
  refine ⟨fun h => C44_made.1 (h.made hf), fun h => C44_made.2.1 (h.made hf), fun h => C44_made.2.2.1 (h.made hf),
    fun h => C44_made.2.2.2.1 (h.made hf), fun h => C44_made.2.2.2.2.1 (h.made hf), fun h => C44_made.2.2.2.2.2.1 (h.made hf),
    fun h => C44_made.2.2.2.2.2.2 (h.made hf)⟩

/-! The hypotheses are met: with an FFT planner that computes the DFT, every plan call for a length of at least two returns,
after every history. -/

example (calls : List (PlanCall ℝ)) : ∃ p s q t, Planned (fun n => (dftFft n : Fft ℝ)) calls .dct2 p 96 s ∧
    Planned (fun n => (dftFft n : Fft ℝ)) [] .dct3 q 96 t ∧ Scales p q 96 s t ((96 : ℕ) / 2) := by
  obtain ⟨p, s, h⟩ := planned_exists dftFft_plan.shape calls .dct2 (n := 96) (by norm_num)
  obtain ⟨q, t, h'⟩ := planned_exists dftFft_plan.shape [] .dct3 (n := 96) (by norm_num)
  exact ⟨p, s, q, t, h, h', ((C17_planned dftFft_plan).1 h h').1⟩

example (calls : List (PlanCall ℝ)) (k : Kind) : ∃ p s, Planned (fun n => (dftFft n : Fft ℝ)) calls k p 61 s ∧ Linear p 61 s := by
  obtain ⟨p, s, h⟩ := planned_exists dftFft_plan.shape calls k (n := 61) (by norm_num)
  exact ⟨p, s, h, C39_planned dftFft_plan h⟩

example (calls : List (PlanCall ℝ)) : ∃ p s, Planned (fun n => (dftFft n : Fft ℝ)) calls .dst6 p 61 s ∧ ScalesEnergy p 61 s (((61 : ℕ) + 1 / 2) / 2) := by
  obtain ⟨p, s, h⟩ := planned_exists dftFft_plan.shape calls .dst6 (n := 61) (by norm_num)
  exact ⟨p, s, h, (C44_planned dftFft_plan).2.2.2.2.1 h⟩

end RustDct
