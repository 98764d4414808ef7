import Verif.NonFinite
import Verif.Props.Formula
import Verif.Props.Inverse
import Verif.Props.Mdct
import Verif.Float.DftFft
import Verif.Range.Format
/-!
# C69: infinite and NaN samples never go unnoticed
-/

set_option linter.all false

namespace RustDct
open Real Finset

/-! ### Formulas that mention a variable -/

/-- Input `i` occurs in the formula. -/
def Formula.Uses (i : ℕ) : Formula → Prop
  | .input j => j = i
  | .window _ | .zero | .one | .sqrt2 | .fracSqrt2 | .fromF64 _ => False
  | .add a b | .sub a b | .mul a b => a.Uses i ∨ b.Uses i
  | .neg a => a.Uses i

/-- Entry `i` of the window occurs in the formula. -/
def Formula.UsesWindow (i : ℕ) : Formula → Prop
  | .window j => j = i
  | .input _ | .zero | .one | .sqrt2 | .fracSqrt2 | .fromF64 _ => False
  | .add a b | .sub a b | .mul a b => a.UsesWindow i ∨ b.UsesWindow i
  | .neg a => a.UsesWindow i

section
variable {T F : Type} [F64 F] [DctNum T F]

theorem Formula.eval_congr {i : ℕ} {x y w : List T} (h : ∀ l, l ≠ i → x.getD l 0 = y.getD l 0) : ∀ e : Formula, ¬ e.Uses i → e.eval x w = e.eval y w
  | .input j, he => h j he
  | .window _, _ => rfl
  | .zero, _ => rfl
  | .one, _ => rfl
  | .sqrt2, _ => rfl
  | .fracSqrt2, _ => rfl
  | .fromF64 _, _ => rfl
  | .add a b, he => by simp only [Formula.Uses, not_or] at he; simp only [Formula.eval]; rw [eval_congr h a he.1, eval_congr h b he.2]
  | .sub a b, he => by simp only [Formula.Uses, not_or] at he; simp only [Formula.eval]; rw [eval_congr h a he.1, eval_congr h b he.2]
  | .mul a b, he => by simp only [Formula.Uses, not_or] at he; simp only [Formula.eval]; rw [eval_congr h a he.1, eval_congr h b he.2]
  | .neg a, he => by simp only [Formula.Uses] at he; simp only [Formula.eval]; rw [eval_congr h a he]

theorem Formula.eval_congr_window {i : ℕ} {x w v : List T} (h : ∀ l, l ≠ i → w.getD l 0 = v.getD l 0) : ∀ e : Formula, ¬ e.UsesWindow i → e.eval x w = e.eval x v
  | .input _, _ => rfl
  | .window j, he => h j he
  | .zero, _ => rfl
  | .one, _ => rfl
  | .sqrt2, _ => rfl
  | .fracSqrt2, _ => rfl
  | .fromF64 _, _ => rfl
  | .add a b, he => by simp only [Formula.UsesWindow, not_or] at he; simp only [Formula.eval]; rw [eval_congr_window h a he.1, eval_congr_window h b he.2]
  | .sub a b, he => by simp only [Formula.UsesWindow, not_or] at he; simp only [Formula.eval]; rw [eval_congr_window h a he.1, eval_congr_window h b he.2]
  | .mul a b, he => by simp only [Formula.UsesWindow, not_or] at he; simp only [Formula.eval]; rw [eval_congr_window h a he.1, eval_congr_window h b he.2]
  | .neg a, he => by simp only [Formula.UsesWindow] at he; simp only [Formula.eval]; rw [eval_congr_window h a he]

variable {bad : T → Prop}

theorem Absorbing.of_uses (hb : Absorbing bad) {i : ℕ} {x w : List T} (h : bad (x.getD i 0)) : ∀ e : Formula, e.Uses i → bad (e.eval x w)
  | .input j, he => by cases he; exact h
  | .add a b, he => hb.add _ _ (he.imp (of_uses hb h a) (of_uses hb h b))
  | .sub a b, he => hb.sub _ _ (he.imp (of_uses hb h a) (of_uses hb h b))
  | .mul a b, he => hb.mul _ _ (he.imp (of_uses hb h a) (of_uses hb h b))
  | .neg a, he => hb.neg _ (of_uses hb h a he)

theorem Absorbing.of_usesWindow (hb : Absorbing bad) {i : ℕ} {x w : List T} (h : bad (w.getD i 0)) : ∀ e : Formula, e.UsesWindow i → bad (e.eval x w)
  | .window j, he => by cases he; exact h
  | .add a b, he => hb.add _ _ (he.imp (of_usesWindow hb h a) (of_usesWindow hb h b))
  | .sub a b, he => hb.sub _ _ (he.imp (of_usesWindow hb h a) (of_usesWindow hb h b))
  | .mul a b, he => hb.mul _ _ (he.imp (of_usesWindow hb h a) (of_usesWindow hb h b))
  | .neg a, he => hb.neg _ (of_usesWindow hb h a he)

/-! ### The formulas of a planned instance, with scratch as further inputs -/

/-- The formulas of an instance over formulas, with scratch as further inputs. -/
theorem scratch_core {p₀ : Proc Formula} {n s₀ : ℕ} (hS : Safe p₀ n s₀) (hO : OversizeHarmless p₀ n s₀) :
    ∃ G : List Formula, G.length = n ∧ ∀ (T F : Type) [F64 F] [DctNum T F] (p : Proc T), (∀ x : List T, ProcRel (fun e y => y = Formula.eval x [] e) p₀ p) →
      ∀ m, ValidCall n s₀ m → ∃ scr', p m = .ok ⟨G.map (Formula.eval (m.buf ++ m.scr) []), scr'⟩ := by
  obtain ⟨m', e', hl, -⟩ := hS ⟨Formula.inputs 0 n, Formula.inputs n s₀⟩ ⟨by simp [Formula.inputs], by simp [Formula.inputs]⟩
  refine ⟨m'.buf, hl, fun T F _ _ p hp m hm => ?_⟩
  have h2 := hp (m.buf ++ m.scr)
  obtain ⟨out, s1, s2, r1, r2, -⟩ := hO (Formula.inputs 0 n) (Formula.inputs n s₀) (Formula.inputs (n + s₀) (m.scr.length - s₀)) (by simp [Formula.inputs]) (by simp [Formula.inputs])
  rw [e'] at r1
  injection r1 with r1
  have e := procRel_map h2 ⟨Formula.inputs 0 n, Formula.inputs n s₀ ++ Formula.inputs (n + s₀) (m.scr.length - s₀)⟩
  rw [r2] at e
  have hm2 : s₀ ≤ m.scr.length := hm.2
  have eb : (Formula.inputs 0 n).map (Formula.eval (m.buf ++ m.scr) []) = m.buf :=
    Formula.inputs_eval (off := 0) (pre := []) (l := m.buf) (post := m.scr) (by simp) rfl hm.1
  have e1 : (Formula.inputs n s₀).map (Formula.eval (m.buf ++ m.scr) []) = m.scr.take s₀ :=
    Formula.inputs_eval (pre := m.buf) (l := m.scr.take s₀) (post := m.scr.drop s₀) (by simp) hm.1 (by simp [hm2])
  have e2 : (Formula.inputs (n + s₀) (m.scr.length - s₀)).map (Formula.eval (m.buf ++ m.scr) []) = m.scr.drop s₀ :=
    Formula.inputs_eval (pre := m.buf ++ m.scr.take s₀) (l := m.scr.drop s₀) (post := []) (by simp) (by have := hm.1; simp [this, hm2]) (by simp)
  simp only [Mem.map, List.map_append, eb, e1, e2, List.take_append_drop] at e
  refine ⟨(s2 ++ Formula.inputs (n + s₀) (m.scr.length - s₀)).map (Formula.eval (m.buf ++ m.scr) []), e.trans ?_⟩
  simp only [Outcome.map, Mem.map]
  rw [show out = m'.buf by rw [r1]]

/-- As `C64_planned`, for all kinds and any scratch: what is in scratch are further inputs `n`, `n + 1`, … of the formulas. -/
theorem C64_scratch {symFft : ℕ → Fft Formula} (hs : PlanFftSane symFft) (k : Kind) (n : ℕ) :
    ∃ G : List Formula, G.length = n ∧
      ∀ (T F : Type) [F64 F] [DctNum T F] (planFft : ℕ → Fft T) (calls : List (PlanCall T)) (p : Proc T) (s : ℕ),
        (∀ m, k.fftLen n = some m → FftEvaluates (symFft m) (planFft m)) → Planned planFft calls k p n s →
          ∀ m, ValidCall n s m → ∃ scr', p m = .ok ⟨G.map (Formula.eval (m.buf ++ m.scr) []), scr'⟩ := by
  by_cases h0 : ∃ p₀ s₀, Planned symFft [] k p₀ n s₀
  · obtain ⟨p₀, s₀, h0⟩ := h0
    obtain ⟨G, hl, hG⟩ := scratch_core (C26_planned hs h0) (C29_planned hs h0)
    refine ⟨G, hl, fun T F _ _ planFft calls p s hf hp => ?_⟩
    have key : ∀ x : List T, s₀ = s ∧ ProcRel (fun e y => y = Formula.eval x [] e) p₀ p := fun x => (Formula.param x []).planned (fun m hm => (hf m hm).rel _ _) h0 hp
    obtain ⟨rfl, -⟩ := key []
    exact hG T F p fun x => (key x).2
  · refine ⟨List.replicate n .zero, by simp, ?_⟩
    intro T F _ _ planFft calls p s hf hp
    exact absurd ((Formula.param (T := T) [] []).symm.planned_other (fun m hm => ((hf m hm).rel [] []).symm) hp []) h0

/-! ### Exact FFTs as formulas -/

theorem sumFft_contract (n : ℕ) : FftContract (sumFft n : Fft ℝ) := by
  refine ⟨rfl, fun buf scr hb hs => ?_⟩
  change buf.length = n at hb
  refine ⟨(List.range n).map fun k => dftSeq n (fun j => buf.getD j ⟨0, 0⟩) k n, scr, by simp [sumFft, hb], ?_, rfl⟩
  rcases Nat.eq_zero_or_pos n with rfl | hn
  · have : buf = [] := List.length_eq_zero_iff.1 hb
    subst this
    rfl
  · obtain ⟨c, rfl⟩ := exists_vec hb
    rw [dft_vec, map_vec, map_range_eq_vec, map_vec]
    refine vec_congr fun k _ => ?_
    rw [dftSeq_congr (c' := c) fun j hj => by simp [List.getD, hj]]
    exact congrArg Cx.toC (dftSeq_real hn c k n)

theorem sumFft_formulas (n : ℕ) : FftFormulas (sumFft n : Fft T) :=
  ⟨sumFft n, sumFft n, (sumFft_sane n).2.2, sumFft_evaluates n, sumFft_evaluates n, sumFft_contract n⟩

/-- Two planners that plan what is given at one length. -/
theorem planners {planFft : ℕ → Fft T} (hsh : PlanFftShape planFft) (len : Option ℕ) (h : ∀ m, len = some m → FftFormulas (planFft m)) :
    ∃ (symFft : ℕ → Fft Formula) (realFft : ℕ → Fft ℝ), PlanFftSane symFft ∧ PlanFftContract realFft ∧
      (∀ m, len = some m → FftEvaluates (symFft m) (planFft m)) ∧ ∀ m, len = some m → FftEvaluates (symFft m) (realFft m) := by
  cases len with
  | none => exact ⟨fun n => sumFft n, fun n => sumFft n, sumFft_sane, fun n => ⟨rfl, sumFft_contract n⟩, by simp, by simp⟩
  | some m =>
    obtain ⟨f₀, g, h1, h2, h3, h4⟩ := h m rfl
    refine ⟨fun l => if l = m then f₀ else sumFft l, fun l => if l = m then g else sumFft l, fun l => ?_, fun l => ?_, ?_, ?_⟩
    · beta_reduce
      split
      · subst l
        exact ⟨by rw [← h2.len, (hsh m).1], by rw [← h2.direction, (hsh m).2], h1⟩
      · exact sumFft_sane l
    · beta_reduce
      split
      · subst l
        exact ⟨by rw [h3.len, ← h2.len, (hsh m).1], h4⟩
      · exact ⟨rfl, sumFft_contract l⟩
    · rintro l ⟨⟩
      simpa using h2
    · rintro l ⟨⟩
      simpa using h3

end

variable {T F : Type} [F64 F] [DctNum T F] {bad : T → Prop} {planFft : ℕ → Fft T} {calls : List (PlanCall T)} {k : Kind} {p : Proc T} {n s : ℕ}

theorem Kind.coefficient_eq (k : Kind) {n i : ℕ} (j : ℕ) (hi : i < n) : k.coefficient n j i = k.kernel n j i := by
  unfold Kind.coefficient
  rw [k.specAt_eq]
  simp [hi]

theorem Absorbing.outputs (hb : Absorbing bad) {G : List Formula} (hl : G.length = n) {m m' : Mem T} (hm : m.buf.length = n) (e : p m = .ok m')
    (e' : m'.buf = G.map (Formula.eval (m.buf ++ m.scr) [])) {q : Proc ℝ} {t : ℕ}
    (hG : ∀ m, ValidCall n t m → ∃ scr', q m = .ok ⟨G.map (Formula.eval (m.buf ++ m.scr) []), scr'⟩) (hq : Method FftContract k q n t) {i : ℕ} (hi : i < n) (hbad : bad (m.buf.getD i 0)) :
    ∃ m', p m = .ok m' ∧ m'.buf.length = n ∧ ∀ j, j < n → k.coefficient n j i ≠ 0 → bad (m'.buf.getD j 0) := by
  refine ⟨_, e, by rw [e']; simpa using hl, fun j hj hc => ?_⟩
  rw [e']
  simp only [List.getD_eq_getElem?_getD, List.getElem?_map]
  rw [List.getElem?_eq_getElem (hl ▸ hj)]
  refine hb.of_uses (i := i) ?_ _ ?_
  · have : i < m.buf.length := hm.symm ▸ hi
    simpa [List.getD, List.getElem?_append_left this] using hbad
  by_contra hu
  apply hc
  have val : ∀ f : ℕ → ℝ, k.specAt n f j = (G[j]'(hl ▸ hj)).eval (vec n f ++ List.replicate t 0) [] := by
    intro f
    obtain ⟨scr, e⟩ := hG ⟨vec n f, List.replicate t 0⟩ ⟨by simp, by simp⟩
    have r := hq.runs f
    unfold processDefault at r
    rw [e] at r
    injection r with r
    have := congrArg (fun l : List ℝ => l[j]?) r
    simp only [List.getElem?_map, List.getElem?_eq_getElem (hl.symm ▸ hj : j < G.length), Option.map_some] at this
    rw [List.getElem?_eq_getElem (by simpa using hj)] at this
    simpa using this.symm
  have : k.coefficient n j i = k.specAt n (fun _ => 0) j := by
    unfold Kind.coefficient
    rw [val, val]
    refine Formula.eval_congr (i := i) (fun l hl => ?_) _ hu
    by_cases hln : l < n
    · simp [List.getD, List.getElem?_append_left, hln, hl]
    · simp only [List.getD]
      rw [List.getElem?_append_right (by simpa using hln), List.getElem?_append_right (by simpa using hln)]
      simp
  rw [this, k.specAt_eq]
  simp

/-- If sample `i` is infinite or NaN, then so is every output into which the textbook transform takes it with a coefficient other than zero. -/
theorem C69_planned (hb : Absorbing bad) (hsh : PlanFftShape planFft) (hf : ∀ m, k.fftLen n = some m → FftFormulas (planFft m))
    (hp : Planned planFft calls k p n s) {m : Mem T} (hm : ValidCall n s m) {i : ℕ} (hi : i < n) (hbad : bad (m.buf.getD i 0)) :
    ∃ m', p m = .ok m' ∧ m'.buf.length = n ∧ ∀ j, j < n → k.coefficient n j i ≠ 0 → bad (m'.buf.getD j 0) := by
  obtain ⟨symFft, realFft, h1, h2, h3, h4⟩ := planners hsh _ hf
  obtain ⟨G, hl, hG⟩ := C64_scratch h1 k n
  obtain ⟨scr', e⟩ := hG T F planFft calls p s h3 hp m hm
  obtain ⟨q, t, hq⟩ : ∃ q t, Planned realFft [] k q n t := by
    obtain ⟨q, t, hq⟩ := (Formula.param (T := T) [] []).symm.planned_other (fun m hm => ((h3 m hm).rel [] []).symm) hp []
    exact (Formula.param (T := ℝ) [] []).planned_other (fun m hm => (h4 m hm).rel [] []) hq []
  exact hb.outputs hl hm.1 e rfl (hG ℝ ℝ realFft [] q t h4 hq) (hq.made h2) hi hbad

theorem Kind.scale_ne (k : Kind) (hn : 1 ≤ n) (h1 : k = .dct1 → 2 ≤ n) : k.scale n ≠ 0 := by
  have h : (1 : ℝ) ≤ n := by exact_mod_cast hn
  cases k <;> simp only [Kind.scale]
  case dct1 =>
    have : (2 : ℝ) ≤ n := by exact_mod_cast h1 rfl
    linarith
  all_goals linarith

theorem Kind.noticed (h1 : k = .dct1 → 2 ≤ n) {m' : Mem T} {i : ℕ} (hi : i < n) (h : ∀ j, j < n → k.coefficient n j i ≠ 0 → bad (m'.buf.getD j 0)) :
    ∃ j, j < n ∧ bad (m'.buf.getD j 0) := by
  by_contra hc
  push Not at hc
  have o := k.orth h1 hi hi
  rw [if_pos rfl, sum_eq_zero] at o
  · exact k.scale_ne (by omega) h1 o.symm
  · intro j hj
    have hj := mem_range.1 hj
    rw [← k.coefficient_eq j hi, not_not.1 fun h' => hc j hj (h j hj h'), mul_zero]

/-- No sample is left out: at least one output is infinite or NaN.  So if all outputs are finite, then all samples were. -/
theorem C69_noticed (hb : Absorbing bad) (hsh : PlanFftShape planFft) (hf : ∀ m, k.fftLen n = some m → FftFormulas (planFft m))
    (hp : Planned planFft calls k p n s) {m : Mem T} (hm : ValidCall n s m) {i : ℕ} (hi : i < n) (hbad : bad (m.buf.getD i 0)) :
    ∃ m', p m = .ok m' ∧ ∃ j, j < n ∧ bad (m'.buf.getD j 0) := by
  obtain ⟨m', e, -, h⟩ := C69_planned hb hsh hf hp hm hi hbad
  refine ⟨m', e, Kind.noticed ?_ hi h⟩
  rintro rfl
  have := hp.method hsh
  cases this
  assumption

/-- Transforms of type 4 take every sample into every output. -/
theorem Kind.coefficient_type4 (hk : k = .dct4 ∨ k = .dst4) {i j : ℕ} (hi : i < n) : k.coefficient n j i ≠ 0 := by
  rw [k.coefficient_eq j hi]
  have hn : (n : ℝ) ≠ 0 := by
    have : n ≠ 0 := by omega
    exact_mod_cast this
  rcases hk with rfl | rfl
  · simp only [Kind.kernel]
    rw [Real.cos_ne_zero_iff]
    intro z hz
    rw [div_eq_iff hn] at hz
    have h2 : ((2 * j + 1) * (2 * i + 1) : ℝ) = 2 * n * (2 * z + 1) := by
      have := mul_right_cancel₀ Real.pi_ne_zero (show ((j : ℝ) + 1 / 2) * (i + 1 / 2) * π = ((2 * z + 1) / 2 * n) * π by rw [hz]; ring)
      linarith
    have h3 : ((2 * j + 1) * (2 * i + 1) : ℤ) = 2 * n * (2 * z + 1) := by exact_mod_cast h2
    have h4 := congrArg (· % 2) h3
    simp [Int.mul_emod, Int.add_emod] at h4
  · simp only [Kind.kernel]
    rw [Real.sin_ne_zero_iff]
    intro z hz
    rw [eq_div_iff hn] at hz
    have h2 : ((2 * j + 1) * (2 * i + 1) : ℝ) = 2 * (2 * n * z) := by
      have := mul_right_cancel₀ Real.pi_ne_zero (show ((j : ℝ) + 1 / 2) * (i + 1 / 2) * π = (z * n) * π by rw [← hz]; ring)
      linarith
    have h3 : ((2 * j + 1) * (2 * i + 1) : ℤ) = 2 * (2 * n * z) := by exact_mod_cast h2
    have h4 := congrArg (· % 2) h3
    simp [Int.mul_emod, Int.add_emod] at h4

theorem C69_type4 (hb : Absorbing bad) (hsh : PlanFftShape planFft) (hf : ∀ m, k.fftLen n = some m → FftFormulas (planFft m)) (hk : k = .dct4 ∨ k = .dst4)
    (hp : Planned planFft calls k p n s) {m : Mem T} (hm : ValidCall n s m) {i : ℕ} (hi : i < n) (hbad : bad (m.buf.getD i 0)) :
    ∃ m', p m = .ok m' ∧ m'.buf.length = n ∧ ∀ x ∈ m'.buf, bad x := by
  obtain ⟨m', e, hl, h⟩ := C69_planned hb hsh hf hp hm hi hbad
  refine ⟨m', e, hl, fun x hx => ?_⟩
  obtain ⟨j, hj, rfl⟩ := List.getElem_of_mem hx
  have := h j (hl ▸ hj) (Kind.coefficient_type4 hk hi)
  simpa [List.getD, hj] using this

/-! ### MDCT and IMDCT -/

theorem mdct_cos_ne {i j : ℕ} (hn : 1 ≤ n) (he : n % 2 = 0) : cos (π / n * ((i : ℝ) + 1 / 2 + n / 2) * ((j : ℝ) + 1 / 2)) ≠ 0 := by
  have hn0 : (n : ℝ) ≠ 0 := by
    have : n ≠ 0 := by omega
    exact_mod_cast this
  rw [Real.cos_ne_zero_iff]
  intro z hz
  have h2 : ((2 * i + 1 + n) * (2 * j + 1) : ℝ) = 2 * n * (2 * z + 1) := by
    have h := mul_right_cancel₀ Real.pi_ne_zero (show ((i : ℝ) + 1 / 2 + n / 2) * (j + 1 / 2) * π = ((2 * z + 1) / 2 * n) * π by
      rw [show ((2 * (z : ℝ) + 1) / 2 * n) * π = (2 * z + 1) * π / 2 * n by ring, ← hz]
      field_simp)
    linarith
  have h3 : ((2 * i + 1 + n) * (2 * j + 1) : ℤ) = 2 * n * (2 * z + 1) := by exact_mod_cast h2
  have h5 : (n : ℤ) % 2 = 0 := by omega
  have h4 := congrArg (· % 2) h3
  simp [Int.mul_emod, Int.add_emod, h5] at h4

/-- The MDCT of an instance that evaluates formulas with which real instances compute the MDCT. -/
theorem Absorbing.mdct (hb : Absorbing bad) {G GA GB : List Formula} (hl : G.length = n) {o : MdctObj T} {W : List T} (hG : EvaluatesMdct o n W G GA GB) (he : n % 2 = 0)
    (real : ∀ g : ℕ → ℝ, ∃ o' : MdctObj ℝ, EvaluatesMdct o' n (vec (2 * n) g) G GA GB ∧ ComputesMdct o'.mdct n o'.scratchLen (fun a b => Spec.mdct n (vec (2 * n) g) (a ++ b)) ∧
      AccumulatesImdct o'.imdct n o'.scratchLen (Spec.imdct n (vec (2 * n) g)))
    (hn : 1 ≤ n) {a b : List T} {m : Mem T} (hm : ValidMdct n o.scratchLen a b m) {i : ℕ} (hi : i < 2 * n) (hbad : bad ((a ++ b).getD i 0) ∨ bad (W.getD i 0)) :
    ∃ m', o.mdct a b m = .ok m' ∧ m'.buf.length = n ∧ ∀ x ∈ m'.buf, bad x := by
  obtain ⟨scr', e⟩ := hG.1 a b m hm
  refine ⟨_, e, by simpa using hl, fun y hy => ?_⟩
  obtain ⟨f, hfG, rfl⟩ := List.mem_map.1 hy
  obtain ⟨j, hj, rfl⟩ := List.getElem_of_mem hfG
  have val : ∀ f g : ℕ → ℝ, (G[j]).eval (vec (2 * n) f) (vec (2 * n) g) = Spec.mdctAt n (fun i => (vec (2 * n) g).getD i 0) (fun i => (vec (2 * n) f).getD i 0) j := by
    intro f g
    obtain ⟨o', ho, hc, -⟩ := real g
    have hv : ValidMdct n o'.scratchLen ((vec (2 * n) f).take n) ((vec (2 * n) f).drop n) ⟨List.replicate n 0, List.replicate o'.scratchLen 0⟩ :=
      ⟨by simp; omega, by simp; omega, by simp, by simp⟩
    obtain ⟨s1, e1⟩ := ho.1 _ _ _ hv
    obtain ⟨s2, e2⟩ := hc _ _ _ hv
    rw [e1, List.take_append_drop] at e2
    injection e2 with e2
    have := congrArg (fun m : Mem ℝ => m.buf[j]?) e2
    simp only [List.getElem?_map, List.getElem?_eq_getElem hj, Option.map_some, Spec.mdct] at this
    rw [List.getElem?_eq_getElem (by simp; omega)] at this
    simpa using this
  have hzero : ∀ W X : ℕ → ℝ, (∀ l, W l * X l = 0) → Spec.mdctAt n W X j = 0 := by
    intro W X h
    unfold Spec.mdctAt
    exact sum_eq_zero fun l _ => by rw [h l, zero_mul]
  have hone : ∀ W X : ℕ → ℝ, (∀ l, l < 2 * n → W l * X l = if l = i then 1 else 0) → Spec.mdctAt n W X j ≠ 0 := by
    intro W X h
    unfold Spec.mdctAt
    rw [sum_congr rfl fun l hl => by rw [h l (mem_range.1 hl)]]
    simp only [ite_mul, one_mul, zero_mul]
    rw [sum_ite_eq' (range (2 * n)) i, if_pos (mem_range.2 hi)]
    exact mdct_cos_ne hn he
  have v1 := val (fun l => if l = i then 1 else 0) (fun _ => 1)
  have n1 := hone (fun l => (vec (2 * n) fun _ => (1 : ℝ)).getD l 0) (fun l => (vec (2 * n) fun l => if l = i then (1 : ℝ) else 0).getD l 0)
    (fun l hl => by simp [List.getD, hl])
  rcases hbad with hbad | hbad
  · refine hb.of_uses hbad _ ?_
    by_contra hu
    have v2 := val (fun _ => 0) (fun _ => 1)
    rw [hzero _ _ fun l => by by_cases hl : l < 2 * n <;> simp [List.getD, hl]] at v2
    rw [Formula.eval_congr (i := i) (y := vec (2 * n) fun _ => 0) (fun l hl => by
      by_cases hln : l < 2 * n <;> simp [List.getD, hln, hl]) _ hu, v2] at v1
    exact n1 v1.symm
  · refine hb.of_usesWindow hbad _ ?_
    by_contra hu
    have v2 := val (fun l => if l = i then 1 else 0) (fun l => if l = i then 0 else 1)
    rw [hzero _ _ fun l => by by_cases hl : l < 2 * n <;> simp [List.getD, hl]] at v2
    rw [Formula.eval_congr_window (i := i) (v := vec (2 * n) fun l => if l = i then 0 else 1) (fun l hl => by
      by_cases hln : l < 2 * n <;> simp [List.getD, hln, hl]) _ hu, v2] at v1
    exact n1 v1.symm

/-- Real instances with the formulas of a planned instance and any window. -/
theorem planned_real {symFft : ℕ → Fft Formula} {realFft : ℕ → Fft ℝ} (h2 : PlanFftContract realFft) (h4 : ∀ m, Kind.dct4.fftLen n = some m → FftEvaluates (symFft m) (realFft m))
    {G GA GB : List Formula} (hn : 1 ≤ n) (he : n % 2 = 0)
    (hG : ∀ (T F : Type) [F64 F] [DctNum T F] (planFft : ℕ → Fft T) (calls : List (PlanCall T)) (w : ℕ → List T) (o : MdctObj T),
      PlanFftShape planFft → (∀ m, Kind.dct4.fftLen n = some m → FftEvaluates (symFft m) (planFft m)) → PlannedMdct planFft calls n w o →
        EvaluatesMdct o n (effectiveWindow n calls w (2 * n)) G GA GB) (g : ℕ → ℝ) :
    ∃ o' : MdctObj ℝ, EvaluatesMdct o' n (vec (2 * n) g) G GA GB ∧ ComputesMdct o'.mdct n o'.scratchLen (fun a b => Spec.mdct n (vec (2 * n) g) (a ++ b)) ∧
      AccumulatesImdct o'.imdct n o'.scratchLen (Spec.imdct n (vec (2 * n) g)) := by
  obtain ⟨o', ho⟩ := plannedMdct_exists (planFft := realFft) h2.shape [] (n := n) he (w := fun l => vec l g) (by simp)
  have hw : effectiveWindow n [] (fun l => vec l g) (2 * n) = vec (2 * n) g := by
    rcases effectiveWindow_cases n [] (fun l => vec l g) with ⟨-, h2⟩ | ⟨pre, v, post, h, -⟩
    · rw [h2]
    · simp at h
  have a := hG ℝ ℝ realFft [] _ o' h2.shape h4 ho
  have b := (C21_planned h2 ho hn).2
  have c := (C22_planned h2 ho hn).2
  rw [hw] at a b c
  exact ⟨o', a, b, c⟩

/-- If a sample that goes into an MDCT, or an entry of the window, is infinite or NaN, then so are all outputs. -/
theorem C69_mdct (hb : Absorbing bad) (hsh : PlanFftShape planFft) (hf : ∀ m, Kind.dct4.fftLen n = some m → FftFormulas (planFft m)) {w : ℕ → List T} {o : MdctObj T}
    (hp : PlannedMdct planFft calls n w o) (hn : 1 ≤ n) {a b : List T} {m : Mem T} (hm : ValidMdct n o.scratchLen a b m) {i : ℕ} (hi : i < 2 * n)
    (hbad : bad ((a ++ b).getD i 0) ∨ bad ((effectiveWindow n calls w (2 * n)).getD i 0)) :
    ∃ m', o.mdct a b m = .ok m' ∧ m'.buf.length = n ∧ ∀ x ∈ m'.buf, bad x := by
  obtain ⟨symFft, realFft, h1, h2, h3, h4⟩ := planners hsh _ hf
  obtain ⟨G, GA, GB, hl, -, -, -, hG⟩ := C64_mdct h1 hn
  have he : n % 2 = 0 := by
    obtain ⟨a, s', e, -⟩ := hp
    exact ((C33_mdct_domain hsh calls n w).1 ⟨a, s', e⟩).1
  exact hb.mdct hl (hG T F planFft calls w o hsh h3 hp) he (planned_real h2 h4 hn he hG) hn hm hi hbad

theorem Absorbing.imdct (hb : Absorbing bad) {G GA GB : List Formula} (hlA : GA.length = n) (hlB : GB.length = n) {o : MdctObj T} {W : List T} (hG : EvaluatesMdct o n W G GA GB)
    (he : n % 2 = 0)
    (real : ∀ g : ℕ → ℝ, ∃ o' : MdctObj ℝ, EvaluatesMdct o' n (vec (2 * n) g) G GA GB ∧ ComputesMdct o'.mdct n o'.scratchLen (fun a b => Spec.mdct n (vec (2 * n) g) (a ++ b)) ∧
      AccumulatesImdct o'.imdct n o'.scratchLen (Spec.imdct n (vec (2 * n) g)))
    (hn : 1 ≤ n) {x : List T} {m : IMem T} (hm : ValidImdct n o.scratchLen x m) :
    ∃ m', o.imdct x m = .ok m' ∧ m'.outA.length = n ∧ m'.outB.length = n ∧
      (∀ i, i < n → bad (x.getD i 0) → ∀ y ∈ m'.outA ++ m'.outB, bad y) ∧
      ∀ j, j < n → (bad (m.outA.getD j 0) ∨ bad (W.getD j 0) → bad (m'.outA.getD j 0)) ∧
        (bad (m.outB.getD j 0) ∨ bad (W.getD (n + j) 0) → bad (m'.outB.getD j 0)) := by
  obtain ⟨scr', e⟩ := hG.2 x m hm
  obtain ⟨lx, lA, lB, -⟩ := hm
  -- both outputs in exact arithmetic
  have val : ∀ f fa fb g : ℕ → ℝ, ∀ j (hj : j < n),
      (GA[j]'(hlA ▸ hj)).eval (vec n f ++ vec n fa ++ vec n fb) (vec (2 * n) g) = fa j + g j * ∑ k ∈ range n, f k * cos (π / n * ((j : ℕ) + 1 / 2 + n / 2) * (k + 1 / 2)) ∧
      (GB[j]'(hlB ▸ hj)).eval (vec n f ++ vec n fa ++ vec n fb) (vec (2 * n) g) =
        fb j + g (n + j) * ∑ k ∈ range n, f k * cos (π / n * ((n + j : ℕ) + 1 / 2 + n / 2) * (k + 1 / 2)) := by
    intro f fa fb g j hj
    obtain ⟨o', ho, -, hc⟩ := real g
    have hv : ValidImdct n o'.scratchLen (vec n f) ⟨vec n fa, vec n fb, List.replicate o'.scratchLen 0⟩ := ⟨by simp, by simp, by simp, by simp⟩
    obtain ⟨s1, e1⟩ := ho.2 _ _ hv
    obtain ⟨s2, e2⟩ := hc _ _ hv
    rw [e1] at e2
    injection e2 with e2
    have hsum : ∀ i : ℕ, (i : ℕ) < 2 * n → Spec.imdctAt n (fun i => (vec (2 * n) g).getD i 0) (fun k => (vec n f).getD k 0) i = g i * ∑ k ∈ range n, f k * cos (π / n * ((i : ℕ) + 1 / 2 + n / 2) * (k + 1 / 2)) := by
      intro i hi
      unfold Spec.imdctAt
      congr 1
      · simp [List.getD, hi]
      · exact sum_congr rfl fun k hk => by simp [List.getD, mem_range.1 hk]
    constructor
    · have := congrArg (fun m : IMem ℝ => m.outA[j]?) e2
      simp only [List.getElem?_map, List.getElem?_eq_getElem (hlA.symm ▸ hj : j < GA.length), Option.map_some, Spec.imdct, List.getElem?_zipWith, List.getElem?_take] at this
      rw [if_pos hj, List.getElem?_eq_getElem (by simpa using hj), List.getElem?_eq_getElem (by simp; omega)] at this
      simp only [List.getElem_range, getElem_vec, Option.map_some, Option.some.injEq] at this
      rw [hsum j (by omega)] at this
      exact this
    · have := congrArg (fun m : IMem ℝ => m.outB[j]?) e2
      simp only [List.getElem?_map, List.getElem?_eq_getElem (hlB.symm ▸ hj : j < GB.length), Option.map_some, Spec.imdct, List.getElem?_zipWith, List.getElem?_drop] at this
      rw [List.getElem?_eq_getElem (by simpa using hj), List.getElem?_eq_getElem (by simp; omega)] at this
      simp only [List.getElem_range, getElem_vec, Option.map_some, Option.some.injEq] at this
      rw [hsum (n + j) (by omega)] at this
      exact this
  have hsingle : ∀ i l : ℕ, i < n → ∑ k ∈ range n, (if k = i then (1 : ℝ) else 0) * cos (π / n * ((l : ℕ) + 1 / 2 + n / 2) * (k + 1 / 2)) ≠ 0 := by
    intro i l hi
    simp only [ite_mul, one_mul, zero_mul]
    rw [sum_ite_eq' (range n) i, if_pos (mem_range.2 hi)]
    exact mdct_cos_ne hn he
  have app : ∀ (f f' fa fb : ℕ → ℝ) (i : ℕ), (∀ l, l ≠ i → f l = f' l) → ∀ l, l ≠ i → (vec n f ++ vec n fa ++ vec n fb).getD l 0 = (vec n f' ++ vec n fa ++ vec n fb).getD l 0 := by
    intro f f' fa fb i h l hl
    simp only [List.getD, List.append_assoc, List.getElem?_append, length_vec]
    split
    · rename_i hln
      simp [hln, h l hl]
    · rfl
  refine ⟨_, e, by simpa using hlA, by simpa using hlB, fun i hi hbad y hy => ?_, fun j hj => ⟨fun hbad => ?_, fun hbad => ?_⟩⟩
  · have hbad' : bad ((x ++ m.outA ++ m.outB).getD i 0) := by
      simpa [List.getD, List.append_assoc, List.getElem?_append_left (lx.symm ▸ hi : i < x.length)] using hbad
    rcases List.mem_append.1 hy with hy | hy
    · obtain ⟨f, hfG, rfl⟩ := List.mem_map.1 hy
      obtain ⟨j, hj, rfl⟩ := List.getElem_of_mem hfG
      have hj' : j < n := hlA ▸ hj
      refine hb.of_uses hbad' _ ?_
      by_contra hu
      have v1 := (val (fun k => if k = i then 1 else 0) (fun _ => 0) (fun _ => 0) (fun _ => 1) j hj').1
      have v2 := (val (fun _ => 0) (fun _ => 0) (fun _ => 0) (fun _ => 1) j hj').1
      rw [Formula.eval_congr (i := i) (app _ (fun _ => 0) _ _ i fun l hl => by simp [hl]) _ hu, v2] at v1
      simp only [zero_mul, sum_const_zero, mul_zero, add_zero, one_mul, zero_add] at v1
      exact hsingle i j hi v1.symm
    · obtain ⟨f, hfG, rfl⟩ := List.mem_map.1 hy
      obtain ⟨j, hj, rfl⟩ := List.getElem_of_mem hfG
      have hj' : j < n := hlB ▸ hj
      refine hb.of_uses hbad' _ ?_
      by_contra hu
      have v1 := (val (fun k => if k = i then 1 else 0) (fun _ => 0) (fun _ => 0) (fun _ => 1) j hj').2
      have v2 := (val (fun _ => 0) (fun _ => 0) (fun _ => 0) (fun _ => 1) j hj').2
      rw [Formula.eval_congr (i := i) (app _ (fun _ => 0) _ _ i fun l hl => by simp [hl]) _ hu, v2] at v1
      simp only [zero_mul, sum_const_zero, mul_zero, add_zero, one_mul, zero_add] at v1
      exact hsingle i (n + j) hi v1.symm
  · simp only [List.getD_eq_getElem?_getD, List.getElem?_map]
    rw [List.getElem?_eq_getElem (hlA.symm ▸ hj)]
    simp only [Option.map_some, Option.getD_some]
    rcases hbad with hbad | hbad
    · refine hb.of_uses (i := n + j) ?_ _ ?_
      · have : j < m.outA.length := lA.symm ▸ hj
        rw [show (x ++ m.outA ++ m.outB).getD (n + j) 0 = m.outA.getD j 0 by
          simp [List.getD, List.append_assoc, List.getElem?_append_right, lx, List.getElem?_append_left this]]
        exact hbad
      · by_contra hu
        have v1 := (val (fun _ => 0) (fun k => if k = j then 1 else 0) (fun _ => 0) (fun _ => 1) j hj).1
        have v2 := (val (fun _ => 0) (fun _ => 0) (fun _ => 0) (fun _ => 1) j hj).1
        rw [Formula.eval_congr (i := n + j) (y := vec n (fun _ => 0) ++ vec n (fun _ => 0) ++ vec n (fun _ => 0)) (fun l hl => by
          simp only [List.getD, List.append_assoc, List.getElem?_append, length_vec]
          split
          · rfl
          · split
            · rename_i h1 h2
              have : l - n ≠ j := by omega
              simp [h2, this]
            · rfl) _ hu, v2] at v1
        simp at v1
    · refine hb.of_usesWindow hbad _ ?_
      by_contra hu
      have v1 := (val (fun k => if k = 0 then 1 else 0) (fun _ => 0) (fun _ => 0) (fun _ => 1) j hj).1
      have v2 := (val (fun k => if k = 0 then 1 else 0) (fun _ => 0) (fun _ => 0) (fun l => if l = j then 0 else 1) j hj).1
      rw [Formula.eval_congr_window (i := j) (v := vec (2 * n) fun l => if l = j then 0 else 1) (fun l hl => by
        by_cases hln : l < 2 * n <;> simp [List.getD, hln, hl]) _ hu, v2] at v1
      simp only [if_pos, zero_mul, zero_add, one_mul] at v1
      exact hsingle 0 j (by omega) v1.symm
  · simp only [List.getD_eq_getElem?_getD, List.getElem?_map]
    rw [List.getElem?_eq_getElem (hlB.symm ▸ hj)]
    simp only [Option.map_some, Option.getD_some]
    rcases hbad with hbad | hbad
    · refine hb.of_uses (i := n + n + j) ?_ _ ?_
      · rw [show (x ++ m.outA ++ m.outB).getD (n + n + j) 0 = m.outB.getD j 0 by
          simp only [List.getD]
          rw [List.getElem?_append_right (by simp only [List.length_append]; omega)]
          simp only [List.length_append, lx, lA, Nat.add_sub_cancel_left]]
        exact hbad
      · by_contra hu
        have v1 := (val (fun _ => 0) (fun _ => 0) (fun k => if k = j then 1 else 0) (fun _ => 1) j hj).2
        have v2 := (val (fun _ => 0) (fun _ => 0) (fun _ => 0) (fun _ => 1) j hj).2
        rw [Formula.eval_congr (i := n + n + j) (y := vec n (fun _ => 0) ++ vec n (fun _ => 0) ++ vec n (fun _ => 0)) (fun l hl => by
          simp only [List.getD, List.getElem?_append, length_vec, List.length_append]
          split
          · rfl
          · by_cases h2 : l - (n + n) < n
            · have : l - (n + n) ≠ j := by omega
              simp [h2, this]
            · simp [h2]) _ hu, v2] at v1
        simp at v1
    · refine hb.of_usesWindow hbad _ ?_
      by_contra hu
      have v1 := (val (fun k => if k = 0 then 1 else 0) (fun _ => 0) (fun _ => 0) (fun _ => 1) j hj).2
      have v2 := (val (fun k => if k = 0 then 1 else 0) (fun _ => 0) (fun _ => 0) (fun l => if l = n + j then 0 else 1) j hj).2
      rw [Formula.eval_congr_window (i := n + j) (v := vec (2 * n) fun l => if l = n + j then 0 else 1) (fun l hl => by
        by_cases hln : l < 2 * n <;> simp [List.getD, hln, hl]) _ hu, v2] at v1
      simp only [if_pos, zero_mul, zero_add, one_mul] at v1
      exact hsingle 0 (n + j) (by omega) v1.symm

/-- If an input of the IMDCT is infinite or NaN, then so are all `2 n` outputs; if an entry of the window is, then so is the output it belongs to; and what was
infinite or NaN in the output buffers before stays infinite or NaN. -/
theorem C69_imdct (hb : Absorbing bad) (hsh : PlanFftShape planFft) (hf : ∀ m, Kind.dct4.fftLen n = some m → FftFormulas (planFft m)) {w : ℕ → List T} {o : MdctObj T}
    (hp : PlannedMdct planFft calls n w o) (hn : 1 ≤ n) {x : List T} {m : IMem T} (hm : ValidImdct n o.scratchLen x m) :
    ∃ m', o.imdct x m = .ok m' ∧ m'.outA.length = n ∧ m'.outB.length = n ∧
      (∀ i, i < n → bad (x.getD i 0) → ∀ y ∈ m'.outA ++ m'.outB, bad y) ∧
      ∀ j, j < n → (bad (m.outA.getD j 0) ∨ bad ((effectiveWindow n calls w (2 * n)).getD j 0) → bad (m'.outA.getD j 0)) ∧
        (bad (m.outB.getD j 0) ∨ bad ((effectiveWindow n calls w (2 * n)).getD (n + j) 0) → bad (m'.outB.getD j 0)) := by
  obtain ⟨symFft, realFft, h1, h2, h3, h4⟩ := planners hsh _ hf
  obtain ⟨G, GA, GB, -, hlA, hlB, -, hG⟩ := C64_mdct h1 hn
  have he : n % 2 = 0 := by
    obtain ⟨a, s', e, -⟩ := hp
    exact ((C33_mdct_domain hsh calls n w).1 ⟨a, s', e⟩).1
  exact hb.imdct hlA hlB (hG T F planFft calls w o hsh h3 hp) he (planned_real h2 h4 hn he hG) hn hm

/-! ### Floating-point formats -/

theorem Fp.neg_fin {f : Format} {a : Fp f} (h : ¬ a.Fin) : ¬ (Fp.neg a).Fin := by
  cases a <;> first | exact id | exact absurd trivial h

theorem Fp.add_not_fin {f : Format} {a b : Fp f} (h : ¬ a.Fin ∨ ¬ b.Fin) : ¬ (Fp.add a b).Fin := by
  cases a with
  | nan => exact id
  | inf s =>
    cases b with
    | inf t => simp only [Fp.add]; split <;> exact id
    | _ => exact id
  | _ =>
    cases b with
    | inf t => exact id
    | nan => exact id
    | _ => exact absurd h (by rintro (h | h) <;> exact h trivial)

theorem Fp.mul_not_fin {f : Format} {a b : Fp f} (h : ¬ a.Fin ∨ ¬ b.Fin) : ¬ (Fp.mul a b).Fin := by
  cases a <;> cases b <;> first | exact id | exact absurd h (by rintro (h | h) <;> exact h trivial)

/-- In every binary format the infinities and NaN are such a set. -/
theorem C69_fp (f : Format) : Absorbing (T := Fp f) fun a => ¬ a.Fin :=
  ⟨fun a b h => Fp.add_not_fin h, fun a b h => Fp.add_not_fin (h.imp id Fp.neg_fin), fun a b h => Fp.mul_not_fin h, fun a h => Fp.neg_fin h⟩

/-- A DCT2 of length 60 in `f32`, planned after another call, with NaN in sample 7: the first output is not finite. -/
example : ∃ p s, Planned (fun n => (sumFft n : Fft (Fp b32))) [.dct2 64] .dct2 p 60 s ∧
    ∀ m, ValidCall 60 s m → ¬ (m.buf.getD 7 0).Fin → ∃ m', p m = .ok m' ∧ ¬ (m'.buf.getD 0 0).Fin := by
  obtain ⟨p, s, hp⟩ := planned_exists (T := Fp b32) (planFft := fun n => sumFft n) sumFft_sane.shape [.dct2 64] .dct2 (n := 60) (by simp)
  refine ⟨p, s, hp, fun m hm hb => ?_⟩
  obtain ⟨m', e, -, h⟩ := C69_planned (C69_fp b32) sumFft_sane.shape (fun m _ => sumFft_formulas m) hp hm (i := 7) (by norm_num) hb
  exact ⟨m', e, h 0 (by norm_num) (by rw [Kind.coefficient_eq _ _ (by norm_num)]; simp [Kind.kernel])⟩

/-- An MDCT of length 100 in `f32` with a window of zeros: NaN in sample 150 makes all outputs NaN or infinite although its coefficient in the window is 0. -/
example : ∃ o, PlannedMdct (fun n => (sumFft n : Fft (Fp b32))) [] 100 (fun l => vec l fun _ => 0) o ∧
    ∀ a b m, ValidMdct 100 o.scratchLen a b m → ¬ ((a ++ b).getD 150 0).Fin → ∃ m', o.mdct a b m = .ok m' ∧ ∀ x ∈ m'.buf, ¬ x.Fin := by
  obtain ⟨o, ho⟩ := plannedMdct_exists (planFft := fun n => (sumFft n : Fft (Fp b32))) sumFft_sane.shape [] (n := 100) (by norm_num) (w := fun l => vec l fun _ => 0) (by simp)
  refine ⟨o, ho, fun a b m hm hb => ?_⟩
  obtain ⟨m', e, -, h⟩ := C69_mdct (C69_fp b32) sumFft_sane.shape (fun m _ => sumFft_formulas m) ho (by norm_num) hm (i := 150) (by norm_num) (Or.inl hb)
  exact ⟨m', e, h⟩

end RustDct
