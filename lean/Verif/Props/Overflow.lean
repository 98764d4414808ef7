import Verif.Overflow
import Verif.Props.NonFinite
import Verif.Props.Range
import Verif.Props.RangeMdct
/-!
# C70: an output that is finite is accurate, however large the inputs

An overflow anywhere in the computation of an output makes that output infinite or NaN.  So if it is finite, the computation is the one a format
with more exponents would have performed, for which C60 and C61 bound the error.
-/

set_option linter.all false

namespace RustDct
open Finset Real

section
variable {f : Format} {j : ℕ}

theorem Format.Rep.widen {x : ℝ} (h : f.Rep x) : (f.widen j).Rep x := by
  refine ⟨h.1, h.2.trans ?_⟩
  unfold Format.max
  refine mul_le_mul_of_nonneg_left (zpow_le_zpow_right₀ (by norm_num) ?_) (by exact_mod_cast (by linarith [f.one_le] : (0 : ℤ) ≤ 2 ^ f.p - 1))
  change f.E ≤ f.E + j
  omega

theorem Format.exists_widen (f : Format) (X : ℝ) : ∃ j, X ≤ (f.widen j).max := by
  obtain ⟨j, hj⟩ := pow_unbounded_of_one_lt X (show (1 : ℝ) < 2 by norm_num)
  refine ⟨j, hj.le.trans ?_⟩
  have h1 : (1 : ℝ) ≤ ((2 ^ f.p - 1 : ℤ) : ℝ) := by exact_mod_cast f.one_le
  have h2 : (2 : ℝ) ^ j ≤ 2 ^ (f.E + j) := by
    rw [← zpow_natCast]
    exact zpow_le_zpow_right₀ (by norm_num) (by have := f.hE; omega)
  change _ ≤ ((2 ^ f.p - 1 : ℤ) : ℝ) * 2 ^ (f.E + j)
  have h3 : (0 : ℝ) < 2 ^ j := by positivity
  nlinarith

/-- The number in the wider format. -/
def Fp.embed (j : ℕ) : Fp f → Fp (f.widen j)
  | .zero s => .zero s
  | .num x h h0 => .num x h.widen h0
  | .inf s => .inf s
  | .nan => .nan

theorem Fp.embed_val (a : Fp f) : (a.embed j).val = a.val := by cases a <;> rfl
theorem Fp.embed_isNeg (a : Fp f) : (a.embed j).isNeg = a.isNeg := by cases a <;> rfl
theorem Fp.embed_fin {a : Fp f} (h : a.Fin) : (a.embed j).Fin := by cases a <;> exact h

/-- The first number is not finite, or the second one is the same. -/
def Fp.Sim (a : Fp f) (b : Fp (f.widen j)) : Prop := a.Fin → b = a.embed j

theorem Fp.Sim.self (a : Fp f) : Fp.Sim a (a.embed j) := fun _ => rfl

theorem Fp.Sim.rnd (s : Bool) (x : ℝ) : Fp.Sim (Fp.rnd f s x) (Fp.rnd (f.widen j) s x) := by
  intro h
  have h1 := Fp.rnd_fin.1 h
  have e : (f.widen j).lastBit x = f.lastBit x := rfl
  unfold Fp.rnd
  rw [dif_pos h1, dif_pos (e ▸ h1.widen)]
  by_cases h0 : roundTo (f.lastBit x) x = 0
  · rw [dif_pos h0, dif_pos (e ▸ h0)]; rfl
  · rw [dif_neg h0, dif_neg (e ▸ h0)]; rfl

theorem Fp.Sim.neg {a : Fp f} {a' : Fp (f.widen j)} (ha : Fp.Sim a a') : Fp.Sim (Fp.neg a) (Fp.neg a') := by
  by_cases h : a.Fin
  · rw [ha h]; cases a <;> exact fun _ => rfl
  · exact fun h' => absurd h' (Fp.neg_fin h)

theorem Fp.Sim.add {a b : Fp f} {a' b' : Fp (f.widen j)} (ha : Fp.Sim a a') (hb : Fp.Sim b b') : Fp.Sim (Fp.add a b) (Fp.add a' b') := by
  by_cases h1 : a.Fin
  · by_cases h2 : b.Fin
    · rw [ha h1, hb h2, Fp.add_fin h1 h2, Fp.add_fin (Fp.embed_fin h1) (Fp.embed_fin h2), Fp.embed_val, Fp.embed_val, Fp.embed_isNeg, Fp.embed_isNeg]
      exact Fp.Sim.rnd _ _
    · exact fun h => absurd h (Fp.add_not_fin (Or.inr h2))
  · exact fun h => absurd h (Fp.add_not_fin (Or.inl h1))

theorem Fp.Sim.sub {a b : Fp f} {a' b' : Fp (f.widen j)} (ha : Fp.Sim a a') (hb : Fp.Sim b b') : Fp.Sim (Fp.sub a b) (Fp.sub a' b') := ha.add hb.neg

theorem Fp.Sim.mul {a b : Fp f} {a' b' : Fp (f.widen j)} (ha : Fp.Sim a a') (hb : Fp.Sim b b') : Fp.Sim (Fp.mul a b) (Fp.mul a' b') := by
  by_cases h1 : a.Fin
  · by_cases h2 : b.Fin
    · rw [ha h1, hb h2, Fp.mul_fin h1 h2, Fp.mul_fin (Fp.embed_fin h1) (Fp.embed_fin h2), Fp.embed_val, Fp.embed_val, Fp.embed_isNeg, Fp.embed_isNeg]
      exact Fp.Sim.rnd _ _
    · exact fun h => absurd h (Fp.mul_not_fin (Or.inr h2))
  · exact fun h => absurd h (Fp.mul_not_fin (Or.inl h1))

theorem Fp.Sim.from (a : Fp b64) : Fp.Sim (fromF64 a : Fp f) (fromF64 a : Fp (f.widen j)) := by
  cases a with
  | zero s => exact fun _ => rfl
  | num x hx h0 => exact Fp.Sim.rnd _ _
  | inf s => exact fun h => absurd h id
  | nan => exact fun h => absurd h id

/-- The code keeps runs in the two formats related. -/
def Fp.widening (f : Format) (j : ℕ) : Param (Fp f) (Fp (f.widen j)) where
  d := Fp.Sim
  c := Fp.Sim
  f := fun x y => y = x
  d_zero := fun _ => rfl
  d_add := Fp.Sim.add
  d_sub := Fp.Sim.sub
  d_neg := Fp.Sim.neg
  d_mul := Fp.Sim.mul
  d_mul' := Fp.Sim.mul
  c_zero := fun _ => rfl
  c_one := Fp.Sim.rnd _ _
  c_neg := Fp.Sim.neg
  c_mul := Fp.Sim.mul
  c_sqrt2 := Fp.Sim.rnd _ _
  c_fracSqrt2 := Fp.Sim.rnd _ _
  c_from := by rintro _ _ rfl; exact Fp.Sim.from _
  f_nat _ := rfl
  f_half := rfl
  f_pi := rfl
  f_add := by rintro _ _ _ _ rfl rfl; rfl
  f_sub := by rintro _ _ _ _ rfl rfl; rfl
  f_mul := by rintro _ _ _ _ rfl rfl; rfl
  f_div := by rintro _ _ _ _ rfl rfl; rfl
  f_neg := by rintro _ _ rfl; rfl
  f_sqrt := by rintro _ _ rfl; rfl
  f_sin := by rintro _ _ rfl; rfl
  f_cos := by rintro _ _ rfl; rfl

theorem Fp.Sim.eval {x w : List (Fp f)} {x' w' : List (Fp (f.widen j))} (hx : ∀ i, Fp.Sim (x.getD i 0) (x'.getD i 0)) (hw : ∀ i, Fp.Sim (w.getD i 0) (w'.getD i 0)) :
    ∀ e : Formula, Fp.Sim (e.eval x w) (e.eval x' w')
  | .input i => hx i
  | .window i => hw i
  | .zero => fun _ => rfl
  | .one => Fp.Sim.rnd _ _
  | .sqrt2 => Fp.Sim.rnd _ _
  | .fracSqrt2 => Fp.Sim.rnd _ _
  | .fromF64 a => Fp.Sim.from _
  | .add a b => Fp.Sim.add (eval hx hw a) (eval hx hw b)
  | .sub a b => Fp.Sim.sub (eval hx hw a) (eval hx hw b)
  | .mul a b => Fp.Sim.mul (eval hx hw a) (eval hx hw b)
  | .neg a => Fp.Sim.neg (eval hx hw a)

end

/-- Parts of complex numbers, one after the other. -/
def parts {α : Type} : List (Cx α) → List α
  | c :: r => c.re :: c.im :: parts r
  | [] => []

theorem parts_getD {α : Type} [Zero α] (l : List (Cx α)) (i : ℕ) : (parts l).getD (2 * i) 0 = (l.getD i ⟨0, 0⟩).re ∧ (parts l).getD (2 * i + 1) 0 = (l.getD i ⟨0, 0⟩).im := by
  induction l generalizing i with
  | nil => simp [parts]
  | cons c r ih =>
    cases i with
    | zero => simp [parts]
    | succ i =>
      have := ih i
      rw [show 2 * (i + 1) = 2 * i + 1 + 1 by ring]
      simpa [parts] using this

/-- Formulas for complex inputs. -/
def cxInputs (off n : ℕ) : List (Cx Formula) := (List.range n).map fun i => ⟨.input (2 * (off + i)), .input (2 * (off + i) + 1)⟩

theorem cxInputs_eval {T F : Type} [F64 F] [DctNum T F] {pre l post : List (Cx T)} {w : List T} {x : List T} {off n : ℕ} (hx : x = parts (pre ++ l ++ post)) (ho : pre.length = off) (hl : l.length = n) :
    (cxInputs off n).map (Cx.map (Formula.eval x w)) = l := by
  apply List.ext_getElem
  · simp [cxInputs, hl]
  · intro i h1 h2
    have h3 : (pre ++ l ++ post).getD (off + i) ⟨0, 0⟩ = l[i] := by
      subst ho
      simp [List.getD, List.append_assoc, List.getElem?_append_right, List.getElem?_append_left h2, List.getElem?_eq_getElem h2]
    have := parts_getD (pre ++ l ++ post) (off + i)
    simp only [cxInputs, List.map_map, List.getElem_map, List.getElem_range, Function.comp, Cx.map, Formula.eval, hx, this, h3]

theorem lrel_getD {α β : Type} {r : α → β → Prop} {l : List α} {l' : List β} (h : LRel r l l') {a : α} {b : β} (h0 : r a b) (i : ℕ) : r (l.getD i a) (l'.getD i b) := by
  induction h generalizing i with
  | nil => simpa using h0
  | cons h1 _ ih =>
    cases i with
    | zero => simpa using h1
    | succ i => simpa using ih i

theorem lrel_parts {α β : Type} {r : α → β → Prop} {l : List (Cx α)} {l' : List (Cx β)} (h : LRel (CxRel r) l l') : LRel r (parts l) (parts l') := by
  induction h with
  | nil => exact .nil
  | cons h1 _ ih => exact .cons h1.1 (.cons h1.2 ih)

theorem lrel_maps {α β γ : Type} {r : β → γ → Prop} {g : α → β} {g' : α → γ} (h : ∀ a, r (g a) (g' a)) (l : List α) : LRel r (l.map g) (l.map g') := by
  induction l with
  | nil => exact .nil
  | cons a l ih => exact .cons (h a) ih

/-- FFTs that evaluate the same formulas in the two formats are related. -/
theorem FftEvaluates.widens {f : Format} {j : ℕ} {f₀ : Fft Formula} {fft : Fft (Fp f)} {fft' : Fft (Fp (f.widen j))} (h : FftEvaluates f₀ fft) (h' : FftEvaluates f₀ fft') :
    FftRel (Fp.widening f j).d fft fft' := by
  refine ⟨h.len.trans h'.len.symm, h.direction.trans h'.direction.symm, h.scratchLen.trans h'.scratchLen.symm, ?_⟩
  intro b b' s s' hb hs
  have e := h.process (parts (b ++ s)) [] (cxInputs 0 b.length) (cxInputs b.length s.length)
  have e' := h'.process (parts (b' ++ s')) [] (cxInputs 0 b.length) (cxInputs b.length s.length)
  have hbl : b.length = b'.length := hb.length_eq
  have hsl : s.length = s'.length := hs.length_eq
  rw [cxInputs_eval (off := 0) (pre := []) (l := b) (post := s) (by simp) rfl rfl, cxInputs_eval (pre := b) (l := s) (post := []) (by simp) rfl rfl] at e
  rw [hbl, hsl, cxInputs_eval (off := 0) (pre := []) (l := b') (post := s') (by simp) rfl rfl, cxInputs_eval (pre := b') (l := s') (post := []) (by simp) rfl rfl, ← hbl, ← hsl] at e'
  rw [e, e']
  have key : ∀ z : Cx Formula, CxRel (Fp.Sim (j := j)) (Cx.map (Formula.eval (parts (b ++ s)) []) z) (Cx.map (Formula.eval (parts (b' ++ s')) []) z) := by
    have h1 : ∀ i, Fp.Sim ((parts (b ++ s)).getD i 0) ((parts (b' ++ s')).getD i 0) := lrel_getD (lrel_parts (List.rel_append hb hs)) (fun _ => rfl)
    exact fun z => ⟨Fp.Sim.eval (w := []) (w' := []) h1 (fun i => show Fp.Sim 0 0 from fun _ => rfl) _, Fp.Sim.eval (w := []) (w' := []) h1 (fun i => show Fp.Sim 0 0 from fun _ => rfl) _⟩
  cases f₀.process (cxInputs 0 b.length) (cxInputs b.length s.length) with
  | error e => exact .error
  | ok r => exact .ok ⟨lrel_maps key _, lrel_maps key _⟩

section
variable {f : Format} {planFft : ℕ → Fft (Fp f)} {γ μ : ℕ → ℕ}

theorem PlanFftInEveryRange.shape (h : PlanFftInEveryRange planFft γ μ) : PlanFftShape planFft := fun n => ⟨(h n).1, (h n).2.1⟩

/-- A planner for a wider format. -/
theorem PlanFftInEveryRange.wide (h : PlanFftInEveryRange planFft γ μ) (j : ℕ) : ∃ planFft' : ℕ → Fft (Fp (f.widen j)),
    PlanFftRange (Fp.ieee (f.widen j)) planFft' γ μ ∧ ∀ n, n ≤ 2 ^ 62 → FftRel (Fp.widening f j).d (planFft n) (planFft' n) := by
  have : ∀ n, ∃ fft' : Fft (Fp (f.widen j)), (fft'.len = n ∧ fft'.direction = .forward) ∧
      (n ≤ 2 ^ 62 → FftRange (Fp.ieee (f.widen j)) fft' (γ n) (μ n) ∧ FftRel (Fp.widening f j).d (planFft n) fft') := by
    intro n
    by_cases hn : n ≤ 2 ^ 62
    · obtain ⟨f₀, h1, h2⟩ := (h n).2.2.2.2 hn
      obtain ⟨fft', h3, h4⟩ := h2 j
      exact ⟨fft', ⟨by rw [h3.len, ← h1.len, (h n).1], by rw [h3.direction, ← h1.direction, (h n).2.1]⟩, fun _ => ⟨h4, h1.widens h3⟩⟩
    · exact ⟨sumFft n, ⟨rfl, rfl⟩, fun h => absurd h hn⟩
  choose planFft' h1 h2 using this
  exact ⟨planFft', fun n => ⟨(h1 n).1, (h1 n).2, (h n).2.2.1, (h n).2.2.2.1, fun hn => (h2 n hn).1⟩, fun n hn => (h2 n hn).2⟩

theorem Kind.fftLen_le {k : Kind} {n m : ℕ} (hn : n ≤ 2 ^ 60) (h : k.fftLen n = some m) : m ≤ 2 ^ 62 := by
  cases k <;> simp only [Kind.fftLen, fftLen23] at h <;> (repeat' split at h) <;> simp only [Option.some.injEq, reduceCtorEq] at h <;> omega

theorem lrel_near {j : ℕ} {δ : ℝ} {y : List (Fp f)} {y' : List (Fp (f.widen j))} (h : LRel Fp.Sim y y') {z : List ℝ} (hz : (Fp.ieee (f.widen j)).Near δ y' z) :
    (Fp.ieee f).NearIfFinite δ y z := by
  refine ⟨h.length_eq.trans hz.1, ?_⟩
  rintro ⟨a, b⟩ hp hf
  obtain ⟨i, hi, e⟩ := List.getElem_of_mem hp
  rw [List.getElem_zip, Prod.mk.injEq] at e
  obtain ⟨rfl, rfl⟩ := e
  rw [List.length_zip] at hi
  have hi' : i < y'.length := by rw [← h.length_eq]; omega
  have hs : Fp.Sim (y[i]'(by omega)) (y'[i]'hi') := h.get (by omega) hi'
  have := (hz.2 (y'[i]'hi', z[i]'(by omega)) (List.mem_iff_getElem.2 ⟨i, by rw [List.length_zip]; omega, List.getElem_zip⟩)).2
  rw [hs hf] at this
  change |((y[i]'(by omega)).embed j).val - _| ≤ _ at this
  rwa [Fp.embed_val] at this

theorem embed_vals {j : ℕ} (l : List (Fp f)) : (l.map (Fp.embed j)).map (Fp.ieee (f.widen j)).val = l.map (Fp.ieee f).val := by
  rw [List.map_map]
  exact List.map_congr_left fun a _ => Fp.embed_val a

theorem embed_bounded {j : ℕ} {B : ℝ} {l : List (Fp f)} (h : (Fp.ieee f).Bounded B l) : (Fp.ieee (f.widen j)).Bounded B (l.map (Fp.embed j)) := by
  intro x hx
  obtain ⟨a, ha, rfl⟩ := List.mem_map.1 hx
  refine ⟨Fp.embed_fin (h a ha).1, ?_⟩
  change |(a.embed j).val| ≤ B
  rw [Fp.embed_val]
  exact (h a ha).2

theorem lrel_embed {j : ℕ} (l : List (Fp f)) : LRel Fp.Sim l (l.map (Fp.embed j)) := by
  have := lrel_maps (r := Fp.Sim) (g := id) (g' := Fp.embed j) (fun a : Fp f => Fp.Sim.self a) l
  rwa [List.map_id] at this

theorem embed_zeros {j s : ℕ} : (List.replicate s (0 : Fp f)).map (Fp.embed j) = List.replicate s 0 := by rw [List.map_replicate]; rfl

/-- What is accurate in wider formats is accurate where it is finite. -/
theorem AccurateIfFinite.of_wide {p : Proc (Fp f)} {n s gain units : ℕ} {F : List ℝ → List ℝ}
    (h : ∀ j, ∃ p', ProcRel (Fp.Sim (f := f) (j := j)) p p' ∧ StaysFinite (Fp.ieee (f.widen j)) p' n s F gain units) : AccurateIfFinite (Fp.ieee f) p n s F gain units := by
  intro B hB
  obtain ⟨j, hj⟩ := f.exists_widen (gain * B * (1 + (Fp.ieee f).u) ^ units)
  obtain ⟨p', hr, hs⟩ := h j
  have h1 := (hs B hB hj).1
  have key : ∀ m, ValidCall n s m → (Fp.ieee f).Bounded B m.buf → ∃ m', p m = .ok m' ∧
      (Fp.ieee f).NearIfFinite (((1 + (Fp.ieee f).u) ^ units - 1) * (gain * B)) m'.buf (F (m.buf.map (Fp.ieee f).val)) := by
    intro m hm hb
    obtain ⟨m', e, hn⟩ := h1 (m.map (Fp.embed j)) ⟨by simpa [Mem.map] using hm.1, by simpa [Mem.map] using hm.2⟩ (embed_bounded hb)
    have := hr m (m.map (Fp.embed j)) ⟨lrel_embed _, lrel_embed _⟩
    rw [e] at this
    generalize p m = o at this
    cases this with
    | ok h =>
      simp only [Mem.map, embed_vals] at hn
      exact ⟨_, rfl, lrel_near h.1 hn⟩
  refine ⟨key, fun buf hl hb => ?_⟩
  obtain ⟨m', e, h⟩ := key ⟨buf, List.replicate s 0⟩ ⟨hl, by simp⟩ hb
  exact ⟨m'.buf, by rw [processDefault, e], h⟩

theorem AccurateIfFiniteZeroed.of_wide {p : Proc (Fp f)} {n s gain units : ℕ} {F : List ℝ → List ℝ}
    (h : ∀ j, ∃ p', ProcRel (Fp.Sim (f := f) (j := j)) p p' ∧ StaysFiniteZeroed (Fp.ieee (f.widen j)) p' n s F gain units) : AccurateIfFiniteZeroed (Fp.ieee f) p n s F gain units := by
  intro B hB
  obtain ⟨j, hj⟩ := f.exists_widen (gain * B * (1 + (Fp.ieee f).u) ^ units)
  obtain ⟨p', hr, hs⟩ := h j
  have h1 := (hs B hB hj).1
  have key : ∀ buf, buf.length = n → (Fp.ieee f).Bounded B buf → ∃ m', p ⟨buf, List.replicate s 0⟩ = .ok m' ∧
      (Fp.ieee f).NearIfFinite (((1 + (Fp.ieee f).u) ^ units - 1) * (gain * B)) m'.buf (F (buf.map (Fp.ieee f).val)) := by
    intro buf hl hb
    obtain ⟨m', e, hn⟩ := h1 (buf.map (Fp.embed j)) (by simpa using hl) (embed_bounded hb)
    have := hr ⟨buf, List.replicate s 0⟩ ⟨buf.map (Fp.embed j), List.replicate s 0⟩ ⟨lrel_embed _, by rw [← embed_zeros]; exact lrel_embed _⟩
    rw [e] at this
    generalize p ⟨buf, List.replicate s 0⟩ = o at this
    cases this with
    | ok h =>
      rw [embed_vals] at hn
      exact ⟨_, rfl, lrel_near h.1 hn⟩
  refine ⟨key, fun buf hl hb => ?_⟩
  obtain ⟨m', e, h⟩ := key buf hl hb
  exact ⟨m'.buf, by rw [processDefault, e], h⟩

variable {calls : List (PlanCall (Fp f))} {k : Kind} {p : Proc (Fp f)} {n s r : ℕ}

theorem Planned.wide (hf : PlanFftInEveryRange planFft γ μ) (h : Planned planFft calls k p n s) (hn' : n ≤ 2 ^ 60) (j : ℕ) :
    ∃ planFft' : ℕ → Fft (Fp (f.widen j)), PlanFftRange (Fp.ieee (f.widen j)) planFft' γ μ ∧ ∃ p', Planned planFft' [] k p' n s ∧ ProcRel Fp.Sim p p' := by
  obtain ⟨planFft', h1, h2⟩ := hf.wide j
  have hr : ∀ m, k.fftLen n = some m → FftRel (Fp.widening f j).d (planFft m) (planFft' m) := fun m hm => h2 m (Kind.fftLen_le hn' hm)
  obtain ⟨p', s', h'⟩ := (Fp.widening f j).planned_other hr h []
  obtain ⟨rfl, h3⟩ := (Fp.widening f j).planned hr h h'
  exact ⟨planFft', h1, p', h', h3⟩

/-- The instances that do not read scratch: any scratch will do, even one full of NaN. -/
theorem C70_planned (hr : (Fp.ieee f).Twiddles r) (hf : PlanFftInEveryRange planFft γ μ) (h : Planned planFft calls k p n s) (hn : 1 ≤ n) (hn' : n ≤ 2 ^ 60)
    (hk : ¬ k.leakyAt n) : AccurateIfFinite (Fp.ieee f) p n s k.spec (k.gain γ n) (k.units r μ n) :=
  AccurateIfFinite.of_wide fun j => by
    obtain ⟨planFft', h1, p', h2, h3⟩ := h.wide hf hn' j
    exact ⟨p', h3, C60_planned (R := Fp.ieee (f.widen j)) hr h1 h2 hn hn' hk⟩

/-- All instances, on zeroed scratch. -/
theorem C70_planned_zeroed (hr : (Fp.ieee f).Twiddles r) (hf : PlanFftInEveryRange planFft γ μ) (h : Planned planFft calls k p n s) (hn : 1 ≤ n) (hn' : n ≤ 2 ^ 60) :
    AccurateIfFiniteZeroed (Fp.ieee f) p n s k.spec (k.gain γ n) (k.units r μ n) :=
  AccurateIfFiniteZeroed.of_wide fun j => by
    obtain ⟨planFft', h1, p', h2, h3⟩ := h.wide hf hn' j
    exact ⟨p', h3, C60_planned_zeroed (R := Fp.ieee (f.widen j)) hr h1 h2 hn hn'⟩

/-! ### Powers of two: whatever the FFT library does -/

theorem fftLen_dyadic {j : ℕ} (hk : k.dyadic j) : k.fftLen (2 ^ j) = none := by
  have h23 : ∀ i, fftLen23 (2 ^ (i + 1)) = none := by
    intro i
    unfold fftLen23
    refine if_pos ?_
    rcases i with _ | i
    · left; simp [straightLine]
    · right
      refine ⟨by rw [pow_succ, pow_succ]; have := Nat.one_le_two_pow (n := i); omega, by rw [Nat.log_pow (by norm_num)]⟩
  have h23' : 1 ≤ j → fftLen23 (2 ^ j) = none := fun h => by obtain ⟨i, rfl⟩ : ∃ i, j = i + 1 := ⟨j - 1, by omega⟩; exact h23 i
  have h4 : 3 ≤ j → (if 2 ^ j % 2 = 0 then if 2 ^ j < 6 then none else fftLen23 (2 ^ j / 2) else if 2 ^ j < 7 then none else some (2 ^ j)) = none := by
    intro h
    obtain ⟨i, rfl⟩ : ∃ i, j = i + 2 := ⟨j - 2, by omega⟩
    rw [if_pos (by rw [pow_succ]; omega), show 2 ^ (i + 2) / 2 = 2 ^ (i + 1) by rw [pow_succ 2 (i + 1)]; omega, h23]
    split <;> rfl
  cases k <;> first | exact h23' hk | exact h4 hk | exact absurd hk id

theorem C70_dyadic (hr : (Fp.ieee f).Twiddles r) (hf : PlanFftShape planFft) {j : ℕ} (h : Planned planFft calls k p (2 ^ j) s) (hk : k.dyadic j) (hj : j ≤ 60) :
    AccurateIfFinite (Fp.ieee f) p (2 ^ j) s k.spec (2 ^ (j + j / 2)) ((r + 4) * (j / 2 + 1)) :=
  AccurateIfFinite.of_wide fun i => by
    have hr' : ∀ m, k.fftLen (2 ^ j) = some m → FftRel (Fp.widening f i).d (planFft m) (sumFft m : Fft (Fp (f.widen i))) := by
      intro m hm
      rw [fftLen_dyadic hk] at hm
      cases hm
    obtain ⟨p', s', h'⟩ := (Fp.widening f i).planned_other (planFft' := fun n => sumFft n) hr' h []
    obtain ⟨rfl, h3⟩ := (Fp.widening f i).planned (planFft' := fun n => sumFft n) hr' h h'
    exact ⟨p', h3, C60_dyadic (R := Fp.ieee (f.widen i)) hr sumFft_sane.shape h' hk hj⟩

/-! ### MDCT and IMDCT -/

variable {w : ℕ → List (Fp f)} {o : MdctObj (Fp f)} {v : List ℝ} {l : ℕ}

theorem PlannedMdct.wide (hs : PlanFftShape planFft) (h : PlannedMdct planFft calls n w o) {j : ℕ} {planFft' : ℕ → Fft (Fp (f.widen j))}
    (hs' : PlanFftShape planFft') (hr : ∀ m, Kind.dct4.fftLen n = some m → FftRel (Fp.widening f j).d (planFft m) (planFft' m))
    (hw : (Fp.ieee f).WindowNear (effectiveWindow n calls w (2 * n)) v l) :
    ∃ w' o', PlannedMdct planFft' [] n w' o' ∧ (Fp.ieee (f.widen j)).WindowNear (effectiveWindow n [] w' (2 * n)) v l ∧ MdctObjRel Fp.Sim o o' := by
  have hc := h.canon hs
  have hn : n % 2 = 0 ∧ (effectiveWindow n calls w (2 * n)).length = 2 * n := by
    by_contra hn
    rw [canonMdct_err hs hn] at hc
    cases hc
  obtain ⟨o', ho'⟩ := plannedMdct_exists (planFft := planFft') hs' [] hn.1 (w := fun i => (effectiveWindow n calls w i).map (Fp.embed j)) (by simpa using hn.2)
  refine ⟨_, o', ho', ?_, ?_⟩
  · rw [effectiveWindow_same (by simp)]
    refine ⟨by simpa using hw.1, ?_⟩
    rintro ⟨a, b⟩ hp
    rw [List.zip_map_left] at hp
    obtain ⟨⟨a', b'⟩, hp', e⟩ := List.mem_map.1 hp
    simp only [Prod.map, id, Prod.mk.injEq] at e
    obtain ⟨rfl, rfl⟩ := e
    obtain ⟨h1, h2, h3⟩ := hw.2 _ hp'
    refine ⟨Fp.embed_fin h1, h2, ?_⟩
    change |(a'.embed j).val - b'| ≤ _
    rw [Fp.embed_val]
    exact h3
  · have hc' := ho'.canon hs'
    rw [effectiveWindow_same (by simp)] at hc'
    have := (Fp.widening f j).canonMdct_rel (w := effectiveWindow n calls w) (w' := fun i => (effectiveWindow n calls w i).map (Fp.embed j)) hr (canon4_len hs) (lrel_embed _)
    rw [hc, hc'] at this
    cases this with
    | ok h => exact h

theorem AccurateIfFiniteMdct.of_wide {F : List ℝ → List ℝ → List ℝ} {gain units : ℕ}
    (h : ∀ j, ∃ o' : MdctObj (Fp (f.widen j)), MdctObjRel Fp.Sim o o' ∧ StaysFiniteMdct (Fp.ieee (f.widen j)) o'.mdct n o'.scratchLen F gain units) :
    AccurateIfFiniteMdct (Fp.ieee f) o.mdct n o.scratchLen F gain units := by
  intro B hB a b m hm ha hb
  obtain ⟨j, hj⟩ := f.exists_widen (gain * B * (1 + (Fp.ieee f).u) ^ units)
  obtain ⟨o', hr, hs⟩ := h j
  obtain ⟨h1, h2, h3, h4⟩ := hm
  obtain ⟨m', e, hn⟩ := hs B hB hj (a.map (Fp.embed j)) (b.map (Fp.embed j)) (m.map (Fp.embed j))
    ⟨by simpa using h1, by simpa using h2, by simpa [Mem.map] using h3, by simpa [Mem.map, ← hr.scratchLen] using h4⟩ (embed_bounded ha) (embed_bounded hb)
  have := hr.mdct (lrel_embed (j := j) a) (lrel_embed b) (m := m) (m' := m.map (Fp.embed j)) ⟨lrel_embed _, lrel_embed _⟩
  rw [e] at this
  generalize o.mdct a b m = x at this
  cases this with
  | ok h =>
    rw [embed_vals, embed_vals] at hn
    exact ⟨_, rfl, lrel_near h.1 hn⟩

theorem AccurateIfFiniteImdct.of_wide {Y : List ℝ → List ℝ} {gain units : ℕ}
    (h : ∀ j, ∃ o' : MdctObj (Fp (f.widen j)), MdctObjRel Fp.Sim o o' ∧ StaysFiniteImdct (Fp.ieee (f.widen j)) o'.imdct n o'.scratchLen Y gain units) :
    AccurateIfFiniteImdct (Fp.ieee f) o.imdct n o.scratchLen Y gain units := by
  intro B hB x m hm hx ha hb
  obtain ⟨j, hj⟩ := f.exists_widen (gain * B * (1 + (Fp.ieee f).u) ^ units)
  obtain ⟨o', hr, hs⟩ := h j
  obtain ⟨h1, h2, h3, h4⟩ := hm
  obtain ⟨m', e, l1, l2, hn⟩ := hs B hB hj (x.map (Fp.embed j)) (m.map (Fp.embed j))
    ⟨by simpa using h1, by simpa [IMem.map] using h2, by simpa [IMem.map] using h3, by simpa [IMem.map, ← hr.scratchLen] using h4⟩ (embed_bounded hx) (embed_bounded ha) (embed_bounded hb)
  have := hr.imdct (lrel_embed (j := j) x) (m := m) (m' := m.map (Fp.embed j)) ⟨lrel_embed _, lrel_embed _, lrel_embed _⟩
  rw [e] at this
  generalize o.imdct x m = y at this
  cases this with
  | ok h =>
    simp only [IMem.map, ← List.map_append, embed_vals] at hn
    exact ⟨_, rfl, by rw [h.1.length_eq, l1], by rw [h.2.1.length_eq, l2], lrel_near (List.rel_append h.1 h.2.1) hn⟩

/-- Client programs keep the relation. -/
theorem lapped_sim {j : ℕ} {o' : MdctObj (Fp (f.widen j))} (hr : MdctObjRel Fp.Sim o o') : ∀ {rest : List (List (Fp f))} {rest' : List (List (Fp (f.widen j)))} {a a' acc acc' m m'},
    LRel (LRel Fp.Sim) rest rest' → LRel Fp.Sim a a' → LRel Fp.Sim acc acc' → MemRel Fp.Sim m m' → ORel (LRel (LRel Fp.Sim)) (lapped o a rest acc m) (lapped o' a' rest' acc' m') := by
  intro rest
  induction rest with
  | nil =>
    intro rest' a a' acc acc' m m' h ha hacc hm
    cases h
    exact .ok (.cons hacc .nil)
  | cons b rest ih =>
    intro rest' a a' acc acc' m m' h ha hacc hm
    cases h with
    | cons hb hrest =>
      rename_i b' rest'
      unfold lapped
      have h1 := hr.mdct ha hb hm
      cases e1 : o.mdct a b m <;> cases e1' : o'.mdct a' b' m' <;> rw [e1, e1'] at h1
      · rename_i m₁ m₁'
        cases h1 with
        | ok h1 =>
          dsimp only
          rw [hr.len]
          have h2 := hr.imdct (m := ⟨acc, List.replicate o'.len 0, m₁.scr⟩) (m' := ⟨acc', List.replicate o'.len 0, m₁'.scr⟩) h1.1 ⟨hacc, by rw [← embed_zeros]; exact lrel_embed _, h1.2⟩
          cases e2 : o.imdct m₁.buf ⟨acc, List.replicate o'.len 0, m₁.scr⟩ <;> cases e2' : o'.imdct m₁'.buf ⟨acc', List.replicate o'.len 0, m₁'.scr⟩ <;> rw [e2, e2'] at h2
          · rename_i m₂ m₂'
            cases h2 with
            | ok h2 =>
              dsimp only
              have h3 := ih (m := ⟨m₁.buf, m₂.scr⟩) (m' := ⟨m₁'.buf, m₂'.scr⟩) hrest hb h2.2.1 ⟨h1.1, h2.2.2⟩
              cases e3 : lapped o b rest m₂.outB ⟨m₁.buf, m₂.scr⟩ <;> cases e3' : lapped o' b' rest' m₂'.outB ⟨m₁'.buf, m₂'.scr⟩ <;> rw [e3, e3'] at h3
              · cases h3 with
                | ok h3 => exact .ok (.cons h2.1 h3)
              · cases h3
              · cases h3
              · cases h3 <;> exact .panic
          · cases h2
          · cases h2
          · cases h2 <;> exact .panic
      · cases h1
      · cases h1
      · cases h1 <;> exact .panic

theorem ReconstructsIfFinite.of_wide {g : ℝ} {gain units : ℕ}
    (h : ∀ j, ∃ o' : MdctObj (Fp (f.widen j)), MdctObjRel Fp.Sim o o' ∧ ReconstructsFinite (Fp.ieee (f.widen j)) o' n g gain units) :
    ReconstructsIfFinite (Fp.ieee f) o n g gain units := by
  intro B hB a rest acc m hb hacc hbuf hscr
  obtain ⟨j, hj⟩ := f.exists_widen (gain * B * (1 + (Fp.ieee f).u) ^ units)
  obtain ⟨o', hr, hs⟩ := h j
  obtain ⟨outs', e, hl, hn⟩ := hs B hB hj (a.map (Fp.embed j)) (rest.map (List.map (Fp.embed j))) (acc.map (Fp.embed j)) (m.map (Fp.embed j))
    (by
      intro b hb'
      rw [← List.map_cons (f := List.map (Fp.embed j))] at hb'
      obtain ⟨c, hc, rfl⟩ := List.mem_map.1 hb'
      exact ⟨by simpa using (hb c hc).1, embed_bounded (hb c hc).2⟩)
    (by simpa using hacc) (by simpa [Mem.map] using hbuf) (by simpa [Mem.map, ← hr.scratchLen] using hscr)
  have hrest : LRel (LRel Fp.Sim) rest (rest.map (List.map (Fp.embed j))) := by
    have := lrel_maps (r := LRel Fp.Sim) (g := id) (g' := List.map (Fp.embed j)) (fun l : List (Fp f) => lrel_embed l) rest
    rwa [List.map_id] at this
  have hsim := lapped_sim hr hrest (lrel_embed a) (lrel_embed acc) (m := m) (m' := m.map (Fp.embed j)) ⟨lrel_embed _, lrel_embed _⟩
  rw [e] at hsim
  generalize lapped o a rest acc m = x at hsim
  cases hsim with
  | @ok outs _ h =>
    refine ⟨outs, rfl, by rw [h.length_eq, hl]; simp, fun t y out ht hy hout => ?_⟩
    have ht' : t + 1 < outs.length := (List.getElem?_eq_some_iff.1 hout).1
    have ht'' : t + 1 < outs'.length := h.length_eq ▸ ht'
    have hn' := hn t (y.map (Fp.embed j)) outs'[t + 1] (by simpa using ht) (by rw [← List.map_cons (f := List.map (Fp.embed j)), List.getElem?_map, hy]; rfl) (List.getElem?_eq_getElem ht'')
    have : out = outs[t + 1] := by rw [List.getElem?_eq_getElem ht'] at hout; exact (Option.some.inj hout).symm
    subst this
    have e2 : ((y.map (Fp.embed j)).map fun b => g * (Fp.ieee (f.widen j)).val b) = y.map fun b => g * (Fp.ieee f).val b := by
      rw [List.map_map]
      exact List.map_congr_left fun b _ => congrArg (g * ·) (Fp.embed_val b)
    rw [e2] at hn'
    exact lrel_near (h.get ht' ht'') hn'

theorem C70_mdct (hr : (Fp.ieee f).Twiddles r) (hf : PlanFftInEveryRange planFft γ μ) (h : PlannedMdct planFft calls n w o) (hn : 1 ≤ n) (hn' : n ≤ 2 ^ 60)
    (hw : (Fp.ieee f).WindowNear (effectiveWindow n calls w (2 * n)) v l) :
    AccurateIfFiniteMdct (Fp.ieee f) o.mdct n o.scratchLen (fun a b => Spec.mdct n v (a ++ b)) (2 * gain4 γ n) (units4 r μ n + l + 2) :=
  AccurateIfFiniteMdct.of_wide fun j => by
    obtain ⟨planFft', h1, h2⟩ := hf.wide j
    obtain ⟨w', o', h3, h4, h5⟩ := h.wide hf.shape h1.shape (fun m hm => h2 m (Kind.fftLen_le hn' hm)) hw
    exact ⟨o', h5, (C61_mdct (R := Fp.ieee (f.widen j)) hr h1 h3 hn hn' h4).2⟩

theorem C70_imdct (hr : (Fp.ieee f).Twiddles r) (hf : PlanFftInEveryRange planFft γ μ) (h : PlannedMdct planFft calls n w o) (hn : 1 ≤ n) (hn' : n ≤ 2 ^ 60)
    (hw : (Fp.ieee f).WindowNear (effectiveWindow n calls w (2 * n)) v l) :
    AccurateIfFiniteImdct (Fp.ieee f) o.imdct n o.scratchLen (Spec.imdct n v) (gain4 γ n + 1) (units4 r μ n + l + 2) :=
  AccurateIfFiniteImdct.of_wide fun j => by
    obtain ⟨planFft', h1, h2⟩ := hf.wide j
    obtain ⟨w', o', h3, h4, h5⟩ := h.wide hf.shape h1.shape (fun m hm => h2 m (Kind.fftLen_le hn' hm)) hw
    exact ⟨o', h5, (C61_imdct (R := Fp.ieee (f.widen j)) hr h1 h3 hn hn' h4).2⟩

/-- Overlapped blocks with a symmetric window that satisfies the Princen-Bradley condition. -/
theorem C70_lapped {c : ℝ} (hr : (Fp.ieee f).Twiddles r) (hf : PlanFftInEveryRange planFft γ μ) (h : PlannedMdct planFft calls n w o) (hn : 1 ≤ n) (hn' : n ≤ 2 ^ 60)
    (hw : (Fp.ieee f).WindowNear (effectiveWindow n calls w (2 * n)) v l) (hs : Spec.Symmetric n v) (hc : Spec.PrincenBradley n c v) :
    ReconstructsIfFinite (Fp.ieee f) o n (c * n / 2) (4 * gain4 γ n ^ 2 + 1) (2 * (units4 r μ n + l) + 5) :=
  ReconstructsIfFinite.of_wide fun j => by
    obtain ⟨planFft', h1, h2⟩ := hf.wide j
    obtain ⟨w', o', h3, h4, h5⟩ := h.wide hf.shape h1.shape (fun m hm => h2 m (Kind.fftLen_le hn' hm)) hw
    exact ⟨o', h5, C61_lapped (R := Fp.ieee (f.widen j)) hr h1 h3 hn hn' h4 hs hc⟩

end

/-! ### Examples -/

theorem sumFft_everyRange {f : Format} {r : ℕ} (hr : (Fp.ieee f).Twiddles r) : PlanFftInEveryRange (fun n => (sumFft n : Fft (Fp f))) (fun n => 2 * n + 1) (fun n => n + r + 2) :=
  fun n => ⟨rfl, rfl, by dsimp only; omega, by dsimp only; omega, fun h =>
    ⟨sumFft n, sumFft_evaluates n, fun j => ⟨sumFft n, sumFft_evaluates n, sumFft_range (R := Fp.ieee (f.widen j)) hr (by omega)⟩⟩⟩

/-- A DCT2 of 1024 copies of the largest `f32`: the first output overflows, the others, which are zero in exact arithmetic, cannot be wrong by more than the
bound unless they are infinite or NaN. -/
example (calls : List (PlanCall (Fp b32))) : ∃ p s, Planned (fun n => (sumFft n : Fft (Fp b32))) calls .dct2 p (2 ^ 10) s ∧
    ∃ out, processDefault s p (List.replicate (2 ^ 10) (Fp.num b32.max (Format.Rep.max b32) b32.max_ne)) = .ok out ∧
      (Fp.ieee b32).NearIfFinite (((1 + (1 / 2) ^ 24) ^ 36 - 1) * (2 ^ 15 * b32.max)) out (Spec.dct2 (List.replicate (2 ^ 10) b32.max)) := by
  obtain ⟨p, s, h⟩ := planned_exists (sumFft_fpShape b32 (by norm_num [b32])) calls .dct2 (n := 2 ^ 10) (by norm_num)
  have h0 := b32.max_ge
  obtain ⟨out, e, hn⟩ := (C70_dyadic Fp.twiddles32 (sumFft_fpShape b32 (by norm_num [b32])) h (by norm_num [Kind.dyadic]) (by norm_num) b32.max (by
      change b32.min ≤ b32.max
      linarith [b32.min_le])).2 (List.replicate (2 ^ 10) (Fp.num b32.max (Format.Rep.max b32) b32.max_ne)) List.length_replicate (fun x hx => by
      obtain rfl := (List.mem_replicate.1 hx).2
      refine ⟨trivial, ?_⟩
      change |b32.max| ≤ b32.max
      rw [abs_of_nonneg (by linarith)])
  refine ⟨p, s, h, out, e, ?_⟩
  rw [List.map_replicate] at hn
  have e1 : ((2 ^ (10 + 10 / 2) : ℕ) : ℝ) = 2 ^ 15 := by norm_num
  rw [e1] at hn
  exact hn

/-- Every kind of transform of 60 points in `f64`, with the defining sum as the FFT. -/
example (calls : List (PlanCall (Fp b64))) (k : Kind) : ∃ p s, Planned (fun n => (sumFft n : Fft (Fp b64))) calls k p 60 s ∧
    AccurateIfFiniteZeroed (Fp.ieee b64) p 60 s k.spec (k.gain (fun n => 2 * n + 1) 60) (k.units 64 (fun n => n + 64 + 2) 60) :=
  let ⟨p, s, h⟩ := planned_exists (sumFft_fpShape b64 (le_refl _)) calls k (n := 60) (by norm_num)
  ⟨p, s, h, C70_planned_zeroed (Fp.twiddles (le_refl _)) (sumFft_everyRange (Fp.twiddles (le_refl _))) h (by norm_num) (by norm_num)⟩

end RustDct
