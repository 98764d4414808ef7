import Verif.SignOfZero
import Verif.Props.Formula
import Verif.Props.NonFinite
/-!
# C72: the sign of zero, and negated inputs, in IEEE arithmetic
-/

set_option linter.all false

namespace RustDct

section
variable {T F : Type} [F64 F] [DctNum T F] {r : T → T → Prop} {planFft : ℕ → Fft T} {calls : List (PlanCall T)} {k : Kind} {p : Proc T} {n s : ℕ}

def Respected.param (hr : Respected r) : Param T T where
  d := r
  c x y := y = x
  f x y := y = x
  d_zero := hr.zero
  d_add := hr.add
  d_sub := hr.sub
  d_neg := hr.neg
  d_mul := by rintro _ _ _ _ h rfl; exact hr.mul_const _ h
  d_mul' := by rintro _ _ _ _ rfl h; exact hr.const_mul _ h
  c_zero := rfl
  c_one := rfl
  c_neg := by rintro _ _ rfl; rfl
  c_mul := by rintro _ _ _ _ rfl rfl; rfl
  c_sqrt2 := rfl
  c_fracSqrt2 := rfl
  c_from := by rintro _ _ rfl; rfl
  f_nat _ := rfl
  f_half := rfl
  f_pi := rfl
  f_add := by rintro _ _ _ _ rfl rfl; rfl
  f_sub := by rintro _ _ _ _ rfl rfl; rfl
  f_mul := by rintro _ _ _ _ rfl rfl; rfl
  f_div := by rintro _ _ _ _ rfl rfl; rfl
  f_neg := by rintro _ _ rfl; rfl
  f_sqrt := by rintro _ _ rfl; rfl
  f_sin := by rintro _ _ rfl; rfl
  f_cos := by rintro _ _ rfl; rfl

/-- Calls of any instance made by the constructors, on related buffers and scratch of any size, end alike and leave related memories. -/
theorem C72_made (hr : Respected r) (hm : Method (fun fft => FftRel r fft fft) k p n s) {m m' : Mem T} (h : MemRel r m m') : ORel (MemRel r) (p m) (p m') :=
  hr.param.method (fun _ hf => hf) hm m m' h

/-- The same for planned instances; only the FFT the instance uses, if any, needs to preserve the relation. -/
theorem C72_planned (hr : Respected r) (hf : ∀ m, k.fftLen n = some m → FftRel r (planFft m) (planFft m)) (hp : Planned planFft calls k p n s) {m m' : Mem T}
    (h : MemRel r m m') : ORel (MemRel r) (p m) (p m') :=
  (hr.param.planned hf hp hp).2 m m' h

theorem lrel_replicate {α β : Type} {r : α → β → Prop} {a : α} {b : β} (h : r a b) (s : ℕ) : LRel r (List.replicate s a) (List.replicate s b) := by
  induction s with
  | zero => exact .nil
  | succ s ih => exact .cons h ih

/-- The methods that allocate scratch themselves. -/
theorem C72_default (hr : Respected r) (hf : ∀ m, k.fftLen n = some m → FftRel r (planFft m) (planFft m)) (hp : Planned planFft calls k p n s) {buf buf' : List T}
    (h : List.Forall₂ r buf buf') : ORel (List.Forall₂ r) (processDefault s p buf) (processDefault s p buf') := by
  have := C72_planned hr hf hp (m := ⟨buf, List.replicate s 0⟩) (m' := ⟨buf', List.replicate s 0⟩) ⟨h, lrel_replicate hr.zero s⟩
  unfold processDefault
  generalize p ⟨buf, List.replicate s 0⟩ = x at this
  generalize p ⟨buf', List.replicate s 0⟩ = y at this
  cases this with
  | ok h => exact .ok h.1
  | panic => exact .panic
  | panicMem h => exact .panicMem h.1

/-- MDCT and IMDCT. -/
theorem C72_mdct_made (hr : Respected r) {win : List T} {o : MdctObj T} (hm : MadeMdct (fun fft => FftRel r fft fft) win o) :
    (∀ a a' b b' m m', List.Forall₂ r a a' → List.Forall₂ r b b' → MemRel r m m' → ORel (MemRel r) (o.mdct a b m) (o.mdct a' b' m')) ∧
    ∀ x x' m m', List.Forall₂ r x x' → IMemRel r m m' → ORel (IMemRel r) (o.imdct x m) (o.imdct x' m') := by
  have := hr.param.madeMdct (fun _ => rfl) (fun _ hf => hf) hm
  exact ⟨fun a a' b b' m m' h1 h2 h3 => this.mdct h1 h2 h3, fun x x' m m' h1 h2 => this.imdct h1 h2⟩

theorem C72_mdct_planned (hr : Respected r) (hf : ∀ m, Kind.dct4.fftLen n = some m → FftRel r (planFft m) (planFft m)) (hs : PlanFftShape planFft) {w : ℕ → List T}
    {o : MdctObj T} (hp : PlannedMdct planFft calls n w o) :
    (∀ a a' b b' m m', List.Forall₂ r a a' → List.Forall₂ r b b' → MemRel r m m' → ORel (MemRel r) (o.mdct a b m) (o.mdct a' b' m')) ∧
    ∀ x x' m m', List.Forall₂ r x x' → IMemRel r m m' → ORel (IMemRel r) (o.imdct x m) (o.imdct x' m') := by
  have hr := hr.param.canonMdct_rel (n := n) (w := effectiveWindow n calls w) hf (canon4_len hs) (List.forall₂_same.2 fun _ _ => rfl)
  rw [hp.canon hs] at hr
  cases hr with
  | ok this => exact ⟨fun a a' b b' m m' h1 h2 h3 => this.mdct h1 h2 h3, fun x x' m m' h1 h2 => this.imdct h1 h2⟩

end

/-! ### IEEE arithmetic -/

namespace Fp
variable {f : Format} {a a' b b' c : Fp f}

theorem Same.refl (a : Fp f) : Same a a := Or.inl rfl
theorem Same.symm (h : Same a b) : Same b a := by
  rcases h with rfl | ⟨s, t, rfl, rfl⟩
  · exact Or.inl rfl
  · exact Or.inr ⟨t, s, rfl, rfl⟩
theorem Same.trans (h : Same a b) (h' : Same b c) : Same a c := by
  rcases h with rfl | ⟨s, t, rfl, rfl⟩
  · exact h'
  · rcases h' with rfl | ⟨s', t', -, rfl⟩
    · exact Or.inr ⟨_, _, rfl, rfl⟩
    · exact Or.inr ⟨_, _, rfl, rfl⟩

theorem lastBit_neg (x : ℝ) : f.lastBit (-x) = f.lastBit x := by unfold Format.lastBit; rw [abs_neg]

theorem rnd_same (s t : Bool) (x : ℝ) : Same (rnd f s x) (rnd f t x) := by
  unfold rnd
  by_cases h : f.Rep (roundTo (f.lastBit x) x)
  · by_cases h0 : roundTo (f.lastBit x) x = 0
    · rw [dif_pos h, dif_pos h, dif_pos h0, dif_pos h0]; exact Or.inr ⟨_, _, rfl, rfl⟩
    · rw [dif_pos h, dif_pos h, dif_neg h0, dif_neg h0]; exact Or.inl rfl
  · rw [dif_neg h, dif_neg h]; exact Or.inl rfl

theorem rnd_neg (s t : Bool) (x : ℝ) : Same (rnd f s (-x)) (neg (rnd f t x)) := by
  have e : roundTo (f.lastBit (-x)) (-x) = -roundTo (f.lastBit x) x := by rw [lastBit_neg, roundTo_neg]
  unfold rnd
  by_cases h : f.Rep (roundTo (f.lastBit x) x)
  · rw [dif_pos h, dif_pos (by rw [e]; exact h.neg)]
    by_cases h0 : roundTo (f.lastBit x) x = 0
    · rw [dif_pos h0, dif_pos (by rw [e, h0, neg_zero])]; exact Or.inr ⟨_, _, rfl, rfl⟩
    · rw [dif_neg h0, dif_neg (by rw [e]; exact neg_ne_zero.2 h0)]
      refine Or.inl ?_
      simp only [neg, e]
  · rw [dif_neg h, dif_neg (fun h' => h (by rw [e] at h'; simpa using h'.neg))]
    refine Or.inl ?_
    have hx : x ≠ 0 := by
      rintro rfl
      have := (Format.Rep.zero f).round
      exact h (by rw [this]; exact Format.Rep.zero f)
    simp only [neg]
    rcases lt_or_gt_of_ne hx with hx | hx
    · rw [decide_eq_true hx, decide_eq_false (by linarith)]; rfl
    · rw [decide_eq_false (show ¬ x < 0 by linarith), decide_eq_true (show -x < 0 by linarith)]; rfl

theorem Same.neg (h : Same a b) : Same (neg a) (neg b) := by
  rcases h with rfl | ⟨s, t, rfl, rfl⟩
  · exact Or.inl rfl
  · exact Or.inr ⟨_, _, rfl, rfl⟩

theorem add_zero_same (s t : Bool) : Same (add (zero s) b) (add (zero t) b) ∧ Same (add b (zero s)) (add b (zero t)) := by
  cases b with
  | inf u => exact ⟨Or.inl rfl, Or.inl rfl⟩
  | nan => exact ⟨Or.inl rfl, Or.inl rfl⟩
  | _ => exact ⟨rnd_same _ _ _, rnd_same _ _ _⟩

theorem mul_zero_same (s t : Bool) : Same (mul (zero s) b) (mul (zero t) b) ∧ Same (mul b (zero s)) (mul b (zero t)) := by
  cases b with
  | inf u => exact ⟨Or.inl rfl, Or.inl rfl⟩
  | nan => exact ⟨Or.inl rfl, Or.inl rfl⟩
  | _ => exact ⟨rnd_same _ _ _, rnd_same _ _ _⟩

theorem Same.add (ha : Same a a') (hb : Same b b') : Same (add a b) (add a' b') := by
  have h1 : Same (Fp.add a b) (Fp.add a' b) := by
    rcases ha with rfl | ⟨s, t, rfl, rfl⟩
    · exact Or.inl rfl
    · exact (add_zero_same s t).1
  refine h1.trans ?_
  rcases hb with rfl | ⟨s, t, rfl, rfl⟩
  · exact Or.inl rfl
  · exact (add_zero_same s t).2

theorem Same.mul (ha : Same a a') (hb : Same b b') : Same (mul a b) (mul a' b') := by
  have h1 : Same (Fp.mul a b) (Fp.mul a' b) := by
    rcases ha with rfl | ⟨s, t, rfl, rfl⟩
    · exact Or.inl rfl
    · exact (mul_zero_same s t).1
  refine h1.trans ?_
  rcases hb with rfl | ⟨s, t, rfl, rfl⟩
  · exact Or.inl rfl
  · exact (mul_zero_same s t).2

theorem isNeg_neg (ha : a ≠ nan) : (neg a).isNeg = !a.isNeg := by
  cases a with
  | zero s => rfl
  | inf s => rfl
  | nan => exact absurd rfl ha
  | num x h h0 =>
    simp only [neg, isNeg]
    rcases lt_or_gt_of_ne h0 with hx | hx
    · rw [decide_eq_true hx, decide_eq_false (by linarith)]; rfl
    · rw [decide_eq_false (show ¬ x < 0 by linarith), decide_eq_true (show -x < 0 by linarith)]; rfl

theorem add_neg_neg (a b : Fp f) : Same (add (neg a) (neg b)) (neg (add a b)) := by
  by_cases ha : a.Fin
  · by_cases hb : b.Fin
    · obtain ⟨h1, h2⟩ := neg_ok a ha
      obtain ⟨h3, h4⟩ := neg_ok b hb
      rw [add_fin ha hb, add_fin h1 h3, h2, h4, ← neg_add]
      exact rnd_neg _ _ _
    · cases a <;> cases b <;> first | exact absurd ha id | exact absurd trivial hb | exact Or.inl rfl
  · cases a with
    | zero s => exact absurd trivial ha
    | num x h h0 => exact absurd trivial ha
    | nan => exact Or.inl rfl
    | inf s =>
      cases b with
      | inf t => cases s <;> cases t <;> exact Or.inl rfl
      | _ => exact Or.inl rfl

theorem mul_neg_left (a b : Fp f) : Same (mul (neg a) b) (neg (mul a b)) := by
  by_cases ha : a.Fin
  · by_cases hb : b.Fin
    · obtain ⟨h1, h2⟩ := neg_ok a ha
      rw [mul_fin ha hb, mul_fin h1 hb, h2, neg_mul]
      exact rnd_neg _ _ _
    · cases b with
      | inf t =>
        cases a with
        | num x h h0 =>
          refine Or.inl ?_
          change inf ((neg (num x h h0)).isNeg != t) = inf (!((num x h h0).isNeg != t))
          rw [isNeg_neg (by simp)]
          cases (num x h h0).isNeg <;> cases t <;> rfl
        | inf s => exact absurd ha id
        | _ => exact Or.inl rfl
      | nan => cases a <;> exact Or.inl rfl
      | _ => exact absurd trivial hb
  · cases a with
    | inf s =>
      cases b with
      | zero t => exact Or.inl rfl
      | nan => exact Or.inl rfl
      | num x h h0 =>
        refine Or.inl ?_
        change inf ((!s) != (num x h h0).isNeg) = inf (!(s != (num x h h0).isNeg))
        cases s <;> cases (num x h h0).isNeg <;> rfl
      | inf t => cases s <;> cases t <;> exact Or.inl rfl
    | nan => exact Or.inl rfl
    | _ => exact absurd trivial ha

theorem mul_comm' (a b : Fp f) : mul a b = mul b a := by
  by_cases ha : a.Fin
  · by_cases hb : b.Fin
    · rw [mul_fin ha hb, mul_fin hb ha, _root_.mul_comm, show (a.isNeg != b.isNeg) = (b.isNeg != a.isNeg) by cases a.isNeg <;> cases b.isNeg <;> rfl]
    · cases b with
      | inf t =>
        cases a with
        | num x h h0 => exact congrArg inf (by cases (num x h h0).isNeg <;> cases t <;> rfl)
        | inf s => exact absurd ha id
        | _ => rfl
      | nan => cases a <;> rfl
      | _ => exact absurd trivial hb
  · cases a with
    | inf s =>
      cases b with
      | num x h h0 => exact congrArg inf (by cases (num x h h0).isNeg <;> cases s <;> rfl)
      | inf t => exact congrArg inf (by cases s <;> cases t <;> rfl)
      | _ => rfl
    | nan => cases b <;> rfl
    | _ => exact absurd trivial ha

end Fp

/-- Equality up to the sign of zeros is respected by IEEE arithmetic, in every binary format. -/
theorem C72_zero (f : Format) : Respected (Fp.Same (f := f)) where
  zero := Fp.Same.refl _
  add := Fp.Same.add
  sub h1 h2 := Fp.Same.add h1 h2.neg
  neg := Fp.Same.neg
  mul_const c h := Fp.Same.mul h (.refl c)
  const_mul c h := Fp.Same.mul (.refl c) h

/-- So is being the negative up to the sign of zeros, overflow and underflow included. -/
theorem C72_neg (f : Format) : Respected (Fp.Opposite (f := f)) where
  zero := Or.inr ⟨_, _, rfl, rfl⟩
  add {a a' b b'} h1 h2 := (Fp.add_neg_neg a b).symm.trans (Fp.Same.add h1 h2)
  sub {a a' b b'} h1 h2 := (Fp.add_neg_neg a (Fp.neg b)).symm.trans (Fp.Same.add h1 h2.neg)
  neg h := Fp.Same.neg h
  mul_const {a a'} c h := (Fp.mul_neg_left a c).symm.trans (Fp.Same.mul h (.refl c))
  const_mul {a a'} c h := by
    have := (Fp.mul_neg_left a c).symm.trans (Fp.Same.mul h (.refl c))
    change Fp.Same (Fp.neg (Fp.mul c a)) (Fp.mul c a')
    rwa [Fp.mul_comm' c, Fp.mul_comm' c]

theorem Fp.rnd_zero {f : Format} (s : Bool) : Fp.rnd f s 0 = .zero s := by
  have e := (Format.Rep.zero f).round
  unfold Fp.rnd
  rw [dif_pos (by rw [e]; exact Format.Rep.zero f), dif_pos e, if_pos rfl]

theorem Fp.sub_self {f : Format} {x : Fp f} (hx : x.Fin) : x - x = (.zero false : Fp f) := by
  obtain ⟨h1, h2⟩ := Fp.neg_ok x hx
  change Fp.add x (Fp.neg x) = _
  rw [Fp.add_fin hx h1, h2, add_neg_cancel, Fp.isNeg_neg (by rintro rfl; exact hx), show (x.isNeg && !x.isNeg) = false by cases x.isNeg <;> rfl, Fp.rnd_zero]

theorem Fp.zero_mul_pos {f : Format} {c : Fp f} (hc : c.Fin) (h : 0 < c.val) : Fp.zero false * c = .zero false := by
  change Fp.mul _ _ = _
  rw [Fp.mul_fin (a := .zero false) trivial hc]
  have : c.isNeg = false := by
    cases c with
    | num x _ _ => exact decide_eq_false (not_lt.2 (le_of_lt h))
    | _ => exact absurd h (lt_irrefl _)
  rw [this]
  change Fp.rnd f false (0 * c.val) = _
  rw [zero_mul, Fp.rnd_zero]

/-- Negation is not exact for zeros: a DCT2 of two equal numbers ends with `+0`, and so does that of the negated numbers. -/
theorem C72_sign_lost {f : Format} {planFft : ℕ → Fft (Fp f)} {calls : List (PlanCall (Fp f))} {p : Proc (Fp f)} {s : ℕ} (h : Planned planFft calls .dct2 p 2 s)
    {x : Fp f} (hx : x.Fin) : ∃ y y', processDefault s p [x, x] = .ok [y, .zero false] ∧ processDefault s p [-x, -x] = .ok [y', .zero false] := by
  have hc : (DctNum.fracSqrt2 : Fp f).Fin ∧ 0 < (DctNum.fracSqrt2 : Fp f).val := by
    obtain ⟨h1, h2⟩ := (Fp.ieee f).fracSqrt2
    refine ⟨h1, ?_⟩
    have hu : ((1 / 2 : ℝ)) ^ f.p ≤ 1 / 2 := by
      have := pow_le_pow_of_le_one (a := (1 / 2 : ℝ)) (by norm_num) (by norm_num) (show 1 ≤ f.p from by have := f.hp; omega)
      simpa using this
    have h3 : 0 < 1 / √2 := by positivity
    have h4 := (abs_le.1 h2).1
    change -((1 / 2) ^ f.p * (1 / √2)) ≤ _ at h4
    have : (1 / 2 : ℝ) ^ f.p * (1 / √2) ≤ 1 / 2 * (1 / √2) := mul_le_mul_of_nonneg_right hu h3.le
    change 0 < (Fp.ieee f).val DctNum.fracSqrt2
    linarith
  cases h with
  | dct2 h =>
    have e := Yields.canon (fun W => planDct2_yields 2) h
    have e2 : canon23 planFft 2 = .ok (Type2And3Butterfly2.new : Type2And3Butterfly2 (Fp f)).toObj := by
      rw [canon23]; rfl
    rw [e2] at e
    injection e with e
    rw [← e]
    have key : ∀ z : Fp f, z.Fin → processDefault (Type2And3Butterfly2.new : Type2And3Butterfly2 (Fp f)).toObj.scratchLen (Type2And3Butterfly2.new : Type2And3Butterfly2 (Fp f)).toObj.dct2
        [z, z] = .ok [z + z, .zero false] := by
      intro z hz
      have := Fp.zero_mul_pos hc.1 hc.2
      rw [← Fp.sub_self hz] at this
      rw [← this.trans (Fp.sub_self hz)]
      rfl
    exact ⟨_, _, key x hx, key _ (Fp.neg_ok x hx).1⟩

/-- A DCT1 of 100 points in `f32`, planned after other calls: the outputs for negated inputs are the negated outputs, up to the sign of zeros. -/
example : ∃ p s, Planned (fun n => (sumFft n : Fft (Fp b32))) [.dct2 64, .dst1 99] .dct1 p 100 s ∧
    ∀ buf, ORel (List.Forall₂ Fp.Opposite) (processDefault s p buf) (processDefault s p (buf.map fun x => -x)) := by
  obtain ⟨p, s, hp⟩ := planned_exists (T := Fp b32) sumFft_sane.shape [.dct2 64, .dst1 99] .dct1 (n := 100) (by norm_num)
  refine ⟨p, s, hp, fun buf => C72_default (C72_neg b32) (fun m _ => sumFft_rel (C72_neg b32).param m) hp ?_⟩
  induction buf with
  | nil => exact .nil
  | cons a l ih => exact .cons (Fp.Same.refl _) ih

/-- A DCT4 of 1024 points in `f64`, whatever the FFT: replacing every `-0` of buffer and scratch by `+0` changes signs of zeros at most. -/
example (planFft : ℕ → Fft (Fp b64)) (hf : PlanFftShape planFft) : ∃ p s, Planned planFft [] .dct4 p 1024 s ∧
    ∀ m m', MemRel Fp.Same m m' → ORel (MemRel Fp.Same) (p m) (p m') := by
  obtain ⟨p, s, hp⟩ := planned_exists hf [] .dct4 (n := 1024) (by norm_num)
  exact ⟨p, s, hp, fun m m' h => C72_planned (C72_zero b64) (fun m hm => by
    simp [Kind.fftLen, fftLen23, straightLine] at hm
    exact absurd (by rw [show Nat.log 2 512 = 9 by rw [Nat.log_eq_iff (by norm_num)]; norm_num]) hm.1) hp h⟩

end RustDct
