import Verif.Param.Instances
import Verif.Param.Planner
import Verif.Props.Safety
import Verif.Props.Mdct
import Verif.Float.DftFft
import Verif.Range.Format
/-!
# Exact symmetries, formulas, and the FFT a planned instance uses (C63, C64, C65)
-/

set_option linter.all false

namespace RustDct

/-! ### Relations given by functions -/

section
variable {α β : Type} {g : α → β}

theorem lrel_map {l : List α} {l' : List β} : LRel (fun a b => b = g a) l l' ↔ l' = l.map g := by
  constructor
  · intro h
    induction h with
    | nil => rfl
    | cons h _ ih => rw [h, ih]; rfl
  · rintro rfl
    induction l with
    | nil => exact .nil
    | cons a l ih => exact .cons rfl ih

theorem cxRel_map : CxRel (fun a b => b = g a) = fun z z' => z' = Cx.map g z := by
  funext z z'
  obtain ⟨a, b⟩ := z
  obtain ⟨a', b'⟩ := z'
  simp [CxRel, Cx.map]

theorem memRel_map {m : Mem α} {m' : Mem β} : MemRel (fun a b => b = g a) m m' ↔ m' = m.map g := by
  obtain ⟨a, b⟩ := m
  obtain ⟨a', b'⟩ := m'
  simp [MemRel, Mem.map, lrel_map]

theorem imemRel_map {m : IMem α} {m' : IMem β} : IMemRel (fun a b => b = g a) m m' ↔ m' = m.map g := by
  obtain ⟨a, b, c⟩ := m
  obtain ⟨a', b', c'⟩ := m'
  simp [IMemRel, IMem.map, lrel_map]

theorem orel_map {M N : Type} {r : M → N → Prop} {G : M → N} (hr : ∀ m m', r m m' → m' = G m) {o : Outcome M} {o' : Outcome N} (h : ORel r o o') : o' = o.map G := by
  cases h with
  | ok h => rw [hr _ _ h]; rfl
  | panic => rfl
  | panicMem h => rw [hr _ _ h]; rfl

theorem erel_map {γ δ : Type} {r : γ → δ → Prop} {G : γ → δ} (hr : ∀ a b, r a b ↔ b = G a) {x : Except Err γ} {y : Except Err δ} : ERel r x y ↔ y = x.map G := by
  constructor
  · intro h
    cases h with
    | ok h => rw [(hr _ _).1 h]; rfl
    | error => rfl
  · rintro rfl
    cases x with
    | ok a => exact .ok ((hr _ _).2 rfl)
    | error e => exact .error

theorem fftRel_map {f : Fft α} {f' : Fft β} (h1 : f.len = f'.len) (h2 : f.direction = f'.direction) (h3 : f.inplaceScratchLen = f'.inplaceScratchLen)
    (h : ∀ buf scr, f'.process (buf.map (Cx.map g)) (scr.map (Cx.map g)) = (f.process buf scr).map fun r => (r.1.map (Cx.map g), r.2.map (Cx.map g))) :
    FftRel (fun a b => b = g a) f f' := by
  refine ⟨h1, h2, h3, fun {b b' s s'} hb hs => ?_⟩
  rw [cxRel_map] at hb hs ⊢
  rw [lrel_map] at hb hs
  subst hb; subst hs
  rw [h]
  refine (erel_map (G := fun r => (r.1.map (Cx.map g), r.2.map (Cx.map g))) fun a b => ?_).2 rfl
  obtain ⟨a1, a2⟩ := a
  obtain ⟨b1, b2⟩ := b
  simp [PRl, lrel_map]

theorem procRel_map {p : Proc α} {p' : Proc β} (h : ProcRel (fun a b => b = g a) p p') (m : Mem α) : p' (m.map g) = (p m).map (Mem.map g) :=
  orel_map (fun _ _ => memRel_map.1) (h m (m.map g) (memRel_map.2 rfl))

theorem mdctRel_map {o : MdctObj α} {o' : MdctObj β} (hr : MdctObjRel (fun a b => b = g a) o o') :
    (∀ a b m, o'.mdct (a.map g) (b.map g) (m.map g) = (o.mdct a b m).map (Mem.map g)) ∧
    ∀ x m, o'.imdct (x.map g) (m.map g) = (o.imdct x m).map (IMem.map g) :=
  ⟨fun a b m => orel_map (fun _ _ => memRel_map.1) (hr.mdct (lrel_map.2 rfl) (lrel_map.2 rfl) (memRel_map.2 rfl)),
    fun x m => orel_map (fun _ _ => imemRel_map.1) (hr.imdct (lrel_map.2 rfl) (imemRel_map.2 rfl))⟩

theorem fftRel_map' {f : Fft α} {f' : Fft β} (h : FftRel (fun a b => b = g a) f f') (buf scr : List (Cx α)) :
    f'.process (buf.map (Cx.map g)) (scr.map (Cx.map g)) = (f.process buf scr).map fun r => (r.1.map (Cx.map g), r.2.map (Cx.map g)) := by
  have := h.process (b := buf) (s := scr) (by rw [cxRel_map]; exact lrel_map.2 rfl) (by rw [cxRel_map]; exact lrel_map.2 rfl)
  rw [cxRel_map] at this
  refine (erel_map (G := fun r => (r.1.map (Cx.map g), r.2.map (Cx.map g))) fun a b => ?_).1 this
  obtain ⟨a1, a2⟩ := a
  obtain ⟨b1, b2⟩ := b
  simp [PRl, lrel_map]

end

theorem canon4_len {T F : Type} [F64 F] [DctNum T F] {planFft : ℕ → Fft T} {n : ℕ} (hs : PlanFftShape planFft) (a : Obj4 T) (h : canon4 planFft n = .ok a) : a.len = n := by
  obtain ⟨i, h1, -, h3⟩ := canon4_made hs n
  rw [h] at h1
  injection h1 with h1
  rw [h1]; exact h3

/-- The relation read from right to left. -/
def Param.symm {T T' F F' : Type} [F64 F] [DctNum T F] [F64 F'] [DctNum T' F'] (P : Param T T') : Param T' T where
  d y x := P.d x y
  c y x := P.c x y
  f y x := P.f x y
  d_zero := P.d_zero
  d_add := P.d_add
  d_sub := P.d_sub
  d_neg := P.d_neg
  d_mul := P.d_mul
  d_mul' := P.d_mul'
  c_zero := P.c_zero
  c_one := P.c_one
  c_neg := P.c_neg
  c_mul := P.c_mul
  c_sqrt2 := P.c_sqrt2
  c_fracSqrt2 := P.c_fracSqrt2
  c_from := P.c_from
  f_nat := P.f_nat
  f_half := P.f_half
  f_pi := P.f_pi
  f_add := P.f_add
  f_sub := P.f_sub
  f_mul := P.f_mul
  f_div := P.f_div
  f_neg := P.f_neg
  f_sqrt := P.f_sqrt
  f_sin := P.f_sin
  f_cos := P.f_cos

theorem FftRel.symm {α β : Type} {r : α → β → Prop} {f : Fft α} {f' : Fft β} (h : FftRel r f f') : FftRel (fun b a => r a b) f' f := by
  refine ⟨h.len.symm, h.direction.symm, h.scratchLen.symm, fun {b b' s s'} hb hs => ?_⟩
  have := h.process (b := b') (s := s') hb.flip hs.flip
  generalize f.process b' s' = x at this
  generalize f'.process b s = y at this
  cases this with
  | ok h => exact .ok ⟨h.1.flip, h.2.flip⟩
  | error => exact .error

/-! ### C63: exact symmetries -/

section
variable {T F : Type} [F64 F] [DctNum T F] {h : T → T} {planFft : ℕ → Fft T} {calls : List (PlanCall T)} {k : Kind} {p : Proc T} {n s : ℕ}

/-- A symmetry as a relation between runs. -/
def ExactSymmetry.param (hh : ExactSymmetry h) : Param T T where
  d x y := y = h x
  c x y := y = x
  f x y := y = x
  d_zero := hh.zero.symm
  d_add := by rintro _ _ _ _ rfl rfl; exact (hh.add _ _).symm
  d_sub := by rintro _ _ _ _ rfl rfl; exact (hh.sub _ _).symm
  d_neg := by rintro _ _ rfl; exact (hh.neg _).symm
  d_mul := by rintro _ _ _ _ rfl rfl; exact (hh.mul_const _ _).symm
  d_mul' := by rintro _ _ _ _ rfl rfl; exact (hh.const_mul _ _).symm
  c_zero := rfl
  c_one := rfl
  c_neg := by rintro _ _ rfl; rfl
  c_mul := by rintro _ _ _ _ rfl rfl; rfl
  c_sqrt2 := rfl
  c_fracSqrt2 := rfl
  c_from := by rintro _ _ rfl; rfl
  f_nat _ := rfl
  f_half := rfl
  f_pi := rfl
  f_add := by rintro _ _ _ _ rfl rfl; rfl
  f_sub := by rintro _ _ _ _ rfl rfl; rfl
  f_mul := by rintro _ _ _ _ rfl rfl; rfl
  f_div := by rintro _ _ _ _ rfl rfl; rfl
  f_neg := by rintro _ _ rfl; rfl
  f_sqrt := by rintro _ _ rfl; rfl
  f_sin := by rintro _ _ rfl; rfl
  f_cos := by rintro _ _ rfl; rfl

theorem FftCommutes.rel {f : Fft T} (hf : FftCommutes h f) : FftRel (fun x y => y = h x) f f := fftRel_map rfl rfl rfl hf

/-- Every method of every instance made by the constructors commutes with every exact symmetry: for all buffers and scratch, of all sizes. -/
theorem C63_made (hh : ExactSymmetry h) (hm : Method (FftCommutes h) k p n s) (m : Mem T) : p (m.map h) = (p m).map (Mem.map h) :=
  procRel_map (hh.param.method (fun _ hf => hf.rel) hm) m

/-- The same for planned instances; only the FFT the instance uses, if any, needs to have the symmetry. -/
theorem C63_planned (hh : ExactSymmetry h) (hf : ∀ m, k.fftLen n = some m → FftCommutes h (planFft m)) (hp : Planned planFft calls k p n s) (m : Mem T) :
    p (m.map h) = (p m).map (Mem.map h) :=
  procRel_map (hh.param.planned (fun m hm => (hf m hm).rel) hp hp).2 m

theorem default_map {q : Proc T} (h0 : h 0 = 0) (hq : ∀ m : Mem T, q (m.map h) = (q m).map (Mem.map h)) (s : ℕ) (buf : List T) :
    processDefault s q (buf.map h) = (processDefault s q buf).map (List.map h) := by
  have e : (⟨buf.map h, List.replicate s 0⟩ : Mem T) = Mem.map h ⟨buf, List.replicate s 0⟩ := by simp [Mem.map, h0]
  unfold processDefault
  rw [e, hq]
  cases q ⟨buf, List.replicate s 0⟩ with
  | ok m => rfl
  | panic e m => cases m <;> rfl

/-- The methods that allocate scratch themselves. -/
theorem C63_default (hh : ExactSymmetry h) (hf : ∀ m, k.fftLen n = some m → FftCommutes h (planFft m)) (hp : Planned planFft calls k p n s) (buf : List T) :
    processDefault s p (buf.map h) = (processDefault s p buf).map (List.map h) :=
  default_map hh.zero (C63_planned hh hf hp) s buf

/-- MDCT and IMDCT. -/
theorem C63_mdct_made (hh : ExactSymmetry h) {win : List T} {o : MdctObj T} (hm : MadeMdct (FftCommutes h) win o) :
    (∀ a b m, o.mdct (a.map h) (b.map h) (m.map h) = (o.mdct a b m).map (Mem.map h)) ∧
    ∀ x m, o.imdct (x.map h) (m.map h) = (o.imdct x m).map (IMem.map h) := by
  exact mdctRel_map (hh.param.madeMdct (fun _ => rfl) (fun _ hf => hf.rel) hm)

theorem C63_mdct_planned (hh : ExactSymmetry h) (hf : ∀ m, Kind.dct4.fftLen n = some m → FftCommutes h (planFft m)) (hs : PlanFftShape planFft) {w : ℕ → List T} {o : MdctObj T}
    (hp : PlannedMdct planFft calls n w o) :
    (∀ a b m, o.mdct (a.map h) (b.map h) (m.map h) = (o.mdct a b m).map (Mem.map h)) ∧
    ∀ x m, o.imdct (x.map h) (m.map h) = (o.imdct x m).map (IMem.map h) := by
  have hr := hh.param.canonMdct_rel (n := n) (w := effectiveWindow n calls w) (fun m hm => (hf m hm).rel) (canon4_len hs) (List.forall₂_same.2 fun _ _ => rfl)
  rw [hp.canon hs] at hr
  cases hr with
  | ok hr => exact mdctRel_map hr

end

/-! ### The symmetries of floating-point arithmetic -/

namespace Flx
variable {q : ℕ}

theorem val_ext {a b : Flx q} (h : a.val = b.val) : a = b := by
  cases a; cases b; cases h; rfl

theorem Bits_scale (j : ℤ) {x : ℝ} : Bits q (x * 2 ^ j) ↔ Bits q x := by
  have hJ : (2 : ℝ) ^ j ≠ 0 := by positivity
  constructor
  · rintro ⟨m, e, h1, h2⟩
    refine ⟨m, e - j, h1, ?_⟩
    rw [zpow_sub₀ (by norm_num), ← mul_div_assoc, ← h2, mul_div_cancel_right₀ _ hJ]
  · rintro ⟨m, e, h1, rfl⟩
    exact ⟨m, e + j, h1, by rw [zpow_add₀ (by norm_num), mul_assoc]⟩

theorem Bits_neg {x : ℝ} : Bits q (-x) ↔ Bits q x := ⟨fun h => by simpa using h.neg, Bits.neg⟩

theorem rnd_scale (j : ℤ) (x : ℝ) : (rnd q (x * 2 ^ j)).val = (rnd q x).val * 2 ^ j := by
  unfold rnd
  by_cases h : Bits q x
  · rw [dif_pos h, dif_pos ((Bits_scale j).2 h)]
  · rw [dif_neg h, dif_neg (fun h' => h ((Bits_scale j).1 h'))]
    have : lastBit q (x * 2 ^ j) = lastBit q x + j := by unfold lastBit; rw [log_scale j (ne_zero_of h)]; ring
    dsimp only
    rw [this, roundTo_scale]

theorem rnd_neg (x : ℝ) : (rnd q (-x)).val = -(rnd q x).val := by
  unfold rnd
  by_cases h : Bits q x
  · rw [dif_pos h, dif_pos (Bits_neg.2 h)]
  · rw [dif_neg h, dif_neg (fun h' => h (Bits_neg.1 h'))]
    have : lastBit q (-x) = lastBit q x := by unfold lastBit; rw [abs_neg]
    dsimp only
    rw [this, roundTo_neg]

/-- Multiplication with `2 ^ j`. -/
noncomputable def scale (j : ℤ) (a : Flx q) : Flx q := ⟨a.val * 2 ^ j, (Bits_scale j).2 a.bits⟩

end Flx

/-- Negation is an exact symmetry of floating-point arithmetic without overflow and underflow. -/
theorem C63_neg_flx (q : ℕ) : ExactSymmetry (fun x : Flx q => -x) where
  zero := Flx.val_ext (neg_zero)
  add a b := Flx.val_ext (by change -(Flx.rnd q (a.val + b.val)).val = (Flx.rnd q (-a.val + -b.val)).val; rw [← Flx.rnd_neg]; congr 2; ring)
  sub a b := Flx.val_ext (by change -(Flx.rnd q (a.val - b.val)).val = (Flx.rnd q (-a.val - -b.val)).val; rw [← Flx.rnd_neg]; congr 2; ring)
  neg a := rfl
  mul_const a c := Flx.val_ext (by change -(Flx.rnd q (a.val * c.val)).val = (Flx.rnd q (-a.val * c.val)).val; rw [← Flx.rnd_neg]; congr 2; ring)
  const_mul c a := Flx.val_ext (by change -(Flx.rnd q (c.val * a.val)).val = (Flx.rnd q (c.val * -a.val)).val; rw [← Flx.rnd_neg]; congr 2; ring)

/-- So is scaling by a power of two. -/
theorem C63_scale_flx (q : ℕ) (j : ℤ) : ExactSymmetry (Flx.scale j : Flx q → Flx q) where
  zero := Flx.val_ext (zero_mul _)
  add a b := Flx.val_ext (by
    change (Flx.rnd q (a.val + b.val)).val * 2 ^ j = (Flx.rnd q (a.val * 2 ^ j + b.val * 2 ^ j)).val
    rw [← Flx.rnd_scale]; congr 2; ring)
  sub a b := Flx.val_ext (by
    change (Flx.rnd q (a.val - b.val)).val * 2 ^ j = (Flx.rnd q (a.val * 2 ^ j - b.val * 2 ^ j)).val
    rw [← Flx.rnd_scale]; congr 2; ring)
  neg a := Flx.val_ext (by change -a.val * 2 ^ j = -(a.val * 2 ^ j); ring)
  mul_const a c := Flx.val_ext (by
    change (Flx.rnd q (a.val * c.val)).val * 2 ^ j = (Flx.rnd q (a.val * 2 ^ j * c.val)).val
    rw [← Flx.rnd_scale]; congr 2; ring)
  const_mul c a := Flx.val_ext (by
    change (Flx.rnd q (c.val * a.val)).val * 2 ^ j = (Flx.rnd q (c.val * (a.val * 2 ^ j))).val
    rw [← Flx.rnd_scale]; congr 2; ring)

/-! ### C64: formulas -/

section
variable {T F : Type} [F64 F] [DctNum T F]

/-- Evaluation as a relation between runs. -/
def Formula.param (x w : List T) : Param Formula T where
  d e y := y = e.eval x w
  c e y := y = e.eval x w
  f e y := y = e.eval
  d_zero := rfl
  d_add := by rintro _ _ _ _ rfl rfl; rfl
  d_sub := by rintro _ _ _ _ rfl rfl; rfl
  d_neg := by rintro _ _ rfl; rfl
  d_mul := by rintro _ _ _ _ rfl rfl; rfl
  d_mul' := by rintro _ _ _ _ rfl rfl; rfl
  c_zero := rfl
  c_one := rfl
  c_neg := by rintro _ _ rfl; rfl
  c_mul := by rintro _ _ _ _ rfl rfl; rfl
  c_sqrt2 := rfl
  c_fracSqrt2 := rfl
  c_from := by rintro _ _ rfl; rfl
  f_nat _ := rfl
  f_half := rfl
  f_pi := rfl
  f_add := by rintro _ _ _ _ rfl rfl; rfl
  f_sub := by rintro _ _ _ _ rfl rfl; rfl
  f_mul := by rintro _ _ _ _ rfl rfl; rfl
  f_div := by rintro _ _ _ _ rfl rfl; rfl
  f_neg := by rintro _ _ rfl; rfl
  f_sqrt := by rintro _ _ rfl; rfl
  f_sin := by rintro _ _ rfl; rfl
  f_cos := by rintro _ _ rfl; rfl

theorem FftEvaluates.rel {f₀ : Fft Formula} {f : Fft T} (h : FftEvaluates f₀ f) (x w : List T) : FftRel (fun e y => y = Formula.eval x w e) f₀ f :=
  fftRel_map h.len.symm h.direction.symm h.scratchLen.symm (h.process x w)

end

/-- Linearity of formulas as a relation. -/
def Formula.linearParam (n : ℕ) : Param Formula Formula where
  d e e' := e' = e ∧ e.LinearIn n
  c e e' := e' = e ∧ e.Constant
  f e e' := e' = e
  d_zero := ⟨rfl, .zero⟩
  d_add := by rintro _ _ _ _ ⟨rfl, h⟩ ⟨rfl, h'⟩; exact ⟨rfl, .add h h'⟩
  d_sub := by rintro _ _ _ _ ⟨rfl, h⟩ ⟨rfl, h'⟩; exact ⟨rfl, .sub h h'⟩
  d_neg := by rintro _ _ ⟨rfl, h⟩; exact ⟨rfl, .neg h⟩
  d_mul := by rintro _ _ _ _ ⟨rfl, h⟩ ⟨rfl, h'⟩; exact ⟨rfl, .mul_const h h'⟩
  d_mul' := by rintro _ _ _ _ ⟨rfl, h⟩ ⟨rfl, h'⟩; exact ⟨rfl, .const_mul h h'⟩
  c_zero := ⟨rfl, trivial⟩
  c_one := ⟨rfl, trivial⟩
  c_neg := by rintro _ _ ⟨rfl, h⟩; exact ⟨rfl, h⟩
  c_mul := by rintro _ _ _ _ ⟨rfl, h⟩ ⟨rfl, h'⟩; exact ⟨rfl, h, h'⟩
  c_sqrt2 := ⟨rfl, trivial⟩
  c_fracSqrt2 := ⟨rfl, trivial⟩
  c_from := by rintro _ _ rfl; exact ⟨rfl, trivial⟩
  f_nat _ := rfl
  f_half := rfl
  f_pi := rfl
  f_add := by rintro _ _ _ _ rfl rfl; rfl
  f_sub := by rintro _ _ _ _ rfl rfl; rfl
  f_mul := by rintro _ _ _ _ rfl rfl; rfl
  f_div := by rintro _ _ _ _ rfl rfl; rfl
  f_neg := by rintro _ _ rfl; rfl
  f_sqrt := by rintro _ _ rfl; rfl
  f_sin := by rintro _ _ rfl; rfl
  f_cos := by rintro _ _ rfl; rfl

theorem lrel_and {α : Type} {Q : α → Prop} {l l' : List α} : LRel (fun a b => b = a ∧ Q a) l l' ↔ l' = l ∧ ∀ a ∈ l, Q a := by
  constructor
  · intro h
    induction h with
    | nil => simp
    | cons h _ ih =>
      obtain ⟨rfl, h⟩ := h
      obtain ⟨rfl, ih⟩ := ih
      exact ⟨rfl, by simpa using ⟨h, ih⟩⟩
  · rintro ⟨rfl, h⟩
    exact List.forall₂_same.2 fun a ha => ⟨rfl, h a ha⟩

theorem FftLinear.rel {f : Fft Formula} (h : FftLinear f) (n : ℕ) : FftRel (Formula.linearParam n).d f f := by
  have e : CxRel (Formula.linearParam n).d = fun z z' => z' = z ∧ Formula.LinearCx n z := by
    funext z z'
    obtain ⟨a, b⟩ := z
    obtain ⟨a', b'⟩ := z'
    simp only [CxRel, Formula.linearParam, Formula.LinearCx, Cx.mk.injEq, eq_iff_iff]
    tauto
  refine ⟨rfl, rfl, rfl, fun {b b' s s'} hb hs => ?_⟩
  rw [e] at hb hs ⊢
  obtain ⟨rfl, hb⟩ := lrel_and.1 hb
  obtain ⟨rfl, hs⟩ := lrel_and.1 hs
  cases hp : f.process b' s' with
  | error e => exact .error
  | ok r =>
    obtain ⟨h1, h2⟩ := h n b' s' r.1 r.2 hb hs hp
    exact .ok ⟨lrel_and.2 ⟨rfl, h1⟩, lrel_and.2 ⟨rfl, h2⟩⟩

/-- The formulas `input off`, …, `input (off + n - 1)`. -/
def Formula.inputs (off n : ℕ) : List Formula := (List.range n).map fun i => .input (off + i)

theorem Formula.inputs_eval {T F : Type} [F64 F] [DctNum T F] {pre l post w : List T} {x : List T} {off n : ℕ} (hx : x = pre ++ l ++ post) (ho : pre.length = off) (hl : l.length = n) :
    (Formula.inputs off n).map (Formula.eval x w) = l := by
  subst hx; subst ho; subst hl
  refine List.ext_getElem (by simp [Formula.inputs]) fun i h1 h2 => ?_
  simp only [Formula.inputs, List.map_map, List.getElem_map, List.getElem_range, Function.comp, Formula.eval, List.getD]
  rw [List.append_assoc, List.getElem?_append_right (by omega), show pre.length + i - pre.length = i by omega, List.getElem?_append_left h2, List.getElem?_eq_getElem h2]
  rfl

theorem Formula.inputs_linear {off n N : ℕ} (h : off + n ≤ N) : ∀ e ∈ Formula.inputs off n, e.LinearIn N := by
  intro e he
  simp only [Formula.inputs, List.mem_map, List.mem_range] at he
  obtain ⟨i, hi, rfl⟩ := he
  exact .input (by omega)

/-- The formulas of an instance over formulas. -/
theorem formulas_core {p₀ : Proc Formula} {n s : ℕ} (hS : Safe p₀ n s) :
    ∃ G : List Formula, G.length = n ∧ (ProcRel (Formula.linearParam n).d p₀ p₀ → ∀ e ∈ G, e.LinearIn n) ∧
      ∀ (T F : Type) [F64 F] [DctNum T F] (p : Proc T), (∀ x w : List T, ProcRel (fun e y => y = Formula.eval x w e) p₀ p) →
        EvaluatesZeroed p n s G ∧ (ScratchFree p₀ n s → Evaluates p n s G) := by
  obtain ⟨m', e', hl, -⟩ := hS ⟨Formula.inputs 0 n, List.replicate s 0⟩ ⟨by simp [Formula.inputs], by simp⟩
  refine ⟨m'.buf, hl, fun hlin => ?_, ?_⟩
  · have hr := hlin _ ⟨Formula.inputs 0 n, List.replicate s 0⟩
      ⟨lrel_and.2 ⟨rfl, Formula.inputs_linear (by omega)⟩, lrel_and.2 ⟨rfl, fun a ha => by rw [List.eq_of_mem_replicate ha]; exact .zero⟩⟩
    rw [e'] at hr
    cases hr with
    | ok hr => exact (lrel_and.1 hr.1).2
  · intro T F _ _ p hp
    have key : ∀ x w : List T, ∀ m, p (m.map (Formula.eval x w)) = (p₀ m).map (Mem.map (Formula.eval x w)) := fun x w => procRel_map (hp x w)
    have zero : ∀ buf : List T, buf.length = n → ∀ w, p ⟨buf, List.replicate s 0⟩ = .ok (m'.map (Formula.eval buf w)) := by
      intro buf hb w
      have hk := key buf w
      have := hk ⟨Formula.inputs 0 n, List.replicate s 0⟩
      rw [e'] at this
      rw [← show (⟨Formula.inputs 0 n, List.replicate s 0⟩ : Mem Formula).map (Formula.eval buf w) = ⟨buf, List.replicate s 0⟩ by
        simp only [Mem.map, List.map_replicate]
        rw [Formula.inputs_eval (off := 0) (pre := []) (post := []) (l := buf) (by simp) rfl hb]
        rfl]
      exact this
    have indep : ∀ buf : List T, buf.length = n → ∀ w, m'.buf.map (Formula.eval buf w) = m'.buf.map (Formula.eval buf []) := by
      intro buf hb w
      have := (zero buf hb w).symm.trans (zero buf hb [])
      injection this with this
      exact congrArg Mem.buf this
    refine ⟨fun buf hb => ?_, fun hleak m hm => ?_⟩
    · unfold processDefault
      rw [zero buf hb []]
      rfl
    · have hk := key m.buf m.scr
      have hv : ValidCall n s ⟨Formula.inputs 0 n, (List.range m.scr.length).map Formula.window⟩ := ⟨by simp [Formula.inputs], by simpa using hm.2⟩
      obtain ⟨out, s1, s2, r1, r2⟩ := hleak (Formula.inputs 0 n) _ _ hv ⟨by simp [Formula.inputs], le_of_eq (List.length_replicate (n := s) (a := (0 : Formula))).symm⟩
      rw [e'] at r2
      injection r2 with r2
      have := hk ⟨Formula.inputs 0 n, (List.range m.scr.length).map Formula.window⟩
      rw [r1] at this
      rw [show (⟨Formula.inputs 0 n, (List.range m.scr.length).map Formula.window⟩ : Mem Formula).map (Formula.eval m.buf m.scr) = m by
        obtain ⟨buf, scr⟩ := m
        simp only [Mem.map]
        rw [Formula.inputs_eval (off := 0) (pre := []) (post := []) (l := buf) (by simp) rfl hm.1]
        congr 1
        refine List.ext_getElem (by simp) fun i h1 h2 => ?_
        simp [Formula.eval, List.getElem?_eq_getElem h2]] at this
      refine ⟨s1.map (Formula.eval m.buf m.scr), ?_⟩
      rw [this]
      simp only [Outcome.map, Mem.map]
      rw [show out = m'.buf by rw [r2], indep m.buf hm.1]

/-- Each output of a planned instance is the value of one fixed formula of the inputs: the same formula for every number type (`f32`, `f64`,
…), every planner history, every input and every scratch contents.  The formulas combine inputs by additions, subtractions, negations and
multiplications with constants only.  The FFT of the instance, if it has one, is assumed to behave that way. -/
theorem C64_planned {symFft : ℕ → Fft Formula} (hs : PlanFftSane symFft) (k : Kind) (n : ℕ) :
    ∃ G : List Formula, G.length = n ∧ ((∀ m, k.fftLen n = some m → FftLinear (symFft m)) → ∀ e ∈ G, e.LinearIn n) ∧
      ∀ (T F : Type) [F64 F] [DctNum T F] (planFft : ℕ → Fft T) (calls : List (PlanCall T)) (p : Proc T) (s : ℕ),
        (∀ m, k.fftLen n = some m → FftEvaluates (symFft m) (planFft m)) → Planned planFft calls k p n s →
          EvaluatesZeroed p n s G ∧ (¬ k.leakyAt n → Evaluates p n s G) := by
  by_cases h0 : ∃ p₀ s₀, Planned symFft [] k p₀ n s₀
  · obtain ⟨p₀, s₀, h0⟩ := h0
    obtain ⟨G, hl, h1, h2⟩ := formulas_core (C26_planned hs h0)
    refine ⟨G, hl, fun hlin => h1 ((Formula.linearParam n).planned (fun m hm => (hlin m hm).rel n) h0 h0).2, ?_⟩
    intro T F _ _ planFft calls p s hf hp
    have key : ∀ x w : List T, s₀ = s ∧ ProcRel (fun e y => y = Formula.eval x w e) p₀ p := fun x w => (Formula.param x w).planned (fun m hm => (hf m hm).rel x w) h0 hp
    obtain ⟨rfl, -⟩ := key [] []
    obtain ⟨a, b⟩ := h2 T F p fun x w => (key x w).2
    exact ⟨a, fun hk => b (C30_planned_partial hs h0 hk)⟩
  · refine ⟨List.replicate n .zero, by simp, fun _ e he => by rw [List.eq_of_mem_replicate he]; exact .zero, ?_⟩
    intro T F _ _ planFft calls p s hf hp
    exact absurd ((Formula.param (T := T) [] []).symm.planned_other (fun m hm => ((hf m hm).rel [] []).symm) hp []) h0

/-- The formulas of an MDCT instance over formulas. -/
theorem mdct_formulas_core {o₀ : MdctObj Formula} {n : ℕ} (hS : SafeMdct o₀.mdct n o₀.scratchLen ∧ SafeImdct o₀.imdct n o₀.scratchLen)
    (hI : ScratchFreeMdct o₀.mdct n o₀.scratchLen ∧ ScratchFreeImdct o₀.imdct n o₀.scratchLen) :
    ∃ G GA GB : List Formula, G.length = n ∧ GA.length = n ∧ GB.length = n ∧
      ((∀ N, MdctObjRel (Formula.linearParam N).d o₀ o₀) → (∀ e ∈ G, e.LinearIn (2 * n)) ∧ (∀ e ∈ GA, e.LinearIn (3 * n)) ∧ ∀ e ∈ GB, e.LinearIn (3 * n)) ∧
      ∀ (T F : Type) [F64 F] [DctNum T F] (W : List T) (o : MdctObj T), (∀ x : List T, MdctObjRel (fun e y => y = Formula.eval x W e) o₀ o) → EvaluatesMdct o n W G GA GB := by
  obtain ⟨S1, S2⟩ := hS
  obtain ⟨I1, I2⟩ := hI
  set s₀ := o₀.scratchLen with hs₀
  have li : ∀ off, (Formula.inputs off n).length = n := fun off => by simp [Formula.inputs]
  obtain ⟨m1, e1, l1, -⟩ := S1 (Formula.inputs 0 n) (Formula.inputs n n) ⟨List.replicate n 0, List.replicate s₀ 0⟩ ⟨li _, li _, by simp, by simp⟩
  obtain ⟨m2, e2, l2, l3, -⟩ := S2 (Formula.inputs 0 n) ⟨Formula.inputs n n, Formula.inputs (n + n) n, List.replicate s₀ 0⟩ ⟨li _, li _, li _, by simp⟩
  refine ⟨m1.buf, m2.outA, m2.outB, l1, l2, l3, fun hr => ?_, ?_⟩
  · have zl : ∀ N c, ∀ e ∈ List.replicate c (0 : Formula), e.LinearIn N := fun N c e h => by rw [List.eq_of_mem_replicate h]; exact .zero
    have r1 := (hr (2 * n)).mdct (lrel_and.2 ⟨rfl, Formula.inputs_linear (off := 0) (n := n) (by omega)⟩) (lrel_and.2 ⟨rfl, Formula.inputs_linear (off := n) (n := n) (by omega)⟩)
      (m := ⟨List.replicate n 0, List.replicate s₀ 0⟩) ⟨lrel_and.2 ⟨rfl, zl _ _⟩, lrel_and.2 ⟨rfl, zl _ _⟩⟩
    have r2 := (hr (3 * n)).imdct (lrel_and.2 ⟨rfl, Formula.inputs_linear (off := 0) (n := n) (by omega)⟩) (m := ⟨Formula.inputs n n, Formula.inputs (n + n) n, List.replicate s₀ 0⟩)
      ⟨lrel_and.2 ⟨rfl, Formula.inputs_linear (by omega)⟩, lrel_and.2 ⟨rfl, Formula.inputs_linear (by omega)⟩, lrel_and.2 ⟨rfl, zl _ _⟩⟩
    rw [e1] at r1
    rw [e2] at r2
    cases r1 with
    | ok r1 => cases r2 with
      | ok r2 => exact ⟨(lrel_and.1 r1.1).2, (lrel_and.1 r2.1).2, (lrel_and.1 r2.2.1).2⟩
  · intro T F _ _ W o rel
    have hsc : s₀ = o.scratchLen := (rel []).scratchLen
    have zr : ∀ (x : List T) c, (List.replicate c (0 : Formula)).map (Formula.eval x W) = List.replicate c 0 := fun x c => by rw [List.map_replicate]; rfl
    constructor
    · intro a b m ⟨v1, v2, v3, v4⟩
      -- with zeroed memory, for every `x` that starts with `a ++ b`
      have zero : ∀ rest : List T, o.mdct a b ⟨List.replicate n 0, List.replicate s₀ 0⟩ = .ok (m1.map (Formula.eval (a ++ b ++ rest) W)) := by
        intro rest
        have := (mdctRel_map (rel (a ++ b ++ rest))).1 (Formula.inputs 0 n) (Formula.inputs n n) ⟨List.replicate n 0, List.replicate s₀ 0⟩
        rw [e1, Formula.inputs_eval (off := 0) (pre := []) (l := a) (post := b ++ rest) (by simp) rfl v1,
          Formula.inputs_eval (off := n) (pre := a) (l := b) (post := rest) rfl v1 v2] at this
        simp only [Mem.map, zr] at this
        exact this
      have indep : ∀ rest : List T, m1.buf.map (Formula.eval (a ++ b ++ rest) W) = m1.buf.map (Formula.eval (a ++ b) W) := by
        intro rest
        have h2 := zero []
        rw [List.append_nil] at h2
        have := (zero rest).symm.trans h2
        injection this with this
        exact congrArg Mem.buf this
      have key := (mdctRel_map (rel (a ++ b ++ (m.buf ++ m.scr)))).1 (Formula.inputs 0 n) (Formula.inputs n n) ⟨Formula.inputs (n + n) n, Formula.inputs (n + n + n) m.scr.length⟩
      obtain ⟨out, s1, s2, q1, q2⟩ := I1 (Formula.inputs 0 n) (Formula.inputs n n) (Formula.inputs (n + n) n) (List.replicate n 0) (Formula.inputs (n + n + n) m.scr.length)
        (List.replicate s₀ 0) ⟨li _, li _, li _, by simp [Formula.inputs, hsc, v4]⟩ ⟨li _, li _, by simp, by simp⟩
      rw [e1] at q2
      injection q2 with q2
      rw [q1, Formula.inputs_eval (off := 0) (pre := []) (l := a) (post := b ++ (m.buf ++ m.scr)) (by simp) rfl v1,
        Formula.inputs_eval (off := n) (pre := a) (l := b) (post := m.buf ++ m.scr) rfl v1 v2] at key
      simp only [Mem.map] at key
      rw [Formula.inputs_eval (off := n + n) (pre := a ++ b) (l := m.buf) (post := m.scr) (by simp) (by simp [v1, v2]) v3,
        Formula.inputs_eval (off := n + n + n) (pre := a ++ b ++ m.buf) (l := m.scr) (post := []) (by simp) (by simp only [List.length_append]; omega) rfl] at key
      refine ⟨s1.map (Formula.eval (a ++ b ++ (m.buf ++ m.scr)) W), key.trans ?_⟩
      simp only [Outcome.map, Mem.map]
      rw [show out = m1.buf by rw [q2], indep]
    · intro x m ⟨v1, v2, v3, v4⟩
      have zero : ∀ rest : List T, o.imdct x ⟨m.outA, m.outB, List.replicate s₀ 0⟩ = .ok (m2.map (Formula.eval (x ++ m.outA ++ m.outB ++ rest) W)) := by
        intro rest
        have := (mdctRel_map (rel (x ++ m.outA ++ m.outB ++ rest))).2 (Formula.inputs 0 n) ⟨Formula.inputs n n, Formula.inputs (n + n) n, List.replicate s₀ 0⟩
        rw [e2, Formula.inputs_eval (off := 0) (pre := []) (l := x) (post := m.outA ++ m.outB ++ rest) (by simp) rfl v1] at this
        simp only [IMem.map, zr] at this
        rw [Formula.inputs_eval (off := n) (pre := x) (l := m.outA) (post := m.outB ++ rest) (by simp) v1 v2,
          Formula.inputs_eval (off := n + n) (pre := x ++ m.outA) (l := m.outB) (post := rest) (by simp) (by simp [v1, v2]) v3] at this
        exact this
      have indep : ∀ rest : List T, m2.outA.map (Formula.eval (x ++ m.outA ++ m.outB ++ rest) W) = m2.outA.map (Formula.eval (x ++ m.outA ++ m.outB) W) ∧
          m2.outB.map (Formula.eval (x ++ m.outA ++ m.outB ++ rest) W) = m2.outB.map (Formula.eval (x ++ m.outA ++ m.outB) W) := by
        intro rest
        have h2 := zero []
        rw [List.append_nil] at h2
        have := (zero rest).symm.trans h2
        injection this with this
        exact ⟨congrArg IMem.outA this, congrArg IMem.outB this⟩
      have key := (mdctRel_map (rel (x ++ m.outA ++ m.outB ++ m.scr))).2 (Formula.inputs 0 n) ⟨Formula.inputs n n, Formula.inputs (n + n) n, Formula.inputs (n + n + n) m.scr.length⟩
      obtain ⟨oa, ob, s1, s2, q1, q2⟩ := I2 (Formula.inputs 0 n) (Formula.inputs n n) (Formula.inputs (n + n) n) (Formula.inputs (n + n + n) m.scr.length)
        (List.replicate s₀ 0) ⟨li _, li _, li _, by simp [Formula.inputs, hsc, v4]⟩ ⟨li _, li _, li _, by simp⟩
      rw [e2] at q2
      injection q2 with q2
      rw [q1, Formula.inputs_eval (off := 0) (pre := []) (l := x) (post := m.outA ++ m.outB ++ m.scr) (by simp) rfl v1] at key
      simp only [IMem.map] at key
      rw [Formula.inputs_eval (off := n) (pre := x) (l := m.outA) (post := m.outB ++ m.scr) (by simp) v1 v2,
        Formula.inputs_eval (off := n + n) (pre := x ++ m.outA) (l := m.outB) (post := m.scr) (by simp) (by simp [v1, v2]) v3,
        Formula.inputs_eval (off := n + n + n) (pre := x ++ m.outA ++ m.outB) (l := m.scr) (post := []) (by simp) (by simp only [List.length_append]; omega) rfl] at key
      refine ⟨s1.map (Formula.eval (x ++ m.outA ++ m.outB ++ m.scr) W), key.trans ?_⟩
      simp only [Outcome.map, IMem.map]
      rw [show oa = m2.outA by rw [q2], show ob = m2.outB by rw [q2], (indep m.scr).1, (indep m.scr).2]

/-- The formulas of a planned MDCT of length `n` (for an even `n ≥ 2`) and of its IMDCT: the inputs of the former are `a ++ b`, those of
the latter the input `x` and the previous contents of the two outputs. -/
theorem C64_mdct {symFft : ℕ → Fft Formula} (hs : PlanFftSane symFft) {n : ℕ} (hn : 1 ≤ n) :
    ∃ G GA GB : List Formula, G.length = n ∧ GA.length = n ∧ GB.length = n ∧
      ((∀ m, Kind.dct4.fftLen n = some m → FftLinear (symFft m)) →
        (∀ e ∈ G, e.LinearIn (2 * n)) ∧ (∀ e ∈ GA, e.LinearIn (3 * n)) ∧ ∀ e ∈ GB, e.LinearIn (3 * n)) ∧
      ∀ (T F : Type) [F64 F] [DctNum T F] (planFft : ℕ → Fft T) (calls : List (PlanCall T)) (w : ℕ → List T) (o : MdctObj T),
        PlanFftShape planFft → (∀ m, Kind.dct4.fftLen n = some m → FftEvaluates (symFft m) (planFft m)) → PlannedMdct planFft calls n w o →
          (∀ a b m, ValidMdct n o.scratchLen a b m →
            ∃ scr', o.mdct a b m = .ok ⟨G.map (Formula.eval (a ++ b) (effectiveWindow n calls w (2 * n))), scr'⟩) ∧
          ∀ x m, ValidImdct n o.scratchLen x m →
            ∃ scr', o.imdct x m = .ok ⟨GA.map (Formula.eval (x ++ m.outA ++ m.outB) (effectiveWindow n calls w (2 * n))),
              GB.map (Formula.eval (x ++ m.outA ++ m.outB) (effectiveWindow n calls w (2 * n))), scr'⟩ := by
  by_cases he : n % 2 = 0
  · let w₀ : ℕ → List Formula := fun m => (List.range m).map Formula.window
    have hw₀ : (w₀ (2 * n)).length = 2 * n := by simp [w₀]
    obtain ⟨o₀, h0⟩ := plannedMdct_exists hs.shape [] he hw₀
    have c0 : canonMdct symFft n w₀ = .ok o₀ := by
      have := h0.canon hs.shape
      rcases effectiveWindow_cases n [] w₀ with ⟨-, h2⟩ | ⟨pre, v, post, h, -⟩
      · rwa [h2] at this
      · simp at h
    obtain ⟨G, GA, GB, l1, l2, l3, h1, h2⟩ := mdct_formulas_core (C26_mdct_planned hs h0 hn) (C30_mdct_planned hs h0 hn)
    refine ⟨G, GA, GB, l1, l2, l3, fun hlin => h1 ?_, ?_⟩
    · intro N
      have := (Formula.linearParam N).canonMdct_rel (n := n) (w := w₀) (w' := w₀) (fun m hm => (hlin m hm).rel N) (canon4_len hs.shape)
        (lrel_and.2 ⟨rfl, fun e h => by
          simp only [w₀, List.mem_map] at h
          obtain ⟨i, -, rfl⟩ := h
          trivial⟩)
      rw [c0] at this
      cases this with
      | ok h => exact h
    · intro T F _ _ planFft calls w o hsh hf hp
      set W := effectiveWindow n calls w (2 * n) with hW
      have hc := hp.canon hsh
      have hWl : W.length = 2 * n := by
        by_contra h
        rw [canonMdct_err hsh (fun h' => h h'.2)] at hc
        cases hc
      have rel : ∀ x : List T, MdctObjRel (fun e y => y = Formula.eval x W e) o₀ o := by
        intro x
        have := (Formula.param x W).canonMdct_rel (n := n) (w := w₀) (w' := effectiveWindow n calls w) (fun m hm => (hf m hm).rel x W) (canon4_len hs.shape)
          (lrel_map.2 (by
            rw [mul_comm n 2, ← hW]
            refine List.ext_getElem (by simp [w₀, hWl]) fun i h1 h2 => ?_
            simp [w₀, Formula.eval, List.getElem?_eq_getElem h1]))
        rw [c0, hc] at this
        cases this with
        | ok h => exact h
      exact h2 T F W o rel
  · have zl : ∀ N, ∀ e ∈ List.replicate n Formula.zero, e.LinearIn N := fun N e h => by rw [List.eq_of_mem_replicate h]; exact .zero
    refine ⟨List.replicate n .zero, List.replicate n .zero, List.replicate n .zero, by simp, by simp, by simp, fun _ => ⟨zl _, zl _, zl _⟩, ?_⟩
    intro T F _ _ planFft calls w o hsh hf hp
    have hc := hp.canon hsh
    rw [canonMdct_err hsh (fun h' => he h'.1)] at hc
    cases hc

/-! ### C65: which FFT a planned instance uses -/

section
variable {T F : Type} [F64 F] [DctNum T F] {planFft planFft' : ℕ → Fft T} {calls calls' : List (PlanCall T)} {k : Kind} {p p' : Proc T} {n s s' : ℕ}

theorem exact_id : ExactSymmetry (fun x : T => x) := ⟨rfl, fun _ _ => rfl, fun _ _ => rfl, fun _ => rfl, fun _ _ => rfl, fun _ _ => rfl⟩

theorem fftRel_id (f : Fft T) : FftRel (fun x y : T => y = x) f f := by
  have e : ∀ l : List (Cx T), l.map (Cx.map fun x => x) = l := fun l => (List.map_congr_left (g := id) fun z _ => rfl).trans (List.map_id l)
  have := fftRel_map (g := fun x : T => x) (f := f) (f' := f) rfl rfl rfl (fun buf scr => by
    simp only [e]
    cases f.process buf scr <;> rfl)
  exact this

/-- A planned instance depends on the FFT planner only through the FFT of length `k.fftLen n`: with two FFT planners that agree there, the
instances require the same scratch and do the same on every buffer and scratch, valid or not. -/
theorem C65_planned (hf : ∀ m, k.fftLen n = some m → planFft m = planFft' m) (h : Planned planFft calls k p n s) (h' : Planned planFft' calls' k p' n s') :
    s = s' ∧ p = p' := by
  obtain ⟨h1, h2⟩ := (exact_id (T := T)).param.planned (fun m hm => by rw [hf m hm]; exact fftRel_id _) h h'
  refine ⟨h1, funext fun m => ?_⟩
  have e : ∀ m : Mem T, Mem.map (fun x => x) m = m := fun m => by simp [Mem.map]
  have := procRel_map h2 m
  rw [e] at this
  rw [this]
  cases p m with
  | ok m => simp only [Outcome.map, e]
  | panic er m => cases m <;> simp only [Outcome.map, Option.map, e]

/-- They can plan the same instances. -/
theorem C65_exists (hf : ∀ m, k.fftLen n = some m → planFft m = planFft' m) (h : Planned planFft calls k p n s) (calls' : List (PlanCall T)) :
    Planned planFft' calls' k p n s := by
  obtain ⟨p', s', h'⟩ := (exact_id (T := T)).param.planned_other (fun m hm => by rw [hf m hm]; exact fftRel_id _) h calls'
  obtain ⟨rfl, rfl⟩ := C65_planned hf h h'
  exact h'

/-- No FFT is used for DCT-II, DCT-III, DST-II and DST-III of a power of two from 2 on, for DCT-IV and DST-IV of a power of two, for lengths
below the crossover points, and for the types 5 to 8 of the DCT and 5 and 8 of the DST. -/
theorem C65_none (planFft planFft' : ℕ → Fft T) (h : Planned planFft calls k p n s)
    (hk : (k = .dct2 ∨ k = .dct3 ∨ k = .dst2 ∨ k = .dst3) ∧ (∃ i, n = 2 ^ (i + 1)) ∨ (k = .dct4 ∨ k = .dst4) ∧ (∃ i, n = 2 ^ i) ∨
      k = .dct1 ∧ n < 10 ∨ k = .dst1 ∧ n < 25 ∨ (k = .dst6 ∨ k = .dst7) ∧ n < 45 ∨
      k = .dct5 ∨ k = .dct6 ∨ k = .dct7 ∨ k = .dct8 ∨ k = .dst5 ∨ k = .dst8) :
    Planned planFft' calls' k p n s := by
  have h23 : ∀ i, fftLen23 (2 ^ (i + 1)) = none := by
    intro i
    unfold fftLen23
    refine if_pos ?_
    rcases i with _ | i
    · left; simp [straightLine]
    · right
      refine ⟨by rw [pow_succ, pow_succ]; have := Nat.one_le_two_pow (n := i); omega, by rw [Nat.log_pow (by norm_num)]⟩
  have h4 : ∀ i, (if 2 ^ i % 2 = 0 then if 2 ^ i < 6 then none else fftLen23 (2 ^ i / 2) else if 2 ^ i < 7 then none else some (2 ^ i)) = none := by
    intro i
    rcases i with _ | _ | i
    · rfl
    · rfl
    · rw [if_pos (by rw [pow_succ]; omega), show 2 ^ (i + 1 + 1) / 2 = 2 ^ (i + 1) by rw [pow_succ 2 (i + 1)]; omega, h23]
      split <;> rfl
  refine C65_exists (fun m hm => ?_) h calls'
  exfalso
  have hnone : k.fftLen n = none := by
    rcases hk with ⟨rfl | rfl | rfl | rfl, i, rfl⟩ | ⟨rfl | rfl, i, rfl⟩ | ⟨rfl, hn⟩ | ⟨rfl, hn⟩ | ⟨rfl | rfl, hn⟩ | rfl | rfl | rfl | rfl | rfl | rfl <;>
      simp only [Kind.fftLen, h23, h4, if_pos, *]
  rw [hnone] at hm
  cases hm

end

/-! ### The defining sum as an example -/

theorem dftSeq_rel {T T' F F' : Type} [F64 F] [DctNum T F] [F64 F'] [DctNum T' F'] (P : Param T T') {n : ℕ} {c : ℕ → Cx T} {c' : ℕ → Cx T'} (hc : ∀ j, CxRel P.d (c j) (c' j)) (k j : ℕ) :
    CxRel P.d (dftSeq n c k j) (dftSeq n c' k j) := by
  induction j with
  | zero => exact ⟨P.d_zero, P.d_zero⟩
  | succ j ih =>
    obtain ⟨t1, t2⟩ := P.c_twiddle (j * k % n) n
    exact ⟨P.d_add ih.1 (P.d_sub (P.d_mul (hc j).1 t1) (P.d_mul (hc j).2 t2)), P.d_add ih.2 (P.d_add (P.d_mul (hc j).1 t2) (P.d_mul (hc j).2 t1))⟩

theorem getD_lt {α : Type} {l : List α} {i : ℕ} {a : α} (h : i < l.length) : l.getD i a = l[i] := by simp [List.getElem?_eq_getElem h]
theorem getD_ge {α : Type} {l : List α} {i : ℕ} {a : α} (h : l.length ≤ i) : l.getD i a = a := by simp [List.getElem?_eq_none h]

theorem sumFft_rel {T T' F F' : Type} [F64 F] [DctNum T F] [F64 F'] [DctNum T' F'] (P : Param T T') (n : ℕ) : FftRel P.d (sumFft n : Fft T) (sumFft n : Fft T') := by
  refine ⟨rfl, rfl, rfl, fun {b b' s s'} hb hs => ?_⟩
  have hl := hb.length_eq
  simp only [sumFft, ← hl]
  split
  · refine .ok ⟨?_, hs⟩
    show List.Forall₂ _ (List.map _ _) (List.map _ _)
    rw [List.forall₂_map_left_iff, List.forall₂_map_right_iff]
    refine List.forall₂_same.2 fun k _ => dftSeq_rel P (fun j => ?_) k n
    by_cases hj : j < b.length
    · rw [getD_lt hj, getD_lt (hl ▸ hj)]
      exact hb.get hj (hl ▸ hj)
    · rw [getD_ge (by omega), getD_ge (by omega)]
      exact ⟨P.d_zero, P.d_zero⟩
  · exact .error

theorem sumFft_sane {T F : Type} [F64 F] [DctNum T F] : PlanFftSane (fun n => (sumFft n : Fft T)) := fun n =>
  ⟨rfl, rfl, fun buf => (List.range n).map fun k => dftSeq n (fun j => buf.getD j ⟨0, 0⟩) k n, by simp [sumFft], fun buf scr hb _ => by
    refine ⟨scr, ?_, rfl⟩
    change buf.length = n at hb
    simp [sumFft, hb]⟩

theorem sumFft_commutes {T F : Type} [F64 F] [DctNum T F] {h : T → T} (hh : ExactSymmetry h) (n : ℕ) : FftCommutes h (sumFft n : Fft T) :=
  fftRel_map' (sumFft_rel hh.param n)

theorem sumFft_evaluates {T F : Type} [F64 F] [DctNum T F] (n : ℕ) : FftEvaluates (sumFft n : Fft Formula) (sumFft n : Fft T) :=
  ⟨rfl, rfl, rfl, fun x w => fftRel_map' (sumFft_rel (Formula.param x w) n)⟩

theorem sumFft_linear (n : ℕ) : FftLinear (sumFft n : Fft Formula) := by
  intro N buf scr buf' scr' hb hs hp
  have conv : ∀ {l : List (Cx Formula)}, (∀ z ∈ l, Formula.LinearCx N z) → LRel (CxRel (Formula.linearParam N).d) l l :=
    fun h => List.forall₂_same.2 fun z hz => ⟨⟨rfl, (h z hz).1⟩, ⟨rfl, (h z hz).2⟩⟩
  have back : ∀ {l : List (Cx Formula)}, LRel (CxRel (Formula.linearParam N).d) l l → ∀ z ∈ l, Formula.LinearCx N z :=
    fun h z hz => let r := List.forall₂_same.1 h z hz; ⟨r.1.2, r.2.2⟩
  have := (sumFft_rel (Formula.linearParam N) n).process (conv hb) (conv hs)
  rw [hp] at this
  cases this with
  | ok h => exact ⟨back h.1, back h.2⟩

/-- DCT-I of length 100, planned after other calls, on inputs in single precision: negating the inputs negates the outputs, and scaling
the inputs by `2⁻³` scales the outputs by `2⁻³`, exactly and not just up to rounding. -/
example : ∃ p s, Planned (fun n => (sumFft n : Fft (Flx 24))) [.dct2 64, .dst1 99] .dct1 p 100 s ∧
    (∀ buf, processDefault s p (buf.map fun x => -x) = (processDefault s p buf).map (List.map fun x => -x)) ∧
    ∀ buf, processDefault s p (buf.map (Flx.scale (-3))) = (processDefault s p buf).map (List.map (Flx.scale (-3))) := by
  obtain ⟨p, s, hp⟩ := planned_exists (T := Flx 24) sumFft_sane.shape [.dct2 64, .dst1 99] .dct1 (n := 100) (by norm_num)
  exact ⟨p, s, hp, C63_default (C63_neg_flx 24) (fun m _ => sumFft_commutes (C63_neg_flx 24) m) hp,
    C63_default (C63_scale_flx 24 (-3)) (fun m _ => sumFft_commutes (C63_scale_flx 24 (-3)) m) hp⟩

/-- The same 100 linear formulas give the outputs in single precision, in double precision and over the reals. -/
example : ∃ G : List Formula, G.length = 100 ∧ (∀ e ∈ G, e.LinearIn 100) ∧
    (∃ p s, Planned (fun n => (sumFft n : Fft (Flx 24))) [] .dct1 p 100 s ∧ EvaluatesZeroed p 100 s G) ∧
    (∃ p s, Planned (fun n => (sumFft n : Fft (Flx 53))) [.dct2 64] .dct1 p 100 s ∧ EvaluatesZeroed p 100 s G) ∧
    ∃ p s, Planned (fun n => (sumFft n : Fft ℝ)) [.dst1 99] .dct1 p 100 s ∧ EvaluatesZeroed p 100 s G := by
  obtain ⟨G, h1, h2, h3⟩ := C64_planned (sumFft_sane (T := Formula)) .dct1 100
  refine ⟨G, h1, h2 fun m _ => sumFft_linear m, ?_, ?_, ?_⟩
  · obtain ⟨p, s, hp⟩ := planned_exists (T := Flx 24) sumFft_sane.shape [] .dct1 (n := 100) (by norm_num)
    exact ⟨p, s, hp, (h3 _ _ _ _ _ _ (fun m _ => sumFft_evaluates m) hp).1⟩
  · obtain ⟨p, s, hp⟩ := planned_exists (T := Flx 53) sumFft_sane.shape [.dct2 64] .dct1 (n := 100) (by norm_num)
    exact ⟨p, s, hp, (h3 _ _ _ _ _ _ (fun m _ => sumFft_evaluates m) hp).1⟩
  · obtain ⟨p, s, hp⟩ := planned_exists (T := ℝ) sumFft_sane.shape [.dst1 99] .dct1 (n := 100) (by norm_num)
    exact ⟨p, s, hp, (h3 _ _ _ _ _ _ (fun m _ => sumFft_evaluates m) hp).1⟩

/-- An MDCT of length 64. -/
example : ∃ G GA GB : List Formula, (∀ e ∈ G, e.LinearIn 128) ∧ (∀ e ∈ GA, e.LinearIn 192) ∧ (∀ e ∈ GB, e.LinearIn 192) ∧
    ∃ o : MdctObj (Flx 24), PlannedMdct (fun n => (sumFft n : Fft (Flx 24))) [.dct4 64] 64 WindowFn.vorbis o ∧
      ∀ a b m, ValidMdct 64 o.scratchLen a b m → ∃ w scr', o.mdct a b m = .ok ⟨G.map (Formula.eval (a ++ b) w), scr'⟩ := by
  obtain ⟨G, GA, GB, -, -, -, h2, h3⟩ := C64_mdct (sumFft_sane (T := Formula)) (n := 64) (by norm_num)
  obtain ⟨l1, l2, l3⟩ := h2 fun m _ => sumFft_linear m
  obtain ⟨o, ho⟩ := plannedMdct_exists (T := Flx 24) sumFft_sane.shape [.dct4 64] (n := 64) rfl (w := WindowFn.vorbis) (by simp [WindowFn.vorbis])
  refine ⟨G, GA, GB, l1, l2, l3, o, ho, fun a b m hv => ?_⟩
  obtain ⟨scr', e⟩ := (h3 _ _ _ _ _ _ sumFft_sane.shape (fun m _ => sumFft_evaluates m) ho).1 a b m hv
  exact ⟨_, scr', e⟩

/-- DCT-II of length 1024 and DCT-I of length 100: changing the FFT planner at every length but 198 changes nothing. -/
example (f : ℕ → Fft ℝ) (hf : f 198 = sumFft 198) : (∃ p s, Planned f [] .dct2 p 1024 s ∧ Planned (fun n => (sumFft n : Fft ℝ)) [.dct1 30] .dct2 p 1024 s) ∧
    ∃ p s, Planned f [] .dct1 p 100 s ∧ Planned (fun n => (sumFft n : Fft ℝ)) [.dct1 30] .dct1 p 100 s := by
  obtain ⟨p, s, hp⟩ := planned_exists (T := ℝ) sumFft_sane.shape [.dct1 30] .dct2 (n := 1024) (by norm_num)
  obtain ⟨p', s', hp'⟩ := planned_exists (T := ℝ) sumFft_sane.shape [.dct1 30] .dct1 (n := 100) (by norm_num)
  exact ⟨⟨p, s, C65_none _ _ hp (.inl ⟨.inl rfl, 9, rfl⟩), hp⟩, p', s', C65_exists (fun m hm => by
    simp only [Kind.fftLen] at hm
    norm_num at hm
    subst hm
    exact hf.symm) hp' [], hp'⟩

end RustDct
