import Verif.FormulaMade
import Verif.Param.Other
import Verif.Props.Overflow
import Verif.Props.RangeMade
/-!
# C74: formulas, infinite samples and overflow in instances built by hand

C64, C69 and C70 are about what the planner returns.  Here the same is shown of every instance that the public constructors make, in any combination.
-/

set_option linter.all false

namespace RustDct
open Finset Real

section
variable {α β : Type} {r : α → β → Prop}

theorem ORel.flip {M N : Type} {r : M → N → Prop} {a : Outcome M} {b : Outcome N} (h : ORel r a b) : ORel (fun y x => r x y) b a := by
  cases h with
  | ok h => exact .ok h
  | panic => exact .panic
  | panicMem h => exact .panicMem h

theorem ORel.imp {M N : Type} {r r' : M → N → Prop} (h : ∀ a b, r a b → r' a b) {a : Outcome M} {b : Outcome N} (ho : ORel r a b) : ORel r' a b := by
  cases ho with
  | ok e => exact .ok (h _ _ e)
  | panic => exact .panic
  | panicMem e => exact .panicMem (h _ _ e)

theorem MemRel.flip {m : Mem α} {m' : Mem β} (h : MemRel r m m') : MemRel (fun b a => r a b) m' m := ⟨h.1.flip, h.2.flip⟩
theorem IMemRel.flip {m : IMem α} {m' : IMem β} (h : IMemRel r m m') : IMemRel (fun b a => r a b) m' m := ⟨h.1.flip, h.2.1.flip, h.2.2.flip⟩
theorem ProcRel.flip {p : Proc α} {p' : Proc β} (h : ProcRel r p p') : ProcRel (fun b a => r a b) p' p := fun m m' hm => (h m' m hm.flip).flip.imp fun _ _ => MemRel.flip
theorem MdctObjRel.flip {o : MdctObj α} {o' : MdctObj β} (h : MdctObjRel r o o') : MdctObjRel (fun b a => r a b) o' o :=
  ⟨h.len.symm, h.scratchLen.symm, fun ha hb hm => (h.mdct ha.flip hb.flip hm.flip).flip.imp fun _ _ => MemRel.flip, fun hx hm => (h.imdct hx.flip hm.flip).flip.imp fun _ _ => IMemRel.flip⟩

end

section
variable {T F : Type} [F64 F] [DctNum T F] {k : Kind} {p : Proc T} {n s : ℕ} {ok : Fft T → Prop} {ok₀ : Fft Formula → Prop} {win : List T} {o : MdctObj T}

/-- The instance over formulas of which an instance is the value. -/
theorem Method.symbolic (hf : ∀ f, ok f → ∃ f₀, ok₀ f₀ ∧ FftEvaluates f₀ f) (h : Method ok k p n s) :
    ∃ p₀, Method ok₀ k p₀ n s ∧ ∀ x w : List T, ProcRel (fun e y => y = Formula.eval x w e) p₀ p := by
  obtain ⟨p₀, h1, h2⟩ := Param.method_other (ι := List T × List T) (fun i => (Formula.param i.1 i.2).symm) (okFft' := ok₀) (fun f hf' => by
    obtain ⟨f₀, h1, h2⟩ := hf f hf'
    exact ⟨f₀, h1, fun i => (h2.rel i.1 i.2).symm⟩) h
  exact ⟨p₀, h1, fun x w => (h2 (x, w)).flip⟩

/-- The values of an instance over formulas. -/
theorem Method.value {p₀ : Proc Formula} (hf : ∀ f₀, ok₀ f₀ → ∃ f, ok f ∧ FftEvaluates f₀ f) (h : Method ok₀ k p₀ n s) :
    ∃ p, Method ok k p n s ∧ ∀ x w : List T, ProcRel (fun e y => y = Formula.eval x w e) p₀ p := by
  obtain ⟨p, h1, h2⟩ := Param.method_other (ι := List T × List T) (fun i => Formula.param i.1 i.2) (okFft' := ok) (fun f hf' => by
    obtain ⟨f, h1, h2⟩ := hf f hf'
    exact ⟨f, h1, fun i => h2.rel i.1 i.2⟩) h
  exact ⟨p, h1, fun x w => h2 (x, w)⟩

/-- The entries of the window as formulas. -/
def Formula.windows (n : ℕ) : List Formula := (List.range n).map Formula.window

theorem Formula.windows_eval {x w : List T} (hw : w.length = n) : w = (Formula.windows n).map (Formula.eval x w) := by
  refine List.ext_getElem (by simp [Formula.windows, hw]) fun i h1 h2 => ?_
  simp [Formula.windows, Formula.eval, List.getElem?_eq_getElem h1]

theorem MadeMdct.shape (h : MadeMdct ok win o) : o.len % 2 = 0 ∧ win.length = 2 * o.len := by
  cases h with
  | @naive n w x h =>
    obtain ⟨he, hlen, rfl⟩ := MdctNaive.new_tab h
    have hl : (MdctNaive.toObj (⟨vec (4 * n) (MdctNaive.tab n), w (2 * n)⟩ : MdctNaive T)).len = n := by
      change (vec (4 * n) (MdctNaive.tab n : ℕ → T)).length / 4 = n
      rw [length_vec]; omega
    rw [hl, Nat.mul_comm n 2]
    exact ⟨he, hlen⟩
  | @viaDct4 inner w x hi h =>
    obtain ⟨he, hlen, rfl⟩ := MdctViaDct4.new_shape h
    exact ⟨he, by rw [hlen, Nat.mul_comm]; rfl⟩

theorem MadeMdct.symbolic (hf : ∀ f, ok f → ∃ f₀, ok₀ f₀ ∧ FftEvaluates f₀ f) (h : MadeMdct ok win o) :
    ∃ o₀, MadeMdct ok₀ (Formula.windows (2 * o.len)) o₀ ∧ ∀ x : List T, MdctObjRel (fun e y => y = Formula.eval x win e) o₀ o := by
  obtain ⟨o₀, h1, h2⟩ := Param.madeMdct_other (ι := List T) (fun x => (Formula.param x win).symm) (okFft' := ok₀) (fun f hf' => by
    obtain ⟨f₀, h1, h2⟩ := hf f hf'
    exact ⟨f₀, h1, fun x => (h2.rel x win).symm⟩) (w' := Formula.windows (2 * o.len)) (fun x => (lrel_map.2 (Formula.windows_eval h.shape.2)).flip) h
  exact ⟨o₀, h1, fun x => (h2 x).flip⟩

theorem MadeMdct.value {o₀ : MdctObj Formula} (hf : ∀ f₀, ok₀ f₀ → ∃ f, ok f ∧ FftEvaluates f₀ f) (h : MadeMdct ok₀ (Formula.windows (2 * n)) o₀) (hw : win.length = 2 * n) :
    ∃ o, MadeMdct ok win o ∧ ∀ x : List T, MdctObjRel (fun e y => y = Formula.eval x win e) o₀ o :=
  Param.madeMdct_other (ι := List T) (fun x => Formula.param x win) (okFft' := ok) (fun f hf' => by
    obtain ⟨f, h1, h2⟩ := hf f hf'
    exact ⟨f, h1, fun x => h2.rel x win⟩) (fun x => lrel_map.2 (Formula.windows_eval hw)) h

/-! ### Formulas -/

/-- Each output is the value of one formula of the inputs, the same for all inputs and all scratch contents. -/
theorem C74_formulas (h : Method FftLinearFormulas k p n s) :
    ∃ G : List Formula, G.length = n ∧ (∀ e ∈ G, e.LinearIn n) ∧ EvaluatesZeroed p n s G ∧ (¬ k.leaky → Evaluates p n s G) := by
  obtain ⟨p₀, h0, hr⟩ := h.symbolic (ok₀ := fun f₀ => FftSane f₀ ∧ FftLinear f₀) fun f ⟨f₀, h1, h2, h3⟩ => ⟨f₀, ⟨h1, h2⟩, h3⟩
  have hs := h0.mono (Q := FftSane) fun _ h => h.1
  obtain ⟨G, hl, h1, h2⟩ := formulas_core (C26_made hs)
  obtain ⟨a, b⟩ := h2 T F p hr
  exact ⟨G, hl, h1 ((Formula.linearParam n).method (fun f hf => hf.2.rel n) h0), a, fun hk => b (C30_made_partial hs hk)⟩

/-- MDCT and IMDCT. -/
theorem C74_mdct_formulas (h : MadeMdct FftLinearFormulas win o) (hn : 1 ≤ o.len) :
    ∃ G GA GB : List Formula, (G.length = o.len ∧ ∀ e ∈ G, e.LinearIn (2 * o.len)) ∧ (GA.length = o.len ∧ ∀ e ∈ GA, e.LinearIn (3 * o.len)) ∧
      (GB.length = o.len ∧ ∀ e ∈ GB, e.LinearIn (3 * o.len)) ∧ EvaluatesMdct o o.len win G GA GB := by
  obtain ⟨o₀, h0, hr⟩ := h.symbolic (ok₀ := fun f₀ => FftSane f₀ ∧ FftLinear f₀) fun f ⟨f₀, h1, h2, h3⟩ => ⟨f₀, ⟨h1, h2⟩, h3⟩
  have hs := h0.mono (Q := FftSane) fun _ h => h.1
  have hl : o₀.len = o.len := (hr []).len
  obtain ⟨G, GA, GB, l1, l2, l3, h1, h2⟩ := mdct_formulas_core (C26_mdct_made hs (hl ▸ hn)) (C30_mdct_made hs (hl ▸ hn))
  rw [hl] at l1 l2 l3 h1 h2
  have hlin : ∀ N, MdctObjRel (Formula.linearParam N).d o₀ o₀ := fun N =>
    (Formula.linearParam N).madeMdct' (fun f hf => hf.2.rel N) (lrel_and.2 ⟨rfl, fun e he => by
      obtain ⟨i, -, rfl⟩ := List.mem_map.1 he
      trivial⟩) h0
  obtain ⟨a, b, c⟩ := h1 hlin
  exact ⟨G, GA, GB, ⟨l1, a⟩, ⟨l2, b⟩, ⟨l3, c⟩, h2 T F win o hr⟩

/-! ### Infinite and NaN samples -/

variable {bad : T → Prop}

/-- If sample `i` is infinite or NaN, then so is every output into which the textbook transform takes it with a coefficient other than zero. -/
theorem C74_nonfinite (hb : Absorbing bad) (h : Method FftFormulas k p n s) {m : Mem T} (hm : ValidCall n s m) {i : ℕ} (hi : i < n) (hbad : bad (m.buf.getD i 0)) :
    ∃ m', p m = .ok m' ∧ m'.buf.length = n ∧ ∀ j, j < n → k.coefficient n j i ≠ 0 → bad (m'.buf.getD j 0) := by
  obtain ⟨p₀, h0, hr⟩ := h.symbolic (ok₀ := fun f₀ => FftSane f₀ ∧ ∃ g : Fft ℝ, FftEvaluates f₀ g ∧ FftContract g) fun f ⟨f₀, g, h1, h2, h3, h4⟩ => ⟨f₀, ⟨h1, g, h3, h4⟩, h2⟩
  have hs := h0.mono (Q := FftSane) fun _ h => h.1
  obtain ⟨q, hq, hr'⟩ := h0.value (ok := (FftContract : Fft ℝ → Prop)) fun f₀ ⟨_, g, h3, h4⟩ => ⟨g, h4, h3⟩
  obtain ⟨G, hl, hG⟩ := scratch_core (C26_made hs) (C29_made hs)
  obtain ⟨scr', e⟩ := hG T F p (fun x => hr x []) m hm
  exact hb.outputs hl hm.1 e rfl (hG ℝ ℝ q fun x => hr' x []) hq hi hbad

/-- No sample is left out. -/
theorem C74_noticed (hb : Absorbing bad) (h : Method FftFormulas k p n s) {m : Mem T} (hm : ValidCall n s m) {i : ℕ} (hi : i < n) (hbad : bad (m.buf.getD i 0)) :
    ∃ m', p m = .ok m' ∧ ∃ j, j < n ∧ bad (m'.buf.getD j 0) := by
  obtain ⟨m', e, -, h'⟩ := C74_nonfinite hb h hm hi hbad
  refine ⟨m', e, Kind.noticed ?_ hi h'⟩
  rintro rfl
  cases h
  assumption

/-- Transforms of type 4 take every sample into every output. -/
theorem C74_type4 (hb : Absorbing bad) (hk : k = .dct4 ∨ k = .dst4) (h : Method FftFormulas k p n s) {m : Mem T} (hm : ValidCall n s m) {i : ℕ} (hi : i < n) (hbad : bad (m.buf.getD i 0)) :
    ∃ m', p m = .ok m' ∧ m'.buf.length = n ∧ ∀ x ∈ m'.buf, bad x := by
  obtain ⟨m', e, hl, h'⟩ := C74_nonfinite hb h hm hi hbad
  refine ⟨m', e, hl, fun x hx => ?_⟩
  obtain ⟨j, hj, rfl⟩ := List.getElem_of_mem hx
  have := h' j (hl ▸ hj) (Kind.coefficient_type4 hk hi)
  simpa [List.getD, hj] using this

theorem MadeMdct.real_formulas (h : MadeMdct FftFormulas win o) (hn : 1 ≤ o.len) :
    ∃ G GA GB : List Formula, G.length = o.len ∧ GA.length = o.len ∧ GB.length = o.len ∧ EvaluatesMdct o o.len win G GA GB ∧
      ∀ g : ℕ → ℝ, ∃ o' : MdctObj ℝ, EvaluatesMdct o' o.len (vec (2 * o.len) g) G GA GB ∧
        ComputesMdct o'.mdct o.len o'.scratchLen (fun a b => Spec.mdct o.len (vec (2 * o.len) g) (a ++ b)) ∧
        AccumulatesImdct o'.imdct o.len o'.scratchLen (Spec.imdct o.len (vec (2 * o.len) g)) := by
  obtain ⟨o₀, h0, hr⟩ := h.symbolic (ok₀ := fun f₀ => FftSane f₀ ∧ ∃ g : Fft ℝ, FftEvaluates f₀ g ∧ FftContract g) fun f ⟨f₀, g, h1, h2, h3, h4⟩ => ⟨f₀, ⟨h1, g, h3, h4⟩, h2⟩
  have hs := h0.mono (Q := FftSane) fun _ h => h.1
  have hl : o₀.len = o.len := (hr []).len
  obtain ⟨G, GA, GB, l1, l2, l3, -, h2⟩ := mdct_formulas_core (C26_mdct_made hs (hl ▸ hn)) (C30_mdct_made hs (hl ▸ hn))
  rw [hl] at l1 l2 l3 h2
  refine ⟨G, GA, GB, l1, l2, l3, h2 T F win o hr, fun g => ?_⟩
  obtain ⟨o', ho', hr'⟩ := h0.value (ok := (FftContract : Fft ℝ → Prop)) (win := vec (2 * o.len) g) (fun f₀ ⟨_, g, h3, h4⟩ => ⟨g, h4, h3⟩) (by simp)
  have hl' : o'.len = o.len := (hr' []).len.symm.trans hl
  have a := C21_made ho' (hl' ▸ hn)
  have b := C22_made ho' (hl' ▸ hn)
  rw [hl'] at a b
  exact ⟨o', h2 ℝ ℝ _ o' hr', a, b⟩

/-- If a sample that goes into an MDCT, or an entry of the window, is infinite or NaN, then so are all outputs. -/
theorem C74_mdct_nonfinite (hb : Absorbing bad) (h : MadeMdct FftFormulas win o) (hn : 1 ≤ o.len) {a b : List T} {m : Mem T} (hm : ValidMdct o.len o.scratchLen a b m) {i : ℕ}
    (hi : i < 2 * o.len) (hbad : bad ((a ++ b).getD i 0) ∨ bad (win.getD i 0)) :
    ∃ m', o.mdct a b m = .ok m' ∧ m'.buf.length = o.len ∧ ∀ x ∈ m'.buf, bad x := by
  obtain ⟨G, GA, GB, l1, -, -, hG, hR⟩ := h.real_formulas hn
  exact hb.mdct l1 hG h.shape.1 hR hn hm hi hbad

/-- If an input of the IMDCT is infinite or NaN, then so are all `2 n` outputs; if an entry of the window is, then so is the output it belongs to; and what was
infinite or NaN in the output buffers before stays infinite or NaN. -/
theorem C74_imdct_nonfinite (hb : Absorbing bad) (h : MadeMdct FftFormulas win o) (hn : 1 ≤ o.len) {x : List T} {m : IMem T} (hm : ValidImdct o.len o.scratchLen x m) :
    ∃ m', o.imdct x m = .ok m' ∧ m'.outA.length = o.len ∧ m'.outB.length = o.len ∧
      (∀ i, i < o.len → bad (x.getD i 0) → ∀ y ∈ m'.outA ++ m'.outB, bad y) ∧
      ∀ j, j < o.len → (bad (m.outA.getD j 0) ∨ bad (win.getD j 0) → bad (m'.outA.getD j 0)) ∧
        (bad (m.outB.getD j 0) ∨ bad (win.getD (o.len + j) 0) → bad (m'.outB.getD j 0)) := by
  obtain ⟨G, GA, GB, -, l2, l3, hG, hR⟩ := h.real_formulas hn
  exact hb.imdct l2 l3 hG h.shape.1 hR hn hm

end

/-! ### Outputs that are finite, for inputs of any size -/

section
variable {f : Format} {c r : ℕ} {μ : ℕ → ℕ} {k : Kind} {p : Proc (Fp f)} {n s l : ℕ} {win : List (Fp f)} {o : MdctObj (Fp f)} {v : List ℝ}

theorem Method.wide (h : Method (FftOfGainInEveryRange c μ) k p n s) (j : ℕ) :
    ∃ p', Method (FftOfGain (Fp.ieee (f.widen j)) c μ) k p' n s ∧ ProcRel Fp.Sim p p' := by
  obtain ⟨p', h1, h2⟩ := Param.method_other (ι := Unit) (fun _ => Fp.widening f j) (okFft' := FftOfGain (Fp.ieee (f.widen j)) c μ) (fun fft ⟨f₀, h1, h2⟩ => by
    obtain ⟨fft', h3, h4⟩ := h2 j
    exact ⟨fft', h4, fun _ => h1.widens h3⟩) h
  exact ⟨p', h1, h2 ()⟩

/-- The error of outputs that are finite is bounded, however large the finite inputs are: on zeroed scratch, and on any scratch unless an instance may be one that
reads it. -/
theorem C74_accurate (hr : (Fp.ieee f).Twiddles r) (hc : 2 ≤ c) (hμ : Monotone μ) (h : Method (FftOfGainInEveryRange c μ) k p n s) (hn : 1 ≤ n) (hn' : n ≤ 2 ^ 60) :
    AccurateIfFiniteZeroed (Fp.ieee f) p n s k.spec (k.gainMade c n) (k.unitsMade r μ n) ∧
    (¬ k.leaky → AccurateIfFinite (Fp.ieee f) p n s k.spec (k.gainMade c n) (k.unitsMade r μ n)) := by
  refine ⟨.of_wide fun j => ?_, fun hk => .of_wide fun j => ?_⟩
  · obtain ⟨p', h1, h2⟩ := h.wide j
    exact ⟨p', h2, (C73_constructed (R := Fp.ieee (f.widen j)) hr hc hμ h1 hn hn').1⟩
  · obtain ⟨p', h1, h2⟩ := h.wide j
    exact ⟨p', h2, (C73_constructed (R := Fp.ieee (f.widen j)) hr hc hμ h1 hn hn').2 hk⟩

theorem WindowNear.embed (hw : (Fp.ieee f).WindowNear win v l) (j : ℕ) : (Fp.ieee (f.widen j)).WindowNear (win.map (Fp.embed j)) v l := by
  refine ⟨by simpa using hw.1, ?_⟩
  rintro ⟨a, b⟩ hp
  rw [List.zip_map_left] at hp
  obtain ⟨⟨a', b'⟩, hp', e⟩ := List.mem_map.1 hp
  simp only [Prod.map, id, Prod.mk.injEq] at e
  obtain ⟨rfl, rfl⟩ := e
  obtain ⟨h1, h2, h3⟩ := hw.2 _ hp'
  refine ⟨Fp.embed_fin h1, h2, ?_⟩
  change |(a'.embed j).val - b'| ≤ _
  rw [Fp.embed_val]
  exact h3

theorem MadeMdct.wide (h : MadeMdct (FftOfGainInEveryRange c μ) win o) (j : ℕ) :
    ∃ o', MadeMdct (FftOfGain (Fp.ieee (f.widen j)) c μ) (win.map (Fp.embed j)) o' ∧ MdctObjRel Fp.Sim o o' := by
  obtain ⟨o', h1, h2⟩ := Param.madeMdct_other (ι := Unit) (fun _ => Fp.widening f j) (okFft' := FftOfGain (Fp.ieee (f.widen j)) c μ) (fun fft ⟨f₀, h1, h2⟩ => by
    obtain ⟨fft', h3, h4⟩ := h2 j
    exact ⟨fft', h4, fun _ => h1.widens h3⟩) (fun _ => lrel_embed win) h
  exact ⟨o', h1, h2 ()⟩

/-- MDCT, IMDCT and overlapped blocks. -/
theorem C74_mdct_accurate {κ : ℝ} (hr : (Fp.ieee f).Twiddles r) (hc : 2 ≤ c) (hμ : Monotone μ) (h : MadeMdct (FftOfGainInEveryRange c μ) win o) (hn : 1 ≤ o.len) (hn' : o.len ≤ 2 ^ 60)
    (hw : (Fp.ieee f).WindowNear win v l) :
    AccurateIfFiniteMdct (Fp.ieee f) o.mdct o.len o.scratchLen (fun a b => Spec.mdct o.len v (a ++ b)) (2 * Kind.gainMade c .dct4 o.len) (unitsMadeMdct r μ o.len + l + 2) ∧
    AccurateIfFiniteImdct (Fp.ieee f) o.imdct o.len o.scratchLen (Spec.imdct o.len v) (Kind.gainMade c .dct4 o.len + 1) (unitsMadeMdct r μ o.len + l + 2) ∧
    (Spec.Symmetric o.len v → Spec.PrincenBradley o.len κ v →
      ReconstructsIfFinite (Fp.ieee f) o o.len (κ * o.len / 2) (4 * Kind.gainMade c .dct4 o.len ^ 2 + 1) (2 * (unitsMadeMdct r μ o.len + l) + 5)) := by
  have key : ∀ j, ∃ o' : MdctObj (Fp (f.widen j)), MdctObjRel Fp.Sim o o' ∧
      StaysFiniteMdct (Fp.ieee (f.widen j)) o'.mdct o.len o'.scratchLen (fun a b => Spec.mdct o.len v (a ++ b)) (2 * Kind.gainMade c .dct4 o.len) (unitsMadeMdct r μ o.len + l + 2) ∧
      StaysFiniteImdct (Fp.ieee (f.widen j)) o'.imdct o.len o'.scratchLen (Spec.imdct o.len v) (Kind.gainMade c .dct4 o.len + 1) (unitsMadeMdct r μ o.len + l + 2) ∧
      (Spec.Symmetric o.len v → Spec.PrincenBradley o.len κ v →
        ReconstructsFinite (Fp.ieee (f.widen j)) o' o.len (κ * o.len / 2) (4 * Kind.gainMade c .dct4 o.len ^ 2 + 1) (2 * (unitsMadeMdct r μ o.len + l) + 5)) := by
    intro j
    obtain ⟨o', h1, h2⟩ := h.wide j
    have := C73_mdct_constructed (R := Fp.ieee (f.widen j)) (κ := κ) hr hc hμ h1 (h2.len ▸ hn) (h2.len ▸ hn') (WindowNear.embed hw j)
    rw [← h2.len] at this
    exact ⟨o', h2, this⟩
  refine ⟨.of_wide fun j => ?_, .of_wide fun j => ?_, fun hs hp => .of_wide fun j => ?_⟩
  · obtain ⟨o', h1, h2⟩ := key j
    exact ⟨o', h1, h2.1⟩
  · obtain ⟨o', h1, h2⟩ := key j
    exact ⟨o', h1, h2.2.1⟩
  · obtain ⟨o', h1, h2⟩ := key j
    exact ⟨o', h1, h2.2.2 hs hp⟩

end

/-! ### The hypotheses can be met: a tree of constructor calls that the planner never makes -/

/-- Split radix of 32 points from a naive instance of 16 points and an FFT-based instance of 8 points. -/
theorem example_tree {T F : Type} [F64 F] [DctNum T F] (ok : Fft T → Prop) (h8 : ok (sumFft 8)) : ∃ o : Obj23 T, Made23 ok o ∧ o.len = 32 := by
  have hb := Type2And3ConvertToFft.new_eq (fft := (sumFft 8 : Fft T)) rfl
  have hx := Type2And3SplitRadix.new_eq (q := 8) (half := (Type2And3Naive.toObj (⟨vec (16 * 4) (Type2And3Naive.tab 16)⟩ : Type2And3Naive T)))
    (quarter := (Type2And3ConvertToFft.inst (sumFft 8 : Fft T)).toObj) (by change (vec _ _).length / 4 = _; simp) (Type2And3ConvertToFft.len_inst _) (by rfl)
  exact ⟨_, .splitRadix (.naive Type2And3Naive.new_tab) (.fft h8 hb)
    (by change (vec _ _).length / 4 ≤ ((vec _ _).length / 4) * 2; simp) (by change 2 * (8 + 0) ≤ ((vec _ _).length / 4) * 2; simp) hx, Type2And3SplitRadix.inst_len _ _ _⟩

example : ∃ o : Obj23 (Fp b32), o.len = 32 ∧ (∃ G : List Formula, G.length = 32 ∧ (∀ e ∈ G, e.LinearIn 32) ∧ Evaluates o.dct2 32 o.scratchLen G) ∧
    ∀ m, ValidCall 32 o.scratchLen m → ¬ (m.buf.getD 7 0).Fin → ∃ m', o.dct2 m = .ok m' ∧ ¬ (m'.buf.getD 0 0).Fin := by
  obtain ⟨o, ho, hl⟩ := example_tree (T := Fp b32) (fun f => FftLinearFormulas f ∧ FftFormulas f) ⟨⟨sumFft 8, (sumFft_sane 8).2.2, sumFft_linear 8, sumFft_evaluates 8⟩, sumFft_formulas 8⟩
  refine ⟨o, hl, ?_, fun m hm hb => ?_⟩
  · obtain ⟨G, h1, h2, -, h3⟩ := C74_formulas (.dct2 (ho.mono fun _ h => h.1))
    rw [hl] at h1 h2 h3
    exact ⟨G, h1, h2, h3 id⟩
  · obtain ⟨m', e, -, h⟩ := C74_nonfinite (C69_fp b32) (.dct2 (ho.mono fun _ h => h.2)) (by rw [hl]; exact hm) (i := 7) (by rw [hl]; norm_num) hb
    rw [hl] at h
    exact ⟨m', e, h 0 (by norm_num) (by rw [Kind.coefficient_eq _ _ (by norm_num)]; simp [Kind.kernel])⟩

theorem sumFft_ofGainInEveryRange {f : Format} {r n : ℕ} (hr : (Fp.ieee f).Twiddles r) (hn : 1 ≤ n) : FftOfGainInEveryRange 3 (fun n => n + r + 2) (sumFft n : Fft (Fp f)) :=
  ⟨sumFft n, sumFft_evaluates n, fun j => ⟨sumFft n, sumFft_evaluates n, fun h =>
    (sumFft_range (R := Fp.ieee (f.widen j)) hr (by change n ≤ 2 ^ 62 at h; omega)).mono (show 2 * n + 1 ≤ 3 * n by omega)⟩⟩

example : ∃ o : Obj23 (Fp b32), o.len = 32 ∧ AccurateIfFinite (Fp.ieee b32) o.dct2 32 o.scratchLen Spec.dct2 768 72 := by
  obtain ⟨o, ho, hl⟩ := example_tree (T := Fp b32) (FftOfGainInEveryRange 3 (fun n => n + 2 + 2)) (sumFft_ofGainInEveryRange Fp.twiddles32 (by norm_num))
  have := (C74_accurate Fp.twiddles32 (by norm_num) (fun _ _ h => Nat.add_le_add_right (Nat.add_le_add_right h 2) 2) (.dct2 ho) (by rw [hl]; norm_num) (by rw [hl]; norm_num)).2 id
  have lg : Nat.log 2 32 = 5 := by rw [Nat.log_eq_iff (by norm_num)]; norm_num
  rw [hl, show Kind.gainMade 3 .dct2 32 = 768 by norm_num [Kind.gainMade, lg], show Kind.unitsMade 2 (fun n => n + 2 + 2) .dct2 32 = 72 by norm_num [Kind.unitsMade, lg]] at this
  exact ⟨o, hl, this⟩

/-- `MdctNaive` of 12 points with the sine window. -/
example : ∃ x : MdctNaive (Fp b32), MdctNaive.new 12 WindowFn.mp3 = .ok x ∧
    (∀ a b m, ValidMdct 12 x.scratchLen a b m → ¬ ((a ++ b).getD 17 0).Fin → ∃ m', x.mdct a b m = .ok m' ∧ ∀ y ∈ m'.buf, ¬ y.Fin) ∧
    ReconstructsIfFinite (Fp.ieee b32) x.toObj 12 (1 * (12 : ℕ) / 2) 331777 117 := by
  obtain ⟨x, hx⟩ : ∃ x : MdctNaive (Fp b32), MdctNaive.new 12 WindowFn.mp3 = .ok x :=
    ((C37_mdct 12 (⟨12, 0, fun m => .ok m, fun m => .ok m⟩ : Obj4 (Fp b32)) WindowFn.mp3).1).1 ⟨by decide, by simp [WindowFn.mp3]⟩
  have hl : x.toObj.len = 12 := by
    obtain ⟨-, -, rfl⟩ := MdctNaive.new_tab hx
    change (vec _ _).length / 4 = 12
    rw [length_vec]
  refine ⟨x, hx, fun a b m hm hb => ?_, ?_⟩
  · obtain ⟨m', e, -, h⟩ := C74_mdct_nonfinite (C69_fp b32) (.naive hx) (by rw [hl]; norm_num) (by rw [hl]; exact hm) (i := 17) (by rw [hl]; norm_num) (.inl hb)
    exact ⟨m', e, h⟩
  · have w := (C24_windows (n := 12) (by norm_num)).1
    rw [(C24_values (2 * 12)).1] at w
    have := (C74_mdct_accurate (κ := 1) (c := 3) (μ := fun n => n + 4) Fp.twiddles32 (by norm_num) (fun _ _ h => Nat.add_le_add_right h 4) (.naive hx) (by rw [hl]; norm_num) (by rw [hl]; norm_num)
      (C61_windows Fp.windows32 (len := 24) (by norm_num) (by norm_num)).1).2.2
    have lg : Nat.log 2 12 = 3 := by rw [Nat.log_eq_iff (by norm_num)]; norm_num
    rw [hl, show 4 * Kind.gainMade 3 .dct4 12 ^ 2 + 1 = 331777 by norm_num [Kind.gainMade, lg], show 2 * (unitsMadeMdct 2 (fun n => n + 4) 12 + 2) + 5 = 117 by norm_num [unitsMadeMdct, lg]] at this
    exact this w.1 w.2

end RustDct
