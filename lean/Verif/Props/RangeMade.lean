import Verif.Range.Contract
import Verif.Props.RangeMdct
import Verif.Props.Constructed
/-!
# C73: no infinities and no NaN from instances built with the public constructors, and from instances composed by the user

In the model of IEEE arithmetic of `Verif/Range.lean`; gains and roundings are in `Verif/RangeMade.lean`.  C60 and C61 are about what the planner
returns; here the constructors may be combined in any way they accept, and the inner instances of the composed structs may be
implementations outside this crate.
-/

set_option linter.all false

namespace RustDct
open Finset Real

section
variable {T F : Type} [F64 F] [DctNum T F] {R : Ieee T F} {r c : ℕ} {μ : ℕ → ℕ} {k : Kind} {p q : Proc T} {n s t a d l : ℕ}

/-! ### Instances made by the public constructors -/

/-- On zeroed scratch, and on any scratch, even one full of NaN, unless an instance may be one that reads it. -/
theorem C73_constructed (hr : R.Twiddles r) (hc : 2 ≤ c) (hμ : Monotone μ) (h : Method (FftOfGain R c μ) k p n s) (hn : 1 ≤ n) (hn' : n ≤ 2 ^ 60) :
    StaysFiniteZeroed R p n s k.spec (k.gainMade c n) (k.unitsMade r μ n) ∧
    (¬ k.leaky → StaysFinite R p n s k.spec (k.gainMade c n) (k.unitsMade r μ n)) :=
  ⟨(h.rel hr hc hμ hn hn').1.staysFinite, fun hk => ((h.rel hr hc hμ hn hn').2 hk).staysFinite⟩

/-! ### The contract -/

/-- What a method that meets the contract does for its caller. -/
theorem C73_contract (h : FiniteAs R k p n s a d) : StaysFinite R p n s k.spec a d := h.staysFinite

/-- The crate's own instances meet the contract. -/
theorem C73_constructed_contract (hr : R.Twiddles r) (hc : 2 ≤ c) (hμ : Monotone μ) (h : Method (FftOfGain R c μ) k p n s) (hn : 1 ≤ n) (hn' : n ≤ 2 ^ 60) (hk : ¬ k.leaky) :
    FiniteAs R k p n s (k.gainMade c n) (k.unitsMade r μ n) := ((h.rel hr hc hμ hn hn').2 hk).weak.finiteAs

theorem C73_planned_contract {planFft : ℕ → Fft T} {γ μ : ℕ → ℕ} {calls : List (PlanCall T)} (hr : R.Twiddles r) (hf : PlanFftRange R planFft γ μ) (h : Planned planFft calls k p n s)
    (hn : 1 ≤ n) (hn' : n ≤ 2 ^ 60) (hk : ¬ k.leakyAt n) : FiniteAs R k p n s (k.gain γ n) (k.units r μ n) := ((h.rel hr hf hn hn').2 hk).weak.finiteAs

/-! ### Instances composed by the user -/

/-- An accepted split radix instance; only the DCT2 and DCT3 of its inner instances matter.  (The gain of an instance cannot be below its
length: that is what the DCT2 of equal samples is.) -/
theorem C73_splitRadix {half quarter : Obj23 T} {x : Type2And3SplitRadix T} {ah dh aq dq : ℕ} (hr : R.Twiddles r) (h : Type2And3SplitRadix.new half quarter = .ok x)
    (h60 : x.len ≤ 2 ^ 60) (gh : half.len ≤ ah) (gq : quarter.len ≤ aq)
    (hh2 : FiniteAs R .dct2 half.dct2 half.len half.scratchLen ah dh) (hh3 : FiniteAs R .dct3 half.dct3 half.len half.scratchLen ah dh)
    (hq2 : FiniteAs R .dct2 quarter.dct2 quarter.len quarter.scratchLen aq dq) (hq3 : FiniteAs R .dct3 quarter.dct3 quarter.len quarter.scratchLen aq dq)
    (hs : half.scratchLen ≤ x.len) (hs' : quarter.scratchLen ≤ x.len) :
    x.len = 2 * half.len ∧
    FiniteAs R .dct2 x.dct2 x.len x.scratchLen (max (2 * ah) (8 * aq)) (max (dh + 1) (dq + r + 4)) ∧
    FiniteAs R .dct3 x.dct3 x.len x.scratchLen (max (2 * ah) (8 * aq)) (max (dh + 1) (dq + r + 4)) ∧
    FiniteAs R .dst2 x.dst2 x.len x.scratchLen (max (2 * ah) (8 * aq)) (max (dh + 1) (dq + r + 4)) ∧
    FiniteAs R .dst3 x.dst3 x.len x.scratchLen (max (2 * ah) (8 * aq)) (max (dh + 1) (dq + r + 4)) := by
  obtain ⟨h1, h2, h3, rfl⟩ := Type2And3SplitRadix.new_shape h
  have e : (Type2And3SplitRadix.inst quarter.len half quarter).len = 4 * quarter.len := Type2And3SplitRadix.inst_len _ _ _
  rw [e] at hs hs' h60 ⊢
  rw [h1] at hh2 hh3 gh
  have a := Type2And3SplitRadix.rel hr h2 h60 (hh2.relW (by omega) gh) (hh3.relW (by omega) gh) (hq2.relW (by omega) gq) (hq3.relW (by omega) gq) hs hs'
    (le_max_left (2 * ah) (8 * aq)) (le_max_right _ _) (le_max_left (dh + 1) (dq + r + 4)) (le_max_right _ _)
  exact ⟨by omega, a.dct2.weak.finiteAs, a.dct3.weak.finiteAs, a.dst2.weak.finiteAs, a.dst3.weak.finiteAs⟩

/-- A type 4 instance of even length, from the DCT3 and DST3 of its inner instance. -/
theorem C73_type4 {inner : Obj23 T} {x : Type4ConvertToType3Even T} (hr : R.Twiddles r) (h : Type4ConvertToType3Even.new inner = .ok x) (hn : 1 ≤ inner.len) (h60 : x.len ≤ 2 ^ 60)
    (ga : inner.len ≤ a) (h3 : FiniteAs R .dct3 inner.dct3 inner.len inner.scratchLen a d) (h3' : FiniteAs R .dst3 inner.dst3 inner.len inner.scratchLen a d) :
    x.len = 2 * inner.len ∧ FiniteAs R .dct4 x.dct4 x.len x.scratchLen (4 * a) (d + r + 3) ∧ FiniteAs R .dst4 x.dst4 x.len x.scratchLen (4 * a) (d + r + 3) := by
  rw [Type4ConvertToType3Even.new_eq rfl] at h
  injection h with h
  subst h
  have hl : (Type4ConvertToType3Even.inst inner.len inner).len = 2 * inner.len := Type4ConvertToType3Even.inst_len ..
  rw [hl] at h60 ⊢
  have a3 := h3.relW (by omega) ga
  have b3 := h3'.relW (by omega) ga
  exact ⟨rfl, (Type4ConvertToType3Even.rel_dct4 hr hn h60 a3 b3).weak.finiteAs, (Type4ConvertToType3Even.rel_dst4 hr hn h60 a3 b3).weak.finiteAs⟩

/-! ### MDCT -/

variable {v : List ℝ} {κ : ℝ}

theorem MdctRel.all {o : MdctObj T} (h : MdctRel R o n (fun i => v.getD i 0) a d l) (hl : o.len = n) (hn : 1 ≤ n) (ha : 1 ≤ a) (hv : v.length = 2 * n) :
    StaysFiniteMdct R o.mdct n o.scratchLen (fun a b => Spec.mdct n v (a ++ b)) (2 * a) (d + l + 2) ∧
    StaysFiniteImdct R o.imdct n o.scratchLen (Spec.imdct n v) (a + 1) (d + l + 2) ∧
    (Spec.Symmetric n v → Spec.PrincenBradley n κ v → ReconstructsFinite R o n (κ * n / 2) (4 * a ^ 2 + 1) (2 * (d + l) + 5)) := by
  have h1 := h.mdct
  have h2 := h.imdct
  rw [← hv, vec_getD] at h1 h2
  exact ⟨h1, h2, fun hs hc => h.reconstructs hl hn ha hs.2 hc.2⟩

theorem MdctViaDct4.rel_new {inner : Obj4 T} {w : ℕ → List T} {x : MdctViaDct4 T} (h : MdctViaDct4.new inner w = .ok x) (hn : 1 ≤ inner.len)
    (h4 : PRelW R .dct4 inner.dct4 inner.len inner.scratchLen a d) (hw : R.WindowNear (w (2 * inner.len)) v l) :
    x.toObj.len = inner.len ∧ v.length = 2 * inner.len ∧ Nonempty (MdctRel R x.toObj inner.len (fun i => v.getD i 0) a d l) := by
  obtain ⟨he, hlen, rfl⟩ := MdctViaDct4.new_shape h
  rw [Nat.mul_comm inner.len 2] at hlen h ⊢
  have hv : v.length = 2 * inner.len := by rw [← hw.1]; exact hlen
  refine ⟨rfl, hv, ?_⟩
  obtain ⟨g, hg⟩ : ∃ g, inner.len = 2 * g := ⟨inner.len / 2, by omega⟩
  have hW := vec_getD' (0 : T) (hlen.trans (show 2 * inner.len = 4 * g by omega))
  rw [hW]
  have := MdctViaDct4.rel (g := g) (w := fun i => (w (2 * inner.len)).getD i 0) (v := fun i => v.getD i 0) (dct := inner) (by omega) (fun j hj => hw.tw (by omega)) hg (hg ▸ h4)
  rw [← hg] at this
  exact this

/-- An MDCT instance from the DCT4 of its inner instance: MDCT, IMDCT and overlapped reconstruction. -/
theorem C73_mdct {inner : Obj4 T} {w : ℕ → List T} {x : MdctViaDct4 T} (h : MdctViaDct4.new inner w = .ok x) (hn : 1 ≤ inner.len) (ga : inner.len ≤ a)
    (h4 : FiniteAs R .dct4 inner.dct4 inner.len inner.scratchLen a d) (hw : R.WindowNear (w (2 * inner.len)) v l) :
    x.toObj.len = inner.len ∧
    StaysFiniteMdct R x.mdct inner.len x.scratchLen (fun a b => Spec.mdct inner.len v (a ++ b)) (2 * a) (d + l + 2) ∧
    StaysFiniteImdct R x.imdct inner.len x.scratchLen (Spec.imdct inner.len v) (a + 1) (d + l + 2) ∧
    (Spec.Symmetric inner.len v → Spec.PrincenBradley inner.len κ v →
      ReconstructsFinite R x.toObj inner.len (κ * inner.len / 2) (4 * a ^ 2 + 1) (2 * (d + l) + 5)) := by
  obtain ⟨hl, hv, ⟨A⟩⟩ := MdctViaDct4.rel_new h hn (h4.relW (by omega) ga) hw
  exact ⟨hl, A.all hl hn (by omega) hv⟩

theorem MadeMdct.rel (hr : R.Twiddles r) (hc : 2 ≤ c) (hμ : Monotone μ) {win : List T} {o : MdctObj T} (h : MadeMdct (FftOfGain R c μ) win o) (hn : 1 ≤ o.len) (hn' : o.len ≤ 2 ^ 60)
    (hw : R.WindowNear win v l) :
    v.length = 2 * o.len ∧ Nonempty (MdctRel R o o.len (fun i => v.getD i 0) (Kind.gainMade c .dct4 o.len) (unitsMadeMdct r μ o.len) l) := by
  cases h with
  | @naive n w x h =>
    obtain ⟨he, hlen, rfl⟩ := MdctNaive.new_tab h
    have hl : (MdctNaive.toObj (⟨vec (4 * n) (MdctNaive.tab n), w (2 * n)⟩ : MdctNaive T)).len = n := by
      change (vec (4 * n) (MdctNaive.tab n : ℕ → T)).length / 4 = n
      rw [length_vec]; omega
    rw [hl] at hn hn' ⊢
    rw [Nat.mul_comm n 2] at hw
    have hv : v.length = 2 * n := by rw [← hw.1]; exact hlen
    refine ⟨hv, ?_⟩
    have A : Nonempty (MdctRel R (MdctNaive.toObj ⟨vec (4 * n) (MdctNaive.tab n), w (2 * n)⟩) n (fun i => v.getD i 0) (n + 1) (2 * n + r) l) := by
      rw [vec_getD' (0 : T) hlen]
      exact MdctNaive.rel hr he hn hn' fun j hj => hw.tw (by omega)
    obtain ⟨A⟩ := A
    refine A.mono ?_ ?_
    · exact le_trans (by nlinarith : n + 1 ≤ 4 * c * n) (Nat.le_mul_of_pos_right _ (by positivity))
    · unfold unitsMadeMdct
      have h1 := le_max_left (2 * n) (μ n)
      have h2 := Nat.zero_le ((r + 4) * Nat.log 2 n)
      rw [mul_add]; omega
  | @viaDct4 inner w x hi h =>
    obtain ⟨he, hlen, rfl⟩ := MdctViaDct4.new_shape h
    rw [Nat.mul_comm inner.len 2] at hw
    obtain ⟨-, hv, ⟨A⟩⟩ := MdctViaDct4.rel_new h hn (hi.rel hr hc hμ hn hn').1.weak hw
    refine ⟨hv, A.mono (le_refl _) ?_⟩
    simp only [Kind.unitsMade, unitsMadeMdct]
    exact Nat.add_le_add_right (max_le_max (by change inner.len ≤ 2 * inner.len; omega) (le_refl _)) _

/-- `MdctNaive` and `MdctViaDct4` over any of the crate's type 4 instances. -/
theorem C73_mdct_constructed (hr : R.Twiddles r) (hc : 2 ≤ c) (hμ : Monotone μ) {win : List T} {o : MdctObj T} (h : MadeMdct (FftOfGain R c μ) win o) (hn : 1 ≤ o.len)
    (hn' : o.len ≤ 2 ^ 60) (hw : R.WindowNear win v l) :
    StaysFiniteMdct R o.mdct o.len o.scratchLen (fun a b => Spec.mdct o.len v (a ++ b)) (2 * Kind.gainMade c .dct4 o.len) (unitsMadeMdct r μ o.len + l + 2) ∧
    StaysFiniteImdct R o.imdct o.len o.scratchLen (Spec.imdct o.len v) (Kind.gainMade c .dct4 o.len + 1) (unitsMadeMdct r μ o.len + l + 2) ∧
    (Spec.Symmetric o.len v → Spec.PrincenBradley o.len κ v →
      ReconstructsFinite R o o.len (κ * o.len / 2) (4 * Kind.gainMade c .dct4 o.len ^ 2 + 1) (2 * (unitsMadeMdct r μ o.len + l) + 5)) := by
  obtain ⟨hv, ⟨A⟩⟩ := h.rel hr hc hμ hn hn' hw
  refine A.all rfl hn ?_ hv
  simp only [Kind.gainMade]
  exact Nat.mul_pos (Nat.mul_pos (by omega) (by omega)) (by positivity)

end

/-! The hypotheses can be met, in `f32` with the defining sum as FFT. -/

theorem FftRange.mono {T F : Type} [F64 F] [DctNum T F] {R : Ieee T F} {fft : Fft T} {γ μ γ' : ℕ} (h : FftRange R fft γ μ) (hγ : γ ≤ γ') : FftRange R fft γ' μ := by
  obtain ⟨hd, G, hG⟩ := h
  refine ⟨hd, G, fun buf hb => ⟨(hG buf hb).1, (hG buf hb).2.1, fun B hB hM hin q hq => ?_⟩⟩
  have B0 : 0 ≤ B := R.L_pos.le.trans hB
  have p := R.one_le_pow μ
  have g : (γ : ℝ) * B ≤ γ' * B := mul_le_mul_of_nonneg_right (by exact_mod_cast hγ) B0
  obtain ⟨a, b, c, d⟩ := (hG buf hb).2.2 B hB ((mul_le_mul_of_nonneg_right g (by linarith)).trans hM) hin q hq
  have e := mul_le_mul_of_nonneg_left g (show 0 ≤ (1 + R.u) ^ μ - 1 by linarith)
  exact ⟨a, b, c.trans e, d.trans e⟩

theorem sumFft_ofGain {n : ℕ} (hn : 1 ≤ n) : FftOfGain (Fp.ieee b32) 3 (fun n => n + 4) (sumFft n : Fft (Fp b32)) := fun h =>
  (sumFft_range Fp.twiddles32 (by change n ≤ 2 ^ 62 at h; omega)).mono (show 2 * n + 1 ≤ 3 * n by omega)

/-- A split radix DCT2 of 32 points from a naive instance of 16 points and an FFT-based instance of 8 points: no planner makes it. -/
example : ∃ (a : Type2And3Naive (Fp b32)) (b : Type2And3ConvertToFft (Fp b32)) (x : Type2And3SplitRadix (Fp b32)),
    Type2And3Naive.new 16 = .ok a ∧ Type2And3ConvertToFft.new (sumFft 8) = .ok b ∧ Type2And3SplitRadix.new a.toObj b.toObj = .ok x ∧
    StaysFinite (Fp.ieee b32) x.dct2 32 x.scratchLen Spec.dct2 768 72 := by
  have hb := Type2And3ConvertToFft.new_eq (fft := (sumFft 8 : Fft (Fp b32))) rfl
  have hx := Type2And3SplitRadix.new_eq (q := 8) (half := (Type2And3Naive.toObj (⟨vec (16 * 4) (Type2And3Naive.tab 16)⟩ : Type2And3Naive (Fp b32))))
    (quarter := (Type2And3ConvertToFft.inst (sumFft 8 : Fft (Fp b32))).toObj) (by change (vec _ _).length / 4 = _; simp) (Type2And3ConvertToFft.len_inst _) (by rfl)
  refine ⟨_, _, _, Type2And3Naive.new_tab, hb, hx, ?_⟩
  have m := Made23.splitRadix (okFft := FftOfGain (Fp.ieee b32) 3 (fun n => n + 4)) (.naive Type2And3Naive.new_tab) (.fft (sumFft_ofGain (by norm_num)) hb)
    (by change (vec _ _).length / 4 ≤ ((vec _ _).length / 4) * 2; simp) (by change 2 * (8 + 0) ≤ ((vec _ _).length / 4) * 2; simp) hx
  have hl : (Type2And3SplitRadix.inst 8 (Type2And3Naive.toObj (⟨vec (16 * 4) (Type2And3Naive.tab 16)⟩ : Type2And3Naive (Fp b32)))
    (Type2And3ConvertToFft.inst (sumFft 8 : Fft (Fp b32))).toObj).toObj.len = 32 := Type2And3SplitRadix.inst_len _ _ _
  have := (C73_constructed Fp.twiddles32 (by norm_num) (fun _ _ h => Nat.add_le_add_right h 4) (.dct2 m) (by rw [hl]; norm_num) (by rw [hl]; norm_num)).2 id
  have lg : Nat.log 2 32 = 5 := by rw [Nat.log_eq_iff (by norm_num)]; norm_num
  rw [hl, show Kind.gainMade 3 .dct2 32 = 768 by norm_num [Kind.gainMade, lg], show Kind.unitsMade 2 (fun n => n + 4) .dct2 32 = 72 by norm_num [Kind.unitsMade, lg]] at this
  exact this

/-- `MdctNaive` of 12 points with the sine window. -/
example : ∃ x : MdctNaive (Fp b32), MdctNaive.new 12 WindowFn.mp3 = .ok x ∧ ReconstructsFinite (Fp.ieee b32) x.toObj 12 (1 * (12 : ℕ) / 2) 331777 117 := by
  obtain ⟨x, hx⟩ : ∃ x : MdctNaive (Fp b32), MdctNaive.new 12 WindowFn.mp3 = .ok x :=
    ((C37_mdct 12 (⟨12, 0, fun m => .ok m, fun m => .ok m⟩ : Obj4 (Fp b32)) WindowFn.mp3).1).1 ⟨by decide, by simp [WindowFn.mp3]⟩
  refine ⟨x, hx, ?_⟩
  have hl : x.toObj.len = 12 := by
    obtain ⟨-, -, rfl⟩ := MdctNaive.new_tab hx
    change (vec _ _).length / 4 = 12
    rw [length_vec]
  have w := (C24_windows (n := 12) (by norm_num)).1
  rw [(C24_values (2 * 12)).1] at w
  have := (C73_mdct_constructed (κ := 1) (c := 3) (μ := fun n => n + 4) Fp.twiddles32 (by norm_num) (fun _ _ h => Nat.add_le_add_right h 4) (.naive hx) (by rw [hl]; norm_num) (by rw [hl]; norm_num)
    (C61_windows Fp.windows32 (len := 24) (by norm_num) (by norm_num)).1).2.2
  have lg : Nat.log 2 12 = 3 := by rw [Nat.log_eq_iff (by norm_num)]; norm_num
  rw [hl, show 4 * Kind.gainMade 3 .dct4 12 ^ 2 + 1 = 331777 by norm_num [Kind.gainMade, lg], show 2 * (unitsMadeMdct 2 (fun n => n + 4) 12 + 2) + 5 = 117 by norm_num [unitsMadeMdct, lg]] at this
  exact this w.1 w.2

/-- A type 4 instance over a split radix instance over butterflies, each layer by the theorem about it. -/
example : ∃ (x : Type2And3SplitRadix (Fp b32)) (y : Type4ConvertToType3Even (Fp b32)),
    Type2And3SplitRadix.new (Type2And3Butterfly8.new (T := Fp b32)).toObj (Type2And3Butterfly4.new (T := Fp b32)).toObj = .ok x ∧
    Type4ConvertToType3Even.new x.toObj = .ok y ∧ StaysFinite (Fp.ieee b32) y.dct4 32 y.scratchLen Spec.dct4 1536 42 := by
  have hx := Type2And3SplitRadix.new_eq (q := 4) (half := (Type2And3Butterfly8.new (T := Fp b32)).toObj) (quarter := (Type2And3Butterfly4.new (T := Fp b32)).toObj) rfl rfl (by rfl)
  have lx : (Type2And3SplitRadix.inst 4 (Type2And3Butterfly8.new (T := Fp b32)).toObj (Type2And3Butterfly4.new (T := Fp b32)).toObj).len = 16 := Type2And3SplitRadix.inst_len _ _ _
  have mono : Monotone fun n : ℕ => n + 4 := fun _ _ h => Nat.add_le_add_right h 4
  have l8 : Nat.log 2 8 = 3 := by rw [Nat.log_eq_iff (by norm_num)]; norm_num
  have l4 : Nat.log 2 4 = 2 := by rw [Nat.log_eq_iff (by norm_num)]; norm_num
  have C := fun {k : Kind} {p : Proc (Fp b32)} {n s : ℕ} => C73_constructed_contract (k := k) (p := p) (n := n) (s := s) (c := 3) Fp.twiddles32 (by norm_num) mono
  have g8 : 2 * 3 * 8 * 2 ^ (Nat.log 2 8 / 2) = 96 := by rw [l8]; norm_num
  have g4 : 2 * 3 * 4 * 2 ^ (Nat.log 2 4 / 2) = 48 := by rw [l4]; norm_num
  have u8 : max 8 (8 + 4) + (2 + 4) * (Nat.log 2 8 + 1) = 36 := by rw [l8]; norm_num
  have u4 : max 4 (4 + 4) + (2 + 4) * (Nat.log 2 4 + 1) = 26 := by rw [l4]; norm_num
  have A := C73_splitRadix (ah := 96) (aq := 48) (dh := 36) (dq := 26) Fp.twiddles32 hx (by rw [lx]; norm_num) (by change 8 ≤ 96; norm_num) (by change 4 ≤ 48; norm_num)
    (by have := C (.dct2 .butterfly8) (by change 1 ≤ 8; norm_num) (by change 8 ≤ 2 ^ 60; norm_num) id; simp only [Kind.gainMade, Kind.unitsMade] at this; change FiniteAs _ _ _ 8 _ (2 * 3 * 8 * 2 ^ (Nat.log 2 8 / 2)) (max 8 (8 + 4) + (2 + 4) * (Nat.log 2 8 + 1)) at this; rw [g8, u8] at this; exact this)
    (by have := C (.dct3 .butterfly8 (by change 1 ≤ 8; norm_num)) (by change 1 ≤ 8; norm_num) (by change 8 ≤ 2 ^ 60; norm_num) id; simp only [Kind.gainMade, Kind.unitsMade] at this; change FiniteAs _ _ _ 8 _ (2 * 3 * 8 * 2 ^ (Nat.log 2 8 / 2)) (max 8 (8 + 4) + (2 + 4) * (Nat.log 2 8 + 1)) at this; rw [g8, u8] at this; exact this)
    (by have := C (.dct2 .butterfly4) (by change 1 ≤ 4; norm_num) (by change 4 ≤ 2 ^ 60; norm_num) id; simp only [Kind.gainMade, Kind.unitsMade] at this; change FiniteAs _ _ _ 4 _ (2 * 3 * 4 * 2 ^ (Nat.log 2 4 / 2)) (max 4 (4 + 4) + (2 + 4) * (Nat.log 2 4 + 1)) at this; rw [g4, u4] at this; exact this)
    (by have := C (.dct3 .butterfly4 (by change 1 ≤ 4; norm_num)) (by change 1 ≤ 4; norm_num) (by change 4 ≤ 2 ^ 60; norm_num) id; simp only [Kind.gainMade, Kind.unitsMade] at this; change FiniteAs _ _ _ 4 _ (2 * 3 * 4 * 2 ^ (Nat.log 2 4 / 2)) (max 4 (4 + 4) + (2 + 4) * (Nat.log 2 4 + 1)) at this; rw [g4, u4] at this; exact this)
    (Nat.zero_le _) (Nat.zero_le _)
  have hy := Type4ConvertToType3Even.new_eq (inner := (Type2And3SplitRadix.inst 4 (Type2And3Butterfly8.new (T := Fp b32)).toObj (Type2And3Butterfly4.new (T := Fp b32)).toObj).toObj) rfl
  have ly : (Type4ConvertToType3Even.inst (Type2And3SplitRadix.inst 4 (Type2And3Butterfly8.new (T := Fp b32)).toObj (Type2And3Butterfly4.new (T := Fp b32)).toObj).toObj.len
    (Type2And3SplitRadix.inst 4 (Type2And3Butterfly8.new (T := Fp b32)).toObj (Type2And3Butterfly4.new (T := Fp b32)).toObj).toObj).len = 32 := (Type4ConvertToType3Even.inst_len ..).trans (congrArg (2 * ·) lx)
  have B := (C73_type4 Fp.twiddles32 hy (by change 1 ≤ Type2And3SplitRadix.len _; rw [lx]; norm_num) (by rw [ly]; norm_num) (by change Type2And3SplitRadix.len _ ≤ _; rw [lx]; norm_num) A.2.2.1 A.2.2.2.2).2.1
  refine ⟨_, _, hx, hy, ?_⟩
  rw [ly] at B
  exact C73_contract B

end RustDct
