import Verif.Float.Made
import Verif.Props.MdctAccuracy
import Verif.Props.Compose
/-!
# C67: floating-point accuracy of instances built with the public constructors, and of instances composed by the user

In the rounding model of `Verif/Rounding.lean`; the bounds are in `Verif/RoundingMade.lean`.  C51–C57 are about what the planner returns; here the constructors
may be combined in any way they accept, and the inner instances of the composed structs may be implementations outside this crate.
-/

set_option linter.all false

namespace RustDct
open Finset Real

section
variable {T F : Type} [F64 F] [DctNum T F] {R : Rounding T F} {φ ε : ℝ} {k : Kind} {p q : Proc T} {n s t : ℕ}

theorem Method.two_le_dct1 {okFft : Fft T → Prop} (h : Method okFft k p n s) : k = .dct1 → 2 ≤ n := by
  rintro rfl
  cases h
  assumption

/-! ### Instances made by the public constructors -/

/-- On zeroed scratch, and on any scratch unless an instance may be one that reads it. -/
theorem C67_constructed (hφ : 0 ≤ φ) (h : Method (fun f => FftAccurate R f φ) k p n s) (hn : 1 ≤ n) :
    ApproximatesZeroed R p n s k.spec (k.boundary * R.made φ k n) ∧ (¬ k.leaky → Approximates R p n s k.spec (k.boundary * R.made φ k n)) :=
  ⟨(h.acc hφ hn).1.approximates (R.made_nonneg φ k n) hn h.two_le_dct1, fun hk => ((h.acc hφ hn).2 hk).approximates (R.made_nonneg φ k n) hn h.two_le_dct1⟩

/-- A transform followed by its inverse returns the input, times the constant of C17–C20, up to the two errors. -/
theorem C67_roundTrip (hφ : 0 ≤ φ) (h : Method (fun f => FftAccurate R f φ) k p n s) (h' : Method (fun f => FftAccurate R f φ) k.inv q n t) (hn : 1 ≤ n)
    {buf : List T} (hb : buf.length = n) :
    ∃ mid out, processDefault s p buf = .ok mid ∧ processDefault t q mid = .ok out ∧
      Spec.RelErr (k.inv.boundary * ((1 + R.made φ k n) * (1 + R.made φ k.inv n) - 1)) (out.map R.val) (buf.map fun x => k.scale n * R.val x) :=
  (h.acc hφ hn).1.roundTrip (h'.acc hφ hn).1 (R.made_nonneg φ k n) (R.made_nonneg φ k.inv n) hn h.two_le_dct1 h'.two_le_dct1 hb

/-! ### The contract -/

/-- What a method that meets the contract does for its caller. -/
theorem C67_contract (h : AccurateAs R k p n s ε) (hε : 0 ≤ ε) (hn : 1 ≤ n) (h1 : k = .dct1 → 2 ≤ n) : Approximates R p n s k.spec (k.boundary * ε) :=
  (h.accW hn h1).approximates hε hn h1

/-- The crate's own instances meet the contract. -/
theorem C67_constructed_contract (hφ : 0 ≤ φ) (h : Method (fun f => FftAccurate R f φ) k p n s) (hn : 1 ≤ n) (hk : ¬ k.leaky) : AccurateAs R k p n s (R.made φ k n) :=
  ((h.acc hφ hn).2 hk).weak.accurateAs hn h.two_le_dct1

theorem C67_planned_contract {planFft : ℕ → Fft T} {φ : ℕ → ℝ} {calls : List (PlanCall T)} (hf : PlanFftAccurate R planFft φ) (h : Planned planFft calls k p n s) (hn : 1 ≤ n)
    (hk : ¬ k.leakyAt n) : AccurateAs R k p n s (R.err φ k n) :=
  ((h.acc hf hn).2 hk).weak.accurateAs hn (h.two_le hf.shape)

/-! ### Instances composed by the user -/

/-- An accepted split radix instance adds one step to the error of its inner instances; only their DCT2 and DCT3 matter. -/
theorem C67_splitRadix {half quarter : Obj23 T} {x : Type2And3SplitRadix T} (h : Type2And3SplitRadix.new half quarter = .ok x) (hε : 0 ≤ ε)
    (hh2 : AccurateAs R .dct2 half.dct2 half.len half.scratchLen ε) (hh3 : AccurateAs R .dct3 half.dct3 half.len half.scratchLen ε)
    (hq2 : AccurateAs R .dct2 quarter.dct2 quarter.len quarter.scratchLen ε) (hq3 : AccurateAs R .dct3 quarter.dct3 quarter.len quarter.scratchLen ε)
    (hs : half.scratchLen ≤ x.len) (hs' : quarter.scratchLen ≤ x.len) :
    x.len = 2 * half.len ∧
    AccurateAs R .dct2 x.dct2 x.len x.scratchLen ((1 + ε) * R.step - 1) ∧ AccurateAs R .dct3 x.dct3 x.len x.scratchLen ((1 + ε) * R.step - 1) ∧
    AccurateAs R .dst2 x.dst2 x.len x.scratchLen ((1 + ε) * R.step - 1) ∧ AccurateAs R .dst3 x.dst3 x.len x.scratchLen ((1 + ε) * R.step - 1) := by
  obtain ⟨h1, h2, h3, rfl⟩ := Type2And3SplitRadix.new_shape h
  have e : (Type2And3SplitRadix.inst quarter.len half quarter).len = 4 * quarter.len := Type2And3SplitRadix.inst_len _ _ _
  rw [e] at hs hs' ⊢
  rw [h1] at hh2 hh3
  have n1 : 1 ≤ 2 * quarter.len := by omega
  have n4 : 1 ≤ 4 * quarter.len := by omega
  have a := Type2And3SplitRadix.acc h2 hε (hh2.accW n1 (by simp)) (hh3.accW n1 (by simp)) (hq2.accW h2 (by simp)) (hq3.accW h2 (by simp)) hs hs'
  exact ⟨by omega, a.dct2.weak.accurateAs n4 (by simp), a.dct3.weak.accurateAs n4 (by simp), a.dst2.weak.accurateAs n4 (by simp), a.dst3.weak.accurateAs n4 (by simp)⟩

/-- A type 4 instance of even length, from the DCT3 and DST3 of its inner instance. -/
theorem C67_type4 {inner : Obj23 T} {x : Type4ConvertToType3Even T} (h : Type4ConvertToType3Even.new inner = .ok x) (hn : 1 ≤ inner.len) (hε : 0 ≤ ε)
    (h3 : AccurateAs R .dct3 inner.dct3 inner.len inner.scratchLen ε) (h3' : AccurateAs R .dst3 inner.dst3 inner.len inner.scratchLen ε) :
    x.len = 2 * inner.len ∧ AccurateAs R .dct4 x.dct4 x.len x.scratchLen (R.even4 ε) ∧ AccurateAs R .dst4 x.dst4 x.len x.scratchLen (R.even4 ε) := by
  rw [Type4ConvertToType3Even.new_eq rfl] at h
  injection h with h
  subst h
  have hl : (Type4ConvertToType3Even.inst inner.len inner).len = 2 * inner.len := Type4ConvertToType3Even.inst_len ..
  rw [hl]
  have n2 : 1 ≤ 2 * inner.len := by omega
  exact ⟨rfl, (Type4ConvertToType3Even.acc_dct4 hn hε (h3.accW hn (by simp)) (h3'.accW hn (by simp))).weak.accurateAs n2 (by simp),
    (Type4ConvertToType3Even.acc_dst4 hn hε (h3.accW hn (by simp)) (h3'.accW hn (by simp))).weak.accurateAs n2 (by simp)⟩

/-! ### MDCT -/

variable {v : List ℝ} {M γ c : ℝ}

theorem MdctAcc.all {o : MdctObj T} {η : ℝ} (a : MdctAcc R o n (fun i => v.getD i 0) (√n * M) η) (hl : o.len = n) (hn : 1 ≤ n) (he : n % 2 = 0) (hη : 0 ≤ η)
    {win : List T} (hw : WindowNear R win v M γ) (hv : v.length = 2 * n) :
    ApproximatesMdct R o.mdct n o.scratchLen (fun a b => Spec.mdct n v (a ++ b)) (√n * M * η) ∧
    ApproximatesImdct R o.imdct n o.scratchLen (Spec.imdct n v) (√n * M * η) ∧
    (Spec.Symmetric n v → Spec.PrincenBradley n c v → ReconstructsNearly R o n (c * n / 2) (n * M ^ 2 * R.overlap η)) := by
  have h1 := a.mdct
  have h2 := a.imdct
  rw [← hv, vec_getD] at h1 h2
  refine ⟨h1, h2, fun hs hc => ?_⟩
  have hM := hw.2.2.1
  have hK : (√(n : ℝ) * M) ^ 2 = n * M ^ 2 := by rw [mul_pow, sq_sqrt (Nat.cast_nonneg n)]
  obtain ⟨g, rfl⟩ : ∃ g, n = 2 * g := ⟨n / 2, by omega⟩
  have hm : ∀ i, i < 4 * g → |v.getD i 0| ≤ M := fun i hi => (hw.ap (by omega)).mag
  have := a.reconstructs hl hn (mul_nonneg (sqrt_nonneg _) hM) hη
    (fun a b => by rw [nm_glue]; exact mdct_bound (by omega) hM hm a b)
    (fun X => by rw [show 2 * (2 * g) = 4 * g by ring]; exact imdct_bound (by omega) hM hm X) hs.2 hc.2
  rwa [hK] at this

/-- An MDCT instance from the DCT4 of its inner instance: MDCT, IMDCT and overlapped reconstruction. -/
theorem C67_mdct {inner : Obj4 T} {w : ℕ → List T} {x : MdctViaDct4 T} (h : MdctViaDct4.new inner w = .ok x) (hn : 1 ≤ inner.len) (hε : 0 ≤ ε)
    (h4 : AccurateAs R .dct4 inner.dct4 inner.len inner.scratchLen ε) (hw : WindowNear R (w (2 * inner.len)) v M γ) :
    x.toObj.len = inner.len ∧
    ApproximatesMdct R x.mdct inner.len x.scratchLen (fun a b => Spec.mdct inner.len v (a ++ b)) (√inner.len * M * R.lap γ ε) ∧
    ApproximatesImdct R x.imdct inner.len x.scratchLen (Spec.imdct inner.len v) (√inner.len * M * R.lap γ ε) ∧
    (Spec.Symmetric inner.len v → Spec.PrincenBradley inner.len c v →
      ReconstructsNearly R x.toObj inner.len (c * inner.len / 2) (inner.len * M ^ 2 * R.overlap (R.lap γ ε))) := by
  obtain ⟨he, hlen, rfl⟩ := MdctViaDct4.new_shape h
  rw [Nat.mul_comm inner.len 2] at hlen h ⊢
  have hv : v.length = 2 * inner.len := by rw [← hw.1]; exact hlen
  refine ⟨rfl, ?_⟩
  obtain ⟨g, hg⟩ : ∃ g, inner.len = 2 * g := ⟨inner.len / 2, by omega⟩
  have hW := vec_getD' (0 : T) (hlen.trans (show 2 * inner.len = 4 * g by omega))
  have a : Nonempty (MdctAcc R (MdctViaDct4.toObj ⟨inner, w (2 * inner.len), inner.len + inner.scratchLen⟩) inner.len (fun i => v.getD i 0) (√inner.len * M) (R.lap γ ε)) := by
    rw [hW]
    have h4' := h4.accW hn (by simp)
    have := MdctViaDct4.acc (g := g) (w := fun i => (w (2 * inner.len)).getD i 0) (v := fun i => v.getD i 0) (dct := inner) (by omega) hw.2.2.1 hε hw.2.1 (fun j hj => hw.ap (by omega)) hg (hg ▸ h4')
    rw [← hg] at this
    exact this
  obtain ⟨a⟩ := a
  exact a.all rfl hn he (R.lap_nonneg hw.2.1 hε) hw hv

theorem Rounding.lapNaive_nonneg (R : Rounding T F) (n : ℕ) (hγ : 0 ≤ γ) : 0 ≤ R.lapNaive n γ :=
  Rounding.gainErr_nonneg (one_le_mul_of_one_le_of_one_le (one_le_mul_of_one_le_of_one_le (one_le_pow₀ R.one_le_u) R.one_le_term) (by linarith))

theorem ApproximatesMdct.mono {p : List T → List T → Mem T → Outcome (Mem T)} {G : List ℝ → List ℝ → List ℝ} {c c' : ℝ} (h : ApproximatesMdct R p n s G c) (hc : c ≤ c') :
    ApproximatesMdct R p n s G c' := fun a b m hm => by
  obtain ⟨m', e, hl, h⟩ := h a b m hm
  exact ⟨m', e, hl, h.trans (mul_le_mul_of_nonneg_right hc (sqrt_nonneg _))⟩

theorem ApproximatesImdct.mono {p : List T → IMem T → Outcome (IMem T)} {G : List ℝ → List ℝ} {c c' : ℝ} (h : ApproximatesImdct R p n s G c) (hc : c ≤ c') :
    ApproximatesImdct R p n s G c' := fun x m hm => by
  obtain ⟨m', e, hl, hl', h⟩ := h x m hm
  exact ⟨m', e, hl, hl', h.trans (add_le_add_right (mul_le_mul_of_nonneg_right hc (sqrt_nonneg _)) _)⟩

theorem ReconstructsNearly.mono {o : MdctObj T} {g c c' : ℝ} (h : ReconstructsNearly R o n g c) (hc : c ≤ c') : ReconstructsNearly R o n g c' := fun a rest acc m h1 h2 h3 h4 => by
  obtain ⟨outs, e, hl, h⟩ := h a rest acc m h1 h2 h3 h4
  refine ⟨outs, e, hl, fun t x y z out hx hy hz ho => ?_⟩
  obtain ⟨hl, h⟩ := h t x y z out hx hy hz ho
  exact ⟨hl, h.trans (mul_le_mul_of_nonneg_right hc (add_nonneg (sqrt_nonneg _) (sqrt_nonneg _)))⟩

theorem Rounding.overlap_mono (R : Rounding T F) {a b : ℝ} (h0 : 0 ≤ a) (h : a ≤ b) : R.overlap a ≤ R.overlap b := by
  unfold Rounding.overlap
  have := R.one_le_u
  have : (1 + a) ^ 2 ≤ (1 + b) ^ 2 := pow_le_pow_left₀ (by linarith) (by linarith) 2
  nlinarith

/-- `MdctNaive` and `MdctViaDct4` over any of the crate's type 4 instances. -/
theorem C67_mdct_constructed {win : List T} {o : MdctObj T} (hφ : 0 ≤ φ) (h : MadeMdct (fun f => FftAccurate R f φ) win o) (hn : 1 ≤ o.len) (hw : WindowNear R win v M γ) :
    ApproximatesMdct R o.mdct o.len o.scratchLen (fun a b => Spec.mdct o.len v (a ++ b)) (√o.len * M * R.madeLap φ γ o.len) ∧
    ApproximatesImdct R o.imdct o.len o.scratchLen (Spec.imdct o.len v) (√o.len * M * R.madeLap φ γ o.len) ∧
    (Spec.Symmetric o.len v → Spec.PrincenBradley o.len c v →
      ReconstructsNearly R o o.len (c * o.len / 2) (o.len * M ^ 2 * R.overlap (R.madeLap φ γ o.len))) := by
  have fin : ∀ {η : ℝ}, 0 ≤ η → η ≤ R.madeLap φ γ o.len →
      (ApproximatesMdct R o.mdct o.len o.scratchLen (fun a b => Spec.mdct o.len v (a ++ b)) (√o.len * M * η) ∧
        ApproximatesImdct R o.imdct o.len o.scratchLen (Spec.imdct o.len v) (√o.len * M * η) ∧
        (Spec.Symmetric o.len v → Spec.PrincenBradley o.len c v → ReconstructsNearly R o o.len (c * o.len / 2) (o.len * M ^ 2 * R.overlap η))) →
      ApproximatesMdct R o.mdct o.len o.scratchLen (fun a b => Spec.mdct o.len v (a ++ b)) (√o.len * M * R.madeLap φ γ o.len) ∧
      ApproximatesImdct R o.imdct o.len o.scratchLen (Spec.imdct o.len v) (√o.len * M * R.madeLap φ γ o.len) ∧
      (Spec.Symmetric o.len v → Spec.PrincenBradley o.len c v →
        ReconstructsNearly R o o.len (c * o.len / 2) (o.len * M ^ 2 * R.overlap (R.madeLap φ γ o.len))) := fun {η} h0 hη h =>
    have hM := hw.2.2.1
    have hK : 0 ≤ √(o.len : ℝ) * M := mul_nonneg (sqrt_nonneg _) hM
    ⟨h.1.mono (mul_le_mul_of_nonneg_left hη hK), h.2.1.mono (mul_le_mul_of_nonneg_left hη hK),
      fun a b => (h.2.2 a b).mono (mul_le_mul_of_nonneg_left (R.overlap_mono h0 hη) (by positivity))⟩
  cases h with
  | @naive n w x h =>
    obtain ⟨he, hlen, rfl⟩ := MdctNaive.new_tab h
    have hl : (MdctNaive.toObj (⟨vec (4 * n) (MdctNaive.tab n), w (2 * n)⟩ : MdctNaive T)).len = n := by
      change (vec (4 * n) (MdctNaive.tab n : ℕ → T)).length / 4 = n
      rw [length_vec]; omega
    refine fin (R.lapNaive_nonneg _ hw.2.1) (le_max_left _ _) ?_
    rw [hl] at hn ⊢
    rw [Nat.mul_comm n 2] at hw
    have hv : v.length = 2 * n := by rw [← hw.1]; exact hlen
    have hW := vec_getD' (0 : T) hlen
    have a : Nonempty (MdctAcc R (MdctNaive.toObj ⟨vec (4 * n) (MdctNaive.tab n), w (2 * n)⟩) n (fun i => v.getD i 0) (√n * M) (R.lapNaive n γ)) := by
      rw [hW]
      exact MdctNaive.acc he hn hw.2.2.1 hw.2.1 fun j hj => hw.ap (by omega)
    obtain ⟨a⟩ := a
    exact a.all hl hn he (R.lapNaive_nonneg _ hw.2.1) hw hv
  | @viaDct4 inner w x hi h =>
    obtain ⟨he, hlen, rfl⟩ := MdctViaDct4.new_shape h
    have hn' : 1 ≤ inner.len := hn
    refine fin (R.lap_nonneg hw.2.1 (R.made_nonneg φ .dct4 inner.len)) (le_max_right _ _) ?_
    rw [Nat.mul_comm inner.len 2] at hw
    exact (C67_mdct h hn' (R.made_nonneg φ .dct4 inner.len) ((hi.acc hφ hn').1.weak.accurateAs hn' (by simp)) hw).2

end

/-! The hypotheses can be met, in `f32` (`Flx 24`) with the defining sum as FFT. -/

theorem sumFft_f32 (n : ℕ) : FftAccurate (Flx.rounding 24) (sumFft n : Fft (Flx 24)) ((Flx.rounding 24).sumErr n) := (sumFft_plan (Flx.rounding 24) n).2.2
theorem sumErr_nonneg (n : ℕ) : 0 ≤ (Flx.rounding 24).sumErr n := (sumFft_plan (Flx.rounding 24) n).2.1

/-- A split radix DCT2 of 32 points from a naive instance of 16 points and an FFT-based instance of 8 points: no planner makes it. -/
example : ∃ (a : Type2And3Naive (Flx 24)) (b : Type2And3ConvertToFft (Flx 24)) (x : Type2And3SplitRadix (Flx 24)),
    Type2And3Naive.new 16 = .ok a ∧ Type2And3ConvertToFft.new (sumFft 8) = .ok b ∧ Type2And3SplitRadix.new a.toObj b.toObj = .ok x ∧
    Approximates (Flx.rounding 24) x.dct2 32 x.scratchLen Spec.dct2 (√2 * (Flx.rounding 24).made23 ((Flx.rounding 24).sumErr 8) 32) := by
  have hb := Type2And3ConvertToFft.new_eq (fft := (sumFft 8 : Fft (Flx 24))) (sumFft_f32 8).1
  have hx := Type2And3SplitRadix.new_eq (q := 8) (half := (Type2And3Naive.toObj (⟨vec (16 * 4) (Type2And3Naive.tab 16)⟩ : Type2And3Naive (Flx 24))))
    (quarter := (Type2And3ConvertToFft.inst (sumFft 8 : Fft (Flx 24))).toObj) (by change (vec _ _).length / 4 = _; simp) (Type2And3ConvertToFft.len_inst _) (by rfl)
  refine ⟨_, _, _, Type2And3Naive.new_tab, hb, hx, ?_⟩
  have m := Made23.splitRadix (okFft := fun f => FftAccurate (Flx.rounding 24) f ((Flx.rounding 24).sumErr 8)) (.naive Type2And3Naive.new_tab) (.fft (sumFft_f32 8) hb)
    (by change (vec _ _).length / 4 ≤ ((vec _ _).length / 4) * 2; simp) (by change 2 * (8 + 0) ≤ ((vec _ _).length / 4) * 2; simp) hx
  have hl : (Type2And3SplitRadix.inst 8 (Type2And3Naive.toObj (⟨vec (16 * 4) (Type2And3Naive.tab 16)⟩ : Type2And3Naive (Flx 24)))
    (Type2And3ConvertToFft.inst (sumFft 8 : Fft (Flx 24))).toObj).toObj.len = 32 := Type2And3SplitRadix.inst_len _ _ _
  have := (C67_constructed (sumErr_nonneg 8) (.dct2 m) (by rw [hl]; norm_num)).2 id
  rw [hl] at this
  exact this

/-- `MdctNaive` of 12 points with the sine window. -/
example : ∃ x : MdctNaive (Flx 24), MdctNaive.new 12 WindowFn.mp3 = .ok x ∧
    ReconstructsNearly (Flx.rounding 24) x.toObj 12 (1 * (12 : ℕ) / 2) ((12 : ℕ) * 1 ^ 2 * (Flx.rounding 24).overlap ((Flx.rounding 24).madeLap 0 (Flx.rounding 24).tau 12)) := by
  obtain ⟨x, hx⟩ : ∃ x : MdctNaive (Flx 24), MdctNaive.new 12 WindowFn.mp3 = .ok x :=
    ((C37_mdct 12 (⟨12, 0, fun m => .ok m, fun m => .ok m⟩ : Obj4 (Flx 24)) WindowFn.mp3).1).1 ⟨by decide, by simp [WindowFn.mp3]⟩
  refine ⟨x, hx, ?_⟩
  have hl : x.toObj.len = 12 := by
    obtain ⟨-, -, rfl⟩ := MdctNaive.new_tab hx
    change (vec _ _).length / 4 = 12
    rw [length_vec]
  have w := (C24_windows (n := 12) (by norm_num)).1
  rw [(C24_values (2 * 12)).1] at w
  have := (C67_mdct_constructed (c := 1) (le_refl (0 : ℝ)) (.naive hx) (by rw [hl]; norm_num) (C56_windows (Flx.rounding 24) (len := 24) (by norm_num)).1).2.2
  rw [hl] at this
  exact this w.1 w.2

/-- An MDCT of 32 points over a type 4 instance over a split radix instance over butterflies, each layer by the theorem about it. -/
example : ∃ (x : Type2And3SplitRadix (Flx 24)) (y : Type4ConvertToType3Even (Flx 24)) (z : MdctViaDct4 (Flx 24)),
    Type2And3SplitRadix.new (Type2And3Butterfly8.new (T := Flx 24)).toObj (Type2And3Butterfly4.new (T := Flx 24)).toObj = .ok x ∧
    Type4ConvertToType3Even.new x.toObj = .ok y ∧ MdctViaDct4.new y.toObj WindowFn.one = .ok z ∧
    ApproximatesMdct (Flx.rounding 24) z.mdct 32 z.scratchLen (fun a b => Spec.mdct 32 (Spec.flatWindow 64) (a ++ b))
      (√(32 : ℕ) * 1 * (Flx.rounding 24).lap 0 ((Flx.rounding 24).even4 ((1 + (Flx.rounding 24).made23 0 8) * (Flx.rounding 24).step - 1))) := by
  have R := Flx.rounding 24
  have h0 := (Flx.rounding 24).made23_nonneg 0 8
  have hx := Type2And3SplitRadix.new_eq (q := 4) (half := (Type2And3Butterfly8.new (T := Flx 24)).toObj) (quarter := (Type2And3Butterfly4.new (T := Flx 24)).toObj) rfl rfl (by rfl)
  have mono : ∀ {k : Kind} {p : Proc (Flx 24)}, k ≠ .dct1 → AccurateAs (Flx.rounding 24) k p 4 0 ((Flx.rounding 24).made23 0 4) → AccurateAs (Flx.rounding 24) k p 4 0 ((Flx.rounding 24).made23 0 8) :=
    fun hk h => by
      obtain ⟨G, hG, hc⟩ := h
      exact ⟨G, hG, fun l hl => ⟨(hc l hl).1, (hc l hl).2.trans (mul_le_mul_of_nonneg_right ((Flx.rounding 24).made23_mono 0 (by norm_num)) (sqrt_nonneg _))⟩⟩
  have a := C67_splitRadix hx h0 (C67_constructed_contract (le_refl 0) (.dct2 .butterfly8) (by decide) id) (C67_constructed_contract (le_refl 0) (.dct3 .butterfly8 (by decide)) (by decide) id)
    (mono (by simp) (C67_constructed_contract (le_refl 0) (.dct2 .butterfly4) (by decide) id)) (mono (by simp) (C67_constructed_contract (le_refl 0) (.dct3 .butterfly4 (by decide)) (by decide) id))
    (Nat.zero_le _) (Nat.zero_le _)
  have hs0 : 0 ≤ (1 + (Flx.rounding 24).made23 0 8) * (Flx.rounding 24).step - 1 := by
    linarith [one_le_mul_of_one_le_of_one_le (show 1 ≤ 1 + (Flx.rounding 24).made23 0 8 by linarith) (Flx.rounding 24).one_le_step]
  have lx : (Type2And3SplitRadix.inst 4 (Type2And3Butterfly8.new (T := Flx 24)).toObj (Type2And3Butterfly4.new (T := Flx 24)).toObj).len = 16 := Type2And3SplitRadix.inst_len _ _ _
  have hy := Type4ConvertToType3Even.new_eq (inner := (Type2And3SplitRadix.inst 4 (Type2And3Butterfly8.new (T := Flx 24)).toObj (Type2And3Butterfly4.new (T := Flx 24)).toObj).toObj) rfl
  have b := C67_type4 hy (by change 1 ≤ Type2And3SplitRadix.len _; rw [lx]; norm_num) hs0 a.2.2.1 a.2.2.2.2
  have ly := b.1.trans (congrArg (2 * ·) lx)
  obtain ⟨z, hz⟩ := ((C37_mdct 0 (Type4ConvertToType3Even.inst _ (Type2And3SplitRadix.inst 4 (Type2And3Butterfly8.new (T := Flx 24)).toObj (Type2And3Butterfly4.new (T := Flx 24)).toObj).toObj).toObj
    (WindowFn.one : ℕ → List (Flx 24))).2).1 ⟨by rw [show (Type4ConvertToType3Even.toObj _).len = 32 from ly]; decide, by simp [WindowFn.one]⟩
  refine ⟨_, _, z, hx, hy, hz, ?_⟩
  have c := (C67_mdct (c := 0) hz (by rw [show (Type4ConvertToType3Even.toObj _).len = 32 from ly]; decide) ((Flx.rounding 24).even4_nonneg hs0) b.2.1 (C56_windows (Flx.rounding 24) (by rw [show (Type4ConvertToType3Even.toObj _).len = 32 from ly]; decide)).2.2.2.2.1).2.1
  rw [show (Type4ConvertToType3Even.toObj _).len = 32 from ly] at c
  exact c

end RustDct
