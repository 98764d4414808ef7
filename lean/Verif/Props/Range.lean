import Verif.Range.SumFft
import Verif.Props.Accuracy
/-!
# C60: no infinities and no NaN for inputs within a stated range

In the model of IEEE arithmetic of `Verif/Range.lean`: bounded exponents, overflow, gradual underflow, infinities and NaN.  The statements
say how large inputs may be for all results to be finite, and bound the error of every output, down to the smallest inputs.
-/

set_option linter.all false

namespace RustDct
open Finset Real

section
variable {T F : Type} [F64 F] [DctNum T F] {R : Ieee T F} {r : ℕ}
variable {planFft : ℕ → Fft T} {γ μ : ℕ → ℕ} {calls : List (PlanCall T)} {k : Kind} {p : Proc T} {n s : ℕ}

/-- The instances that do not read scratch: any scratch will do, even one full of NaN. -/
theorem C60_planned (hr : R.Twiddles r) (hf : PlanFftRange R planFft γ μ) (h : Planned planFft calls k p n s) (hn : 1 ≤ n) (hn' : n ≤ 2 ^ 60)
    (hk : ¬ k.leakyAt n) : StaysFinite R p n s k.spec (k.gain γ n) (k.units r μ n) :=
  ((h.rel hr hf hn hn').2 hk).staysFinite

/-- All instances, on zeroed scratch. -/
theorem C60_planned_zeroed (hr : R.Twiddles r) (hf : PlanFftRange R planFft γ μ) (h : Planned planFft calls k p n s) (hn : 1 ≤ n)
    (hn' : n ≤ 2 ^ 60) : StaysFiniteZeroed R p n s k.spec (k.gain γ n) (k.units r μ n) :=
  (h.rel hr hf hn hn').1.staysFinite

/-! ### Powers of two: whatever the FFT library does -/

theorem canon23_dyadic (hr : R.Twiddles r) {j N : ℕ} (hf : PlanFftShape planFft) (hN : 2 ^ j = N) (hJ : N ≤ 2 ^ 60) {o : Obj23 T} (ho : canon23 planFft N = .ok o) (hj : 1 ≤ j) :
    Rel23 R N o (2 ^ (j + j / 2)) ((r + 4) * (j / 2 + 1)) := by
  obtain ⟨i, rfl⟩ : ∃ i, j = i + 1 := ⟨j - 1, by omega⟩
  obtain ⟨o', ho', ha⟩ := canon23_pow2_rel hr hf i (by rw [hN]; exact hJ)
  rw [hN, ho] at ho'
  injection ho' with ho'
  subst ho'
  rw [hN] at ha
  refine ha.mono (Nat.pow_le_pow_right (by norm_num) (by omega)) ?_
  rcases Nat.even_or_odd' i with ⟨m, rfl | rfl⟩
  · rw [show 2 * m / 2 = m by omega, show 2 * m % 2 = 0 by omega, show (2 * m + 1) / 2 = m by omega]
    omega
  · rw [show (2 * m + 1) / 2 = m by omega, show (2 * m + 1) % 2 = 1 by omega, show (2 * m + 1 + 1) / 2 = m + 1 by omega]
    nlinarith

theorem canon4_dyadic (hr : R.Twiddles r) {j N : ℕ} (hf : PlanFftShape planFft) (hN : 2 ^ j = N) (hJ : N ≤ 2 ^ 60) {o : Obj4 T} (ho : canon4 planFft N = .ok o) (hj : 3 ≤ j) :
    PRel R .dct4 o.dct4 N o.scratchLen (2 ^ (j + j / 2)) ((r + 4) * (j / 2 + 1)) ∧ PRel R .dst4 o.dst4 N o.scratchLen (2 ^ (j + j / 2)) ((r + 4) * (j / 2 + 1)) := by
  obtain ⟨i, rfl⟩ : ∃ i, j = i + 2 := ⟨j - 2, by omega⟩
  have h2 : N % 2 = 0 := by rw [← hN, pow_succ]; omega
  have h8 : 2 ^ 3 ≤ N := by rw [← hN]; exact Nat.pow_le_pow_right (by norm_num) hj
  have hh : N / 2 = 2 ^ (i + 1) := by rw [← hN, pow_succ]; omega
  unfold canon4 at ho
  rw [if_pos h2, if_neg (by omega)] at ho
  obtain ⟨o', ho', ha⟩ := canon23_pow2_rel hr hf i (by rw [← hh]; omega)
  rw [hh, ho'] at ho
  have ho'' : (Type4ConvertToType3Even.new o').map Type4ConvertToType3Even.toObj = .ok o := ho
  obtain ⟨i', e, -, hl⟩ := canon23_made hf (2 ^ (i + 1))
  rw [ho'] at e
  injection e with e
  subst e
  rw [Type4ConvertToType3Even.new_eq hl] at ho''
  injection ho'' with ho''
  subst ho''
  have a := Type4ConvertToType3Even.rel_dct4 hr (Nat.one_le_two_pow) (by rw [← hh]; omega) ha.dct3.weak ha.dst3.weak
  have b := Type4ConvertToType3Even.rel_dst4 hr (Nat.one_le_two_pow) (by rw [← hh]; omega) ha.dct3.weak ha.dst3.weak
  rw [show 2 * 2 ^ (i + 1) = N by rw [← hN]; ring] at a b
  have g1 : 4 * 2 ^ (i + 1 + i / 2) ≤ 2 ^ (i + 2 + (i + 2) / 2) := by
    rw [show (4 : ℕ) = 2 ^ 2 by norm_num, ← pow_add]
    exact Nat.pow_le_pow_right (by norm_num) (by omega)
  have g2 : (r + 4) * (i / 2 + 1) + i % 2 + r + 3 ≤ (r + 4) * ((i + 2) / 2 + 1) := by
    rw [show (i + 2) / 2 = i / 2 + 1 by omega]
    have : i % 2 < 2 := Nat.mod_lt _ (by norm_num)
    nlinarith
  exact ⟨a.mono g1 g2, b.mono g1 g2⟩

theorem Planned.rel_dyadic (hr : R.Twiddles r) {j : ℕ} (hf : PlanFftShape planFft) (h : Planned planFft calls k p (2 ^ j) s) (hk : k.dyadic j) (hj : j ≤ 60) :
    PRel R k p (2 ^ j) s (2 ^ (j + j / 2)) ((r + 4) * (j / 2 + 1)) := by
  have hJ : 2 ^ j ≤ 2 ^ 60 := Nat.pow_le_pow_right (by norm_num) hj
  generalize hN : 2 ^ j = N at h hJ ⊢
  cases h with
  | dct2 h => exact (canon23_dyadic hr hf hN hJ (Yields.canon (fun W => planDct2_yields N) h) hk).dct2
  | dct3 h _ => exact (canon23_dyadic hr hf hN hJ (Yields.canon (fun W => planDct2_yields N) h) hk).dct3
  | dst2 h => exact (canon23_dyadic hr hf hN hJ (Yields.canon (fun W => planDct2_yields N) h) hk).dst2
  | dst3 h _ => exact (canon23_dyadic hr hf hN hJ (Yields.canon (fun W => planDct2_yields N) h) hk).dst3
  | dct4 h _ => exact (canon4_dyadic hr hf hN hJ (Yields.canon (fun W => planDct4_yields N) h) hk).1
  | dst4 h _ => exact (canon4_dyadic hr hf hN hJ (Yields.canon (fun W => planDct4_yields N) h) hk).2
  | _ => exact absurd hk id

/-- Transforms of type 2, 3 and 4 whose length is a power of two: the gain is at most `n √n`, the number of roundings logarithmic. -/
theorem C60_dyadic (hr : R.Twiddles r) (hf : PlanFftShape planFft) {j : ℕ} (h : Planned planFft calls k p (2 ^ j) s) (hk : k.dyadic j) (hj : j ≤ 60) :
    StaysFinite R p (2 ^ j) s k.spec (2 ^ (j + j / 2)) ((r + 4) * (j / 2 + 1)) :=
  (h.rel_dyadic hr hf hk hj).staysFinite

theorem Ieee.Near.mono {δ δ' : ℝ} {y : List T} {z : List ℝ} (h : R.Near δ y z) (hd : δ ≤ δ') : R.Near δ' y z :=
  ⟨h.1, fun p hp => ⟨(h.2 p hp).1, (h.2 p hp).2.trans hd⟩⟩

theorem one_add_pow_le {x : ℝ} (hx : 0 ≤ x) {n N : ℕ} (hn : n ≤ N) (h : N * x ≤ 1) : (1 + x) ^ n ≤ 1 + 2 * (N * x) := by
  have h0 : 0 ≤ N * x := by positivity
  calc (1 + x) ^ n ≤ (1 + x) ^ N := pow_le_pow_right₀ (by linarith) hn
    _ ≤ exp x ^ N := pow_le_pow_left₀ (by linarith) (by linarith [add_one_le_exp x]) N
    _ = exp (N * x) := by rw [← exp_nat_mul]
    _ ≤ 1 + 2 * (N * x) := by
      have := abs_exp_sub_one_le (x := N * x) (by rw [abs_of_nonneg h0]; exact h)
      rw [abs_of_nonneg h0, abs_of_nonneg (by linarith [one_le_exp h0])] at this
      linarith

theorem Fp.b32_max : (2 : ℝ) ^ 127 ≤ b32.max := by
  unfold Format.max b32
  norm_num

/-- In `f32`, for lengths up to `2^30`: inputs of magnitude up to `2^80` (a number with 25 digits) give finite results, and each of them
is off by at most `2⁻¹⁶` of the largest value the computation could reach. -/
theorem C60_f32 {planFft : ℕ → Fft (Fp b32)} {calls : List (PlanCall (Fp b32))} {p : Proc (Fp b32)} (hf : PlanFftShape planFft) {j : ℕ}
    (h : Planned planFft calls k p (2 ^ j) s) (hk : k.dyadic j) (hj : j ≤ 30) {B : ℝ} (hB : b32.min ≤ B) (hB' : B ≤ 2 ^ 80) :
    (∀ m, ValidCall (2 ^ j) s m → (Fp.ieee b32).Bounded B m.buf → ∃ m', p m = .ok m' ∧
      (Fp.ieee b32).Near (2 ^ (j + j / 2) * B / 2 ^ 16) m'.buf (k.spec (m.buf.map Fp.val))) ∧
    ∀ buf, buf.length = 2 ^ j → (Fp.ieee b32).Bounded B buf → ∃ out, processDefault s p buf = .ok out ∧
      (Fp.ieee b32).Near (2 ^ (j + j / 2) * B / 2 ^ 16) out (k.spec (buf.map Fp.val)) := by
  have h0 : 0 < B := b32.min_pos.trans_le hB
  have hu : (1 + (Fp.ieee b32).u) ^ ((2 + 4) * (j / 2 + 1)) ≤ 1 + 1 / 2 ^ 16 := by
    refine (one_add_pow_le (Fp.ieee b32).u_nonneg (N := 96) (by omega) ?_).trans ?_
    · change ((96 : ℕ) : ℝ) * (1 / 2) ^ 24 ≤ 1; norm_num
    · change 1 + 2 * (((96 : ℕ) : ℝ) * (1 / 2) ^ 24) ≤ _; norm_num
  have hg : ((2 ^ (j + j / 2) : ℕ) : ℝ) = 2 ^ (j + j / 2) := by push_cast; rfl
  have hg0 : (0 : ℝ) < 2 ^ (j + j / 2) := by positivity
  have hg1 : (2 : ℝ) ^ (j + j / 2) ≤ 2 ^ 45 := pow_le_pow_right₀ (by norm_num) (by omega)
  have key := C60_dyadic Fp.twiddles32 hf h hk (by omega) B hB (by
    refine le_trans ?_ Fp.b32_max
    rw [hg]
    calc (2 : ℝ) ^ (j + j / 2) * B * (1 + (Fp.ieee b32).u) ^ ((2 + 4) * (j / 2 + 1)) ≤ 2 ^ 45 * 2 ^ 80 * (1 + 1 / 2 ^ 16) :=
          mul_le_mul (mul_le_mul hg1 hB' h0.le (by positivity)) hu (pow_nonneg (by linarith [(Fp.ieee b32).u_nonneg]) _) (by positivity)
      _ ≤ 2 ^ 127 := by norm_num)
  rw [hg] at key
  have hd : ((1 + (Fp.ieee b32).u) ^ ((2 + 4) * (j / 2 + 1)) - 1) * (2 ^ (j + j / 2) * B) ≤ 2 ^ (j + j / 2) * B / 2 ^ 16 := by
    have := mul_le_mul_of_nonneg_right (sub_le_iff_le_add'.2 hu) (show 0 ≤ 2 ^ (j + j / 2) * B by positivity)
    linarith
  exact ⟨fun m hm hb => let ⟨m', e, hm'⟩ := key.1 m hm hb; ⟨m', e, hm'.mono hd⟩, fun b hl hb => let ⟨o, e, ho⟩ := key.2 b hl hb; ⟨o, e, ho.mono hd⟩⟩

/-- In `f64`, for lengths up to `2^30`: inputs of magnitude up to `2^900`, with an error of at most `2⁻⁴¹` of the largest value. -/
theorem C60_f64 {planFft : ℕ → Fft (Fp b64)} {calls : List (PlanCall (Fp b64))} {p : Proc (Fp b64)} (hf : PlanFftShape planFft) {j : ℕ}
    (h : Planned planFft calls k p (2 ^ j) s) (hk : k.dyadic j) (hj : j ≤ 30) {B : ℝ} (hB : b64.min ≤ B) (hB' : B ≤ 2 ^ 900) :
    (∀ m, ValidCall (2 ^ j) s m → (Fp.ieee b64).Bounded B m.buf → ∃ m', p m = .ok m' ∧
      (Fp.ieee b64).Near (2 ^ (j + j / 2) * B / 2 ^ 41) m'.buf (k.spec (m.buf.map Fp.val))) ∧
    ∀ buf, buf.length = 2 ^ j → (Fp.ieee b64).Bounded B buf → ∃ out, processDefault s p buf = .ok out ∧
      (Fp.ieee b64).Near (2 ^ (j + j / 2) * B / 2 ^ 41) out (k.spec (buf.map Fp.val)) := by
  have h0 : 0 < B := b64.min_pos.trans_le hB
  have hu : (1 + (Fp.ieee b64).u) ^ ((64 + 4) * (j / 2 + 1)) ≤ 1 + 1 / 2 ^ 41 := by
    refine (one_add_pow_le (Fp.ieee b64).u_nonneg (N := 1088) (by omega) ?_).trans ?_
    · change ((1088 : ℕ) : ℝ) * (1 / 2) ^ 53 ≤ 1; norm_num
    · change 1 + 2 * (((1088 : ℕ) : ℝ) * (1 / 2) ^ 53) ≤ _; norm_num
  have hg : ((2 ^ (j + j / 2) : ℕ) : ℝ) = 2 ^ (j + j / 2) := by push_cast; rfl
  have hg0 : (0 : ℝ) < 2 ^ (j + j / 2) := by positivity
  have hg1 : (2 : ℝ) ^ (j + j / 2) ≤ 2 ^ 45 := pow_le_pow_right₀ (by norm_num) (by omega)
  have key := C60_dyadic (Fp.twiddles (f := b64) (le_refl _)) hf h hk (by omega) B hB (by
    refine le_trans ?_ Fp.b64_max
    rw [hg]
    calc (2 : ℝ) ^ (j + j / 2) * B * (1 + (Fp.ieee b64).u) ^ ((64 + 4) * (j / 2 + 1)) ≤ 2 ^ 45 * 2 ^ 900 * (1 + 1 / 2 ^ 41) :=
          mul_le_mul (mul_le_mul hg1 hB' h0.le (by positivity)) hu (pow_nonneg (by linarith [(Fp.ieee b64).u_nonneg]) _) (by positivity)
      _ ≤ 2 ^ 900 * 2 ^ 100 := by
        have : (0 : ℝ) < 2 ^ 900 := by positivity
        rw [show (2 : ℝ) ^ 45 * 2 ^ 900 * (1 + 1 / 2 ^ 41) = 2 ^ 900 * (2 ^ 45 * (1 + 1 / 2 ^ 41)) by rw [mul_comm ((2 : ℝ) ^ 45), mul_assoc]]
        exact mul_le_mul_of_nonneg_left (by norm_num) this.le
      _ = 2 ^ 1000 := by rw [← pow_add])
  rw [hg] at key
  have hd : ((1 + (Fp.ieee b64).u) ^ ((64 + 4) * (j / 2 + 1)) - 1) * (2 ^ (j + j / 2) * B) ≤ 2 ^ (j + j / 2) * B / 2 ^ 41 := by
    have := mul_le_mul_of_nonneg_right (sub_le_iff_le_add'.2 hu) (show 0 ≤ 2 ^ (j + j / 2) * B by positivity)
    linarith
  exact ⟨fun m hm hb => let ⟨m', e, hm'⟩ := key.1 m hm hb; ⟨m', e, hm'.mono hd⟩, fun b hl hb => let ⟨o, e, ho⟩ := key.2 b hl hb; ⟨o, e, ho.mono hd⟩⟩

end

/-! ### The range is needed -/

theorem Format.Rep.max (f : Format) : f.Rep f.max := by
  refine ⟨⟨2 ^ f.p - 1, f.E, ?_, ?_, rfl⟩, by rw [abs_of_nonneg (by linarith [f.max_ge])]⟩
  · rw [abs_of_nonneg (by linarith [f.one_le])]; linarith
  · have := f.hq; have := f.hE; omega

theorem Format.round_double_max (f : Format) : roundTo (f.lastBit (f.max + f.max)) (f.max + f.max) = f.max + f.max := by
  have h0 := f.max_ge
  have h1 : f.max + f.max < 2 ^ (f.E + f.p + 1) := by
    have : f.max < (2 : ℝ) ^ (f.E + f.p) := by
      unfold Format.max
      rw [zpow_add₀ (by norm_num), mul_comm, zpow_natCast]
      refine mul_lt_mul_of_pos_left ?_ (by positivity)
      push_cast
      linarith
    rw [zpow_add_one₀ (by norm_num)]
    linarith
  have h2 : Int.log 2 |f.max + f.max| < f.E + f.p + 1 := by
    rw [abs_of_nonneg (by linarith), ← Int.lt_zpow_iff_log_lt (by norm_num) (by linarith)]
    exact_mod_cast h1
  have h3 : f.lastBit (f.max + f.max) ≤ f.E + 1 := by
    have := f.hq; have := f.hE
    unfold Format.lastBit
    omega
  obtain ⟨d, hd⟩ : ∃ d : ℕ, f.E + 1 = f.lastBit (f.max + f.max) + d := ⟨(f.E + 1 - f.lastBit (f.max + f.max)).toNat, by omega⟩
  refine roundTo_exact ((2 ^ f.p - 1) * 2 ^ d) ?_
  have e : f.max + f.max = ((2 ^ f.p - 1 : ℤ) : ℝ) * 2 ^ (f.E + 1) := by
    unfold Format.max
    rw [zpow_add_one₀ (by norm_num)]
    ring
  conv_lhs => rw [e]
  rw [hd, zpow_add₀ (by norm_num), zpow_natCast]
  push_cast
  ring

/-- Finite inputs can overflow: the DCT2 of two copies of the largest finite number begins with an infinity. -/
theorem C60_overflow {f : Format} {planFft : ℕ → Fft (Fp f)} {calls : List (PlanCall (Fp f))} {p : Proc (Fp f)} {s : ℕ} (hf : PlanFftShape planFft)
    (h : Planned planFft calls .dct2 p 2 s) : ∃ y, processDefault s p [Fp.num f.max (Format.Rep.max f) f.max_ne, Fp.num f.max (Format.Rep.max f) f.max_ne] = .ok [Fp.inf false, y] := by
  cases h with
  | dct2 h =>
    have e := Yields.canon (fun W => planDct2_yields 2) h
    have e2 : canon23 planFft 2 = .ok (Type2And3Butterfly2.new : Type2And3Butterfly2 (Fp f)).toObj := by
      rw [canon23]; rfl
    rw [e2] at e
    injection e with e
    rw [← e]
    have hn : (Fp.num f.max (Format.Rep.max f) f.max_ne + Fp.num f.max (Format.Rep.max f) f.max_ne : Fp f) = Fp.inf false := by
      change Fp.rnd f _ (f.max + f.max) = _
      have h0 := f.max_ge
      have : ¬ |f.max + f.max| ≤ f.max := by rw [abs_of_nonneg (by linarith)]; linarith
      unfold Fp.rnd
      rw [dif_neg (fun h => this (by rw [f.round_double_max] at h; exact h.2)), decide_eq_false (by linarith)]
    refine ⟨((Fp.num f.max (Format.Rep.max f) f.max_ne : Fp f) - Fp.num f.max (Format.Rep.max f) f.max_ne) * DctNum.fracSqrt2, ?_⟩
    rw [← hn]
    rfl

/-! The hypotheses can be met: IEEE `f32` and `f64` with the defining sum as FFT. -/

theorem sumFft_fpShape (f : Format) (hf : f.p ≤ 53) : PlanFftShape (fun n => (sumFft n : Fft (Fp f))) := (sumFft_planRange (Fp.twiddles hf)).shape

/-- Every kind of transform of 60 points in `f64`, with the defining sum as the FFT. -/
example (calls : List (PlanCall (Fp b64))) (k : Kind) : ∃ p s, Planned (fun n => (sumFft n : Fft (Fp b64))) calls k p 60 s ∧
    StaysFiniteZeroed (Fp.ieee b64) p 60 s k.spec (k.gain (fun n => 2 * n + 1) 60) (k.units 64 (fun n => n + 64 + 2) 60) :=
  let ⟨p, s, h⟩ := planned_exists (sumFft_fpShape b64 (le_refl _)) calls k (n := 60) (by norm_num)
  ⟨p, s, h, C60_planned_zeroed (Fp.twiddles (le_refl _)) (sumFft_planRange (Fp.twiddles (le_refl _))) h (by norm_num) (by norm_num)⟩

/-- A DCT4 of 17 points in `f32` on any scratch: the gain is 70. -/
example (calls : List (PlanCall (Fp b32))) : ∃ p s, Planned (fun n => (sumFft n : Fft (Fp b32))) calls .dct4 p 17 s ∧
    StaysFinite (Fp.ieee b32) p 17 s Spec.dct4 70 27 :=
  let ⟨p, s, h⟩ := planned_exists (sumFft_fpShape b32 (by norm_num [b32])) calls .dct4 (n := 17) (by norm_num)
  ⟨p, s, h, by
    have := C60_planned Fp.twiddles32 (sumFft_planRange Fp.twiddles32) h (by norm_num) (by norm_num) id
    simpa [Kind.spec, Kind.gain, Kind.units, gain4, units4] using this⟩

/-- A DCT2 of 1024 ones in `f32`: finite, whatever the scratch holds. -/
example (calls : List (PlanCall (Fp b32))) : ∃ p s, Planned (fun n => (sumFft n : Fft (Fp b32))) calls .dct2 p (2 ^ 10) s ∧
    ∃ m', p ⟨List.replicate (2 ^ 10) 1, List.replicate s Fp.nan⟩ = .ok m' ∧ ∀ x ∈ m'.buf, Fp.Fin x := by
  obtain ⟨p, s, h⟩ := planned_exists (sumFft_fpShape b32 (by norm_num [b32])) calls .dct2 (n := 2 ^ 10) (by norm_num)
  obtain ⟨m', e, hl, hm⟩ := (C60_f32 (sumFft_fpShape b32 (by norm_num [b32])) h (by norm_num [Kind.dyadic]) (by norm_num) (B := 1) b32.min_le (by norm_num)).1
    ⟨List.replicate (2 ^ 10) 1, List.replicate s Fp.nan⟩ ⟨List.length_replicate, le_of_eq List.length_replicate.symm⟩
    (fun x hx => by
      obtain rfl := (List.mem_replicate.1 hx).2
      refine ⟨(Fp.ieee b32).one.1, ?_⟩
      rw [(Fp.ieee b32).one.2]; norm_num)
  refine ⟨p, s, h, m', e, fun x hx => ?_⟩
  obtain ⟨i, hi, rfl⟩ := List.getElem_of_mem hx
  exact (hm _ (List.mem_iff_getElem.2 ⟨i, by rw [List.length_zip, ← hl]; omega, List.getElem_zip⟩)).1

end RustDct
