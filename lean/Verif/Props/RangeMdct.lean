import Verif.Range.Window
import Verif.Props.Range
import Verif.Props.MdctAccuracy
/-!
# C61: no infinities and no NaN in MDCT, IMDCT and overlapped reconstruction

In the model of IEEE arithmetic of `Verif/Range.lean`.  `v` is the window meant, with entries of at most 1; those of the window function
passed to the planner are as accurate as the result of `l` operations (C61_windows has this of the built-in windows).
-/

set_option linter.all false

namespace RustDct
open Finset Real

section
variable {T F : Type} [F64 F] [DctNum T F] {R : Ieee T F} {r l : ℕ}
variable {planFft : ℕ → Fft T} {γ μ : ℕ → ℕ} {calls : List (PlanCall T)} {n : ℕ} {w : ℕ → List T} {o : MdctObj T} {v : List ℝ}

theorem PlannedMdct.rel_of (hf : PlanFftShape planFft) (h : PlannedMdct planFft calls n w o) (hn : 1 ≤ n)
    (hw : R.WindowNear (effectiveWindow n calls w (2 * n)) v l) {G d : ℕ} (hD : ∀ i, canon4 planFft n = .ok i → PRel R .dct4 i.dct4 n i.scratchLen G d) :
    o.len = n ∧ n % 2 = 0 ∧ v.length = 2 * n ∧ Nonempty (MdctRel R o n (fun i => v.getD i 0) G d l) := by
  have hc := h.canon hf
  generalize effectiveWindow n calls w = W at hw hc
  by_cases hd : n % 2 = 0 ∧ (W (2 * n)).length = 2 * n
  swap
  · rw [canonMdct_err hf hd] at hc; cases hc
  obtain ⟨g, rfl⟩ : ∃ g, n = 2 * g := ⟨n / 2, by omega⟩
  obtain ⟨o', ho', -, hl⟩ := canonMdct_ok hf hd.1 hd.2
  rw [hc] at ho'; injection ho' with ho'; subst ho'
  have hv : v.length = 2 * (2 * g) := by rw [← hw.1]; exact hd.2
  refine ⟨hl, hd.1, hv, ?_⟩
  obtain ⟨i, h1, h2, h3⟩ := canon4_made hf (2 * g)
  have a := hD i h1
  unfold canonMdct at hc
  rw [h1] at hc
  have hc' : (MdctViaDct4.new i W).map MdctViaDct4.toObj = .ok o := hc
  have hW : W (2 * g * 2) = vec (4 * g) (fun j => (W (2 * (2 * g))).getD j 0) := by
    rw [show 2 * g * 2 = 2 * (2 * g) by ring]
    have e : (W (2 * (2 * g))).length = 4 * g := by rw [hd.2]; ring
    obtain ⟨f, hf⟩ := exists_vec e
    rw [hf]
    exact vec_congr fun j hj => (getD_vec hj).symm
  rw [MdctViaDct4.new_eq h3 hW] at hc'
  injection hc' with hc'
  subst hc'
  exact MdctViaDct4.rel (by omega) (fun j hj => hw.tw (by omega)) h3 a.weak

theorem gain4_pos (hf : PlanFftRange R planFft γ μ) (n : ℕ) : 1 ≤ gain4 γ n := by
  have h23 : ∀ m, 1 ≤ gain23 γ m := by
    intro m
    unfold gain23
    split_ifs with h1 h2
    · norm_num
    · exact Nat.mul_pos (by omega) (by positivity)
    · have := (hf m).2.2.1; omega
  unfold gain4
  split_ifs
  · omega
  · have := h23 (n / 2); omega
  · omega
  · have := (hf n).2.2.1; omega

/-! ### MDCT and IMDCT -/

theorem C61_mdct (hr : R.Twiddles r) (hf : PlanFftRange R planFft γ μ) (h : PlannedMdct planFft calls n w o) (hn : 1 ≤ n) (hn' : n ≤ 2 ^ 60)
    (hw : R.WindowNear (effectiveWindow n calls w (2 * n)) v l) :
    o.len = n ∧ StaysFiniteMdct R o.mdct n o.scratchLen (fun a b => Spec.mdct n v (a ++ b)) (2 * gain4 γ n) (units4 r μ n + l + 2) := by
  obtain ⟨hl, -, hv, ⟨a⟩⟩ := h.rel_of hf.shape hn hw fun i hi => (canon4_rel hr hf hn hn' hi).1
  have := a.mdct
  rw [← hv, vec_getD] at this
  exact ⟨hl, this⟩

theorem C61_imdct (hr : R.Twiddles r) (hf : PlanFftRange R planFft γ μ) (h : PlannedMdct planFft calls n w o) (hn : 1 ≤ n) (hn' : n ≤ 2 ^ 60)
    (hw : R.WindowNear (effectiveWindow n calls w (2 * n)) v l) :
    o.len = n ∧ StaysFiniteImdct R o.imdct n o.scratchLen (Spec.imdct n v) (gain4 γ n + 1) (units4 r μ n + l + 2) := by
  obtain ⟨hl, -, hv, ⟨a⟩⟩ := h.rel_of hf.shape hn hw fun i hi => (canon4_rel hr hf hn hn' hi).1
  have := a.imdct
  rw [← hv, vec_getD] at this
  exact ⟨hl, this⟩

/-! ### The built-in windows -/

theorem C61_windows (hl : R.Windows l) {len : ℕ} (h4 : 4 ≤ len) (h64 : len < 2 ^ 64) :
    R.WindowNear (WindowFn.mp3 len) (Spec.sineWindow len) l ∧
    R.WindowNear (WindowFn.mp3Invertible len) ((Spec.sineWindow len).map (√(4 / len) * ·)) l ∧
    R.WindowNear (WindowFn.vorbis len) (Spec.vorbisWindow len) l ∧
    R.WindowNear (WindowFn.vorbisInvertible len) ((Spec.vorbisWindow len).map (√(4 / len) * ·)) l ∧
    R.WindowNear (WindowFn.one len) (Spec.flatWindow len) l ∧
    R.WindowNear (WindowFn.invertible len) ((Spec.flatWindow len).map (√(2 / len) * ·)) l := Ieee.windows hl h4 h64

/-! ### Overlapping -/

/-- If the window meant is symmetric and satisfies the Princen-Bradley condition, the signal is reconstructed, in finite values. -/
theorem C61_lapped {c : ℝ} (hr : R.Twiddles r) (hf : PlanFftRange R planFft γ μ) (h : PlannedMdct planFft calls n w o) (hn : 1 ≤ n) (hn' : n ≤ 2 ^ 60)
    (hw : R.WindowNear (effectiveWindow n calls w (2 * n)) v l) (hs : Spec.Symmetric n v) (hc : Spec.PrincenBradley n c v) :
    ReconstructsFinite R o n (c * n / 2) (4 * gain4 γ n ^ 2 + 1) (2 * (units4 r μ n + l) + 5) := by
  obtain ⟨hl, -, hv, ⟨a⟩⟩ := h.rel_of hf.shape hn hw fun i hi => (canon4_rel hr hf hn hn' hi).1
  exact a.reconstructs hl hn (gain4_pos hf n) hs.2 hc.2

/-- The built-in windows, each with the factor by which overlapping MDCT and IMDCT of length `n` multiplies the signal. -/
noncomputable def windowGains (T : Type) {F : Type} [F64 F] [DctNum T F] (n : ℕ) : List ((ℕ → List T) × ℝ) :=
  [(WindowFn.mp3, n / 2), (WindowFn.vorbis, n / 2), (WindowFn.one, n), (WindowFn.mp3Invertible, 1), (WindowFn.vorbisInvertible, 1), (WindowFn.invertible, 1)]

theorem windowGains_near (hl : R.Windows l) (hn : 2 ≤ n) (hn' : n ≤ 2 ^ 60) {g : ℝ} (hg : (w, g) ∈ windowGains T n) :
    ∃ v c, R.WindowNear (w (2 * n)) v l ∧ Spec.Symmetric n v ∧ Spec.PrincenBradley n c v ∧ c * n / 2 = g := by
  obtain ⟨w1, w2, w3, w4, w5, w6⟩ := C24_windows (n := n) (by omega)
  obtain ⟨v1, v2, v3, v4, v5, v6⟩ := C24_values (2 * n)
  obtain ⟨a1, a2, a3, a4, a5, a6⟩ := C61_windows hl (len := 2 * n) (by omega) (by omega)
  rw [v1] at w1; rw [v2] at w4; rw [v3] at w2; rw [v4] at w5; rw [v5] at w3; rw [v6] at w6
  have hz : (n : ℝ) ≠ 0 := Nat.cast_ne_zero.2 (by omega)
  have g1 : 2 / (n : ℝ) * n / 2 = 1 := by field_simp
  have g2 : 2 * (n : ℝ) / 2 = n := by ring
  have g3 : 1 * (n : ℝ) / 2 = n / 2 := by ring
  simp only [windowGains, List.mem_cons, Prod.mk.injEq, List.not_mem_nil, or_false] at hg
  rcases hg with ⟨rfl, rfl⟩ | ⟨rfl, rfl⟩ | ⟨rfl, rfl⟩ | ⟨rfl, rfl⟩ | ⟨rfl, rfl⟩ | ⟨rfl, rfl⟩
  · exact ⟨_, _, a1, w1.1, w1.2, g3⟩
  · exact ⟨_, _, a3, w2.1, w2.2, g3⟩
  · exact ⟨_, _, a5, w3.1, w3.2, g2⟩
  · exact ⟨_, _, a2, w4.1, w4.2, g1⟩
  · exact ⟨_, _, a4, w5.1, w5.2, g1⟩
  · exact ⟨_, _, a6, w6.1, w6.2, g1⟩

theorem effectiveWindow_same (hw : ∀ u, .mdct n u ∈ calls → u = w) : effectiveWindow n calls w = w := by
  rcases effectiveWindow_cases n calls w with ⟨-, h2⟩ | ⟨pre, v, post, rfl, -, -, h3⟩
  · exact h2
  · rw [h3]; exact hw v (by simp)

theorem PlannedMdct.even (hf : PlanFftShape planFft) (h : PlannedMdct planFft calls n w o) : n % 2 = 0 := by
  have hc := h.canon hf
  by_contra hn
  rw [canonMdct_err hf (fun h => hn h.1)] at hc
  cases hc

/-- With the built-in windows; the planner must not have been asked for another window for this length (C36). -/
theorem C61_builtin (hr : R.Twiddles r) (hl : R.Windows l) (hf : PlanFftRange R planFft γ μ) (h : PlannedMdct planFft calls n w o) (hn : 1 ≤ n) (hn' : n ≤ 2 ^ 60)
    (hw : ∀ u, .mdct n u ∈ calls → u = w) {g : ℝ} (hg : (w, g) ∈ windowGains T n) :
    ReconstructsFinite R o n g (4 * gain4 γ n ^ 2 + 1) (2 * (units4 r μ n + l) + 5) := by
  have h2 := h.even hf.shape
  obtain ⟨v, c, a, b, d, e⟩ := windowGains_near hl (show 2 ≤ n by omega) hn' hg
  rw [← e]
  exact C61_lapped hr hf h hn hn' (by rwa [effectiveWindow_same hw]) b d

/-- Powers of two, whatever the FFT library does. -/
theorem C61_dyadic (hr : R.Twiddles r) (hl : R.Windows l) (hf : PlanFftShape planFft) {j : ℕ} (h : PlannedMdct planFft calls (2 ^ j) w o) (hj : 3 ≤ j) (hj' : j ≤ 60)
    (hw : ∀ u, .mdct (2 ^ j) u ∈ calls → u = w) {g : ℝ} (hg : (w, g) ∈ windowGains T (2 ^ j)) :
    ReconstructsFinite R o (2 ^ j) g (4 * (2 ^ (j + j / 2)) ^ 2 + 1) (2 * ((r + 4) * (j / 2 + 1) + l) + 5) := by
  have h60 : 2 ^ j ≤ 2 ^ 60 := Nat.pow_le_pow_right (by norm_num) hj'
  have h8 : 2 ^ 3 ≤ 2 ^ j := Nat.pow_le_pow_right (by norm_num) hj
  generalize hN : 2 ^ j = N at *
  obtain ⟨v, c, a, b, d, e⟩ := windowGains_near hl (show 2 ≤ N by omega) h60 hg
  obtain ⟨hl, -, hv, ⟨q⟩⟩ := h.rel_of hf (by omega) (by rwa [effectiveWindow_same hw]) fun i hi => (canon4_dyadic hr hf hN h60 hi hj).1
  rw [← e]
  exact q.reconstructs hl (by omega) Nat.one_le_two_pow b.2 d.2

/-- In `f32`, for block lengths up to `2^20`: samples of magnitude up to `2^60` come out finite, each off by at most `2⁻¹⁵` of the largest
value the computation could reach. -/
theorem C61_f32 {planFft : ℕ → Fft (Fp b32)} {calls : List (PlanCall (Fp b32))} {w : ℕ → List (Fp b32)} {o : MdctObj (Fp b32)} (hf : PlanFftShape planFft) {j : ℕ}
    (h : PlannedMdct planFft calls (2 ^ j) w o) (hj : 3 ≤ j) (hj' : j ≤ 20) (hw : ∀ u, .mdct (2 ^ j) u ∈ calls → u = w) {g : ℝ} (hg : (w, g) ∈ windowGains (Fp b32) (2 ^ j))
    {B : ℝ} (hB : b32.min ≤ B) (hB' : B ≤ 2 ^ 60) {a : List (Fp b32)} {rest : List (List (Fp b32))} {acc : List (Fp b32)} {m : Mem (Fp b32)}
    (hb : ∀ b ∈ a :: rest, b.length = 2 ^ j ∧ (Fp.ieee b32).Bounded B b) (ha : acc.length = 2 ^ j) (hm : m.buf.length = 2 ^ j) (hs : o.scratchLen ≤ m.scr.length) :
    ∃ outs, lapped o a rest acc m = .ok outs ∧ outs.length = (a :: rest).length ∧
      ∀ t y out, t + 2 < (a :: rest).length → (a :: rest)[t + 1]? = some y → outs[t + 1]? = some out →
        (Fp.ieee b32).Near ((4 * (2 ^ (j + j / 2)) ^ 2 + 1) * B / 2 ^ 15) out (y.map fun b => g * Fp.val b) := by
  have h0 : 0 < B := b32.min_pos.trans_le hB
  have hu : (1 + (Fp.ieee b32).u) ^ (2 * ((2 + 4) * (j / 2 + 1) + 2) + 5) ≤ 1 + 1 / 2 ^ 15 := by
    refine (one_add_pow_le (Fp.ieee b32).u_nonneg (N := 141) (by omega) ?_).trans ?_
    · change ((141 : ℕ) : ℝ) * (1 / 2) ^ 24 ≤ 1; norm_num
    · change 1 + 2 * (((141 : ℕ) : ℝ) * (1 / 2) ^ 24) ≤ _; norm_num
  have hg' : ((4 * (2 ^ (j + j / 2)) ^ 2 + 1 : ℕ) : ℝ) = 4 * (2 ^ (j + j / 2)) ^ 2 + 1 := by push_cast; rfl
  have hg1 : (4 * (2 ^ (j + j / 2)) ^ 2 + 1 : ℝ) ≤ 4 * (2 ^ 30) ^ 2 + 1 := by
    have : (2 : ℝ) ^ (j + j / 2) ≤ 2 ^ 30 := pow_le_pow_right₀ (by norm_num) (by omega)
    have := pow_le_pow_left₀ (by positivity) this 2
    linarith only [this]
  have hg0 : (0 : ℝ) < 4 * (2 ^ (j + j / 2)) ^ 2 + 1 := by positivity
  have key := C61_dyadic Fp.twiddles32 Fp.windows32 hf h hj (by omega) hw hg B hB (by
    refine le_trans ?_ Fp.b32_max
    rw [hg']
    calc (4 * (2 ^ (j + j / 2)) ^ 2 + 1 : ℝ) * B * (1 + (Fp.ieee b32).u) ^ (2 * ((2 + 4) * (j / 2 + 1) + 2) + 5) ≤ (4 * (2 ^ 30) ^ 2 + 1) * 2 ^ 60 * (1 + 1 / 2 ^ 15) :=
          mul_le_mul (mul_le_mul hg1 hB' h0.le (by positivity)) hu (pow_nonneg (by linarith only [(Fp.ieee b32).u_nonneg]) _) (by positivity)
      _ ≤ 2 ^ 127 := by norm_num) a rest acc m hb ha hm hs
  rw [hg'] at key
  have hd : ((1 + (Fp.ieee b32).u) ^ (2 * ((2 + 4) * (j / 2 + 1) + 2) + 5) - 1) * ((4 * (2 ^ (j + j / 2)) ^ 2 + 1) * B) ≤ (4 * (2 ^ (j + j / 2)) ^ 2 + 1) * B / 2 ^ 15 := by
    refine (mul_le_mul_of_nonneg_right (sub_le_iff_le_add'.2 hu) (show 0 ≤ (4 * (2 ^ (j + j / 2)) ^ 2 + 1) * B by positivity)).trans (le_of_eq ?_)
    rw [one_div, inv_mul_eq_div]
  obtain ⟨outs, e, el, eo⟩ := key
  exact ⟨outs, e, el, fun t y out h1 h2 h3 => (eo t y out h1 h2 h3).mono hd⟩

/-- In `f64`: samples of magnitude up to `2^900`, with an error of at most `2⁻⁴¹` of the largest value. -/
theorem C61_f64 {planFft : ℕ → Fft (Fp b64)} {calls : List (PlanCall (Fp b64))} {w : ℕ → List (Fp b64)} {o : MdctObj (Fp b64)} (hf : PlanFftShape planFft) {j : ℕ}
    (h : PlannedMdct planFft calls (2 ^ j) w o) (hj : 3 ≤ j) (hj' : j ≤ 20) (hw : ∀ u, .mdct (2 ^ j) u ∈ calls → u = w) {g : ℝ} (hg : (w, g) ∈ windowGains (Fp b64) (2 ^ j))
    {B : ℝ} (hB : b64.min ≤ B) (hB' : B ≤ 2 ^ 900) {a : List (Fp b64)} {rest : List (List (Fp b64))} {acc : List (Fp b64)} {m : Mem (Fp b64)}
    (hb : ∀ b ∈ a :: rest, b.length = 2 ^ j ∧ (Fp.ieee b64).Bounded B b) (ha : acc.length = 2 ^ j) (hm : m.buf.length = 2 ^ j) (hs : o.scratchLen ≤ m.scr.length) :
    ∃ outs, lapped o a rest acc m = .ok outs ∧ outs.length = (a :: rest).length ∧
      ∀ t y out, t + 2 < (a :: rest).length → (a :: rest)[t + 1]? = some y → outs[t + 1]? = some out →
        (Fp.ieee b64).Near ((4 * (2 ^ (j + j / 2)) ^ 2 + 1) * B / 2 ^ 41) out (y.map fun b => g * Fp.val b) := by
  have h0 : 0 < B := b64.min_pos.trans_le hB
  have hu : (1 + (Fp.ieee b64).u) ^ (2 * ((64 + 4) * (j / 2 + 1) + 192) + 5) ≤ 1 + 1 / 2 ^ 41 := by
    refine (one_add_pow_le (Fp.ieee b64).u_nonneg (N := 1885) (by omega) ?_).trans ?_
    · change ((1885 : ℕ) : ℝ) * (1 / 2) ^ 53 ≤ 1; norm_num
    · change 1 + 2 * (((1885 : ℕ) : ℝ) * (1 / 2) ^ 53) ≤ _; norm_num
  have hg' : ((4 * (2 ^ (j + j / 2)) ^ 2 + 1 : ℕ) : ℝ) = 4 * (2 ^ (j + j / 2)) ^ 2 + 1 := by push_cast; rfl
  have hg1 : (4 * (2 ^ (j + j / 2)) ^ 2 + 1 : ℝ) ≤ 4 * (2 ^ 30) ^ 2 + 1 := by
    have : (2 : ℝ) ^ (j + j / 2) ≤ 2 ^ 30 := pow_le_pow_right₀ (by norm_num) (by omega)
    have := pow_le_pow_left₀ (by positivity) this 2
    linarith only [this]
  have hg0 : (0 : ℝ) < 4 * (2 ^ (j + j / 2)) ^ 2 + 1 := by positivity
  have key := C61_dyadic (Fp.twiddles (f := b64) (le_refl _)) (Fp.windows (f := b64) (le_refl _)) hf h hj (by omega) hw hg B hB (by
    refine le_trans ?_ Fp.b64_max
    rw [hg']
    calc (4 * (2 ^ (j + j / 2)) ^ 2 + 1 : ℝ) * B * (1 + (Fp.ieee b64).u) ^ (2 * ((64 + 4) * (j / 2 + 1) + 192) + 5) ≤ (4 * (2 ^ 30) ^ 2 + 1) * 2 ^ 900 * (1 + 1 / 2 ^ 41) :=
          mul_le_mul (mul_le_mul hg1 hB' h0.le (by positivity)) hu (pow_nonneg (by linarith only [(Fp.ieee b64).u_nonneg]) _) (by positivity)
      _ ≤ 2 ^ 900 * 2 ^ 100 := by
        have : (0 : ℝ) < 2 ^ 900 := by positivity
        rw [mul_comm (4 * (2 ^ 30 : ℝ) ^ 2 + 1), mul_assoc]
        exact mul_le_mul_of_nonneg_left (by norm_num) this.le
      _ = 2 ^ 1000 := by rw [← pow_add]) a rest acc m hb ha hm hs
  rw [hg'] at key
  have hd : ((1 + (Fp.ieee b64).u) ^ (2 * ((64 + 4) * (j / 2 + 1) + 192) + 5) - 1) * ((4 * (2 ^ (j + j / 2)) ^ 2 + 1) * B) ≤ (4 * (2 ^ (j + j / 2)) ^ 2 + 1) * B / 2 ^ 41 := by
    refine (mul_le_mul_of_nonneg_right (sub_le_iff_le_add'.2 hu) (show 0 ≤ (4 * (2 ^ (j + j / 2)) ^ 2 + 1) * B by positivity)).trans (le_of_eq ?_)
    rw [one_div, inv_mul_eq_div]
  obtain ⟨outs, e, el, eo⟩ := key
  exact ⟨outs, e, el, fun t y out h1 h2 h3 => (eo t y out h1 h2 h3).mono hd⟩

end

/-! The hypotheses can be met: `f32` with the defining sum as FFT, an MDCT of 60 points with the Vorbis window. -/

example : ∃ o, PlannedMdct (fun n => (sumFft n : Fft (Fp b32))) [.dct4 64, .mdct 32 WindowFn.one] 60 WindowFn.vorbis o ∧
    StaysFiniteMdct (Fp.ieee b32) o.mdct 60 o.scratchLen (fun a b => Spec.mdct 60 (Spec.vorbisWindow 120) (a ++ b)) 976 48 ∧
    StaysFiniteImdct (Fp.ieee b32) o.imdct 60 o.scratchLen (Spec.imdct 60 (Spec.vorbisWindow 120)) 489 48 ∧
    ReconstructsFinite (Fp.ieee b32) o 60 ((60 : ℕ) / 2) (4 * 488 ^ 2 + 1) 97 := by
  have hf := sumFft_planRange Fp.twiddles32
  obtain ⟨o, ho⟩ := plannedMdct_exists hf.shape [.dct4 64, .mdct 32 WindowFn.one] (n := 60) rfl (w := WindowFn.vorbis) (by simp [WindowFn.vorbis])
  have hw := (C61_windows Fp.windows32 (len := 120) (by norm_num) (by norm_num)).2.2.1
  have lg : Nat.log 2 30 = 4 := by rw [Nat.log_eq_iff (by norm_num)]; norm_num
  have g : gain4 (fun n => 2 * n + 1) 60 = 488 := by norm_num [gain4, gain23, lg]
  have u : units4 2 (fun n => n + 2 + 2) 60 = 44 := by norm_num [units4, units23, lg]
  have a := (C61_mdct Fp.twiddles32 hf ho (by norm_num) (by norm_num) hw).2
  have b := (C61_imdct Fp.twiddles32 hf ho (by norm_num) (by norm_num) hw).2
  have c := C61_builtin Fp.twiddles32 Fp.windows32 hf ho (by norm_num) (by norm_num) (by simp) (g := (60 : ℕ) / 2) (by simp [windowGains])
  rw [g, u] at a b c
  exact ⟨o, ho, a, b, c⟩

/-- Five blocks of 1024 samples of magnitude at most 1 in `f32`, with scratch and output buffer full of NaN. -/
example (blocks : ℕ → List (Fp b32)) (hb : ∀ i, (blocks i).length = 2 ^ 10 ∧ (Fp.ieee b32).Bounded 1 (blocks i)) :
    ∃ o, PlannedMdct (fun n => (sumFft n : Fft (Fp b32))) [] (2 ^ 10) WindowFn.mp3Invertible o ∧
    ∃ outs, lapped o (blocks 0) [blocks 1, blocks 2, blocks 3, blocks 4] (List.replicate (2 ^ 10) 0)
        ⟨List.replicate (2 ^ 10) Fp.nan, List.replicate o.scratchLen Fp.nan⟩ = .ok outs ∧ outs.length = 5 ∧
      ∀ out, outs[3]? = some out → (Fp.ieee b32).Near ((4 * (2 ^ 15) ^ 2 + 1) * 1 / 2 ^ 15) out ((blocks 3).map fun b => 1 * Fp.val b) := by
  have hf := sumFft_fpShape b32 (by norm_num [b32])
  obtain ⟨o, ho⟩ := plannedMdct_exists hf [] (n := 2 ^ 10) (by norm_num) (w := WindowFn.mp3Invertible) (by simp [WindowFn.mp3Invertible])
  obtain ⟨outs, e, l, h⟩ := C61_f32 hf ho (by norm_num) (by norm_num) (by simp) (g := 1) (by simp [windowGains]) (B := 1) b32.min_le (by norm_num)
    (a := blocks 0) (rest := [blocks 1, blocks 2, blocks 3, blocks 4]) (acc := List.replicate (2 ^ 10) 0) (m := ⟨List.replicate (2 ^ 10) Fp.nan, List.replicate o.scratchLen Fp.nan⟩)
    (by simp only [List.mem_cons, List.not_mem_nil, or_false]; rintro b (rfl | rfl | rfl | rfl | rfl) <;> exact hb _)
    List.length_replicate List.length_replicate (le_of_eq List.length_replicate.symm)
  exact ⟨o, ho, outs, e, l, fun out ho => h 2 _ out (by norm_num) rfl ho⟩

end RustDct
