import Verif.Range.Mdct
import Verif.Range.Format
import Verif.Float.Window
/-!
# The built-in windows in arithmetic of bounded range
-/

set_option linter.all false

namespace RustDct
open Finset Real

variable {T F : Type} [F64 F] [DctNum T F] {R : Ieee T F} {k : ℕ}

theorem Ieee.windowNear_of {win : ℕ → T} {v : ℕ → ℝ} {len : ℕ} (h : ∀ i, i < len → Tw R 1 k (win i) (v i)) :
    R.WindowNear ((List.range len).map win) ((List.range len).map v) k := by
  refine ⟨by simp, ?_⟩
  rintro ⟨a, b⟩ hp
  rw [List.zip_map', List.mem_map] at hp
  obtain ⟨i, hi, e⟩ := hp
  injection e with e1 e2
  subst e1 e2
  obtain ⟨-, h1, h2, h3⟩ := h i (List.mem_range.1 hi)
  simp only [Nat.cast_one, mul_one] at h2 h3
  exact ⟨h1, h2, h3⟩

theorem Ieee.WindowNear.tw {win : List T} {v : List ℝ} (h : R.WindowNear win v k) {i : ℕ} (hi : i < v.length) : Tw R 1 k (win.getD i 0) (v.getD i 0) := by
  obtain ⟨hl, h⟩ := h
  have hi' : i < win.length := by omega
  have hz : (win[i], v[i]) ∈ List.zip win v := by
    rw [List.mem_iff_getElem]
    exact ⟨i, by simp; omega, by simp⟩
  obtain ⟨a, b, c⟩ := h _ hz
  rw [← List.getElem_eq_getD (h := hi') 0, ← List.getElem_eq_getD (h := hi) 0]
  exact ⟨le_refl _, a, by simpa using b, by simpa using c⟩

/-- Conversion of a window value. -/
theorem ApF.convw {a : F} {x g : ℝ} (h : ApF R a x 1 g) (ha : |R.valF a| ≤ 16) (hg : (1 + R.u) * g ≤ (1 + R.u) ^ k) : Tw R 1 k (fromF64 a) x := by
  obtain ⟨h1, h2⟩ := R.from_f64 a h.1 (ha.trans R.M_ge)
  have hs := h.2.size
  rw [mul_one] at hs
  have h3 : max |R.valF a| R.L ≤ g := max_le hs (R.L_le.trans h.2.one_le)
  have h4 := mul_le_mul_of_nonneg_left h3 R.u_nonneg
  have h5 := abs_sub_le (R.val (fromF64 a)) (R.valF a) x
  have h6 := h.2.err
  refine ⟨le_refl _, h1, by simpa using h.2.mag, ?_⟩
  simp only [Nat.cast_one, mul_one] at h6 ⊢
  nlinarith

/-! ### Error factors -/

noncomputable def Ieee.vorb (R : Ieee T F) : ℝ := 1 + (R.t + π / 2 * ((1 + R.v) ^ 5 * R.cosErr ^ 2 - 1))
noncomputable def Ieee.root (R : Ieee T F) : ℝ := (1 + R.v) ^ 3 / (1 - R.v)

theorem Ieee.one_le_root (R : Ieee T F) : 1 ≤ R.root := R.one_le_ang 3
theorem Ieee.cosErr_le_vorb (R : Ieee T F) : R.cosErr ≤ R.vorb := by
  have h := R.one_le_cosErr
  have h1 := one_le_pow₀ (n := 5) R.one_le_v
  have h2 : R.cosErr ^ 2 ≤ (1 + R.v) ^ 5 * R.cosErr ^ 2 := le_mul_of_one_le_left (sq_nonneg _) h1
  have h3 : 1 ≤ π / 2 := by linarith [pi_gt_three]
  have h4 : R.cosErr ≤ R.cosErr ^ 2 := by nlinarith
  have h5 := mul_le_mul_of_nonneg_right h3 (show 0 ≤ (1 + R.v) ^ 5 * R.cosErr ^ 2 - 1 by linarith)
  unfold Ieee.vorb
  linarith [R.t_nonneg]
theorem Ieee.one_le_vorb (R : Ieee T F) : 1 ≤ R.vorb := R.one_le_cosErr.trans R.cosErr_le_vorb
theorem Ieee.one_add_omega (R : Ieee T F) : 1 + R.omega = (1 + R.u) * ((1 + R.v) * (R.vorb * R.root)) := by
  unfold Ieee.omega Ieee.vorb Ieee.cosErr Ieee.root; ring

theorem Ieee.Windows.le_vorb (h : R.Windows k) : (1 + R.u) * R.vorb ≤ (1 + R.u) ^ k := by
  unfold Ieee.Windows at h
  rw [R.one_add_omega] at h
  refine le_trans (mul_le_mul_of_nonneg_left ?_ (by linarith [R.one_le_g])) h
  have h1 := R.one_le_vorb
  have h2 : R.vorb ≤ R.vorb * R.root := le_mul_of_one_le_right (by linarith) R.one_le_root
  exact h2.trans (le_mul_of_one_le_left (by linarith) R.one_le_v)
theorem Ieee.Windows.le_root (h : R.Windows k) {g : ℝ} (hg : g ≤ R.vorb) : (1 + R.u) * ((1 + R.v) * (g * R.root)) ≤ (1 + R.u) ^ k := by
  unfold Ieee.Windows at h
  rw [R.one_add_omega] at h
  refine le_trans ?_ h
  have h0 := R.one_le_root
  exact mul_le_mul_of_nonneg_left (mul_le_mul_of_nonneg_left (mul_le_mul_of_nonneg_right hg (by linarith)) (by linarith [R.one_le_v])) (by linarith [R.one_le_g])

/-! ### Values -/

theorem ApF.sine (R : Ieee T F) {len i : ℕ} (hl : len < 2 ^ 64) (hi : i < len) :
    ApF R (F64.sin ((F64.pi / F64.nat len : F) * (F64.nat i + F64.half))) (Real.sin (π / len * (i + 1 / 2))) 1 R.cosErr := by
  have h0 : (0 : ℝ) < len := by exact_mod_cast (show 0 < len by omega)
  have h1 : (i : ℝ) + 1 ≤ len := by exact_mod_cast hi
  exact ApF.sin (ApF.angh h0 (ApF.pidiv_nat R (by omega) hl) (by omega) (by linarith))

/-- A computed sine is at most `1 + t`. -/
theorem Ieee.sin_le (R : Ieee T F) {θ : F} (h : R.finF θ) : |R.valF (F64.sin θ)| ≤ 17 / 16 := by
  have h1 := (R.f_sin θ h).2
  have h2 := abs_sin_le_one (R.valF θ)
  have h3 := abs_add_le (R.valF (F64.sin θ) - Real.sin (R.valF θ)) (Real.sin (R.valF θ))
  rw [sub_add_cancel] at h3
  linarith [R.t_le]

theorem ApF.mulf {a b : F} {x y X Y g h : ℝ} (ha : ApF R a x X g) (hb : ApF R b y Y h) (h1 : (1 / 2) ^ 100 ≤ X * Y) (h2 : X * Y ≤ 2 ^ 80) (h3 : g * h ≤ 64) :
    ApF R (a * b) (x * y) (X * Y) ((1 + R.v) * (g * h)) := ApF.round (ha.2.mul0 hb.2) h1 h2 h3 (R.f_mul _ _ ha.1 hb.1)

theorem ApF.vorbis (R : Ieee T F) {len i : ℕ} (hl : len < 2 ^ 64) (hi : i < len) :
    ApF R (let s := F64.sin ((F64.pi / F64.nat len : F) * (F64.nat i + F64.half)); F64.sin (F64.pi * F64.half * s * s)) (Real.sin (π / 2 * Real.sin (π / len * (i + 1 / 2)) ^ 2)) 1 R.vorb ∧
    |R.valF (let s := F64.sin ((F64.pi / F64.nat len : F) * (F64.nat i + F64.half)); F64.sin (F64.pi * F64.half * s * s))| ≤ 17 / 16 := by
  have h1 := ApF.sine (T := T) R hl hi
  dsimp only
  set s : F := F64.sin ((F64.pi / F64.nat len : F) * (F64.nat i + F64.half))
  set y := Real.sin (π / len * (i + 1 / 2))
  obtain ⟨p1, p2⟩ := pi_range
  have c1 := R.one_le_cosErr
  have c2 := R.cosErr_le
  have v0 := R.v_nonneg
  have v1 := R.v_le
  have q2 := R.pow_v_le (show 3 ≤ 7 by norm_num)
  have q4 := R.pow_v_le (show 5 ≤ 7 by norm_num)
  have q0 : 0 ≤ (1 + R.v) ^ 4 := by positivity
  have a1 := ApF.mulf (ApF.pi R) (ApF.half R) (by norm_num; linarith) (by norm_num; linarith) (by nlinarith)
  have a2 := ApF.mulf a1 h1 (by norm_num; linarith) (by norm_num; linarith) (by
    rw [show (1 + R.v) * ((1 + R.v) * (1 + R.v)) = (1 + R.v) ^ 3 by ring]
    have := mul_le_mul q2 c2 (by linarith) (by norm_num)
    linarith)
  have a3 := ApF.mulf a2 h1 (by norm_num; linarith) (by norm_num; linarith) (by
    have q3 := R.pow_v_le (show 4 ≤ 7 by norm_num)
    have e : (1 + R.v) * ((1 + R.v) * ((1 + R.v) * (1 + R.v)) * R.cosErr) * R.cosErr = (1 + R.v) ^ 4 * R.cosErr ^ 2 := by ring
    rw [e]
    have := mul_le_mul q3 (pow_le_pow_left₀ (by linarith) c2 2) (by positivity) (by norm_num)
    norm_num at this ⊢
    linarith)
  refine ⟨⟨(R.f_sin _ a3.1).1, R.one_le_vorb, abs_sin_le_one _, ?_⟩, R.sin_le a3.1⟩
  have h3 := (R.f_sin (F64.pi * F64.half * s * s) a3.1).2
  have h4 : |Real.sin (R.valF (F64.pi * F64.half * s * s)) - Real.sin (π / 2 * y ^ 2)| ≤ |R.valF (F64.pi * F64.half * s * s) - π / 2 * y ^ 2| := Real.abs_sin_sub_sin_le _ _
  have h5 := abs_sub_le (R.valF (F64.sin (F64.pi * F64.half * s * s))) (Real.sin (R.valF (F64.pi * F64.half * s * s))) (Real.sin (π / 2 * y ^ 2))
  have h6 := a3.2.err
  rw [show π * (1 / 2) * y * y = π / 2 * y ^ 2 by ring] at h6
  unfold Ieee.vorb
  calc _ ≤ _ := h5
    _ ≤ R.t + _ := add_le_add h3 (h4.trans h6)
    _ = _ := by ring

theorem ApF.rootf (R : Ieee T F) {a b : ℕ} (ha : 1 ≤ a) (hb : 1 ≤ b) (hab : a ≤ b) (hb' : b < 2 ^ 64) :
    ApF R (F64.sqrt (F64.nat a / F64.nat b)) √((a : ℝ) / b) √((a : ℝ) / b) R.root := by
  have ha0 : (0 : ℝ) < a := by exact_mod_cast ha
  have ha1 : (1 : ℝ) ≤ a := by exact_mod_cast ha
  have hb0 : (0 : ℝ) < b := by exact_mod_cast hb
  have hb2 : (b : ℝ) ≤ 2 ^ 64 := by exact_mod_cast hb'.le
  have hab' : (a : ℝ) ≤ b := by exact_mod_cast hab
  have hx : 0 < (a : ℝ) / b := div_pos ha0 hb0
  have hx1 : (a : ℝ) / b ≤ 1 := by rw [div_le_one hb0]; exact hab'
  have hx2 : (1 / 2 : ℝ) ^ 64 ≤ (a : ℝ) / b := by
    rw [le_div_iff₀ hb0]
    have := mul_le_mul_of_nonneg_left hb2 (show (0 : ℝ) ≤ (1 / 2) ^ 64 by positivity)
    norm_num at this ⊢
    linarith
  have hv := R.v_nonneg
  have hv1 := R.v_le
  obtain ⟨hs, h4⟩ := (ApF.nat R (n := a) (by omega)).2.div0 R.v_nonneg R.v_lt hb0 (R.f_nat b hb').2
  have hg0 : (1 + R.v) / (1 - R.v) ≤ 5 / 3 := by have := R.ang_le (show 1 ≤ 7 by norm_num); rwa [pow_one] at this
  have h5 := ApF.round h4 ((show (1 / 2 : ℝ) ^ 100 ≤ (1 / 2) ^ 64 by norm_num).trans hx2) (hx1.trans (by norm_num)) (by linarith) (R.f_div _ _ (R.f_nat a (by omega)).1 (R.f_nat b hb').1 hs)
  set q := R.valF (F64.nat a / F64.nat b : F)
  have hg : (1 + R.v) * ((1 + R.v) / (1 - R.v)) - 1 < 1 := by
    rw [← mul_div_assoc, sub_lt_iff_lt_add, div_lt_iff₀ (by linarith)]; nlinarith
  have hq : 0 ≤ q := by
    have := (abs_le.1 h5.2.err).1
    have h6 := mul_le_mul_of_nonneg_right hg.le hx.le
    linarith
  have h6 := sqrt_close hx h5.2.err
  have h7 : Ap √q √((a : ℝ) / b) √((a : ℝ) / b) ((1 + R.v) * ((1 + R.v) / (1 - R.v))) := ⟨h5.2.one_le, by rw [abs_of_nonneg (sqrt_nonneg _)], h6⟩
  have h8 := ApF.round h7 (by
      refine (show (1 / 2 : ℝ) ^ 100 ≤ (1 / 2) ^ 32 by norm_num).trans (Real.le_sqrt_of_sq_le ?_)
      refine le_trans (by norm_num) hx2) ((Real.sqrt_le_one.2 hx1).trans (by norm_num)) (by linarith) (R.f_sqrt _ h5.1 hq)
  exact h8.mono (le_of_eq (by unfold Ieee.root; ring))

/-- One rounding of a quantity known to be in range. -/
theorem ApF.round' {a : F} {r x X g : ℝ} (h : Ap r x X g) (h1 : (1 / 2) ^ 100 ≤ X) (h2 : |r| ≤ 2) (hr : RoundsTo R.finF R.valF R.v R.LF R.MF a r) :
    ApF R a x X ((1 + R.v) * g) ∧ |R.valF a| ≤ 3 := by
  have hM : |r| ≤ R.MF := by have := R.MF_ge; norm_num at this; linarith
  obtain ⟨ha, he⟩ := hr hM
  have hg := h.one_le
  have hX := h.X_nonneg
  have hL : max |r| R.LF ≤ g * X := max_le h.size (R.LF_le.trans (h1.trans (by nlinarith)))
  have hL' : max |r| R.LF ≤ 2 := max_le h2 (R.LF_le.trans (by norm_num))
  have h5 := mul_le_mul_of_nonneg_left hL R.v_nonneg
  have h6 := mul_le_mul_of_nonneg_left hL' R.v_nonneg
  have h7 := abs_sub_le (R.valF a) r x
  have h8 := h.err
  have h9 := abs_add_le (R.valF a - r) r
  rw [sub_add_cancel] at h9
  exact ⟨⟨ha, by nlinarith [R.v_nonneg], h.mag, by nlinarith⟩, by linarith [R.v_le]⟩

theorem sqrt_le_one_of {a b : ℕ} (hb : 1 ≤ b) (hab : a ≤ b) : √((a : ℝ) / b) ≤ 1 := by
  rw [Real.sqrt_le_one, div_le_one (by exact_mod_cast hb)]
  exact_mod_cast hab

/-- A factor `√(a/b)`, at most 1. -/
theorem ApF.scaled (hk : R.Windows k) {c : F} {x g : ℝ} (h : ApF R c x 1 g) (hg : g ≤ R.vorb) (hc : |R.valF c| ≤ 17 / 16) {a b : ℕ} (ha : 1 ≤ a) (hb : 1 ≤ b) (hab : a ≤ b) (hb' : b < 2 ^ 64) :
    Tw R 1 k (fromF64 (c * F64.sqrt (F64.nat a / F64.nat b))) (√((a : ℝ) / b) * x) := by
  have h1 := ApF.rootf R ha hb hab hb'
  have hs1 := sqrt_le_one_of hb hab
  have hs0 := Real.sqrt_nonneg ((a : ℝ) / b)
  have hs2 : (1 / 2 : ℝ) ^ 32 ≤ √((a : ℝ) / b) := by
    refine Real.le_sqrt_of_sq_le ?_
    rw [le_div_iff₀ (by exact_mod_cast hb)]
    have ha1 : (1 : ℝ) ≤ a := by exact_mod_cast ha
    have hb2 : (b : ℝ) ≤ 2 ^ 64 := by exact_mod_cast hb'.le
    have := mul_le_mul_of_nonneg_left hb2 (show (0 : ℝ) ≤ ((1 / 2) ^ 32) ^ 2 by positivity)
    norm_num at this ⊢
    linarith
  have hr : |R.valF (F64.sqrt (F64.nat a / F64.nat b))| ≤ 5 / 3 := by
    have := h1.2.size
    have h2 : R.root ≤ 5 / 3 := R.ang_le (by norm_num)
    exact this.trans (by nlinarith [R.one_le_root])
  have h2 : |R.valF c * R.valF (F64.sqrt (F64.nat a / F64.nat b))| ≤ 2 := by
    rw [abs_mul]
    exact (mul_le_mul hc hr (abs_nonneg _) (by norm_num)).trans (by norm_num)
  obtain ⟨h3, h4⟩ := ApF.round' (h.2.mul0 h1.2) (by rw [one_mul]; exact le_trans (by norm_num) hs2) h2 (R.f_mul _ _ h.1 h1.1)
  rw [one_mul, mul_comm x] at h3
  exact ApF.convw (h3.monoX hs1) (h4.trans (by norm_num)) (hk.le_root hg)

/-! ### The six windows -/

theorem Ieee.windows (hk : R.Windows k) {len : ℕ} (hl : 4 ≤ len) (hl' : len < 2 ^ 64) :
    R.WindowNear (WindowFn.mp3 len) (Spec.sineWindow len) k ∧
    R.WindowNear (WindowFn.mp3Invertible len) ((Spec.sineWindow len).map (√(4 / len) * ·)) k ∧
    R.WindowNear (WindowFn.vorbis len) (Spec.vorbisWindow len) k ∧
    R.WindowNear (WindowFn.vorbisInvertible len) ((Spec.vorbisWindow len).map (√(4 / len) * ·)) k ∧
    R.WindowNear (WindowFn.one len) (Spec.flatWindow len) k ∧
    R.WindowNear (WindowFn.invertible len) ((Spec.flatWindow len).map (√(2 / len) * ·)) k := by
  have hrr : ∀ {A B : Type} (f : ℕ → A) (g : A → B) (n : ℕ), ((List.range n).map f).map g = (List.range n).map fun i => g (f i) := by
    intro A B f g n; rw [List.map_map]; rfl
  have sl : ∀ i, i < len → |R.valF (F64.sin ((F64.pi / F64.nat len : F) * (F64.nat i + F64.half)))| ≤ 17 / 16 := by
    intro i hi
    have h0 : (0 : ℝ) < len := by exact_mod_cast (show 0 < len by omega)
    have h1 : (i : ℝ) + 1 ≤ len := by exact_mod_cast hi
    exact R.sin_le (ApF.angh h0 (ApF.pidiv_nat R (by omega) hl') (by omega) (by linarith)).1
  refine ⟨?_, ?_, ?_, ?_, ?_, ?_⟩
  · exact Ieee.windowNear_of (win := fun i => fromF64 (F64.sin ((F64.pi / F64.nat len : F) * (F64.nat i + F64.half)))) (v := fun (i : ℕ) => Real.sin (π / len * (i + 1 / 2))) (len := len)
      fun i hi => ApF.convw (ApF.sine R hl' hi) ((sl i hi).trans (by norm_num))
        (le_trans (mul_le_mul_of_nonneg_left R.cosErr_le_vorb (by linarith [R.one_le_g])) hk.le_vorb)
  · have := Ieee.windowNear_of (R := R) (k := k) (win := fun i => fromF64 (F64.sin ((F64.pi / F64.nat len : F) * (F64.nat i + F64.half)) * F64.sqrt (F64.nat 4 / F64.nat len : F)))
      (v := fun (i : ℕ) => √(4 / len) * Real.sin (π / len * (i + 1 / 2))) (len := len)
      fun i hi => by
        have := ApF.scaled hk (ApF.sine R hl' hi) R.cosErr_le_vorb (sl i hi) (a := 4) (b := len) (by norm_num) (by omega) hl hl'
        rwa [Nat.cast_ofNat] at this
    rw [Spec.sineWindow, hrr]
    exact this
  · exact Ieee.windowNear_of (win := fun i => let s := F64.sin ((F64.pi / F64.nat len : F) * (F64.nat i + F64.half)); fromF64 (F64.sin (F64.pi * F64.half * s * s)))
      (v := fun (i : ℕ) => Real.sin (π / 2 * Real.sin (π / len * (i + 1 / 2)) ^ 2)) (len := len)
      fun i hi => ApF.convw (ApF.vorbis R hl' hi).1 ((ApF.vorbis R hl' hi).2.trans (by norm_num)) hk.le_vorb
  · have := Ieee.windowNear_of (R := R) (k := k) (win := fun i => let s := F64.sin ((F64.pi / F64.nat len : F) * (F64.nat i + F64.half)); fromF64 (F64.sin (F64.pi * F64.half * s * s) * F64.sqrt (F64.nat 4 / F64.nat len : F)))
      (v := fun (i : ℕ) => √(4 / len) * Real.sin (π / 2 * Real.sin (π / len * (i + 1 / 2)) ^ 2)) (len := len)
      fun i hi => by
        have := ApF.scaled hk (ApF.vorbis R hl' hi).1 (le_refl _) (ApF.vorbis R hl' hi).2 (a := 4) (b := len) (by norm_num) (by omega) hl hl'
        rwa [Nat.cast_ofNat] at this
    rw [Spec.vorbisWindow, hrr]
    exact this
  · have := Ieee.windowNear_of (R := R) (k := k) (win := fun _ => (1 : T)) (v := fun _ => (1 : ℝ)) (len := len) fun i hi =>
      ⟨le_refl _, R.one.1, by norm_num, by
        rw [R.one.2, sub_self, abs_zero]
        exact mul_nonneg (sub_nonneg.2 (one_le_pow₀ R.one_le_g)) (Nat.cast_nonneg _)⟩
    have e : Spec.flatWindow len = (List.range len).map fun _ => 1 := by simp [Spec.flatWindow, List.map_const']
    rw [e]
    exact this
  · have := Ieee.windowNear_of (R := R) (k := k) (win := fun _ => fromF64 (F64.sqrt (F64.nat 2 / F64.nat len : F))) (v := fun (_ : ℕ) => √(2 / (len : ℝ)) * 1) (len := len)
      fun i hi => by
        have h1 := ApF.rootf R (a := 2) (b := len) (by norm_num) (by omega) (by omega) hl'
        have h2 := h1.monoX (sqrt_le_one_of (by omega) (by omega))
        have hg : R.root ≤ 5 / 3 := R.ang_le (by norm_num)
        have hs := h2.2.size
        rw [mul_one]
        rw [Nat.cast_ofNat] at h2
        refine ApF.convw h2 (by linarith) (le_trans ?_ (hk.le_root (le_refl _)))
        have h3 := R.one_le_vorb
        have h4 := R.one_le_root
        have h5 : R.root ≤ R.vorb * R.root := le_mul_of_one_le_left (by linarith) h3
        exact mul_le_mul_of_nonneg_left (h5.trans (le_mul_of_one_le_left (by nlinarith) R.one_le_v)) (by linarith [R.one_le_g])
    have e : (Spec.flatWindow len).map (√(2 / (len : ℝ)) * ·) = (List.range len).map fun _ => √(2 / (len : ℝ)) * 1 := by
      simp [Spec.flatWindow, List.map_const']
    rw [e]
    exact this

/-! ### In IEEE formats -/

namespace Fp

/-- The windows are accurate to 191 units of `f64`. -/
theorem window_err : ((1 + (1 / 2) ^ 53) * ((1 + ((1 / 2) ^ 53 + π / 2 * ((1 + (1 / 2) ^ 53) ^ 5 * (1 + ((1 / 2) ^ 53 + 2 * π * ((1 + (1 / 2) ^ 53) ^ 7 / (1 - (1 / 2) ^ 53) - 1))) ^ 2 - 1))) *
    ((1 + (1 / 2) ^ 53) ^ 3 / (1 - (1 / 2) ^ 53))) : ℝ) ≤ 1 + 191 * (1 / 2) ^ 53 := by
  have hp : π ≤ 3.15 := pi_lt_d2.le
  have hp0 := pi_pos
  have h1 : ((1 + (1 / 2) ^ 53) ^ 7 / (1 - (1 / 2) ^ 53) - 1 : ℝ) ≤ 8.1 * (1 / 2) ^ 53 := by norm_num
  have h1' : (0 : ℝ) ≤ ((1 + (1 / 2) ^ 53) ^ 7 / (1 - (1 / 2) ^ 53) - 1 : ℝ) := by norm_num
  have h2 : 2 * π * ((1 + (1 / 2) ^ 53) ^ 7 / (1 - (1 / 2) ^ 53) - 1 : ℝ) ≤ 2 * 3.15 * (8.1 * (1 / 2) ^ 53) :=
    mul_le_mul (by linarith) h1 h1' (by norm_num)
  have h2' : 0 ≤ 2 * π * ((1 + (1 / 2) ^ 53) ^ 7 / (1 - (1 / 2) ^ 53) - 1 : ℝ) := mul_nonneg (by linarith) h1'
  generalize 2 * π * ((1 + (1 / 2) ^ 53) ^ 7 / (1 - (1 / 2) ^ 53) - 1 : ℝ) = z at h2 h2' ⊢
  have h3 : (1 + ((1 / 2) ^ 53 + z)) ^ 2 ≤ (1 + ((1 / 2) ^ 53 + 2 * 3.15 * (8.1 * (1 / 2) ^ 53))) ^ 2 := pow_le_pow_left₀ (by positivity) (by linarith) 2
  have h3' : 1 ≤ (1 + ((1 / 2) ^ 53 + z)) ^ 2 := one_le_pow₀ (by norm_num; linarith)
  generalize (1 + ((1 / 2) ^ 53 + z)) ^ 2 = y at h3 h3' ⊢
  have h4 : (1 + (1 / 2) ^ 53) ^ 5 * y - 1 ≤ 109.1 * (1 / 2) ^ 53 := by
    have := mul_le_mul_of_nonneg_left h3 (show (0 : ℝ) ≤ (1 + (1 / 2) ^ 53) ^ 5 by positivity)
    norm_num at this ⊢
    linarith
  have h4' : 0 ≤ (1 + (1 / 2) ^ 53) ^ 5 * y - 1 := by
    have := mul_le_mul_of_nonneg_left h3' (show (0 : ℝ) ≤ (1 + (1 / 2) ^ 53) ^ 5 by positivity)
    norm_num at this ⊢
    linarith
  have h5 : π / 2 * ((1 + (1 / 2) ^ 53) ^ 5 * y - 1) ≤ 1.575 * (109.1 * (1 / 2) ^ 53) := mul_le_mul (by linarith) h4 h4' (by norm_num)
  generalize π / 2 * ((1 + (1 / 2) ^ 53) ^ 5 * y - 1) = x at h5 ⊢
  norm_num at h5 ⊢
  linarith

theorem windows {f : Format} (hf : f.p ≤ 53) : (ieee f).Windows 192 := by
  unfold Ieee.Windows Ieee.omega
  have hu : (0 : ℝ) ≤ (1 / 2) ^ f.p := by positivity
  have hv : (1 / 2 : ℝ) ^ 53 ≤ (1 / 2) ^ f.p := pow_le_pow_of_le_one (by norm_num) (by norm_num) hf
  have hb := one_add_mul_le_pow (a := (1 / 2 : ℝ) ^ f.p) (by linarith) 191
  rw [add_sub_cancel]
  change (1 + (1 / 2 : ℝ) ^ f.p) * _ ≤ (1 + (1 / 2 : ℝ) ^ f.p) ^ 192
  rw [show (1 + (1 / 2 : ℝ) ^ f.p) ^ 192 = (1 + (1 / 2 : ℝ) ^ f.p) * (1 + (1 / 2 : ℝ) ^ f.p) ^ 191 from pow_succ' _ 191]
  refine mul_le_mul_of_nonneg_left (window_err.trans (le_trans ?_ hb)) (by linarith)
  push_cast
  linarith

theorem windows32 : (ieee b32).Windows 2 := by
  unfold Ieee.Windows Ieee.omega
  rw [add_sub_cancel]
  change (1 + (1 / 2 : ℝ) ^ 24) * _ ≤ (1 + (1 / 2 : ℝ) ^ 24) ^ 2
  rw [pow_two (1 + (1 / 2 : ℝ) ^ 24)]
  exact mul_le_mul_of_nonneg_left (window_err.trans (by norm_num)) (by positivity)

end Fp
end RustDct
