import Verif.Float.Mdct
/-!
# The rounding error of the built-in windows
-/

set_option linter.all false

namespace RustDct
open Finset Real

variable {T F : Type} [F64 F] [DctNum T F] (R : Rounding T F)

theorem windowNear_of {win : ℕ → T} {v : ℕ → ℝ} {len : ℕ} {M g : ℝ} (hM : 0 ≤ M) (hg : 1 ≤ g) (h : ∀ i, i < len → Ap (R.val (win i)) (v i) M g) :
    WindowNear R ((List.range len).map win) ((List.range len).map v) M (g - 1) := by
  refine ⟨by simp, by linarith, hM, ?_⟩
  rintro ⟨a, b⟩ hp
  rw [List.zip_map', List.mem_map] at hp
  obtain ⟨i, hi, e⟩ := hp
  injection e with e1 e2
  subst e1 e2
  have := h i (List.mem_range.1 hi)
  exact ⟨this.mag, this.err⟩

theorem WindowNear.ap {R : Rounding T F} {win v : List _} {M γ : ℝ} (h : WindowNear R win v M γ) {i : ℕ} (hi : i < v.length) :
    Ap (R.val (win.getD i 0)) (v.getD i 0) M (1 + γ) := by
  obtain ⟨hl, h0, hM, h⟩ := h
  have hi' : i < win.length := by omega
  have hz : (win[i], v[i]) ∈ List.zip win v := by
    rw [List.mem_iff_getElem]
    exact ⟨i, by simp; omega, by simp⟩
  obtain ⟨a, b⟩ := h _ hz
  rw [← List.getElem_eq_getD (h := hi') 0, ← List.getElem_eq_getD (h := hi) 0]
  exact ⟨by linarith, a, by simpa using b⟩

/-- A square root, relative to its size. -/
theorem sqrt_close {r x d : ℝ} (hx : 0 < x) (h : |r - x| ≤ d * x) : |√r - √x| ≤ d * √x := by
  have hs : 0 < √x := sqrt_pos.2 hx
  have h1 : |√r - √x| * √x ≤ |r - x| := by
    by_cases hr : 0 ≤ r
    · calc |√r - √x| * √x ≤ |√r - √x| * (√r + √x) := mul_le_mul_of_nonneg_left (by linarith [sqrt_nonneg r]) (abs_nonneg _)
        _ = |√r - √x| * |√r + √x| := by rw [abs_of_pos (show 0 < √r + √x by linarith [sqrt_nonneg r])]
        _ = |(√r - √x) * (√r + √x)| := (abs_mul _ _).symm
        _ = |r - x| := by rw [show (√r - √x) * (√r + √x) = √r ^ 2 - √x ^ 2 by ring, sq_sqrt hr, sq_sqrt hx.le]
    · rw [sqrt_eq_zero_of_nonpos (by linarith), zero_sub, abs_neg, abs_of_pos hs, mul_self_sqrt hx.le, abs_of_nonpos (by linarith)]
      linarith
  have h2 : |√r - √x| * √x ≤ d * √x * √x := by
    rw [mul_assoc, mul_self_sqrt hx.le]; exact h1.trans h
  exact le_of_mul_le_mul_right h2 hs

theorem Rounding.one_le_root : 1 ≤ R.root := R.one_le_ang 3

theorem Rounding.ap_root {a b : ℕ} (ha : 1 ≤ a) (hb : 1 ≤ b) : Ap (R.valF (F64.sqrt (F64.nat a / F64.nat b))) √((a : ℝ) / b) √((a : ℝ) / b) R.root := by
  have ha0 : (0 : ℝ) < a := by exact_mod_cast ha
  have hb0 : (0 : ℝ) < b := by exact_mod_cast hb
  have hx : 0 < (a : ℝ) / b := div_pos ha0 hb0
  have hv := R.v_nonneg
  have hv1 := R.v_le
  obtain ⟨hs, h4⟩ := (R.ap_nat a).div0 R.v_nonneg R.v_lt hb0 (R.f_nat b)
  have h5 := h4.round R.v_nonneg (R.f_div _ _ hs)
  set q := R.valF (F64.nat a / F64.nat b : F)
  have hg : (1 + R.v) * ((1 + R.v) / (1 - R.v)) - 1 < 1 := by
    rw [← mul_div_assoc, sub_lt_iff_lt_add, div_lt_iff₀ (by linarith)]; nlinarith
  have hq : 0 ≤ q := by
    have := (abs_le.1 h5.err).1
    have h6 := mul_le_mul_of_nonneg_right hg.le hx.le
    linarith
  have h6 := sqrt_close hx h5.err
  have h7 : Ap √q √((a : ℝ) / b) √((a : ℝ) / b) ((1 + R.v) * ((1 + R.v) / (1 - R.v))) := ⟨h5.one_le, by rw [abs_of_nonneg (sqrt_nonneg _)], h6⟩
  have h8 := h7.round R.v_nonneg (by have := R.f_sqrt (F64.nat a / F64.nat b) hq; rwa [abs_of_nonneg (sqrt_nonneg _)])
  exact h8.mono (le_of_eq (by unfold Rounding.root; ring))

theorem Rounding.ap_sine {len i : ℕ} (hi : i < len) :
    Ap (R.valF (F64.sin ((F64.pi / F64.nat len : F) * (F64.nat i + F64.half)))) (sin (π / len * (i + 1 / 2))) 1 (1 + (R.t + 2 * π * ((1 + R.v) ^ 7 / (1 - R.v) - 1))) := by
  have h0 : (0 : ℝ) < len := by exact_mod_cast (show 0 < len by omega)
  have h1 : (i : ℝ) + 1 ≤ len := by exact_mod_cast hi
  exact R.sin_close (R.ap_angh h0 (R.ap_pidiv h0 (R.f_nat len)) (by linarith))

theorem Rounding.one_le_vorb : 1 ≤ R.vorb := by
  have h := (R.ap_sine (T := T) (len := 1) (i := 0) (by norm_num)).one_le
  have h1 := one_le_pow₀ (n := 5) R.one_le_v
  have h2 := one_le_pow₀ (n := 2) h
  have h3 := one_le_mul_of_one_le_of_one_le h1 h2
  unfold Rounding.vorb
  have := mul_nonneg (show 0 ≤ π / 2 by linarith [pi_pos]) (sub_nonneg.2 h3)
  linarith [R.t_nonneg]

theorem Rounding.ap_vorbis {len i : ℕ} (hi : i < len) :
    Ap (R.valF (let s := F64.sin ((F64.pi / F64.nat len : F) * (F64.nat i + F64.half)); F64.sin (F64.pi * F64.half * s * s))) (sin (π / 2 * sin (π / len * (i + 1 / 2)) ^ 2)) 1 R.vorb := by
  have h1 := R.ap_sine (T := T) hi
  dsimp only
  set s : F := F64.sin ((F64.pi / F64.nat len : F) * (F64.nat i + F64.half))
  set y := sin (π / len * (i + 1 / 2))
  have h2 := R.ap_mulf (R.ap_mulf (R.ap_mulf R.ap_pi R.ap_halfF) h1) h1
  refine ⟨R.one_le_vorb, abs_sin_le_one _, ?_⟩
  have h3 := R.f_sin (F64.pi * F64.half * s * s)
  have h4 : |sin (R.valF (F64.pi * F64.half * s * s)) - sin (π / 2 * y ^ 2)| ≤ |R.valF (F64.pi * F64.half * s * s) - π / 2 * y ^ 2| := Real.abs_sin_sub_sin_le _ _
  have h5 := abs_sub_le (R.valF (F64.sin (F64.pi * F64.half * s * s))) (sin (R.valF (F64.pi * F64.half * s * s))) (sin (π / 2 * y ^ 2))
  have h6 := h2.err
  rw [show π * (1 / 2) * y * y = π / 2 * y ^ 2 by ring] at h6
  unfold Rounding.vorb
  calc _ ≤ _ := h5
    _ ≤ R.t + _ := add_le_add h3 (h4.trans h6)
    _ = _ := by ring

/-- A factor `√(a/b)`. -/
theorem Rounding.ap_scaled {c : F} {x g : ℝ} (h : Ap (R.valF c) x 1 g) {a b : ℕ} (ha : 1 ≤ a) (hb : 1 ≤ b) :
    Ap (R.val (fromF64 (c * F64.sqrt (F64.nat a / F64.nat b)))) (√((a : ℝ) / b) * x) √((a : ℝ) / b) ((1 + R.u) * (1 + R.v) * g * R.root) := by
  have h1 := (R.ap_mulf h (R.ap_root ha hb)).round R.u_nonneg (R.from_f64 _)
  rw [one_mul, mul_comm x] at h1
  exact h1.mono (le_of_eq (by ring))

end RustDct
