import Verif.Range.Pow2
import Verif.Float.Even4
/-!
# Type 4 transforms of even length in arithmetic of bounded range
-/

set_option linter.all false

namespace RustDct
open Real

variable {T F : Type} [F64 F] [DctNum T F] {R : Ieee T F} {r : ℕ}

section
variable {h : ℕ} {b : ℝ} {c m : ℕ} {tw : ℕ → Cx T} {tw' : ℕ → Cx ℝ} (hb : R.L ≤ b)
include hb

theorem t4L_bd {f : ℕ → T} {f' : ℕ → ℝ} (hf : ∀ i < 2 * h, Bd R b c m (f i) (f' i)) : ∀ i < h, Bd R b (2 * c) (m + 1) (t4L f i) (t4L f' i) := by
  intro i hi
  unfold t4L
  by_cases e : i = 0
  · simp only [if_pos e]
    have := hf 0 (by omega)
    bd
  · simp only [if_neg e]
    have h1 := hf (2 * i - 1) (by omega)
    have h2 := hf (2 * i) (by omega)
    bd

theorem t4R_bd {f : ℕ → T} {f' : ℕ → ℝ} (hf : ∀ i < 2 * h, Bd R b c m (f i) (f' i)) : ∀ i < h, Bd R b (2 * c) (m + 1) (t4R h f i) (t4R h f' i) := by
  intro i hi
  unfold t4R
  by_cases e : i = h - 1
  · simp only [if_pos e]
    have := hf (2 * h - 1) (by omega)
    bd
  · simp only [if_neg e]
    have h1 := hf (2 * i + 1) (by omega)
    have h2 := hf (2 * i + 2) (by omega)
    bd

theorem t4L'_bd {f : ℕ → T} {f' : ℕ → ℝ} (hf : ∀ i < 2 * h, Bd R b c m (f i) (f' i)) : ∀ i < h, Bd R b (2 * c) (m + 1) (t4L' h f i) (t4L' h f' i) := by
  intro i hi
  unfold t4L'
  by_cases e : i = h - 1
  · simp only [if_pos e]
    have := hf (2 * h - 1) (by omega)
    bd
  · simp only [if_neg e]
    have h1 := hf (2 * i + 1) (by omega)
    have h2 := hf (2 * i + 2) (by omega)
    bd

theorem t4R'_bd {f : ℕ → T} {f' : ℕ → ℝ} (hf : ∀ i < 2 * h, Bd R b c m (f i) (f' i)) : ∀ i < h, Bd R b (2 * c) (m + 1) (t4R' f i) (t4R' f' i) := by
  intro i hi
  unfold t4R'
  by_cases e : i = 0
  · simp only [if_pos e]
    have := hf 0 (by omega)
    bd
  · simp only [if_neg e]
    have h1 := hf (2 * i - 1) (by omega)
    have h2 := hf (2 * i) (by omega)
    bd

theorem t4Out_bd (ht : ∀ i < h, Tw R 1 r (tw i).re (tw' i).re ∧ Tw R 1 r (tw i).im (tw' i).im) {g s : ℕ → T} {g' s' : ℕ → ℝ}
    (hg : ∀ i < h, Bd R b c m (g i) (g' i)) (hs : ∀ i < h, Bd R b c m (s i) (s' i)) :
    ∀ k < 2 * h, Bd R b (2 * c) (m + r + 2) (t4Out tw h g s k) (t4Out tw' h g' s' k) := by
  intro k hk
  unfold t4Out
  by_cases e : k < h
  · simp only [if_pos e]
    have h1 := hg k e; have h2 := hs k e
    obtain ⟨t1, t2⟩ := ht k e
    bd
  · simp only [if_neg e]
    have h1 := hg (2 * h - 1 - k) (by omega); have h2 := hs (2 * h - 1 - k) (by omega)
    obtain ⟨t1, t2⟩ := ht (2 * h - 1 - k) (by omega)
    bd

theorem t4Out'_bd (ht : ∀ i < h, Tw R 1 r (tw i).re (tw' i).re ∧ Tw R 1 r (tw i).im (tw' i).im) {g s : ℕ → T} {g' s' : ℕ → ℝ}
    (hg : ∀ i < h, Bd R b c m (g i) (g' i)) (hs : ∀ i < h, Bd R b c m (s i) (s' i)) :
    ∀ k < 2 * h, Bd R b (2 * c) (m + r + 2) (t4Out' tw h g s k) (t4Out' tw' h g' s' k) := by
  intro k hk
  unfold t4Out'
  by_cases e : k < h
  · simp only [if_pos e]
    have h1 := hg k e; have h2 := hs k e
    obtain ⟨t1, t2⟩ := ht k e
    bd
  · simp only [if_neg e]
    have h1 := hg (2 * h - 1 - k) (by omega); have h2 := hs (2 * h - 1 - k) (by omega)
    obtain ⟨t1, t2⟩ := ht (2 * h - 1 - k) (by omega)
    bd
end

theorem t4_tw {h : ℕ} (hr : R.Twiddles r) (hh : 1 ≤ h) (hh' : 2 * h ≤ 2 ^ 60) : ∀ i < h,
    Tw R 1 r (Cx.conj (singleTwiddle (2 * i + 1) (2 * h * 8) : Cx T)).re (srTw h i).re ∧ Tw R 1 r (Cx.conj (singleTwiddle (2 * i + 1) (2 * h * 8) : Cx T)).im (srTw h i).im := by
  intro i hi
  rw [← t4_tw_eq]
  exact Tw.conj hr (by omega) (by omega) (by omega)

section
variable {h a d : ℕ} {inner : Obj23 T} (hr : R.Twiddles r) (hh : 1 ≤ h) (hh' : 2 * h ≤ 2 ^ 60) (hc : PRelW R .dct3 inner.dct3 h inner.scratchLen a d) (hs : PRelW R .dst3 inner.dst3 h inner.scratchLen a d)
include hr hh hh' hc hs

theorem Type4ConvertToType3Even.rel_dct4 :
    PRel R .dct4 (Type4ConvertToType3Even.inst h inner).dct4 (2 * h) (Type4ConvertToType3Even.inst h inner).scratchLen (4 * a) (d + r + 3) := by
  obtain ⟨A, rA, aA⟩ := hc
  obtain ⟨B, rB, aB⟩ := hs
  refine ⟨_, Type4ConvertToType3Even.dct4_inst hh rA rB, fun b c m f F hb hc hf i hi => ?_⟩
  have e : _ = Kind.dct4.specAt (2 * h) F i := RunsV.unique (Type4ConvertToType3Even.dct4_inst hh (naive3 hh).1 (naive3 hh).2) (Type4ConvertToType3Even.correct_dct4 hh (naive3 hh).1 (naive3 hh).2) F hi
  rw [← e, t4_tw_eq]
  exact (t4Out_bd hb (t4_tw hr hh hh') (aA b _ _ _ _ hb (by omega) (t4L_bd hb hf)) (aB b _ _ _ _ hb (by omega) (t4R_bd hb hf)) i hi).mono hb (le_of_eq (by ring)) (by omega)

theorem Type4ConvertToType3Even.rel_dst4 :
    PRel R .dst4 (Type4ConvertToType3Even.inst h inner).dst4 (2 * h) (Type4ConvertToType3Even.inst h inner).scratchLen (4 * a) (d + r + 3) := by
  obtain ⟨A, rA, aA⟩ := hc
  obtain ⟨B, rB, aB⟩ := hs
  refine ⟨_, Type4ConvertToType3Even.dst4_inst hh rA rB, fun b c m f F hb hc hf i hi => ?_⟩
  have e : _ = Kind.dst4.specAt (2 * h) F i := RunsV.unique (Type4ConvertToType3Even.dst4_inst hh (naive3 hh).1 (naive3 hh).2) (Type4ConvertToType3Even.correct_dst4 hh (naive3 hh).1 (naive3 hh).2) F hi
  rw [← e, t4_tw_eq]
  exact (t4Out'_bd hb (t4_tw hr hh hh') (aB b _ _ _ _ hb (by omega) (t4L'_bd hb hf)) (aA b _ _ _ _ hb (by omega) (t4R'_bd hb hf)) i hi).mono hb (le_of_eq (by ring)) (by omega)
end

end RustDct
