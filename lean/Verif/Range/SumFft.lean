import Verif.Range.Planned
import Verif.Range.Format
import Verif.Float.DftFft
/-!
# The contract of the FFT can be met in arithmetic of bounded range: the defining sum

Not part of the repository (rustfft is external code); used in the examples beside the theorems.
-/

set_option linter.all false

namespace RustDct
open Finset Real

variable {T F : Type} [F64 F] [DctNum T F] {R : Ieee T F} {r : ℕ}

theorem dftSeq_bd (hr : R.Twiddles r) {n : ℕ} (hn : 1 ≤ n) (hn' : n < 2 ^ 64) {b : ℝ} (hb : R.L ≤ b) {c : ℕ → Cx T} {c' : ℕ → Cx ℝ} (hc : ∀ j < n, CBd R b 1 0 (c j) (c' j)) (k : ℕ) :
    ∀ m ≤ n, CBd R b (2 * m + 1) (m + r + 2) (dftSeq n c k m) (dftSeq n c' k m) := by
  intro m
  induction m with
  | zero => intro _; exact ⟨Bd.zero' hb (le_refl _), Bd.zero' hb (le_refl _)⟩
  | succ m ih =>
    intro hm
    have hi : m * k % n ≤ n := (Nat.mod_lt _ (by omega)).le
    have h := CBd.mul hb (hc m (by omega)) (Ieee.tw_re hr hn hn' hi) (Ieee.tw_im hr hn hn' hi)
    have h0 := ih (by omega)
    rw [dftSeq, dftSeq]
    exact ⟨(Bd.add hb h0.1 h.1).mono hb (by omega) (by omega), (Bd.add hb h0.2 h.2).mono hb (by omega) (by omega)⟩

/-- The defining sum meets the contract. -/
theorem sumFft_range (hr : R.Twiddles r) {n : ℕ} (hn' : n < 2 ^ 64) : FftRange R (sumFft n : Fft T) (2 * n + 1) (n + r + 2) := by
  refine ⟨rfl, fun buf => (List.range n).map fun k => dftSeq n (fun j => buf.getD j ⟨0, 0⟩) k n, fun buf hb => ?_⟩
  change buf.length = n at hb
  refine ⟨fun scr hs => ⟨scr, by simp [sumFft, hb], rfl⟩, by simp [sumFft], fun B hB hM hin p hp => ?_⟩
  rcases Nat.eq_zero_or_pos n with rfl | hn
  · simp at hp
  · obtain ⟨c, rfl⟩ := exists_vec hb
    have e0 : ((List.range n).map fun k => dftSeq n (fun j => (vec n c).getD j ⟨0, 0⟩) k n) = vec n fun k => dftSeq n c k n := by
      rw [map_range_eq_vec]
      exact vec_congr fun k _ => dftSeq_congr fun j hj => by simp [List.getD, hj]
    have e2 : Spec.dft ((vec n c).map R.toC) = vec n fun k => (dftSeq n (fun j => (⟨R.val (c j).re, R.val (c j).im⟩ : Cx ℝ)) k n).toC := by
      have : (vec n c).map R.toC = (vec n fun j => (⟨R.val (c j).re, R.val (c j).im⟩ : Cx ℝ)).map Cx.toC := by rw [map_vec, map_vec]; rfl
      rw [this, dft_vec, map_vec]
      refine vec_congr fun k _ => ?_
      rw [dftSeq_real hn]
      rfl
    beta_reduce at hp
    rw [e0, e2, List.zip, zipWith_vec_same] at hp
    simp only [vec, List.mem_map, List.mem_range] at hp
    obtain ⟨k, hk, rfl⟩ := hp
    have h := dftSeq_bd hr hn hn' hB (c := c) (c' := fun j => ⟨R.val (c j).re, R.val (c j).im⟩) (fun j hj => by
      have := hin (c j) (by simp only [vec, List.mem_map, List.mem_range]; exact ⟨j, hj, rfl⟩)
      exact ⟨Bd.in this.1 this.2.2.1, Bd.in this.2.1 this.2.2.2⟩) k n (le_refl _)
    obtain ⟨x1, -, x3⟩ := h.1.2 hM
    obtain ⟨y1, -, y3⟩ := h.2.2 hM
    exact ⟨x1, y1, x3, y3⟩

theorem sumFft_planRange (hr : R.Twiddles r) : PlanFftRange R (fun n => (sumFft n : Fft T)) (fun n => 2 * n + 1) (fun n => n + r + 2) :=
  fun n => ⟨rfl, rfl, by dsimp only; omega, by dsimp only; omega, fun h => sumFft_range hr (by omega)⟩

end RustDct
