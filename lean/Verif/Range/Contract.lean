import Verif.Range.Made
/-!
# The contract `FiniteAs` and its form on sequences
-/

set_option linter.all false

namespace RustDct
open Finset Real

variable {T F : Type} [F64 F] [DctNum T F] {R : Ieee T F} {k : Kind} {p : Proc T} {n s a d : ℕ}

theorem halfAt_le (j i : ℕ) : |Spec.halfAt j i| ≤ 1 := by
  unfold Spec.halfAt
  split_ifs <;> norm_num [abs_of_pos]

theorem Kind.kernel_le (k : Kind) (n j i : ℕ) : |k.kernel n j i| ≤ 1 := by
  have m : ∀ {x y : ℝ}, |x| ≤ 1 → |y| ≤ 1 → |x * y| ≤ 1 := fun hx hy => by
    rw [abs_mul]; exact mul_le_one₀ hx (abs_nonneg _) hy
  cases k <;> simp only [Kind.kernel] <;>
    first
    | exact abs_cos_le_one _
    | exact abs_sin_le_one _
    | exact m (m (halfAt_le _ _) (halfAt_le _ _)) (abs_cos_le_one _)
    | exact m (halfAt_le _ _) (abs_cos_le_one _)
    | exact m (halfAt_le _ _) (abs_sin_le_one _)

theorem Kind.specAt_sub_le (k : Kind) {n : ℕ} {x y : ℕ → ℝ} {B : ℝ} (h : ∀ j < n, |x j - y j| ≤ B) (i : ℕ) : |k.specAt n x i - k.specAt n y i| ≤ n * B := by
  rw [k.specAt_eq, k.specAt_eq, ← sum_sub_distrib]
  refine (abs_sum_le_sum_abs _ _).trans ?_
  calc ∑ j ∈ range n, |k.kernel n i j * x j - k.kernel n i j * y j| ≤ ∑ j ∈ range n, B := by
        refine sum_le_sum fun j hj => ?_
        rw [← mul_sub, abs_mul]
        have h1 := k.kernel_le n i j
        have h2 := h j (mem_range.1 hj)
        have h3 := abs_nonneg (x j - y j)
        nlinarith [abs_nonneg (k.kernel n i j)]
    _ = n * B := by rw [sum_const, card_range, nsmul_eq_mul]

theorem Kind.specAt_le (k : Kind) {n : ℕ} {x : ℕ → ℝ} {B : ℝ} (h : ∀ j < n, |x j| ≤ B) (i : ℕ) : |k.specAt n x i| ≤ n * B := by
  have := k.specAt_sub_le (y := fun _ => 0) (fun j hj => by simpa using h j hj) i
  have e : k.specAt n (fun _ => 0) i = 0 := by rw [k.specAt_eq]; simp
  rwa [e, sub_zero] at this

/-- The contract gives the bounds for inputs that are themselves results of roundings. -/
theorem FiniteAs.relW (h : FiniteAs R k p n s a d) (h1 : 1 ≤ a) (hn : n ≤ a) : PRelW R k p n s a d := by
  obtain ⟨G, hG, hl, h⟩ := h
  have hv : ∀ f : ℕ → T, G (vec n f) = vec n fun i => (G (vec n f)).getD i 0 := fun f => vec_getD' 0 (hl _ (length_vec _ _))
  refine ⟨fun f i => (G (vec n f)).getD i 0, fun f scr hs => ?_, ?_⟩
  · obtain ⟨scr', e, l⟩ := hG ⟨vec n f, scr⟩ ⟨length_vec _ _, hs⟩
    rw [e]
    exact ⟨scr', by dsimp only; rw [← hv f], l⟩
  · intro b c m f F hb hc hf i hi
    have b0 : 0 ≤ b := R.L_pos.le.trans hb
    have hcb := Bd.one_mul_le (R := R) (c := c) hb hc
    have hcb0 := R.L_pos.le.trans hcb
    have g1 : (1 : ℝ) ≤ a := by exact_mod_cast h1
    have gn : (n : ℝ) ≤ a := by exact_mod_cast hn
    have p1 := R.one_le_pow m
    have p2 := R.one_le_pow d
    refine ⟨Nat.mul_pos h1 hc, fun hM => ?_⟩
    have hM' : (a : ℝ) * (c * b) * ((1 + R.u) ^ m * (1 + R.u) ^ d) ≤ R.M := by
      rw [← pow_add]; push_cast at hM; linarith
    have small : (c : ℝ) * b * (1 + R.u) ^ m ≤ R.M := by
      refine le_trans ?_ hM'
      have : (c : ℝ) * b * (1 + R.u) ^ m ≤ a * ((c : ℝ) * b * (1 + R.u) ^ m) := le_mul_of_one_le_left (by positivity) g1
      have h3 : a * ((c : ℝ) * b * (1 + R.u) ^ m) ≤ a * ((c : ℝ) * b * (1 + R.u) ^ m) * (1 + R.u) ^ d := le_mul_of_one_le_right (by positivity) p2
      calc _ ≤ _ := this.trans h3
        _ = _ := by ring
    have hin : ∀ j < n, R.fin (f j) ∧ |F j| ≤ c * b ∧ |R.val (f j) - F j| ≤ ((1 + R.u) ^ m - 1) * (c * b) := fun j hj => (hf j hj).2 small
    have hB : R.Bounded ((c : ℝ) * b * (1 + R.u) ^ m) (vec n f) := by
      intro x hx
      simp only [vec, List.mem_map, List.mem_range] at hx
      obtain ⟨j, hj, rfl⟩ := hx
      obtain ⟨a1, a2, a3⟩ := hin j hj
      refine ⟨a1, ?_⟩
      have := abs_add_le (R.val (f j) - F j) (F j)
      rw [sub_add_cancel] at this
      linarith
    have hLB : R.L ≤ (c : ℝ) * b * (1 + R.u) ^ m := hcb.trans (le_mul_of_one_le_right hcb0 p1)
    have near := h _ hLB (le_trans (le_of_eq (by ring)) hM') (vec n f) (length_vec _ _) hB
    rw [hv f, map_vec, k.spec_vec] at near
    have hp : ((G (vec n f)).getD i 0, k.specAt n (fun i => R.val (f i)) i) ∈ List.zip (vec n fun i => (G (vec n f)).getD i 0) (vec n (k.specAt n fun i => R.val (f i))) := by
      rw [List.zip, zipWith_vec_same]
      simp only [vec, List.mem_map, List.mem_range]
      exact ⟨i, hi, rfl⟩
    obtain ⟨f1, f2⟩ := near.2 _ hp
    dsimp only at f1 f2
    have s1 := k.specAt_le (fun j hj => (hin j hj).2.1) i
    have s2 := k.specAt_sub_le (x := fun i => R.val (f i)) (y := F) (fun j hj => (hin j hj).2.2) i
    have q : 0 ≤ ((1 + R.u) ^ m - 1) * (c * b) := mul_nonneg (by linarith) hcb0
    refine ⟨f1, ?_, ?_⟩
    · push_cast
      calc _ ≤ (n : ℝ) * (c * b) := s1
        _ ≤ a * (c * b) := mul_le_mul_of_nonneg_right gn hcb0
        _ = _ := by ring
    · have e1 := abs_sub_le (R.val ((G (vec n f)).getD i 0)) (k.specAt n (fun i => R.val (f i)) i) (k.specAt n F i)
      have e2 : (n : ℝ) * (((1 + R.u) ^ m - 1) * (c * b)) ≤ a * (((1 + R.u) ^ m - 1) * (c * b)) := mul_le_mul_of_nonneg_right gn q
      push_cast
      rw [pow_add]
      nlinarith

theorem PRelW.finiteAs (h : PRelW R k p n s a d) : FiniteAs R k p n s a d := by
  obtain ⟨C, hC, h⟩ := h
  have hv : ∀ l : List T, l.length = n → vec n (fun i => l.getD i 0) = l := fun l hl => (vec_getD' 0 hl).symm
  refine ⟨fun l => vec n (C fun i => l.getD i 0), ?_, fun l _ => length_vec _ _, fun B hB hM l hl hbd => ?_⟩
  · rintro ⟨buf, scr⟩ ⟨hb, hs⟩
    obtain ⟨scr', e, hl⟩ := hC (fun i => buf.getD i 0) scr hs
    rw [hv buf hb] at e
    exact ⟨scr', e, hl⟩
  · have := h.near hB hM (f := fun i => l.getD i 0) (by rw [hv l hl]; exact hbd)
    rwa [hv l hl] at this

theorem FiniteAs.staysFinite (h : FiniteAs R k p n s a d) : StaysFinite R p n s k.spec a d := by
  obtain ⟨G, hG, -, h⟩ := h
  intro B hB hM
  have key : ∀ m, ValidCall n s m → R.Bounded B m.buf → ∃ m', p m = .ok m' ∧ R.Near (((1 + R.u) ^ d - 1) * (a * B)) m'.buf (k.spec (m.buf.map R.val)) := by
    intro m hm hbd
    obtain ⟨scr', e, -⟩ := hG m hm
    exact ⟨_, e, h B hB hM m.buf hm.1 hbd⟩
  refine ⟨key, fun buf hb hbd => ?_⟩
  obtain ⟨m', e, hm⟩ := key ⟨buf, List.replicate s 0⟩ ⟨hb, by simp⟩ hbd
  exact ⟨m'.buf, by unfold processDefault; rw [e], hm⟩

end RustDct
