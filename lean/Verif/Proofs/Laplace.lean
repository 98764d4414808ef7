import Verif.Laplace
import Verif.Proofs.Inverse
/-!
# The transforms diagonalise the second difference
-/

set_option linter.all false

namespace RustDct
open Real Finset

/-- Summation by parts: `e` and `f` are two signals with their two neighbours (index 0 and `n + 1`). -/
theorem green (e f : ℕ → ℝ) : ∀ n, ∑ i ∈ range n, (f (i + 1) * (e i + e (i + 2)) - e (i + 1) * (f i + f (i + 2))) =
    (f n * e (n + 1) - e n * f (n + 1)) - (f 0 * e 1 - e 0 * f 1)
  | 0 => by simp
  | n + 1 => by rw [sum_range_succ, green e f n]; ring

/-- The continued signal: index 0 is the left neighbour. -/
noncomputable def Kind.cont (k : Kind) (n : ℕ) (x : ℕ → ℝ) (i : ℕ) : ℝ :=
  if i = 0 then k.left.beyond (x 0) (x 1) else if i = n + 1 then k.right.beyond (x (n - 1)) (x (n - 2)) else x (i - 1)

theorem Kind.laplaceAt_cont (k : Kind) (n : ℕ) (x : ℕ → ℝ) {i : ℕ} (hi : i < n) :
    k.laplaceAt n x i = k.cont n x i - 2 * x i + k.cont n x (i + 2) := by
  unfold Kind.laplaceAt Kind.cont
  congr 1
  · congr 1
    split_ifs <;> first | rfl | omega
  · by_cases h : i + 1 = n
    · rw [if_pos h, if_neg (by omega), if_pos (by omega)]
    · rw [if_neg h, if_neg (by omega), if_neg (by omega)]; rfl

/-- A wave continued as `k` continues it. -/
structure Kind.Wave (k : Kind) (n : ℕ) (θ : ℝ) (K : ℕ → ℝ) : Prop where
  step : ∀ i, K i + K (i + 2) = 2 * cos θ * K (i + 1)
  left : K 0 = k.left.beyond (K 1) (K 2)
  right : K (n + 1) = k.right.beyond (K n) (K (n - 1))

theorem Kind.weight_eq (k : Kind) (n i : ℕ) : k.weight n i =
    (match k.left with | .evenPoint => Spec.halfAt 0 i | _ => 1) * (match k.right with | .evenPoint => Spec.halfAt (n - 1) i | _ => 1) := by
  cases k <;> simp [Kind.weight, Kind.left, Kind.right]

theorem Kind.Wave.diag {k : Kind} {n : ℕ} {θ : ℝ} {K : ℕ → ℝ} (W : k.Wave n θ K) (hn : 2 ≤ n) (x : ℕ → ℝ) :
    ∑ i ∈ range n, k.weight n i * K (i + 1) * k.laplaceAt n x i = (2 * cos θ - 2) * ∑ i ∈ range n, k.weight n i * K (i + 1) * x i := by
  have hx : ∀ i, i < n → k.cont n x (i + 1) = x i := fun i hi => by simp [Kind.cont, show i ≠ n by omega]
  set e := k.cont n x with he
  have e0 : e 0 = k.left.beyond (x 0) (x 1) := by simp [he, Kind.cont]
  have en : e (n + 1) = k.right.beyond (x (n - 1)) (x (n - 2)) := by simp [he, Kind.cont]
  rw [mul_sum, ← sub_eq_zero, ← sum_sub_distrib]
  have t : ∀ i ∈ range n, k.weight n i * K (i + 1) * k.laplaceAt n x i - (2 * cos θ - 2) * (k.weight n i * K (i + 1) * x i) =
      k.weight n i * (K (i + 1) * (e i + e (i + 2)) - e (i + 1) * (K i + K (i + 2))) := fun i hi => by
    rw [k.laplaceAt_cont n x (mem_range.1 hi), hx i (mem_range.1 hi), W.step]
    ring
  rw [sum_congr rfl t]
  obtain ⟨m, rfl⟩ : ∃ m, n = m + 2 := ⟨n - 2, by omega⟩
  have x0 : e 1 = x 0 := hx 0 (by omega)
  have x1 : e 2 = x 1 := hx 1 (by omega)
  have xm : e (m + 1) = x m := hx m (by omega)
  have xm1 : e (m + 2) = x (m + 1) := hx (m + 1) (by omega)
  -- split off the two ends
  rw [sum_range_succ, sum_range_succ']
  have hw : ∀ i ∈ range m, k.weight (m + 2) (i + 1) * (K (i + 1 + 1) * (e (i + 1) + e (i + 1 + 2)) - e (i + 1 + 1) * (K (i + 1) + K (i + 1 + 2))) =
      K (i + 1 + 1) * (e (i + 1) + e (i + 1 + 2)) - e (i + 1 + 1) * (K (i + 1) + K (i + 1 + 2)) := fun i hi => by
    have := mem_range.1 hi
    have : k.weight (m + 2) (i + 1) = 1 := by
      rw [k.weight_eq]
      cases k.left <;> cases k.right <;> simp [Spec.halfAt] <;> omega
    rw [this, one_mul]
  rw [sum_congr rfl hw]
  have g := green (fun i => e (i + 1)) (fun i => K (i + 1)) m
  rw [g, k.weight_eq, k.weight_eq]
  have l := W.left
  have r := W.right
  simp only [show m + 2 - 1 = m + 1 by omega, show m + 2 - 2 = m by omega] at *
  rw [← x0, ← x1] at e0
  rw [← xm, ← xm1] at en
  generalize k.left = L at *
  generalize k.right = R' at *
  simp only [Nat.zero_add, Nat.add_assoc, Nat.reduceAdd] at *
  cases L <;> cases R' <;> simp only [Side.beyond, Spec.halfAt] at * <;> simp only [l, r, e0, en] <;> simp <;> ring

/-! ### The sixteen waves -/

theorem cos_mirror {a b : ℝ} (m : ℕ) (h : a + b = m * (2 * π)) : cos a = cos b := by
  rw [show a = m * (2 * π) - b by linarith, cos_nat_mul_two_pi_sub]

theorem sin_mirror {a b : ℝ} (m : ℕ) (h : a + b = m * (2 * π)) : sin a = -sin b := by
  rw [show a = m * (2 * π) - b by linarith, sin_nat_mul_two_pi_sub]

theorem cos_mirror_odd {a b : ℝ} (m : ℕ) (h : a + b = (2 * m + 1) * π) : cos a = -cos b := by
  rw [show a = m * (2 * π) - (b - π) by linarith, cos_nat_mul_two_pi_sub, cos_sub_pi]

theorem sin_mirror_odd {a b : ℝ} (m : ℕ) (h : a + b = (2 * m + 1) * π) : sin a = sin b := by
  rw [show a = m * (2 * π) - (b - π) by linarith, sin_nat_mul_two_pi_sub, sin_sub_pi, neg_neg]

theorem cos_odd_zero {a : ℝ} (m : ℕ) (h : a = (m + 1 / 2) * π) : cos a = 0 := by
  have := cos_mirror_odd (a := a) (b := a) m (by rw [h]; ring)
  linarith

theorem sin_zero_of {a : ℝ} (m : ℕ) (h : a = m * π) : sin a = 0 := by rw [h, sin_nat_mul_pi]

theorem cos_steps (θ σ : ℝ) (i : ℕ) : cos (θ * (i + σ)) + cos (θ * ((i + 2 : ℕ) + σ)) = 2 * cos θ * cos (θ * ((i + 1 : ℕ) + σ)) := by
  rw [show θ * (i + σ) = θ * ((i + 1 : ℕ) + σ) - θ by push_cast; ring, show θ * ((i + 2 : ℕ) + σ) = θ * ((i + 1 : ℕ) + σ) + θ by push_cast; ring, cos_sub, cos_add]
  ring

theorem sin_steps (θ σ : ℝ) (i : ℕ) : sin (θ * (i + σ)) + sin (θ * ((i + 2 : ℕ) + σ)) = 2 * cos θ * sin (θ * ((i + 1 : ℕ) + σ)) := by
  rw [show θ * (i + σ) = θ * ((i + 1 : ℕ) + σ) - θ by push_cast; ring, show θ * ((i + 2 : ℕ) + σ) = θ * ((i + 1 : ℕ) + σ) + θ by push_cast; ring, sin_sub, sin_add]
  ring

/-- Index of the wave at sample 0 of a kind, minus one. -/
noncomputable def Kind.shift : Kind → ℝ
  | .dct1 | .dct3 | .dct5 | .dct7 => -1
  | .dct2 | .dct4 | .dct6 | .dct8 => -1 / 2
  | .dst1 | .dst3 | .dst5 | .dst7 => 0
  | .dst2 | .dst4 | .dst6 | .dst8 => -1 / 2

noncomputable def Kind.trig : Kind → ℝ → ℝ
  | .dct1 | .dct2 | .dct3 | .dct4 | .dct5 | .dct6 | .dct7 | .dct8 => cos
  | _ => sin

theorem Kind.kernel_eq (k : Kind) (n u i : ℕ) : k.kernel n u i = k.weight n i * k.trig (k.freq n u * ((i + 1 : ℕ) + k.shift)) := by
  cases k <;> simp only [Kind.kernel, Kind.weight, Kind.trig, Kind.freq, Kind.shift, one_mul] <;> congr 2 <;> push_cast <;> ring

theorem Kind.wave (k : Kind) {n : ℕ} (hn : 2 ≤ n) (u : ℕ) : k.Wave n (k.freq n u) fun i => k.trig (k.freq n u * (i + k.shift)) := by
  have h2 : (2 : ℝ) ≤ n := by exact_mod_cast hn
  have h0 : (n : ℝ) ≠ 0 := by linarith
  have h1 : (n : ℝ) - 1 ≠ 0 := by linarith
  have h3 : (n : ℝ) - 1 / 2 ≠ 0 := by linarith
  have h4 : (n : ℝ) + 1 / 2 ≠ 0 := by linarith
  have h5 : (n : ℝ) + 1 ≠ 0 := by linarith
  have h6 : (2 : ℝ) * n - 1 ≠ 0 := by linarith
  have h7 : (2 : ℝ) * n + 1 ≠ 0 := by linarith
  have c1 : ((n - 1 : ℕ) : ℝ) = n - 1 := by push_cast [Nat.cast_sub (show 1 ≤ n by omega)]; rfl
  refine ⟨fun i => ?_, ?_, ?_⟩
  · cases k <;> simp only [Kind.trig] <;> first | exact cos_steps .. | exact sin_steps ..
  · cases k <;> simp only [Kind.trig, Kind.left, Side.beyond, Kind.freq, Kind.shift] <;>
      first
      | (refine cos_mirror 0 ?_; push_cast; ring)
      | (refine sin_mirror 0 ?_; push_cast; ring)
      | (refine sin_zero_of 0 ?_; push_cast; ring)
  · cases k <;> simp only [Kind.trig, Kind.right, Side.beyond, Kind.freq, Kind.shift, c1]
    · exact cos_mirror u (by push_cast; field_simp; ring)
    · exact cos_mirror u (by push_cast; field_simp; ring)
    · exact cos_odd_zero u (by push_cast; field_simp; ring)
    · exact cos_mirror_odd u (by push_cast; field_simp; ring)
    · exact cos_mirror u (by push_cast; rw [← mul_add, div_mul_eq_mul_div, div_eq_iff h3]; ring)
    · exact cos_mirror u (by push_cast; rw [← mul_add, div_mul_eq_mul_div, div_eq_iff h3]; ring)
    · exact cos_mirror_odd u (by push_cast; field_simp; ring)
    · exact cos_odd_zero u (by push_cast; field_simp; ring)
    · exact sin_zero_of (u + 1) (by push_cast; field_simp; ring)
    · exact sin_mirror (u + 1) (by push_cast; field_simp; ring)
    · exact sin_mirror_odd u (by push_cast; field_simp; ring)
    · exact sin_mirror_odd u (by push_cast; field_simp; ring)
    · exact sin_mirror (u + 1) (by push_cast; field_simp; ring)
    · exact sin_zero_of (u + 1) (by push_cast; field_simp; ring)
    · exact sin_mirror_odd u (by push_cast; field_simp; ring)
    · exact sin_mirror_odd u (by push_cast; field_simp; ring)

/-- Each transform turns the second difference into a multiplication. -/
theorem Kind.diagonal (k : Kind) {n : ℕ} (hn : 2 ≤ n) (x : ℕ → ℝ) (u : ℕ) : k.specAt n (k.laplaceAt n x) u = k.eig n u * k.specAt n x u := by
  rw [k.specAt_eq, k.specAt_eq]
  have := (k.wave hn u).diag hn x
  simp only [Kind.kernel_eq, Kind.eig]
  exact_mod_cast this

end RustDct
