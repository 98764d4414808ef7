import Mathlib.Analysis.InnerProductSpace.PiL2
import Mathlib.Analysis.Complex.Basic
import Mathlib.Algebra.Order.Chebyshev
/-!
# Weighted Euclidean norms and accumulation of relative errors

`wn w n x` is the square root of `Σ_{i<n} w i · ‖x i‖²`.  `Acc` says that a computed operation is close to an exact one; errors of
operations carried out one after the other multiply as `(1+ε₁)(1+ε₂) - 1`.
-/

set_option linter.all false

namespace RustDct
open Finset Real

section
variable {E : Type} [NormedAddCommGroup E]

/-- The weighted Euclidean norm of the first `n` entries. -/
noncomputable def wn (w : ℕ → ℝ) (n : ℕ) (x : ℕ → E) : ℝ := √(∑ i ∈ range n, w i * ‖x i‖ ^ 2)

variable {w : ℕ → ℝ} {n : ℕ} {x y : ℕ → E}

theorem wn_nonneg : 0 ≤ wn w n x := sqrt_nonneg _

theorem sum_w_nonneg (hw : ∀ i, 0 ≤ w i) : 0 ≤ ∑ i ∈ range n, w i * ‖x i‖ ^ 2 :=
  sum_nonneg fun i _ => mul_nonneg (hw i) (sq_nonneg _)

theorem wn_sq (hw : ∀ i, 0 ≤ w i) : wn w n x ^ 2 = ∑ i ∈ range n, w i * ‖x i‖ ^ 2 := sq_sqrt (sum_w_nonneg hw)

theorem wn_congr (h : ∀ i, i < n → x i = y i) : wn w n x = wn w n y := by
  unfold wn
  rw [sum_congr rfl fun i hi => by rw [h i (mem_range.1 hi)]]

/-- Pointwise domination, possibly between different spaces. -/
theorem wn_mono {E' : Type} [NormedAddCommGroup E'] {z : ℕ → E'} (hw : ∀ i, 0 ≤ w i) (h : ∀ i, i < n → ‖x i‖ ≤ ‖z i‖) :
    wn w n x ≤ wn w n z :=
  sqrt_le_sqrt (sum_le_sum fun i hi => mul_le_mul_of_nonneg_left
    (pow_le_pow_left₀ (norm_nonneg _) (h i (mem_range.1 hi)) 2) (hw i))

theorem wn_mul_le {c : ℝ} (hc : 0 ≤ c) {E' : Type} [NormedAddCommGroup E'] {z : ℕ → E'} (hw : ∀ i, 0 ≤ w i)
    (h : ∀ i, i < n → ‖x i‖ ≤ c * ‖z i‖) : wn w n x ≤ c * wn w n z := by
  rw [wn, wn, ← sqrt_sq hc, ← sqrt_mul (sq_nonneg c)]
  apply sqrt_le_sqrt
  rw [mul_sum]
  refine sum_le_sum fun i hi => ?_
  have := pow_le_pow_left₀ (norm_nonneg _) (h i (mem_range.1 hi)) 2
  nlinarith [hw i]

theorem wn_add_le (hw : ∀ i, 0 ≤ w i) : wn w n (fun i => x i + y i) ≤ wn w n x + wn w n y := by
  have h0 : 0 ≤ wn w n x + wn w n y := add_nonneg wn_nonneg wn_nonneg
  rw [wn, sqrt_le_left h0]
  have hcs : ∑ i ∈ range n, w i * (‖x i‖ * ‖y i‖) ≤ wn w n x * wn w n y := by
    have := sum_mul_le_sqrt_mul_sqrt (range n) (fun i => √(w i) * ‖x i‖) (fun i => √(w i) * ‖y i‖)
    simp only [mul_pow, sq_sqrt (hw _)] at this
    refine le_trans (le_of_eq (sum_congr rfl fun i _ => ?_)) this
    have := mul_self_sqrt (hw i)
    calc w i * (‖x i‖ * ‖y i‖) = (√(w i) * √(w i)) * (‖x i‖ * ‖y i‖) := by rw [this]
      _ = _ := by ring
  calc ∑ i ∈ range n, w i * ‖x i + y i‖ ^ 2
      ≤ ∑ i ∈ range n, (w i * ‖x i‖ ^ 2 + 2 * (w i * (‖x i‖ * ‖y i‖)) + w i * ‖y i‖ ^ 2) := by
        refine sum_le_sum fun i _ => ?_
        have := pow_le_pow_left₀ (norm_nonneg _) (norm_add_le (x i) (y i)) 2
        nlinarith [hw i]
    _ = wn w n x ^ 2 + 2 * ∑ i ∈ range n, w i * (‖x i‖ * ‖y i‖) + wn w n y ^ 2 := by
        rw [wn_sq hw, wn_sq hw, sum_add_distrib, sum_add_distrib, mul_sum]
    _ ≤ _ := by nlinarith

end

/-! ### Operations with bounded relative error -/

/-- A seminorm-like size on a space of vectors. -/
structure Nm (V : Type) [AddCommGroup V] where
  of : V → ℝ
  nn : ∀ x, 0 ≤ of x
  add : ∀ x y, of (x + y) ≤ of x + of y

section
variable {V V' V'' : Type} [AddCommGroup V] [AddCommGroup V'] [AddCommGroup V'']

theorem Nm.tri (N : Nm V) (x y z : V) : N.of (x - z) ≤ N.of (x - y) + N.of (y - z) := by
  have := N.add (x - y) (y - z)
  rwa [sub_add_sub_cancel] at this
theorem Nm.tri' (N : Nm V) (x y : V) : N.of x ≤ N.of (x - y) + N.of y := by
  have := N.add (x - y) y
  rwa [sub_add_cancel] at this

/-- The weighted Euclidean norm. -/
noncomputable def Nm.w (E : Type) [NormedAddCommGroup E] (w : ℕ → ℝ) (n : ℕ) (hw : ∀ i, 0 ≤ w i) : Nm (ℕ → E) where
  of := wn w n
  nn := fun _ => wn_nonneg
  add := fun x y => wn_add_le hw

/-- `√(α‖a‖² + β‖b‖² + γ‖c‖²)` on triples. -/
noncomputable def Nm.three (N : Nm V) (N' : Nm V') (N'' : Nm V'') (α β γ : ℝ) (hα : 0 ≤ α) (hβ : 0 ≤ β) (hγ : 0 ≤ γ) : Nm (V × V' × V'') where
  of := fun x => √(α * N.of x.1 ^ 2 + β * N'.of x.2.1 ^ 2 + γ * N''.of x.2.2 ^ 2)
  nn := fun _ => sqrt_nonneg _
  add := fun x y => by
    have e : ∀ a b c : ℝ, √(α * a ^ 2 + β * b ^ 2 + γ * c ^ 2) =
        wn (fun i => if i = 0 then α else if i = 1 then β else γ) 3 (fun i => if i = 0 then a else if i = 1 then b else c) := by
      intro a b c
      simp [wn, sum_range_succ]
    have hw : ∀ i : ℕ, (0 : ℝ) ≤ if i = 0 then α else if i = 1 then β else γ := by intro i; split_ifs <;> assumption
    rw [e, e, e]
    refine le_trans (wn_mono (z := fun i => (if i = 0 then N.of x.1 else if i = 1 then N'.of x.2.1 else N''.of x.2.2) +
      (if i = 0 then N.of y.1 else if i = 1 then N'.of y.2.1 else N''.of y.2.2)) hw ?_) (wn_add_le hw)
    intro i _
    have h1 := N.add x.1 y.1
    have h2 := N'.add x.2.1 y.2.1
    have h3 := N''.add x.2.2 y.2.2
    rw [Real.norm_eq_abs, Real.norm_eq_abs, abs_of_nonneg, abs_of_nonneg]
    · split_ifs <;> simpa
    · split_ifs <;> exact add_nonneg (Nm.nn _ _) (Nm.nn _ _)
    · split_ifs <;> exact Nm.nn _ _

/-- The exact operation `S` is additive and enlarges norms at most by the factor `L`. -/
structure Bounded (N : Nm V) (N' : Nm V') (S : V → V') (L : ℝ) : Prop where
  nn : 0 ≤ L
  sub : ∀ x y, S (x - y) = S x - S y
  le : ∀ x, N'.of (S x) ≤ L * N.of x

/-- The computed operation `P` (on data `A` with real meaning `v`) stays within relative error `ε` of the exact operation `S`,
relative to `L` times the norm of the input. -/
def Acc {A B : Type} (v : A → V) (v' : B → V') (N : Nm V) (N' : Nm V') (S : V → V') (P : A → B) (L ε : ℝ) : Prop :=
  ∀ a, N'.of (v' (P a) - S (v a)) ≤ ε * (L * N.of (v a))

variable {A B C : Type} {v : A → V} {v' : B → V'} {v'' : C → V''} {N : Nm V} {N' : Nm V'} {N'' : Nm V''}

theorem Bounded.comp {S : V → V'} {S' : V' → V''} {L L' : ℝ} (h : Bounded N N' S L) (h' : Bounded N' N'' S' L') :
    Bounded N N'' (fun x => S' (S x)) (L' * L) where
  nn := mul_nonneg h'.nn h.nn
  sub := fun x y => by rw [h.sub, h'.sub]
  le := fun x => by
    calc _ ≤ L' * N'.of (S x) := h'.le _
      _ ≤ L' * (L * N.of x) := mul_le_mul_of_nonneg_left (h.le x) h'.nn
      _ = _ := by ring

/-- Relative errors of consecutive operations multiply. -/
theorem Acc.comp {S : V → V'} {S' : V' → V''} {P : A → B} {P' : B → C} {L L' ε ε' : ℝ} (hε' : 0 ≤ ε')
    (hS : Bounded N N' S L) (hS' : Bounded N' N'' S' L') (h : Acc v v' N N' S P L ε) (h' : Acc v' v'' N' N'' S' P' L' ε') :
    Acc v v'' N N'' (fun x => S' (S x)) (fun a => P' (P a)) (L' * L) ((1 + ε) * (1 + ε') - 1) := by
  intro a
  have h1 := h' (P a)
  have h2 : N''.of (S' (v' (P a)) - S' (S (v a))) ≤ L' * N'.of (v' (P a) - S (v a)) := by
    rw [← hS'.sub]
    exact hS'.le _
  have h3 := N''.tri (v'' (P' (P a))) (S' (v' (P a))) (S' (S (v a)))
  have h4 := N'.tri' (v' (P a)) (S (v a))
  have h5 := h a
  have h6 := hS.le (v a)
  set X := N.of (v a)
  have hX : 0 ≤ X := N.nn _
  set D := N'.of (v' (P a) - S (v a))
  have hL := hS'.nn
  have e1 : ε' * (L' * N'.of (v' (P a))) ≤ ε' * (L' * (D + L * X)) := by gcongr; linarith
  have e2 : ε' * (L' * (D + L * X)) ≤ ε' * (L' * (ε * (L * X) + L * X)) := by gcongr
  have e3 : L' * D ≤ L' * (ε * (L * X)) := by gcongr
  calc _ ≤ ε' * (L' * (ε * (L * X) + L * X)) + L' * (ε * (L * X)) := by linarith
    _ = _ := by ring

theorem Acc.mono {S : V → V'} {P : A → B} {L ε ε' : ℝ} (h : Acc v v' N N' S P L ε) (hL : 0 ≤ L) (he : ε ≤ ε') :
    Acc v v' N N' S P L ε' := fun a =>
  le_trans (h a) (mul_le_mul_of_nonneg_right he (mul_nonneg hL (N.nn _)))

end

section
variable {V1 V2 V3 V1' V2' V3' : Type} [AddCommGroup V1] [AddCommGroup V2] [AddCommGroup V3] [AddCommGroup V1'] [AddCommGroup V2']
  [AddCommGroup V3'] {N1 : Nm V1} {N2 : Nm V2} {N3 : Nm V3} {N1' : Nm V1'} {N2' : Nm V2'} {N3' : Nm V3'}
  {A1 A2 A3 B1 B2 B3 : Type} {v1 : A1 → V1} {v2 : A2 → V2} {v3 : A3 → V3} {v1' : B1 → V1'} {v2' : B2 → V2'} {v3' : B3 → V3'}
  {α β γ α' β' γ' : ℝ} {hα : 0 ≤ α} {hβ : 0 ≤ β} {hγ : 0 ≤ γ} {hα' : 0 ≤ α'} {hβ' : 0 ≤ β'} {hγ' : 0 ≤ γ'}

theorem three_le {x : V1 × V2 × V3} {y : V1' × V2' × V3'} {c c1 c2 c3 : ℝ} (hc : 0 ≤ c)
    (h1 : N1'.of y.1 ≤ c1 * N1.of x.1) (h2 : N2'.of y.2.1 ≤ c2 * N2.of x.2.1) (h3 : N3'.of y.2.2 ≤ c3 * N3.of x.2.2)
    (e1 : α' * c1 ^ 2 ≤ c ^ 2 * α) (e2 : β' * c2 ^ 2 ≤ c ^ 2 * β) (e3 : γ' * c3 ^ 2 ≤ c ^ 2 * γ) :
    (N1'.three N2' N3' α' β' γ' hα' hβ' hγ').of y ≤ c * (N1.three N2 N3 α β γ hα hβ hγ).of x := by
  simp only [Nm.three]
  rw [← sqrt_sq hc, ← sqrt_mul (sq_nonneg c)]
  apply sqrt_le_sqrt
  have key : ∀ {n n' d a a' : ℝ}, 0 ≤ a' → 0 ≤ n' → n' ≤ d * n → a' * d ^ 2 ≤ c ^ 2 * a → a' * n' ^ 2 ≤ c ^ 2 * (a * n ^ 2) := by
    intro n n' d a a' h0 hn h he
    calc a' * n' ^ 2 ≤ a' * (d * n) ^ 2 := mul_le_mul_of_nonneg_left (pow_le_pow_left₀ hn h 2) h0
      _ = (a' * d ^ 2) * n ^ 2 := by ring
      _ ≤ (c ^ 2 * a) * n ^ 2 := mul_le_mul_of_nonneg_right he (sq_nonneg _)
      _ = _ := by ring
  have := key hα' (N1'.nn _) h1 e1
  have := key hβ' (N2'.nn _) h2 e2
  have := key hγ' (N3'.nn _) h3 e3
  linarith

variable {S1 : V1 → V1'} {S2 : V2 → V2'} {S3 : V3 → V3'} {P1 : A1 → B1} {P2 : A2 → B2} {P3 : A3 → B3} {L1 L2 L3 L ε : ℝ}

theorem Bounded.three (h1 : Bounded N1 N1' S1 L1) (h2 : Bounded N2 N2' S2 L2) (h3 : Bounded N3 N3' S3 L3) (hL : 0 ≤ L)
    (e1 : α' * L1 ^ 2 ≤ L ^ 2 * α) (e2 : β' * L2 ^ 2 ≤ L ^ 2 * β) (e3 : γ' * L3 ^ 2 ≤ L ^ 2 * γ) :
    Bounded (N1.three N2 N3 α β γ hα hβ hγ) (N1'.three N2' N3' α' β' γ' hα' hβ' hγ') (fun x => (S1 x.1, S2 x.2.1, S3 x.2.2)) L where
  nn := hL
  sub := fun x y => by simp [h1.sub, h2.sub, h3.sub]
  le := fun x => three_le hL (h1.le _) (h2.le _) (h3.le _) e1 e2 e3

/-- Three operations side by side. -/
theorem Acc.three (h1 : Acc v1 v1' N1 N1' S1 P1 L1 ε) (h2 : Acc v2 v2' N2 N2' S2 P2 L2 ε) (h3 : Acc v3 v3' N3 N3' S3 P3 L3 ε) (hL : 0 ≤ L) (hε : 0 ≤ ε)
    (e1 : α' * L1 ^ 2 ≤ L ^ 2 * α) (e2 : β' * L2 ^ 2 ≤ L ^ 2 * β) (e3 : γ' * L3 ^ 2 ≤ L ^ 2 * γ) :
    Acc (fun a : A1 × A2 × A3 => (v1 a.1, v2 a.2.1, v3 a.2.2)) (fun b : B1 × B2 × B3 => (v1' b.1, v2' b.2.1, v3' b.2.2))
      (N1.three N2 N3 α β γ hα hβ hγ) (N1'.three N2' N3' α' β' γ' hα' hβ' hγ') (fun x => (S1 x.1, S2 x.2.1, S3 x.2.2))
      (fun a => (P1 a.1, P2 a.2.1, P3 a.2.2)) L ε := fun a => by
  have g : ∀ {d a a' : ℝ}, a' * d ^ 2 ≤ L ^ 2 * a → a' * (ε * d) ^ 2 ≤ (ε * L) ^ 2 * a := by
    intro d a a' h
    have := mul_le_mul_of_nonneg_left h (sq_nonneg ε)
    nlinarith
  have := three_le (hα := hα) (hβ := hβ) (hγ := hγ) (hα' := hα') (hβ' := hβ') (hγ' := hγ') (x := (v1 a.1, v2 a.2.1, v3 a.2.2))
    (y := (v1' (P1 a.1) - S1 (v1 a.1), v2' (P2 a.2.1) - S2 (v2 a.2.1), v3' (P3 a.2.2) - S3 (v3 a.2.2))) (c1 := ε * L1) (c2 := ε * L2) (c3 := ε * L3)
    (mul_nonneg hε hL) (by rw [mul_assoc]; exact h1 _) (by rw [mul_assoc]; exact h2 _) (by rw [mul_assoc]; exact h3 _) (g e1) (g e2) (g e3)
  rw [mul_assoc] at this
  exact this

end
end RustDct
