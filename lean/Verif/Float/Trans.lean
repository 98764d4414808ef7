import Verif.Float.Norm
import Verif.Float.Ap
import Verif.Proofs.Inverse
/-!
# Accuracy of a transform on sequences
-/

set_option linter.all false

namespace RustDct
open Finset Real

variable {T F : Type} [F64 F] [DctNum T F]

/-- The real sequence a computed one stands for. -/
def Rounding.seq (R : Rounding T F) (f : ℕ → T) : ℕ → ℝ := fun i => R.val (f i)

theorem halfAt_nonneg (p i : ℕ) : 0 ≤ Spec.halfAt p i := by unfold Spec.halfAt; split_ifs <;> norm_num

theorem Kind.weight_nonneg (k : Kind) (n i : ℕ) : 0 ≤ k.weight n i := by
  cases k <;> simp only [Kind.weight] <;> first | exact zero_le_one | exact halfAt_nonneg _ _ | exact mul_nonneg (halfAt_nonneg _ _) (halfAt_nonneg _ _)

/-- The norm in which a transform of kind `k` measures its input. -/
noncomputable def Kind.nm (k : Kind) (n : ℕ) : Nm (ℕ → ℝ) := Nm.w ℝ (k.weight n) n (k.weight_nonneg n)

/-- The unweighted norm. -/
noncomputable def nm1 (n : ℕ) : Nm (ℕ → ℝ) := Nm.w ℝ (fun _ => 1) n (fun _ => zero_le_one)

theorem Kind.scale_nonneg (k : Kind) {n : ℕ} (hn : 1 ≤ n) : 0 ≤ k.scale n := by
  have : (1 : ℝ) ≤ n := by exact_mod_cast hn
  cases k <;> simp only [Kind.scale] <;> linarith

theorem Kind.bounded (k : Kind) {n : ℕ} (hn : 1 ≤ n) (h1 : k = .dct1 → 2 ≤ n) : Bounded (k.nm n) (k.inv.nm n) (k.specAt n) √(k.scale n) where
  nn := sqrt_nonneg _
  sub := fun x y => by
    funext r
    have := k.linear (n := n) 1 (-1) x y r
    rw [show (x - y : ℕ → ℝ) = fun i => 1 * x i + -1 * y i by funext i; simp; ring, this]
    simp; ring
  le := fun x => by
    have hp := k.parseval h1 x
    apply le_of_eq
    simp only [Kind.nm, Nm.w, wn, Real.norm_eq_abs, sq_abs]
    rw [← sqrt_mul (k.scale_nonneg hn)]
    congr 1
    simpa [pow_two] using hp

/-- The computed transform `C` of length `n` has relative error at most `ε`. -/
def TransAcc (R : Rounding T F) (k : Kind) (n : ℕ) (C : (ℕ → T) → ℕ → T) (ε : ℝ) : Prop :=
  Acc R.seq R.seq (k.nm n) (k.inv.nm n) (k.specAt n) C √(k.scale n) ε

theorem TransAcc.mono {R : Rounding T F} {k : Kind} {n : ℕ} {C : (ℕ → T) → ℕ → T} {ε ε' : ℝ} (h : TransAcc R k n C ε) (he : ε ≤ ε') :
    TransAcc R k n C ε' := Acc.mono h (sqrt_nonneg _) he

theorem TransAcc.congr {R : Rounding T F} {k : Kind} {n : ℕ} {C C' : (ℕ → T) → ℕ → T} {ε : ℝ} (h : TransAcc R k n C ε)
    (hC : ∀ f i, i < n → C' f i = C f i) : TransAcc R k n C' ε := fun f => by
  refine le_trans (le_of_eq ?_) (h f)
  exact wn_congr fun i hi => by simp [Rounding.seq, hC f i hi]

/-- An exact operation that agrees with the transform on the first `n` entries is as good. -/
theorem TransAcc.of_acc {R : Rounding T F} {k : Kind} {n : ℕ} {C : (ℕ → T) → ℕ → T} {S : (ℕ → ℝ) → ℕ → ℝ} {L ε : ℝ}
    (h : Acc R.seq R.seq (k.nm n) (k.inv.nm n) S C L ε) (hS : ∀ x i, i < n → S x i = k.specAt n x i) (hL : L = √(k.scale n)) : TransAcc R k n C ε := fun f => by
  rw [← hL]
  refine le_trans (le_of_eq ?_) (h f)
  exact wn_congr fun i hi => by simp [hS _ i hi]

section
variable {V A : Type} [AddCommGroup V] {N : Nm V} {v : A → V} {E : Type} [NormedAddCommGroup E] {w : ℕ → ℝ} {n : ℕ} {hw : ∀ i, 0 ≤ w i}
  {B : Type} {v' : B → ℕ → E} {S : V → ℕ → E} {P : A → B} {L ε : ℝ}

/-- If every entry has relative error `ε`, so has the whole. -/
theorem Acc.of_entries (hε : 0 ≤ ε) (hS : Bounded N (Nm.w E w n hw) S L)
    (h : ∀ a i, i < n → ‖v' (P a) i - S (v a) i‖ ≤ ε * ‖S (v a) i‖) : Acc v v' N (Nm.w E w n hw) S P L ε := fun a =>
  le_trans (wn_mul_le hε hw (h a)) (mul_le_mul_of_nonneg_left (hS.le _) hε)

end

theorem wn_one_sq {n : ℕ} {x : ℕ → ℝ} : wn (fun _ => 1) n x ^ 2 = ∑ i ∈ range n, x i ^ 2 := by
  rw [wn_sq (fun _ => zero_le_one)]; simp
theorem wn_sq' {w : ℕ → ℝ} (hw : ∀ i, 0 ≤ w i) {n : ℕ} {x : ℕ → ℝ} : wn w n x ^ 2 = ∑ i ∈ range n, w i * x i ^ 2 := by
  rw [wn_sq hw]; simp

theorem sq_le_of_abs_le {a b c : ℝ} (h : |a| ≤ c * b) : a ^ 2 ≤ c ^ 2 * b ^ 2 := by
  rw [← sq_abs a, ← mul_pow]
  exact pow_le_pow_left₀ (abs_nonneg _) h 2

/-- `1 + 2 (g - 1) ≤ g²`. -/
theorem two_g {g : ℝ} : 1 + 2 * (g - 1) ≤ g ^ 2 := by nlinarith [sq_nonneg (g - 1)]

/-- A triple of sequences. -/
noncomputable def n111 (a b c : ℕ) : Nm ((ℕ → ℝ) × (ℕ → ℝ) × (ℕ → ℝ)) := (nm1 a).three (nm1 b) (nm1 c) 1 1 1 zero_le_one zero_le_one zero_le_one

theorem n111_of {a b c : ℕ} (x : (ℕ → ℝ) × (ℕ → ℝ) × (ℕ → ℝ)) :
    (n111 a b c).of x = √(∑ i ∈ range a, x.1 i ^ 2 + ∑ i ∈ range b, x.2.1 i ^ 2 + ∑ i ∈ range c, x.2.2 i ^ 2) := by
  simp only [n111, Nm.three, nm1, Nm.w, wn_one_sq, one_mul]

theorem nm1_of {n : ℕ} (x : ℕ → ℝ) : (nm1 n).of x = √(∑ i ∈ range n, x i ^ 2) := by
  simp [nm1, Nm.w, wn]

theorem sqrt_le_mul_sqrt {a b c : ℝ} (hc : 0 ≤ c) (h : a ≤ c ^ 2 * b) : √a ≤ c * √b := by
  rw [← sqrt_sq hc, ← sqrt_mul (sq_nonneg c)]
  exact sqrt_le_sqrt h

theorem sum4 (q : ℕ) (g : ℕ → ℝ) :
    ∑ i ∈ range (4 * q), g i = ∑ i ∈ range q, (g i + g (2 * q - 1 - i) + g (2 * q + i) + g (4 * q - 1 - i)) := by
  rw [show 4 * q = 2 * (2 * q) by ring, sum_pair (2 * q), sum_pair q]
  refine sum_congr rfl fun i hi => ?_
  rw [mem_range] at hi
  rw [show 2 * (2 * q) - 1 - (2 * q - 1 - i) = 2 * q + i by omega]
  ring

/-- Triples of computed sequences. -/
def Rounding.seq3 (R : Rounding T F) (f : (ℕ → T) × (ℕ → T) × (ℕ → T)) : (ℕ → ℝ) × (ℕ → ℝ) × (ℕ → ℝ) := (R.seq f.1, R.seq f.2.1, R.seq f.2.2)

end RustDct
