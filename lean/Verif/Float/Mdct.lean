import Verif.Float.Planned
import Verif.Proofs.Tdac
/-!
# Accuracy of the MDCT via DCT4
-/

set_option linter.all false

namespace RustDct
open Finset Real

variable {T F : Type} [F64 F] [DctNum T F] {R : Rounding T F}

/-! ### Sums over folded indices -/

/-- The two samples folded into position `i`: their absolute values. -/
def foldAbs (g : ℕ) (a b : ℕ → ℝ) : ℕ → ℝ := fun i => if i < g then |b (g - 1 - i)| + |b (g + i)| else |a (i - g)| + |a (2 * g - 1 - (i - g))|

theorem sum_two (g : ℕ) (f : ℕ → ℝ) : ∑ i ∈ range (2 * g), f i = ∑ i ∈ range g, f i + ∑ i ∈ range g, f (g + i) := by
  rw [two_mul, sum_range_add]

theorem sum_refl (g : ℕ) (f : ℕ → ℝ) : ∑ i ∈ range g, f (g - 1 - i) = ∑ i ∈ range g, f i := sum_range_reflect f g

theorem foldAbs_norm (g : ℕ) (a b : ℕ → ℝ) : ∑ i ∈ range (2 * g), foldAbs g a b i ^ 2 ≤ 2 * (∑ i ∈ range (2 * g), a i ^ 2 + ∑ i ∈ range (2 * g), b i ^ 2) := by
  have key : ∀ x y : ℝ, (|x| + |y|) ^ 2 ≤ 2 * (x ^ 2 + y ^ 2) := fun x y => by
    rw [← sq_abs x, ← sq_abs y]; nlinarith [sq_nonneg (|x| - |y|)]
  have h1 : ∑ i ∈ range g, foldAbs g a b i ^ 2 ≤ 2 * ∑ i ∈ range (2 * g), b i ^ 2 := by
    rw [sum_two g (fun i => b i ^ 2), ← sum_refl g (fun i => b i ^ 2), ← sum_add_distrib, mul_sum]
    refine sum_le_sum fun i hi => ?_
    rw [foldAbs, if_pos (mem_range.1 hi)]
    exact key _ _
  have h2 : ∑ i ∈ range g, foldAbs g a b (g + i) ^ 2 ≤ 2 * ∑ i ∈ range (2 * g), a i ^ 2 := by
    rw [sum_pair g, mul_sum]
    refine sum_le_sum fun i hi => ?_
    rw [foldAbs, if_neg (by omega), Nat.add_sub_cancel_left]
    exact key _ _
  rw [sum_two g]
  linarith

/-- The coefficient used by output sample `i` of the inverse. -/
def unfoldIx (g i : ℕ) : ℕ := if i < g then g + i else if i < 3 * g then 3 * g - 1 - i else i - 3 * g

theorem sum_unfold (g : ℕ) (h : ℕ → ℝ) : ∑ i ∈ range (4 * g), h (unfoldIx g i) = 2 * ∑ j ∈ range (2 * g), h j := by
  rw [show 4 * g = g + (2 * g + g) by ring, sum_range_add, sum_range_add]
  have h1 : ∑ i ∈ range g, h (unfoldIx g i) = ∑ i ∈ range g, h (g + i) := sum_congr rfl fun i hi => by
    rw [unfoldIx, if_pos (mem_range.1 hi)]
  have h2 : ∑ i ∈ range (2 * g), h (unfoldIx g (g + i)) = ∑ i ∈ range (2 * g), h i := by
    rw [← sum_refl (2 * g)]
    refine sum_congr rfl fun i hi => ?_
    have := mem_range.1 hi
    rw [unfoldIx, if_neg (by omega), if_pos (by omega)]
    congr 1; omega
  have h3 : ∑ i ∈ range g, h (unfoldIx g (g + (2 * g + i))) = ∑ i ∈ range g, h i := sum_congr rfl fun i hi => by
    have := mem_range.1 hi
    rw [unfoldIx, if_neg (by omega), if_neg (by omega)]
    congr 1; omega
  rw [h1, h2, h3, sum_two g h]
  ring

/-! ### MDCT -/

theorem dct4_nm (n : ℕ) : Kind.dct4.nm n = nm1 n := rfl

/-- The exact DCT4, as an operation on sequences. -/
theorem dct4_bounded {n : ℕ} (hn : 1 ≤ n) : Bounded (nm1 n) (nm1 n) (Spec.dct4At n) √((n : ℝ) / 2) :=
  Kind.dct4.bounded hn (by simp)

theorem mdctFold_ap {g : ℕ} {w : ℕ → T} {v : ℕ → ℝ} {M γ : ℝ} (hw : ∀ i, i < 4 * g → Ap (R.val (w i)) (v i) M (1 + γ)) (a b : ℕ → T) {i : ℕ} (hi : i < 2 * g) :
    Ap (R.val (mdctFold g w a b i)) (mdctFold g v (R.seq a) (R.seq b) i) (M * foldAbs g (R.seq a) (R.seq b) i) ((1 + R.u) ^ 2 * (1 + γ)) := by
  have pr : ∀ (x : T) {j : ℕ}, j < 4 * g → Ap (R.val (x * w j)) (R.val x * v j) (|R.val x| * M) ((1 + R.u) * (1 * (1 + γ))) := fun x j hj => R.ap_mul (Ap.exact _) (hw j hj)
  unfold mdctFold foldAbs Rounding.seq
  split_ifs with h
  · refine ((R.ap_sub (R.ap_neg (pr (b (g - 1 - i)) (j := 2 * g + (g - 1 - i)) (by omega))) (pr (b (g + i)) (j := 2 * g + (g + i)) (by omega))).mono (le_of_eq (by ring))).monoX (le_of_eq (by ring))
  · refine ((R.ap_sub (pr (a (i - g)) (j := i - g) (by omega)) (pr (a (2 * g - 1 - (i - g))) (j := 2 * g - 1 - (i - g)) (by omega))).mono (le_of_eq (by ring))).monoX (le_of_eq (by ring))

theorem mdct_err {g : ℕ} (hg : 1 ≤ g) {w : ℕ → T} {v : ℕ → ℝ} {M γ ε : ℝ} (hM : 0 ≤ M) (hε : 0 ≤ ε) (hγ : 0 ≤ γ)
    (hw : ∀ i, i < 4 * g → Ap (R.val (w i)) (v i) M (1 + γ))
    {D : (ℕ → T) → ℕ → T} (hD : TransAcc R .dct4 (2 * g) D ε) (a b : ℕ → T) :
    (nm1 (2 * g)).of (R.seq (D (mdctFold g w a b)) - Spec.mdctAt (2 * g) v (cat (2 * g) (R.seq a) (R.seq b))) ≤
      √((2 * g : ℕ) : ℝ) * M * R.lap γ ε * √(∑ i ∈ range (2 * g), R.seq a i ^ 2 + ∑ i ∈ range (2 * g), R.seq b i ^ 2) := by
  set N := nm1 (2 * g)
  set f := mdctFold g w a b with hf
  set z := mdctFold g v (R.seq a) (R.seq b) with hz
  set X := √(∑ i ∈ range (2 * g), R.seq a i ^ 2 + ∑ i ∈ range (2 * g), R.seq b i ^ 2) with hX
  set G := (1 + R.u) ^ 2 * (1 + γ) with hG
  have hG1 : 1 ≤ G := by
    have := one_le_pow₀ (n := 2) R.one_le_u
    nlinarith
  have hap := fun i hi => mdctFold_ap (R := R) hw a b (i := i) hi
  have fa : (nm1 (2 * g)).of (foldAbs g (R.seq a) (R.seq b)) ≤ √2 * X := by
    rw [nm1_of, hX, ← sqrt_mul (by norm_num)]
    exact sqrt_le_sqrt (foldAbs_norm g _ _)
  have hfa0 : ∀ i, 0 ≤ foldAbs g (R.seq a) (R.seq b) i := fun i => by unfold foldAbs; split_ifs <;> positivity
  have hZ : N.of z ≤ M * (√2 * X) := by
    refine le_trans (wn_mul_le (z := foldAbs g (R.seq a) (R.seq b)) hM (fun _ => zero_le_one) fun i hi => ?_) (mul_le_mul_of_nonneg_left fa hM)
    rw [Real.norm_eq_abs, Real.norm_eq_abs, abs_of_nonneg (hfa0 i)]
    exact (hap i hi).mag
  have hδ : N.of (R.seq f - z) ≤ (G - 1) * (M * (√2 * X)) := by
    refine le_trans (wn_mul_le (z := foldAbs g (R.seq a) (R.seq b)) (c := (G - 1) * M) (mul_nonneg (by linarith) hM) (fun _ => zero_le_one) fun i hi => ?_) ?_
    · rw [Real.norm_eq_abs, Real.norm_eq_abs, abs_of_nonneg (hfa0 i), mul_assoc]
      exact (hap i hi).err
    · rw [mul_assoc]
      exact mul_le_mul_of_nonneg_left (mul_le_mul_of_nonneg_left fa hM) (by linarith)
  have hB := dct4_bounded (n := 2 * g) (by omega)
  have h1 : N.of (R.seq (D f) - Spec.dct4At (2 * g) (R.seq f)) ≤ ε * (√(((2 * g : ℕ) : ℝ) / 2) * N.of (R.seq f)) := hD f
  have h2 : N.of (Spec.dct4At (2 * g) (R.seq f) - Spec.dct4At (2 * g) z) ≤ √(((2 * g : ℕ) : ℝ) / 2) * N.of (R.seq f - z) := by
    rw [← hB.sub]; exact hB.le _
  have h3 := N.tri (R.seq (D f)) (Spec.dct4At (2 * g) (R.seq f)) (Spec.dct4At (2 * g) z)
  have h4 := N.tri' (R.seq f) z
  have e : Spec.mdctAt (2 * g) v (cat (2 * g) (R.seq a) (R.seq b)) = Spec.dct4At (2 * g) z := by
    funext k; exact mdctAt_fold v _ _ k
  rw [e]
  set s := √(((2 * g : ℕ) : ℝ) / 2) with hs
  have hs0 : 0 ≤ s := sqrt_nonneg _
  have h5 : N.of (R.seq f) ≤ G * (M * (√2 * X)) := by linarith
  have h6 : ε * (s * N.of (R.seq f)) ≤ ε * (s * (G * (M * (√2 * X)))) := by gcongr
  have h7 : s * N.of (R.seq f - z) ≤ s * ((G - 1) * (M * (√2 * X))) := by gcongr
  have h8 : s * √2 = √((2 * g : ℕ) : ℝ) := by
    rw [hs, ← sqrt_mul (by positivity)]; congr 1; ring
  calc _ ≤ ε * (s * (G * (M * (√2 * X)))) + s * ((G - 1) * (M * (√2 * X))) := by linarith
    _ = (s * √2) * M * (G * (1 + ε) - 1) * X := by ring
    _ = _ := by rw [h8]; rfl

/-! ### IMDCT -/

/-- The exact inverse in terms of the exact DCT4. -/
theorem imdctAt_unfold {g : ℕ} (hg : 1 ≤ g) (v X : ℕ → ℝ) {i : ℕ} (hi : i < 4 * g) :
    Spec.imdctAt (2 * g) v X i = (if i < g then 1 else -1) * (Spec.dct4At (2 * g) X (unfoldIx g i) * v i) := by
  obtain ⟨C, c1, c2, c3, c4⟩ := imdct_kernel (g := g) hg X
  rw [c1, c2]
  unfold unfoldIx
  split_ifs with h h'
  · ring
  · have := c3 (3 * g - 1 - i) (by omega)
    rw [show 4 * g - 1 - (3 * g - 1 - i) = g + i by omega] at this
    rw [this]; ring
  · have := c4 (i - 3 * g)
    rw [show 4 * g + (i - 3 * g) = g + i by omega] at this
    rw [this]; ring

/-- What the code does. -/
def imdctOut (g : ℕ) (w d o : ℕ → T) (i : ℕ) : T := if i < g then o i + d (unfoldIx g i) * w i else o i - d (unfoldIx g i) * w i

theorem imdct_entry {w v M γ : ℝ} {wT d o : T} {r : T} (hw : Ap (R.val wT) v M (1 + γ)) {σ : ℝ} (hσ : |σ| = 1)
    (hr : |R.val r - (R.val o + σ * R.val (d * wT))| ≤ R.u * |R.val o + σ * R.val (d * wT)|) (D : ℝ) :
    |R.val r - (R.val o + σ * (D * v))| ≤ R.u * |R.val o| + M * (((1 + R.u) ^ 2 * (1 + γ) - 1) * |R.val d| + |R.val d - D|) := by
  have p := R.ap_mul (Ap.exact (R.val d)) hw
  have hu := R.u_nonneg
  have e1 := p.err
  have e2 := p.size
  have hv : |v| ≤ M := hw.mag
  have a1 : |R.val o + σ * R.val (d * wT)| ≤ |R.val o| + |R.val (d * wT)| := by
    refine (abs_add_le _ _).trans ?_
    rw [abs_mul, hσ, one_mul]
  have a2 : |R.val o + σ * R.val (d * wT) - (R.val o + σ * (R.val d * v))| ≤ ((1 + R.u) * (1 * (1 + γ)) - 1) * (|R.val d| * M) := by
    rw [show R.val o + σ * R.val (d * wT) - (R.val o + σ * (R.val d * v)) = σ * (R.val (d * wT) - R.val d * v) by ring, abs_mul, hσ, one_mul]
    exact e1
  have a3 : |R.val o + σ * (R.val d * v) - (R.val o + σ * (D * v))| ≤ M * |R.val d - D| := by
    rw [show R.val o + σ * (R.val d * v) - (R.val o + σ * (D * v)) = σ * ((R.val d - D) * v) by ring, abs_mul, hσ, one_mul, abs_mul, mul_comm]
    exact mul_le_mul_of_nonneg_right hv (abs_nonneg _)
  have b1 := abs_sub_le (R.val r) (R.val o + σ * R.val (d * wT)) (R.val o + σ * (R.val d * v))
  have b2 := abs_sub_le (R.val r) (R.val o + σ * (R.val d * v)) (R.val o + σ * (D * v))
  have c1 : R.u * |R.val o + σ * R.val (d * wT)| ≤ R.u * (|R.val o| + (1 + R.u) * (1 * (1 + γ)) * (|R.val d| * M)) :=
    mul_le_mul_of_nonneg_left (a1.trans (by linarith)) hu
  calc _ ≤ R.u * (|R.val o| + (1 + R.u) * (1 * (1 + γ)) * (|R.val d| * M)) + ((1 + R.u) * (1 * (1 + γ)) - 1) * (|R.val d| * M) + M * |R.val d - D| := by linarith
    _ = _ := by ring

theorem imdct_err {g : ℕ} (hg : 1 ≤ g) {w : ℕ → T} {v : ℕ → ℝ} {M γ ε : ℝ} (hM : 0 ≤ M) (hε : 0 ≤ ε) (hγ : 0 ≤ γ)
    (hw : ∀ i, i < 4 * g → Ap (R.val (w i)) (v i) M (1 + γ))
    {D : (ℕ → T) → ℕ → T} (hD : TransAcc R .dct4 (2 * g) D ε) (x o : ℕ → T) :
    (nm1 (4 * g)).of (R.seq (imdctOut g w (D x) o) - (R.seq o + Spec.imdctAt (2 * g) v (R.seq x))) ≤
      R.u * (nm1 (4 * g)).of (R.seq o) + √((2 * g : ℕ) : ℝ) * M * R.lap γ ε * (nm1 (2 * g)).of (R.seq x) := by
  set N := nm1 (2 * g)
  set d := R.seq (D x) with hd
  set E := Spec.dct4At (2 * g) (R.seq x) with hE
  set G := (1 + R.u) ^ 2 * (1 + γ) with hG
  have hG1 : 1 ≤ G := by
    have := one_le_pow₀ (n := 2) R.one_le_u
    nlinarith
  have hu := R.u_nonneg
  have hB := dct4_bounded (n := 2 * g) (by omega)
  have h1 : N.of (d - E) ≤ ε * (√(((2 * g : ℕ) : ℝ) / 2) * N.of (R.seq x)) := hD x
  have h2 : N.of E ≤ √(((2 * g : ℕ) : ℝ) / 2) * N.of (R.seq x) := hB.le _
  have h3 := N.tri' d E
  -- the bound in every entry
  set A : ℕ → ℝ := fun i => R.u * |R.seq o i| with hA
  set H : ℕ → ℝ := fun j => (G - 1) * |d j| + |d j - E j| with hH
  have hH0 : ∀ j, 0 ≤ H j := fun j => add_nonneg (mul_nonneg (by linarith) (abs_nonneg _)) (abs_nonneg _)
  have entry : ∀ i, i < 4 * g → |R.val (imdctOut g w (D x) o i) - (R.val (o i) + Spec.imdctAt (2 * g) v (R.seq x) i)| ≤ A i + M * H (unfoldIx g i) := by
    intro i hi
    rw [imdctAt_unfold hg v _ hi]
    refine imdct_entry (w := 0) (hw i hi) (d := D x (unfoldIx g i)) (o := o i) (by split_ifs <;> simp) ?_ _
    unfold imdctOut
    split_ifs
    · rw [one_mul]; exact R.add _ _
    · rw [neg_one_mul, ← sub_eq_add_neg]; exact R.sub _ _
  have hH2 : N.of H ≤ (G - 1) * N.of d + N.of (d - E) := by
    refine le_trans (N.add (fun j => (G - 1) * |d j|) (fun j => |d j - E j|)) (add_le_add ?_ ?_)
    · refine wn_mul_le (by linarith) (fun _ => zero_le_one) fun i _ => ?_
      rw [Real.norm_eq_abs, Real.norm_eq_abs, abs_mul, abs_abs, abs_of_nonneg (by linarith)]
    · exact wn_mono (fun _ => zero_le_one) fun i _ => by simp
  have hU : (nm1 (4 * g)).of (fun i => M * H (unfoldIx g i)) ≤ M * (√2 * N.of H) := by
    rw [nm1_of, nm1_of, ← sqrt_mul (by norm_num)]
    refine sqrt_le_mul_sqrt hM (le_of_eq ?_)
    rw [← sum_unfold g (fun j => H j ^ 2), mul_sum]
    exact sum_congr rfl fun i _ => by ring
  have hA2 : (nm1 (4 * g)).of A ≤ R.u * (nm1 (4 * g)).of (R.seq o) :=
    wn_mul_le hu (fun _ => zero_le_one) fun i _ => by rw [hA]; simp [abs_mul, abs_of_nonneg hu]
  have t1 : (nm1 (4 * g)).of (R.seq (imdctOut g w (D x) o) - (R.seq o + Spec.imdctAt (2 * g) v (R.seq x))) ≤
      (nm1 (4 * g)).of (A + fun i => M * H (unfoldIx g i)) := by
    refine wn_mono (fun _ => zero_le_one) fun i hi => ?_
    rw [Real.norm_eq_abs, Real.norm_eq_abs]
    refine (entry i hi).trans (le_abs_self _)
  have t2 := (nm1 (4 * g)).add A (fun i => M * H (unfoldIx g i))
  set s := √(((2 * g : ℕ) : ℝ) / 2) with hs
  have hs0 : 0 ≤ s := sqrt_nonneg _
  set X := N.of (R.seq x) with hX
  have hX0 : 0 ≤ X := N.nn _
  have h8 : s * √2 = √((2 * g : ℕ) : ℝ) := by
    rw [hs, ← sqrt_mul (by positivity)]; congr 1; ring
  have h9 : N.of H ≤ s * X * (G * (1 + ε) - 1) := by
    have : (G - 1) * N.of d ≤ (G - 1) * (ε * (s * X) + s * X) := mul_le_mul_of_nonneg_left (by linarith) (by linarith)
    calc _ ≤ (G - 1) * (ε * (s * X) + s * X) + ε * (s * X) := by linarith
      _ = _ := by ring
  have h10 : M * (√2 * N.of H) ≤ M * (√2 * (s * X * (G * (1 + ε) - 1))) := by gcongr
  calc _ ≤ R.u * (nm1 (4 * g)).of (R.seq o) + M * (√2 * (s * X * (G * (1 + ε) - 1))) := by linarith
    _ = R.u * (nm1 (4 * g)).of (R.seq o) + (s * √2) * M * (G * (1 + ε) - 1) * X := by ring
    _ = _ := by rw [h8]; rfl

/-! ### The exact transforms are bounded -/

theorem mdct_bound {g : ℕ} (hg : 1 ≤ g) {v : ℕ → ℝ} {M : ℝ} (hM : 0 ≤ M) (hv : ∀ i, i < 4 * g → |v i| ≤ M) (a b : ℕ → ℝ) :
    (nm1 (2 * g)).of (Spec.mdctAt (2 * g) v (cat (2 * g) a b)) ≤ √((2 * g : ℕ) : ℝ) * M * √(∑ i ∈ range (2 * g), a i ^ 2 + ∑ i ∈ range (2 * g), b i ^ 2) := by
  have e : Spec.mdctAt (2 * g) v (cat (2 * g) a b) = Spec.dct4At (2 * g) (mdctFold g v a b) := by funext k; exact mdctAt_fold v _ _ k
  have hB := dct4_bounded (n := 2 * g) (by omega)
  have fa : (nm1 (2 * g)).of (foldAbs g a b) ≤ √2 * √(∑ i ∈ range (2 * g), a i ^ 2 + ∑ i ∈ range (2 * g), b i ^ 2) := by
    rw [nm1_of, ← sqrt_mul (by norm_num)]
    exact sqrt_le_sqrt (foldAbs_norm g _ _)
  have hZ : (nm1 (2 * g)).of (mdctFold g v a b) ≤ M * (nm1 (2 * g)).of (foldAbs g a b) := by
    refine wn_mul_le (z := foldAbs g a b) hM (fun _ => zero_le_one) fun i hi => ?_
    have hab : ∀ {x y : ℝ} {j k : ℕ}, j < 4 * g → k < 4 * g → |x * v j| + |y * v k| ≤ M * (|x| + |y|) := by
      intro x y j k hj hk
      rw [abs_mul, abs_mul]
      have h1 := mul_le_mul_of_nonneg_left (hv j hj) (abs_nonneg x)
      have h2 := mul_le_mul_of_nonneg_left (hv k hk) (abs_nonneg y)
      linarith
    rw [Real.norm_eq_abs, Real.norm_eq_abs]
    unfold mdctFold foldAbs
    split_ifs
    · refine (abs_sub _ _).trans ?_
      rw [abs_neg]
      exact (hab (by omega) (by omega)).trans (mul_le_mul_of_nonneg_left (le_abs_self _) hM)
    · refine (abs_sub _ _).trans ?_
      exact (hab (by omega) (by omega)).trans (mul_le_mul_of_nonneg_left (le_abs_self _) hM)
  have h8 : √(((2 * g : ℕ) : ℝ) / 2) * √2 = √((2 * g : ℕ) : ℝ) := by
    rw [← sqrt_mul (by positivity)]; congr 1; ring
  rw [e, ← h8]
  refine (hB.le _).trans ?_
  have := mul_le_mul_of_nonneg_left (hZ.trans (mul_le_mul_of_nonneg_left fa hM)) (sqrt_nonneg (((2 * g : ℕ) : ℝ) / 2))
  linarith

theorem imdct_bound {g : ℕ} (hg : 1 ≤ g) {v : ℕ → ℝ} {M : ℝ} (hM : 0 ≤ M) (hv : ∀ i, i < 4 * g → |v i| ≤ M) (X : ℕ → ℝ) :
    (nm1 (4 * g)).of (Spec.imdctAt (2 * g) v X) ≤ √((2 * g : ℕ) : ℝ) * M * (nm1 (2 * g)).of X := by
  have hB := dct4_bounded (n := 2 * g) (by omega)
  set E := Spec.dct4At (2 * g) X
  have h1 : (nm1 (4 * g)).of (Spec.imdctAt (2 * g) v X) ≤ M * (√2 * (nm1 (2 * g)).of E) := by
    have : (nm1 (4 * g)).of (Spec.imdctAt (2 * g) v X) ≤ M * (nm1 (4 * g)).of (fun i => E (unfoldIx g i)) := by
      refine wn_mul_le hM (fun _ => zero_le_one) fun i hi => ?_
      rw [imdctAt_unfold hg v X hi, Real.norm_eq_abs, Real.norm_eq_abs, abs_mul, abs_mul]
      have h1 : |(if i < g then (1 : ℝ) else -1)| = 1 := by split_ifs <;> simp
      rw [h1, one_mul, mul_comm]
      exact mul_le_mul_of_nonneg_right (hv i hi) (abs_nonneg _)
    refine this.trans (mul_le_mul_of_nonneg_left (le_of_eq ?_) hM)
    rw [nm1_of, nm1_of, ← sqrt_mul (by norm_num), sum_unfold g (fun j => E j ^ 2)]
  have h8 : √(((2 * g : ℕ) : ℝ) / 2) * √2 = √((2 * g : ℕ) : ℝ) := by
    rw [← sqrt_mul (by positivity)]; congr 1; ring
  rw [← h8]
  have h2 := mul_le_mul_of_nonneg_left (hB.le X) (mul_nonneg hM (sqrt_nonneg 2))
  calc _ ≤ M * √2 * (nm1 (2 * g)).of E := by linarith
    _ ≤ _ := h2
    _ = _ := by ring

theorem imdctAt_sub {n : ℕ} (v X Y : ℕ → ℝ) : Spec.imdctAt n v (X - Y) = Spec.imdctAt n v X - Spec.imdctAt n v Y := by
  funext i
  simp only [Spec.imdctAt, Pi.sub_apply, sub_mul, sum_sub_distrib, mul_sub]

/-! ### Instances -/

/-- One sequence of `2n` values from two of `n`. -/
def glue {A : Type} (n : ℕ) (a b : ℕ → A) (i : ℕ) : A := if i < n then a i else b (i - n)

theorem glue_vec {A : Type} (n : ℕ) (a b : ℕ → A) : vec n a ++ vec n b = vec (2 * n) (glue n a b) := by
  rw [append_vec, two_mul]; rfl

theorem sum_glue (n : ℕ) (a b : ℕ → ℝ) (h : ℝ → ℝ) : ∑ i ∈ range (2 * n), h (glue n a b i) = ∑ i ∈ range n, h (a i) + ∑ i ∈ range n, h (b i) := by
  rw [sum_two n]
  congr 1
  · exact sum_congr rfl fun i hi => by rw [glue, if_pos (mem_range.1 hi)]
  · exact sum_congr rfl fun i hi => by rw [glue, if_neg (by omega), Nat.add_sub_cancel_left]

theorem seq_glue (n : ℕ) (a b : ℕ → T) : R.seq (glue n a b) = glue n (R.seq a) (R.seq b) := by
  funext i; unfold Rounding.seq glue; split_ifs <;> rfl

theorem nm_glue (n : ℕ) (a b : ℕ → ℝ) : (nm1 (2 * n)).of (glue n a b) = √(∑ i ∈ range n, a i ^ 2 + ∑ i ∈ range n, b i ^ 2) := by
  rw [nm1_of, sum_glue n a b (fun x => x ^ 2)]

theorem nm_fst (n : ℕ) (z : ℕ → ℝ) : (nm1 n).of z ≤ (nm1 (2 * n)).of z := by
  rw [nm1_of, nm1_of, sum_two n]
  exact sqrt_le_sqrt (le_add_of_nonneg_right (sum_nonneg fun _ _ => sq_nonneg _))
theorem nm_snd (n : ℕ) (z : ℕ → ℝ) : (nm1 n).of (fun i => z (n + i)) ≤ (nm1 (2 * n)).of z := by
  rw [nm1_of, nm1_of, sum_two n]
  exact sqrt_le_sqrt (le_add_of_nonneg_left (sum_nonneg fun _ _ => sq_nonneg _))

/-- An MDCT instance of length `n` runs and is accurate, relative to `K` times the norm of its input. -/
structure MdctAcc (R : Rounding T F) (o : MdctObj T) (n : ℕ) (v : ℕ → ℝ) (K η : ℝ) where
  C : (ℕ → T) → (ℕ → T) → ℕ → T
  A : (ℕ → T) → (ℕ → T) → ℕ → T
  B : (ℕ → T) → (ℕ → T) → ℕ → T
  runM : RunsM o.mdct n o.scratchLen C
  runI : RunsI o.imdct n o.scratchLen A B
  accM : ∀ a b, (nm1 n).of (R.seq (C a b) - Spec.mdctAt n v (cat n (R.seq a) (R.seq b))) ≤ K * η * (nm1 (2 * n)).of (glue n (R.seq a) (R.seq b))
  accI : ∀ x oa ob, (nm1 (2 * n)).of (glue n (R.seq (A x oa)) (R.seq (B x ob)) - (glue n (R.seq oa) (R.seq ob) + Spec.imdctAt n v (R.seq x))) ≤
    R.u * (nm1 (2 * n)).of (glue n (R.seq oa) (R.seq ob)) + K * η * (nm1 n).of (R.seq x)

theorem MdctViaDct4.acc {g : ℕ} (hg : 1 ≤ g) {w : ℕ → T} {v : ℕ → ℝ} {M γ ε : ℝ} (hM : 0 ≤ M) (hε : 0 ≤ ε) (hγ : 0 ≤ γ)
    (hw : ∀ i, i < 4 * g → Ap (R.val (w i)) (v i) M (1 + γ)) {dct : Obj4 T} (hl : dct.len = 2 * g) (hD : PAccW R .dct4 dct.dct4 (2 * g) dct.scratchLen ε) :
    Nonempty (MdctAcc R (MdctViaDct4.toObj ⟨dct, vec (4 * g) w, 2 * g + dct.scratchLen⟩) (2 * g) v (√((2 * g : ℕ) : ℝ) * M) (R.lap γ ε)) := by
  obtain ⟨D, hR, hA⟩ := hD
  refine ⟨_, _, _, MdctViaDct4.mdct_vec w hl hR rfl, MdctViaDct4.imdct_vec w hl hR rfl, ?_, ?_⟩
  · intro a b
    rw [nm_glue]
    exact mdct_err hg hM hε hγ hw hA a b
  · intro x oa ob
    have h := imdct_err hg hM hε hγ hw hA x (glue (2 * g) oa ob)
    rw [seq_glue] at h
    rw [show 2 * (2 * g) = 4 * g by ring]
    refine le_trans (le_of_eq ?_) h
    refine wn_congr fun i hi => ?_
    have e : glue (2 * g) (R.seq (fun i => if i < g then oa i + D x (g + i) * w i else oa i - D x (3 * g - 1 - i) * w i))
        (R.seq (fun i => if i < g then ob i - D x (g - 1 - i) * w (2 * g + i) else ob i - D x (i - g) * w (2 * g + i))) i =
        R.seq (imdctOut g w (D x) (glue (2 * g) oa ob)) i := by
      unfold glue Rounding.seq imdctOut unfoldIx
      by_cases h1 : i < g
      · simp only [h1, if_true, show i < 2 * g by omega]
      · by_cases h2 : i < 2 * g
        · simp only [h1, if_false, h2, if_true, show i < 3 * g by omega]
        · by_cases h3 : i < 3 * g
          · simp only [h1, if_false, h2, h3, if_true, show i - 2 * g < g by omega, show g - 1 - (i - 2 * g) = 3 * g - 1 - i by omega, show 2 * g + (i - 2 * g) = i by omega]
          · simp only [h1, if_false, h2, h3, show ¬ i - 2 * g < g by omega, show i - 2 * g - g = i - 3 * g by omega, show 2 * g + (i - 2 * g) = i by omega]
    simp only [Pi.sub_apply, Pi.add_apply]
    rw [e]

/-! ### From sequences to lists -/

variable {o : MdctObj T} {n : ℕ} {v : ℕ → ℝ} {K η : ℝ}

theorem MdctAcc.mdct (h : MdctAcc R o n v K η) : ApproximatesMdct R o.mdct n o.scratchLen (fun a b => Spec.mdct n (vec (2 * n) v) (a ++ b)) (K * η) := by
  rintro a b ⟨y, scr⟩ ⟨ha, hb, hy, hs⟩
  obtain ⟨f, rfl⟩ := exists_vec ha
  obtain ⟨g, rfl⟩ := exists_vec hb
  obtain ⟨y', hy'⟩ := exists_vec hy
  change y = vec n y' at hy'
  subst hy'
  obtain ⟨scr', e, -⟩ := h.runM f g y' scr hs
  refine ⟨_, e, length_vec _ _, ?_⟩
  have := h.accM f g
  rw [glue_vec]
  simp only [map_vec]
  rw [spec_mdct_vec, zipWith_vec_same, norm2_vec, norm2_vec]
  refine le_trans this (le_of_eq ?_)
  rw [← seq_glue]; rfl

theorem MdctAcc.imdct (h : MdctAcc R o n v K η) : ApproximatesImdct R o.imdct n o.scratchLen (Spec.imdct n (vec (2 * n) v)) (K * η) := by
  rintro x ⟨oa, ob, scr⟩ ⟨hx, ha, hb, hs⟩
  obtain ⟨X, rfl⟩ := exists_vec hx
  obtain ⟨f, hf⟩ := exists_vec ha
  obtain ⟨g, hg⟩ := exists_vec hb
  change oa = vec n f at hf
  change ob = vec n g at hg
  subst hf hg
  obtain ⟨scr', e, -⟩ := h.runI X f g scr hs
  refine ⟨_, e, length_vec _ _, length_vec _ _, ?_⟩
  have := h.accI X f g
  dsimp only
  rw [glue_vec, glue_vec]
  simp only [map_vec]
  rw [spec_imdct_vec, glue_vec, zipWith_vec_same, zipWith_vec_same, norm2_vec, norm2_vec, norm2_vec]
  rw [← seq_glue, ← seq_glue] at this
  refine le_trans (le_of_eq (wn_congr fun i hi => ?_)) this
  simp only [Pi.sub_apply, Pi.add_apply, Rounding.seq]
  congr 2
  unfold glue
  split_ifs
  · rfl
  · simp only [show n + (i - n) = i by omega]; rfl

/-! ### Overlapping -/

/-- The closed form of the overlapped chain. -/
theorem MdctAcc.lapped_run (h : MdctAcc R o n v K η) (hl : o.len = n) (rest : List (List T)) :
    ∀ (f acc y : ℕ → T) (scr : List T), (∀ b ∈ rest, b.length = n) → o.scratchLen ≤ scr.length →
      ∃ outs, lapped o (vec n f) rest (vec n acc) ⟨vec n y, scr⟩ = .ok outs ∧ outs.length = rest.length + 1 ∧
        (∀ b l, rest = b :: l → ∃ g, b = vec n g ∧ outs.head? = some (vec n (h.A (h.C f g) acc))) ∧
        ∀ t, t + 1 < rest.length → ∃ x y z, (vec n f :: rest)[t]? = some (vec n x) ∧ (vec n f :: rest)[t + 1]? = some (vec n y) ∧
          (vec n f :: rest)[t + 2]? = some (vec n z) ∧ outs[t + 1]? = some (vec n (h.A (h.C y z) (h.B (h.C x y) fun _ => 0))) := by
  subst hl
  induction rest with
  | nil =>
    intro f acc y scr _ _
    refine ⟨_, rfl, rfl, fun b l e => by simp at e, fun t ht => by simp at ht⟩
  | cons b rest ih =>
    intro f acc y scr hb hscr
    obtain ⟨g, rfl⟩ := exists_vec (hb b (by simp))
    obtain ⟨scr1, e1, l1, -⟩ := h.runM f g y scr hscr
    obtain ⟨scr2, e2, l2, -⟩ := h.runI (h.C f g) acc (fun _ => 0) scr1 (by omega)
    obtain ⟨outs, e3, l3, h3, t3⟩ := ih g (h.B (h.C f g) fun _ => 0) (h.C f g) scr2 (fun b hb' => hb b (by simp [hb'])) (by omega)
    refine ⟨_, by rw [lapped, e1]; dsimp only; rw [replicate_eq_vec, e2]; dsimp only; rw [e3], by simp [l3], ?_, ?_⟩
    · intro b l e
      injection e with e1 e2
      exact ⟨g, e1.symm, rfl⟩
    · intro t ht
      cases t with
      | succ t =>
        simp only [List.getElem?_cons_succ]
        exact t3 t (by simpa using ht)
      | zero =>
        cases rest with
        | nil => simp at ht
        | cons b' rest =>
          obtain ⟨g', rfl, h4⟩ := h3 b' rest rfl
          exact ⟨f, g, g', rfl, rfl, rfl, by rw [List.getElem?_cons_succ, ← List.head?_eq_getElem?, h4]⟩

theorem nm1_add_le (n : ℕ) (x y : ℕ → ℝ) : (nm1 n).of (x + y) ≤ (nm1 n).of x + (nm1 n).of y := wn_add_le fun _ => zero_le_one

theorem nm1_zero (n : ℕ) : (nm1 n).of (0 : ℕ → ℝ) = 0 := by rw [nm1_of]; simp

theorem glue_fst (n : ℕ) {a b : ℕ → ℝ} {i : ℕ} (hi : i < n) : glue n a b i = a i := if_pos hi
theorem glue_snd (n : ℕ) (a b : ℕ → ℝ) (i : ℕ) : glue n a b (n + i) = b i := by rw [glue, if_neg (by omega), Nat.add_sub_cancel_left]

theorem nm_glue_zero_left (n : ℕ) (b : ℕ → ℝ) : (nm1 (2 * n)).of (glue n 0 b) = (nm1 n).of b := by rw [nm_glue, nm1_of]; simp
theorem nm_glue_zero_right (n : ℕ) (a : ℕ → ℝ) : (nm1 (2 * n)).of (glue n a 0) = (nm1 n).of a := by rw [nm_glue, nm1_of]; simp
theorem seq_zero : R.seq (fun _ => 0) = 0 := by funext i; exact R.zero

/-- An interior block of the chain. -/
theorem MdctAcc.block (h : MdctAcc R o n v K η) (hn : 1 ≤ n) (hK : 0 ≤ K) (hη : 0 ≤ η)
    (bM : ∀ a b, (nm1 n).of (Spec.mdctAt n v (cat n a b)) ≤ K * (nm1 (2 * n)).of (glue n a b))
    (bI : ∀ X, (nm1 (2 * n)).of (Spec.imdctAt n v X) ≤ K * (nm1 n).of X)
    {c : ℝ} (hs : ∀ i, i < n → v (2 * n - 1 - i) = v i) (hc : ∀ i, i < n → v i ^ 2 + v (i + n) ^ 2 = c) (x y z : ℕ → T) :
    (nm1 n).of (R.seq (h.A (h.C y z) (h.B (h.C x y) fun _ => 0)) - fun i => c * n / 2 * R.seq y i) ≤
      K ^ 2 * R.overlap η * ((nm1 (2 * n)).of (glue n (R.seq x) (R.seq y)) + (nm1 (2 * n)).of (glue n (R.seq y) (R.seq z))) := by
  set P := (nm1 (2 * n)).of (glue n (R.seq x) (R.seq y)) with hP
  set Q := (nm1 (2 * n)).of (glue n (R.seq y) (R.seq z)) with hQ
  have hP0 : 0 ≤ P := wn_nonneg
  have hQ0 : 0 ≤ Q := wn_nonneg
  have hu := R.u_nonneg
  set Y1 := Spec.mdctAt n v (cat n (R.seq x) (R.seq y))
  set Y2 := Spec.mdctAt n v (cat n (R.seq y) (R.seq z))
  set y1 := h.C x y
  set y2 := h.C y z
  have d1 : (nm1 n).of (R.seq y1 - Y1) ≤ K * η * P := h.accM x y
  have d2 : (nm1 n).of (R.seq y2 - Y2) ≤ K * η * Q := h.accM y z
  have s1 : (nm1 n).of (R.seq y1) ≤ K * (1 + η) * P := by
    have := nm1_add_le n (R.seq y1 - Y1) Y1
    rw [sub_add_cancel] at this
    have := bM (R.seq x) (R.seq y)
    linarith
  have s2 : (nm1 n).of (R.seq y2) ≤ K * (1 + η) * Q := by
    have := nm1_add_le n (R.seq y2 - Y2) Y2
    rw [sub_add_cancel] at this
    have := bM (R.seq y) (R.seq z)
    linarith
  -- the second half of the first IMDCT
  set b := R.seq (h.B y1 fun _ => 0)
  set B := fun i => Spec.imdctAt n v Y1 (n + i) with hB
  have i1 : (nm1 n).of (b - fun i => Spec.imdctAt n v (R.seq y1) (n + i)) ≤ K * η * (nm1 n).of (R.seq y1) := by
    have h1 := h.accI y1 (fun _ => 0) (fun _ => 0)
    rw [seq_zero, nm_glue_zero_left, nm1_zero, mul_zero, zero_add] at h1
    refine le_trans ?_ (h1.trans' (nm_snd n _))
    refine le_of_eq (wn_congr fun i hi => ?_)
    simp only [Pi.sub_apply, Pi.add_apply, glue_snd, Pi.zero_apply, zero_add]
    rfl
  have i2 : (nm1 n).of ((fun i => Spec.imdctAt n v (R.seq y1) (n + i)) - B) ≤ K * (K * η * P) := by
    refine le_trans (le_trans (le_of_eq ?_) (nm_snd n (Spec.imdctAt n v (R.seq y1 - Y1)))) ((bI _).trans (mul_le_mul_of_nonneg_left d1 hK))
    rw [imdctAt_sub]; rfl
  have e1 : (nm1 n).of (b - B) ≤ K ^ 2 * ((1 + η) ^ 2 - 1) * P := by
    have := nm1_add_le n (b - fun i => Spec.imdctAt n v (R.seq y1) (n + i)) ((fun i => Spec.imdctAt n v (R.seq y1) (n + i)) - B)
    rw [sub_add_sub_cancel] at this
    have h2 := mul_le_mul_of_nonneg_left s1 (mul_nonneg hK hη)
    calc _ ≤ _ := this
      _ ≤ K * η * (K * (1 + η) * P) + K * (K * η * P) := by linarith
      _ = _ := by ring
  have sB : (nm1 n).of B ≤ K ^ 2 * P := by
    refine (nm_snd n _).trans ((bI _).trans ?_)
    calc K * (nm1 n).of Y1 ≤ K * (K * P) := mul_le_mul_of_nonneg_left (bM _ _) hK
      _ = _ := by ring
  have sb : (nm1 n).of b ≤ K ^ 2 * (1 + η) ^ 2 * P := by
    have := nm1_add_le n (b - B) B
    rw [sub_add_cancel] at this
    linarith
  -- the first half of the second
  set a := R.seq (h.A y2 (h.B y1 fun _ => 0))
  have i3 : (nm1 n).of (a - (b + Spec.imdctAt n v (R.seq y2))) ≤ R.u * (nm1 n).of b + K * η * (nm1 n).of (R.seq y2) := by
    have h1 := h.accI y2 (h.B y1 fun _ => 0) (fun _ => 0)
    rw [seq_zero, nm_glue_zero_right] at h1
    refine le_trans (le_trans (le_of_eq ?_) (nm_fst n _)) h1
    refine wn_congr fun i hi => ?_
    simp only [Pi.sub_apply, Pi.add_apply, glue_fst n hi]
    rfl
  have i4 : (nm1 n).of (Spec.imdctAt n v (R.seq y2) - Spec.imdctAt n v Y2) ≤ K * (K * η * Q) := by
    refine le_trans (nm_fst n _) ?_
    rw [← imdctAt_sub]
    exact (bI _).trans (mul_le_mul_of_nonneg_left d2 hK)
  have key : (nm1 n).of (a - fun i => c * n / 2 * R.seq y i) ≤ (nm1 n).of (a - (b + Spec.imdctAt n v (R.seq y2))) +
      ((nm1 n).of (b - B) + (nm1 n).of (Spec.imdctAt n v (R.seq y2) - Spec.imdctAt n v Y2)) := by
    refine le_trans (le_of_eq (wn_congr fun i hi => ?_)) ((nm1_add_le n (a - (b + Spec.imdctAt n v (R.seq y2)))
      ((b - B) + (Spec.imdctAt n v (R.seq y2) - Spec.imdctAt n v Y2))).trans (add_le_add_right (nm1_add_le n _ _) _))
    simp only [Pi.sub_apply, Pi.add_apply]
    rw [← tdac hn hs hc (R.seq x) (R.seq y) (R.seq z) hi]
    congr 1
    simp only [hB]
    ring
  have f1 : R.u * (nm1 n).of b ≤ R.u * (K ^ 2 * (1 + η) ^ 2 * P) := mul_le_mul_of_nonneg_left sb hu
  have f2 : K * η * (nm1 n).of (R.seq y2) ≤ K * η * (K * (1 + η) * Q) := mul_le_mul_of_nonneg_left s2 (mul_nonneg hK hη)
  have f3 : 0 ≤ R.u * (K ^ 2 * (1 + η) ^ 2 * Q) := by positivity
  calc _ ≤ _ := key
    _ ≤ (R.u * (K ^ 2 * (1 + η) ^ 2 * P) + K * η * (K * (1 + η) * Q)) + (K ^ 2 * ((1 + η) ^ 2 - 1) * P + K * (K * η * Q)) + R.u * (K ^ 2 * (1 + η) ^ 2 * Q) := by linarith
    _ = _ := by unfold Rounding.overlap; ring

theorem MdctAcc.reconstructs (h : MdctAcc R o n v K η) (hl : o.len = n) (hn : 1 ≤ n) (hK : 0 ≤ K) (hη : 0 ≤ η)
    (bM : ∀ a b, (nm1 n).of (Spec.mdctAt n v (cat n a b)) ≤ K * (nm1 (2 * n)).of (glue n a b))
    (bI : ∀ X, (nm1 (2 * n)).of (Spec.imdctAt n v X) ≤ K * (nm1 n).of X)
    {c : ℝ} (hs : ∀ i, i < n → v (2 * n - 1 - i) = v i) (hc : ∀ i, i < n → v i ^ 2 + v (i + n) ^ 2 = c) :
    ReconstructsNearly R o n (c * n / 2) (K ^ 2 * R.overlap η) := by
  rintro a rest acc ⟨y, scr⟩ hb ha hy hscr
  obtain ⟨f, rfl⟩ := exists_vec (hb a (by simp))
  obtain ⟨acc, rfl⟩ := exists_vec ha
  obtain ⟨y', hy'⟩ := exists_vec hy
  change y = vec _ y' at hy'
  subst hy'
  obtain ⟨outs, e, l, -, ht⟩ := h.lapped_run hl rest f acc y' scr (fun b h => hb b (by simp [h])) hscr
  refine ⟨outs, e, by simpa using l, ?_⟩
  intro t x y z out hx hy hz ho
  have ht2 : t + 2 < (vec n f :: rest).length := by
    rcases List.getElem?_eq_some_iff.1 hz with ⟨h, -⟩; exact h
  obtain ⟨x', y', z', hx', hy', hz', ho'⟩ := ht t (by simp only [List.length_cons] at ht2; omega)
  rw [hx] at hx'; rw [hy] at hy'; rw [hz] at hz'; rw [ho] at ho'
  injection hx' with hx'; injection hy' with hy'; injection hz' with hz'; injection ho' with ho'
  subst hx' hy' hz' ho'
  refine ⟨length_vec _ _, ?_⟩
  rw [glue_vec, glue_vec, map_vec, map_vec, map_vec, map_vec, zipWith_vec_same, norm2_vec, norm2_vec, norm2_vec]
  have := h.block hn hK hη bM bI hs hc x' y' z'
  rw [← seq_glue, ← seq_glue] at this
  exact this

end RustDct
