import Verif.Float.SplitRadix
/-!
# One split radix step on given data

The same analysis as in `Verif/Float/SplitRadix.lean`, stated for the values a computation went through instead of for a function that
computes them.  The fixed-size kernels add in another order and use sine transforms for the odd part; both are covered here.
-/

set_option linter.all false

namespace RustDct
open Finset Real

variable {T F : Type} [F64 F] [DctNum T F] (R : Rounding T F)

/-- `y` is the transform of `x` up to the relative error `ε`. -/
def Near (k : Kind) (n : ℕ) (y x : ℕ → ℝ) (ε : ℝ) : Prop :=
  (k.inv.nm n).of (y - k.specAt n x) ≤ ε * (√(k.scale n) * (k.nm n).of x)

theorem transAcc_iff {k : Kind} {n : ℕ} {C : (ℕ → T) → ℕ → T} {ε : ℝ} : TransAcc R k n C ε ↔ ∀ f, Near k n (R.seq (C f)) (R.seq f) ε := Iff.rfl

section
variable {k : Kind} {n : ℕ} {x y x' y' : ℕ → ℝ} {ε ε' : ℝ}

theorem Near.mono (h : Near k n y x ε) (he : ε ≤ ε') : Near k n y x ε' :=
  le_trans h (mul_le_mul_of_nonneg_right he (mul_nonneg (sqrt_nonneg _) ((k.nm n).nn _)))

theorem Near.congr (h : Near k n y x ε) (hx : ∀ i, i < n → x' i = x i) (hy : ∀ i, i < n → y' i = y i) : Near k n y' x' ε := by
  unfold Near at h ⊢
  have e1 : (k.nm n).of x' = (k.nm n).of x := wn_congr hx
  have e2 : (k.inv.nm n).of (y' - k.specAt n x') = (k.inv.nm n).of (y - k.specAt n x) := wn_congr fun i hi => by
    simp only [Pi.sub_apply]
    rw [hy i hi, k.local n x' x i hx]
  rw [e1, e2]; exact h

/-- A common sign does not matter. -/
theorem Near.sign (h : Near k n y x ε) {σ : ℝ} (hσ : σ ^ 2 = 1) : Near k n (fun i => σ * y i) (fun i => σ * x i) ε := by
  unfold Near at h ⊢
  have ha : |σ| = 1 := by rw [← sq_abs] at hσ; nlinarith [abs_nonneg σ]
  have e1 : (k.nm n).of (fun i => σ * x i) = (k.nm n).of x := by
    simp only [Kind.nm, Nm.w, wn]; congr 1
    exact sum_congr rfl fun i _ => by rw [norm_mul, Real.norm_eq_abs, ha, one_mul]
  have e2 : (k.inv.nm n).of ((fun i => σ * y i) - k.specAt n (fun i => σ * x i)) = (k.inv.nm n).of (y - k.specAt n x) := by
    simp only [Kind.nm, Nm.w, wn]; congr 1
    refine sum_congr rfl fun i _ => ?_
    congr 2
    have := k.linear (n := n) σ 0 x x i
    simp only [Pi.sub_apply]
    rw [show (fun i => σ * x i) = fun i => σ * x i + 0 * x i by funext i; ring, this, zero_mul, add_zero, ← mul_sub, norm_mul, Real.norm_eq_abs, ha, one_mul]
  rw [e1, e2]; exact h

theorem pm_sq (k : ℕ) : ((-1 : ℝ) ^ k) ^ 2 = 1 := by rw [← pow_mul, mul_comm, pow_mul]; norm_num
theorem pm_abs (k : ℕ) : |(-1 : ℝ) ^ k| = 1 := by rw [abs_pow]; norm_num

theorem near_dst2 : Near .dst2 n y x ε ↔ Near .dct2 n (fun k => y (n - 1 - k)) (fun j => (-1) ^ j * x j) ε := by
  unfold Near
  have e1 : (Kind.dst2.nm n).of x = (Kind.dct2.nm n).of (fun j => (-1) ^ j * x j) := by
    simp only [Kind.nm, Nm.w, Kind.weight, wn]
    congr 1
    refine sum_congr rfl fun i _ => ?_
    rw [norm_mul, Real.norm_eq_abs ((-1) ^ i), pm_abs]; simp only [one_mul]
  rw [e1]
  have e2 : (Kind.dst2.inv.nm n).of (y - Kind.dst2.specAt n x) = (Kind.dct2.inv.nm n).of ((fun k => y (n - 1 - k)) - Kind.dct2.specAt n (fun j => (-1) ^ j * x j)) := by
    simp only [Kind.nm, Nm.w, Kind.inv, Kind.weight, wn]
    congr 1
    rw [← sum_range_reflect]
    refine sum_congr rfl fun i hi => ?_
    rw [mem_range] at hi
    rw [halfAt_reflect hi]
    congr 3
    simp only [Pi.sub_apply]
    congr 1
    show Spec.dst2At n _ _ = Spec.dct2At n _ _
    rw [dst2_eq' (j := i) (by omega) (by omega)]
  rw [e2]; exact Iff.rfl

theorem near_dst3 : Near .dst3 n y x ε ↔ Near .dct3 n (fun k => (-1) ^ k * y k) (fun i => x (n - 1 - i)) ε := by
  unfold Near
  have e1 : (Kind.dst3.nm n).of x = (Kind.dct3.nm n).of (fun i => x (n - 1 - i)) := by
    simp only [Kind.nm, Nm.w, Kind.weight, wn]
    congr 1
    rw [← sum_range_reflect]
    refine sum_congr rfl fun i hi => ?_
    rw [mem_range] at hi
    rw [halfAt_reflect hi]
  rw [e1]
  have e2 : (Kind.dst3.inv.nm n).of (y - Kind.dst3.specAt n x) = (Kind.dct3.inv.nm n).of ((fun k => (-1) ^ k * y k) - Kind.dct3.specAt n (fun i => x (n - 1 - i))) := by
    simp only [Kind.nm, Nm.w, Kind.inv, Kind.weight, wn]
    congr 1
    refine sum_congr rfl fun i hi => ?_
    rw [mem_range] at hi
    congr 2
    simp only [Pi.sub_apply]
    have e : Kind.dst3.specAt n x i = (-1) ^ i * Kind.dct3.specAt n (fun i => x (n - 1 - i)) i := by
      show Spec.dst3At n _ _ = _ * Spec.dct3At n _ _
      rw [dst3At_eq _ hi]
    have e' : y i - Kind.dst3.specAt n x i = (-1) ^ i * ((-1) ^ i * y i - Kind.dct3.specAt n (fun i => x (n - 1 - i)) i) := by
      rw [e]
      have := pm_sq i
      linear_combination (-(y i)) * this
    rw [e', norm_mul, Real.norm_eq_abs, pm_abs, one_mul]
  rw [e2]; exact Iff.rfl

end

/-- The differences the odd part of the type 2 recursion starts from. -/
def dA (q : ℕ) (x : ℕ → ℝ) (i : ℕ) : ℝ := x i - x (4 * q - i - 1)
def dB (q : ℕ) (x : ℕ → ℝ) (i : ℕ) : ℝ := x (2 * q - i - 1) - x (2 * q + i)

section
variable {q : ℕ} {x a b c d e o l h out : ℕ → ℝ} {ε : ℝ}

theorem sr2Pre_near (ha : ∀ i, i < 2 * q → |a i - sr2Half q x i| ≤ R.u * |sr2Half q x i|)
    (hb : ∀ i, i < q → |b i - sr2Cos (srTw q) q x i| ≤ (R.rot * (1 + R.u) - 1) * (|dA q x i| + |dB q x i|))
    (hc : ∀ i, i < q → |c (q - 1 - i) - sr2Sin (srTw q) q x (q - 1 - i)| ≤ (R.rot * (1 + R.u) - 1) * (|dA q x i| + |dB q x i|)) :
    Acc (fun _ : Unit => x) (fun _ : Unit => (a, b, c)) (nm1 (4 * q)) (n111 (2 * q) q q) (sr2Pre (srTw q) q) id √2 (2 * (R.rot * (1 + R.u) - 1)) := fun _ => by
  have ht := fun i (_ : i < q) => srTw_sq q i
  set ε := R.rot * (1 + R.u) - 1 with hε
  have hu := R.u_nonneg
  have hr := R.one_le_rot
  have hε0 : 0 ≤ ε := by nlinarith
  have huε : R.u ≤ ε := by nlinarith
  rw [n111_of, nm1_of, ← sqrt_mul (by norm_num)]
  apply sqrt_le_mul_sqrt (by linarith)
  rw [← sr2Pre_sq (srTw q) ht x, sum_pair, sum_pair, ← sum_range_reflect (fun i => ((a, b, c) - sr2Pre (srTw q) q x).2.2 i ^ 2),
    ← sum_range_reflect (fun i => sr2Sin (srTw q) q x i ^ 2), ← sum_add_distrib, ← sum_add_distrib, ← sum_add_distrib, ← sum_add_distrib, mul_sum]
  refine sum_le_sum fun i hi => ?_
  rw [mem_range] at hi
  have e1 : ∀ j, j < 2 * q → (((a, b, c) - sr2Pre (srTw q) q x).1 j) ^ 2 ≤ (2 * ε) ^ 2 * sr2Half q x j ^ 2 := fun j hj => by
    rw [← sq_abs (sr2Half q x j)]
    exact sq_le_of_abs_le ((ha j hj).trans (mul_le_mul_of_nonneg_right (by linarith) (abs_nonneg _)))
  have e2 := sq_le_of_abs_le (hb i hi)
  have e3 := sq_le_of_abs_le (hc i hi)
  have e4 : sr2Cos (srTw q) q x i ^ 2 + sr2Sin (srTw q) q x (q - 1 - i) ^ 2 = dA q x i ^ 2 + dB q x i ^ 2 := by
    have : sr2Sin (srTw q) q x (q - 1 - i) ^ 2 = sr2SinRaw (srTw q) q x i ^ 2 := by
      unfold sr2Sin; rw [show q - 1 - (q - 1 - i) = i by omega]; split_ifs <;> ring
    rw [this]
    unfold sr2Cos sr2SinRaw dA dB
    have := ht i hi
    linear_combination ((x i - x (4 * q - i - 1)) ^ 2 + (x (2 * q - i - 1) - x (2 * q + i)) ^ 2) * this
  have m1 := abs_add_sq_le (dA q x i) (dB q x i)
  have e5 := e1 i (by omega)
  have e6 := e1 (2 * q - 1 - i) (by omega)
  have : 0 ≤ ε ^ 2 := sq_nonneg _
  have m2 := mul_le_mul_of_nonneg_left m1 this
  have e2' : ((a, b, c) - sr2Pre (srTw q) q x).2.1 i ^ 2 ≤ ε ^ 2 * (|dA q x i| + |dB q x i|) ^ 2 := e2
  have e3' : ((a, b, c) - sr2Pre (srTw q) q x).2.2 (q - 1 - i) ^ 2 ≤ ε ^ 2 * (|dA q x i| + |dB q x i|) ^ 2 := e3
  nlinarith

theorem stage2_near (hq : 1 ≤ q) (hε : 0 ≤ ε) (ha : ∀ i, i < 2 * q → |a i - sr2Half q x i| ≤ R.u * |sr2Half q x i|)
    (hb : ∀ i, i < q → |b i - sr2Cos (srTw q) q x i| ≤ (R.rot * (1 + R.u) - 1) * (|dA q x i| + |dB q x i|))
    (hc : ∀ i, i < q → |c (q - 1 - i) - sr2Sin (srTw q) q x (q - 1 - i)| ≤ (R.rot * (1 + R.u) - 1) * (|dA q x i| + |dB q x i|))
    (hd : Near .dct2 (2 * q) d a ε) (he : Near .dct2 q e b ε) (ho : Near .dct2 q o c ε)
    (hout : ∀ k, k < 4 * q → |out k - sr2Out q d e o k| ≤ R.u * |sr2Out q d e o k|) :
    Near .dct2 (4 * q) out x ((1 + ε) * R.step - 1) := by
  have hq0 : (0 : ℝ) < q := by exact_mod_cast hq
  have ht := fun i (_ : i < q) => srTw_sq q i
  have a1 := sr2Pre_near R ha hb hc
  have b1 := sr2Pre_bounded ht
  have hL : (0 : ℝ) ≤ √q := sqrt_nonneg _
  have s0 : √(q : ℝ) ^ 2 = q := sq_sqrt hq0.le
  have s1 : √(Kind.dct2.scale (2 * q)) ^ 2 = q := by rw [sq_sqrt (Kind.scale_nonneg _ (by omega))]; simp [Kind.scale]
  have s2 : √(Kind.dct2.scale q) ^ 2 = q / 2 := by rw [sq_sqrt (Kind.scale_nonneg _ (by omega))]; simp [Kind.scale]
  have b2 : Bounded (n111 (2 * q) q q) (n122 q) (fun x => (Kind.dct2.specAt (2 * q) x.1, Kind.dct2.specAt q x.2.1, Kind.dct2.specAt q x.2.2)) √q :=
    Bounded.three (Kind.dct2.bounded (by omega) (by simp)) (Kind.dct2.bounded hq (by simp)) (Kind.dct2.bounded hq (by simp)) hL
      (by rw [s0, s1]; simp) (by rw [s0, s2]; linarith) (by rw [s0, s2]; linarith)
  have a2 : Acc (fun _ : Unit × Unit × Unit => (a, b, c)) (fun _ : Unit × Unit × Unit => (d, e, o)) (n111 (2 * q) q q) (n122 q) (fun x => (Kind.dct2.specAt (2 * q) x.1, Kind.dct2.specAt q x.2.1, Kind.dct2.specAt q x.2.2))
      (fun a => (a.1, a.2.1, a.2.2)) √q ε :=
    Acc.three (v1 := fun _ : Unit => a) (v2 := fun _ : Unit => b) (v3 := fun _ : Unit => c) (v1' := fun _ : Unit => d) (v2' := fun _ : Unit => e) (v3' := fun _ : Unit => o)
      (P1 := fun u => u) (P2 := fun u => u) (P3 := fun u => u) (fun _ => hd) (fun _ => he) (fun _ => ho) hL hε (by rw [s0, s1]; simp) (by rw [s0, s2]; linarith) (by rw [s0, s2]; linarith)
  have a2' : Acc (fun _ : Unit => (a, b, c)) (fun _ : Unit => (d, e, o)) (n111 (2 * q) q q) (n122 q) (fun x => (Kind.dct2.specAt (2 * q) x.1, Kind.dct2.specAt q x.2.1, Kind.dct2.specAt q x.2.2))
      id √q ε := fun _ => a2 ((), (), ())
  have a3 : Acc (fun _ : Unit => (d, e, o)) (fun _ : Unit => out) (n122 q) (Kind.dct3.nm (4 * q)) (sr2Post q) id 1 R.u :=
    Acc.of_entries R.u_nonneg (sr2Post_bounded hq) fun _ i hi => hout i hi
  have a23 := Acc.comp R.u_nonneg b2 (sr2Post_bounded hq) a2' a3
  have hpos : 0 ≤ (1 + ε) * (1 + R.u) - 1 := by nlinarith [R.u_nonneg]
  have a := Acc.comp hpos b1 (b2.comp (sr2Post_bounded hq)) a1 a23
  have hfin := (a.mono (by positivity) (show _ ≤ (1 + ε) * R.step - 1 from ?_)) ()
  · refine le_trans (le_of_eq ?_) (hfin.trans (le_of_eq ?_))
    · refine wn_congr fun i hi => ?_
      simp only [Pi.sub_apply, id]
      congr 1
      exact (sr2_out hq x hi).symm
    · congr 2
      · rw [one_mul, ← sqrt_mul hq0.le]; congr 1; simp [Kind.scale]; ring
  · have := two_g (g := R.rot * (1 + R.u))
    unfold Rounding.step
    have h2 : 0 ≤ (1 + ε) * (1 + R.u) := by linarith
    nlinarith

/-- Recombination in the kernels: the odd part is a sine transform. -/
def kOut (q : ℕ) (a e o : ℕ → ℝ) : ℕ → ℝ := fun k =>
  if k % 2 = 0 then a (k / 2)
  else if k = 1 then e 0
  else if k = 4 * q - 1 then -((-1) ^ (q - 1) * o (q - 1))
  else if k % 4 = 1 then e (k / 4) + (-1) ^ (k / 4 - 1) * o (k / 4 - 1)
  else e (k / 4 + 1) - (-1) ^ (k / 4) * o (k / 4)

theorem sr2Out_kOut (hq : 1 ≤ q) {k : ℕ} (hk : k < 4 * q) : sr2Out q d e (fun j => (-1) ^ (q - 1) * o (q - 1 - j)) k = kOut q d e o k := by
  have hp : ∀ i, 1 ≤ i → i < q → ((-1 : ℝ)) ^ (q - 1) = (-1) ^ (i + q) * (-1) ^ (i - 1) := fun i h1 h2 => by
    rw [← pow_add]
    rw [show i + q + (i - 1) = 2 * i + (q - 1) by omega, pow_add, pow_mul]; norm_num
  have hsg : ∀ i, 1 ≤ i → i < q → -(if (i + q) % 2 = 0 then -((-1) ^ (q - 1) * o (q - 1 - (q - i))) else (-1) ^ (q - 1) * o (q - 1 - (q - i))) =
      (-1) ^ (i - 1) * o (i - 1) := fun i h1 h2 => by
    rw [show q - 1 - (q - i) = i - 1 by omega, hp i h1 h2]
    split_ifs with h3
    · rw [Even.neg_one_pow (Nat.even_iff.2 h3)]; ring
    · rw [Odd.neg_one_pow (Nat.odd_iff.2 (by omega) : Odd (i + q))]; ring
  unfold sr2Out kOut
  by_cases h0 : k % 2 = 0
  · rw [if_pos h0, if_pos h0]
  rw [if_neg h0, if_neg h0]
  by_cases h1 : k = 1
  · rw [if_pos h1, if_pos h1]
  rw [if_neg h1, if_neg h1]
  by_cases h2 : k = 4 * q - 1
  · rw [if_pos h2, if_pos h2]; dsimp only; rw [Nat.sub_zero]
  rw [if_neg h2, if_neg h2]
  by_cases h3 : k % 4 = 1
  · rw [if_pos h3, if_pos h3, sub_eq_add_neg, hsg (k / 4) (by omega) (by omega)]
  · rw [if_neg h3, if_neg h3]
    have := hsg (k / 4 + 1) (by omega) (by omega)
    rw [Nat.add_sub_cancel] at this
    linarith

/-- One step of the type 2 recursion as the kernels do it. -/
theorem kstage2 (hq : 1 ≤ q) (hε : 0 ≤ ε) {s : ℕ → ℝ} (ha : ∀ i, i < 2 * q → |a i - (x i + x (4 * q - i - 1))| ≤ R.u * |x i + x (4 * q - i - 1)|)
    (hb : ∀ i, i < q → |b i - (dA q x i * (srTw q i).re + dB q x i * (srTw q i).im)| ≤ (R.rot * (1 + R.u) - 1) * (|dA q x i| + |dB q x i|))
    (hs : ∀ i, i < q → |s (q - 1 - i) - (dB q x i * (srTw q i).re - dA q x i * (srTw q i).im)| ≤ (R.rot * (1 + R.u) - 1) * (|dA q x i| + |dB q x i|))
    (hd : Near .dct2 (2 * q) d a ε) (he : Near .dct2 q e b ε) (ho : Near .dst2 q o s ε)
    (hout : ∀ k, k < 4 * q → |out k - kOut q d e o k| ≤ R.u * |kOut q d e o k|) :
    Near .dct2 (4 * q) out x ((1 + ε) * R.step - 1) := by
  refine stage2_near R (a := a) (b := b) (c := fun j => (-1) ^ (q - 1 - j) * s j) (d := d) (e := e) (o := fun j => (-1) ^ (q - 1) * o (q - 1 - j)) hq hε ?_ hb ?_ hd he ?_ ?_
  · intro i hi
    have : sr2Half q x i = x i + x (4 * q - i - 1) := by unfold sr2Half; split_ifs <;> ring
    rw [this]; exact ha i hi
  · intro i hi
    refine le_trans (le_of_eq ?_) (hs i hi)
    rw [show q - 1 - (q - 1 - i) = i by omega]
    have : sr2Sin (srTw q) q x (q - 1 - i) = (-1) ^ i * (dB q x i * (srTw q i).re - dA q x i * (srTw q i).im) := by
      unfold sr2Sin
      rw [show q - 1 - (q - 1 - i) = i by omega, ite_neg_pow]; rfl
    rw [this, ← mul_sub, abs_mul, pm_abs, one_mul]
  · have := (near_dst2.1 ho).sign (pm_sq (q - 1))
    refine this.congr (fun i hi => ?_) (fun i hi => rfl)
    rw [← mul_assoc]
    congr 1
    rw [neg_one_pow_sub_one (by omega)]
  · intro k hk
    rw [sr2Out_kOut hq hk]; exact hout k hk

/-- One step of the type 3 recursion as the kernels do it. -/
theorem kstage3 (hq : 1 ≤ q) (hε : 0 ≤ ε) {s : ℕ → ℝ} (ha : ∀ i, i < 2 * q → |a i - x (2 * i)| ≤ R.u * |x (2 * i)|)
    (hb : ∀ i, i < q → |b i - sr3N1 x i| ≤ R.u * |sr3N1 x i|)
    (hs : ∀ i, i < q → |s (q - 1 - i) - sr3N3 q x i| ≤ R.u * |sr3N3 q x i|)
    (hd : Near .dct3 (2 * q) d a ε) (he : Near .dct3 q e b ε) (ho : Near .dst3 q o s ε)
    (hl : ∀ i, i < q → |l i - (e i * (srTw q i).re + o i * (srTw q i).im)| ≤ (R.rot - 1) * (|e i| + |o i|))
    (hh : ∀ i, i < q → |h i - (e i * (srTw q i).im - o i * (srTw q i).re)| ≤ (R.rot - 1) * (|e i| + |o i|))
    (hout : ∀ k, k < 4 * q → |out k - sr3Add q (d, l, h) k| ≤ R.u * |sr3Add q (d, l, h) k|) :
    Near .dct3 (4 * q) out x ((1 + ε) * R.step - 1) := by
  have hq0 : (0 : ℝ) < q := by exact_mod_cast hq
  have ht := fun i (_ : i < q) => srTw_sq q i
  have hu := R.u_nonneg
  have hr := R.one_le_rot
  have hL : (0 : ℝ) ≤ √q := sqrt_nonneg _
  have s0 : √(q : ℝ) ^ 2 = q := sq_sqrt hq0.le
  have s1 : √(Kind.dct3.scale (2 * q)) ^ 2 = q := by rw [sq_sqrt (Kind.scale_nonneg _ (by omega))]; simp [Kind.scale]
  have s2 : √(Kind.dct3.scale q) ^ 2 = q / 2 := by rw [sq_sqrt (Kind.scale_nonneg _ (by omega))]; simp [Kind.scale]
  set c : ℕ → ℝ := fun i => s (q - 1 - i) with hc
  set O : ℕ → ℝ := fun k => (-1) ^ k * o k with hO
  have hO' : Near .dct3 q O c ε := near_dst3.1 ho
  have b1 := sr3Pre_bounded hq
  have a1 : Acc (fun _ : Unit => x) (fun _ : Unit => (a, b, c)) (Kind.dct3.nm (4 * q)) (nhh q) (sr3Pre q) id 1 R.u :=
    Acc.of_entries3 (v1 := fun p => p) (v2 := fun p => p) (v3 := fun p => p) (P := fun _ : Unit => (a, b, c)) R.u_nonneg (sr3Pre_bounded hq) (fun _ i hi => ha i hi) (fun _ i hi => hb i hi) (fun _ i hi => hs i hi)
  have b2 : Bounded (nhh q) (n111 (2 * q) q q) (fun x => (Kind.dct3.specAt (2 * q) x.1, Kind.dct3.specAt q x.2.1, Kind.dct3.specAt q x.2.2)) √q :=
    Bounded.three (Kind.dct3.bounded (by omega) (by simp)) (Kind.dct3.bounded hq (by simp)) (Kind.dct3.bounded hq (by simp)) hL
      (by rw [s0, s1]; simp) (by rw [s0, s2]; linarith) (by rw [s0, s2]; linarith)
  have a2 : Acc (fun _ : Unit × Unit × Unit => (a, b, c)) (fun _ : Unit × Unit × Unit => (d, e, O)) (nhh q) (n111 (2 * q) q q) (fun x => (Kind.dct3.specAt (2 * q) x.1, Kind.dct3.specAt q x.2.1, Kind.dct3.specAt q x.2.2))
      (fun a => (a.1, a.2.1, a.2.2)) √q ε :=
    Acc.three (v1 := fun _ : Unit => a) (v2 := fun _ : Unit => b) (v3 := fun _ : Unit => c) (v1' := fun _ : Unit => d) (v2' := fun _ : Unit => e) (v3' := fun _ : Unit => O)
      (P1 := fun u => u) (P2 := fun u => u) (P3 := fun u => u) (fun _ => hd) (fun _ => he) (fun _ => hO') hL hε (by rw [s0, s1]; simp) (by rw [s0, s2]; linarith) (by rw [s0, s2]; linarith)
  have a2' : Acc (fun _ : Unit => (a, b, c)) (fun _ : Unit => (d, e, O)) (nhh q) (n111 (2 * q) q q) (fun x => (Kind.dct3.specAt (2 * q) x.1, Kind.dct3.specAt q x.2.1, Kind.dct3.specAt q x.2.2))
      id √q ε := fun _ => a2 ((), (), ())
  have b3 := sr3Rot_bounded ht
  have a3 : Acc (fun _ : Unit => (d, e, O)) (fun _ : Unit => (d, l, h)) (n111 (2 * q) q q) (n111 (2 * q) q q) (sr3Rot (srTw q)) id 1 (2 * (R.rot - 1)) := fun _ => by
    rw [one_mul, n111_of, n111_of]
    apply sqrt_le_mul_sqrt (by linarith)
    have z : ∑ i ∈ range (2 * q), ((d, l, h) - sr3Rot (srTw q) (d, e, O)).1 i ^ 2 = 0 :=
      sum_eq_zero fun i _ => by simp [sr3Rot]
    have z' : 0 ≤ ∑ i ∈ range (2 * q), (d, e, O).1 i ^ 2 := sum_nonneg fun i _ => sq_nonneg _
    rw [z, zero_add, ← sum_add_distrib, add_assoc, ← sum_add_distrib, mul_add]
    refine le_trans ?_ (le_add_of_nonneg_left (mul_nonneg (sq_nonneg _) z'))
    rw [mul_sum]
    refine sum_le_sum fun i hi => ?_
    rw [mem_range] at hi
    have hsg : (if i % 2 = 0 then O i else -(O i)) = o i := by
      rw [ite_neg_pow, hO]; dsimp only; rw [← mul_assoc, ← pow_two, pm_sq, one_mul]
    have e3 : ((d, l, h) - sr3Rot (srTw q) (d, e, O)).2.1 i ^ 2 ≤ (R.rot - 1) ^ 2 * (|e i| + |o i|) ^ 2 := by
      apply sq_le_of_abs_le
      refine le_trans (le_of_eq ?_) (hl i hi)
      simp only [sr3Rot, sr3Low, Prod.snd_sub, Prod.fst_sub, Pi.sub_apply, hsg]
    have e4 : ((d, l, h) - sr3Rot (srTw q) (d, e, O)).2.2 i ^ 2 ≤ (R.rot - 1) ^ 2 * (|e i| + |o i|) ^ 2 := by
      apply sq_le_of_abs_le
      refine le_trans (le_of_eq ?_) (hh i hi)
      simp only [sr3Rot, sr3High, Prod.snd_sub, Prod.fst_sub, Pi.sub_apply, hsg]
    have m := mul_le_mul_of_nonneg_left (abs_add_sq_le (e i) (o i)) (sq_nonneg (R.rot - 1))
    have e5 : (d, e, O).2.2 i ^ 2 = o i ^ 2 := by
      rw [hO]; dsimp only; rw [mul_pow, pm_sq, one_mul]
    have e6 : (d, e, O).2.1 i ^ 2 = e i ^ 2 := rfl
    rw [e5, e6]
    nlinarith
  have a4 : Acc (fun _ : Unit => (d, l, h)) (fun _ : Unit => out) (n111 (2 * q) q q) (nm1 (4 * q)) (sr3Add q) id √2 R.u :=
    Acc.of_entries R.u_nonneg sr3Add_bounded fun _ i hi => hout i hi
  have a34 := Acc.comp hu b3 sr3Add_bounded a3 a4
  have h34 : 0 ≤ (1 + 2 * (R.rot - 1)) * (1 + R.u) - 1 := by nlinarith
  have a234 := Acc.comp h34 b2 (b3.comp sr3Add_bounded) a2' a34
  have h234 : 0 ≤ (1 + ε) * (1 + ((1 + 2 * (R.rot - 1)) * (1 + R.u) - 1)) - 1 := by nlinarith
  have a := Acc.comp h234 b1 (b2.comp (b3.comp sr3Add_bounded)) a1 a234
  have hfin := (a.mono (by positivity) (show _ ≤ (1 + ε) * R.step - 1 from ?_)) ()
  · refine le_trans (le_of_eq ?_) (hfin.trans (le_of_eq ?_))
    · refine wn_congr fun i hi => ?_
      simp only [Pi.sub_apply, id]
      congr 1
      exact (sr3_out hq x hi).symm
    · congr 2
      rw [mul_one, mul_one, mul_comm, ← sqrt_mul hq0.le]; congr 1; simp [Kind.scale]; ring
  · have h1 := two_g (g := R.rot)
    unfold Rounding.step
    have e : (1 + R.u) * (1 + ((1 + ε) * (1 + ((1 + 2 * (R.rot - 1)) * (1 + R.u) - 1)) - 1)) = ((1 + ε) * (1 + R.u) ^ 2) * (1 + 2 * (R.rot - 1)) := by ring
    have e' : (1 + ε) * ((1 + R.u) * (R.rot * (1 + R.u)) ^ 2) = ((1 + ε) * (1 + R.u) ^ 2) * (R.rot ^ 2 * (1 + R.u)) := by ring
    rw [e, e']
    have : R.rot ^ 2 ≤ R.rot ^ 2 * (1 + R.u) := by nlinarith
    have hp : 0 ≤ (1 + ε) * (1 + R.u) ^ 2 := by positivity
    have := mul_le_mul_of_nonneg_left (h1.trans this) hp
    linarith

end
end RustDct
