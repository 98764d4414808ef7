import Verif.Float.Fft4
/-!
# Accuracy of the even-length type 4 transforms that convert to type 3
-/

set_option linter.all false

namespace RustDct
open Finset Real

variable {T F : Type} [F64 F] [DctNum T F] {R : Rounding T F}

section
variable (tw : ℕ → Cx T) (h : ℕ)
def c4Pre (f : ℕ → T) : (ℕ → T) × (ℕ → T) × (ℕ → T) := (t4L f, t4R h f, f)
def s4Pre (f : ℕ → T) : (ℕ → T) × (ℕ → T) × (ℕ → T) := (t4L' h f, t4R' f, f)
def c4Post (p : (ℕ → T) × (ℕ → T) × (ℕ → T)) : ℕ → T := t4Out tw h p.1 p.2.1
def s4Post (p : (ℕ → T) × (ℕ → T) × (ℕ → T)) : ℕ → T := t4Out' tw h p.1 p.2.1
end

/-- The norm of the inputs (or outputs) of the two inner transforms; the third component is not used. -/
noncomputable def n4 (k k' : Kind) (h : ℕ) : Nm ((ℕ → ℝ) × (ℕ → ℝ) × (ℕ → ℝ)) :=
  (k.nm h).three (k'.nm h) (nm1 0) 1 1 1 zero_le_one zero_le_one zero_le_one

theorem Kind.nm_sq (k : Kind) (n : ℕ) (x : ℕ → ℝ) : (k.nm n).of x ^ 2 = ∑ i ∈ range n, k.weight n i * x i ^ 2 := by
  rw [Kind.nm_of, sq_sqrt (sum_nonneg fun i _ => mul_nonneg (k.weight_nonneg _ _) (sq_nonneg _))]

theorem n4_of (k k' : Kind) (h : ℕ) (x : (ℕ → ℝ) × (ℕ → ℝ) × (ℕ → ℝ)) :
    (n4 k k' h).of x = √(∑ i ∈ range h, k.weight h i * x.1 i ^ 2 + ∑ i ∈ range h, k'.weight h i * x.2.1 i ^ 2) := by
  show √(1 * (k.nm h).of x.1 ^ 2 + 1 * (k'.nm h).of x.2.1 ^ 2 + 1 * (nm1 0).of x.2.2 ^ 2) = _
  rw [Kind.nm_sq, Kind.nm_sq, nm1_of, range_zero, sum_empty, sqrt_zero]
  congr 1
  ring

theorem sum_two_ends {m : ℕ} (g : ℕ → ℝ) : ∑ i ∈ range (2 * (m + 1)), g i = g 0 + ∑ k ∈ range m, (g (2 * k + 1) + g (2 * k + 2)) + g (2 * m + 1) := by
  rw [show 2 * (m + 1) = 2 * m + 1 + 1 by ring, sum_range_succ, sum_range_succ', sum_odd_even m fun i => g (i + 1), sum_add_distrib]
  ring

theorem halfAt_self (p : ℕ) : Spec.halfAt p p = 1 / 2 := by simp [Spec.halfAt]
theorem halfAt_ne {p i : ℕ} (h : i ≠ p) : Spec.halfAt p i = 1 := by simp [Spec.halfAt, h]

theorem c4Pre_sq {h : ℕ} (hh : 1 ≤ h) (x : ℕ → ℝ) :
    ∑ i ∈ range h, Kind.dct3.weight h i * t4L x i ^ 2 + ∑ i ∈ range h, Kind.dst3.weight h i * t4R h x i ^ 2 = 2 * ∑ i ∈ range (2 * h), x i ^ 2 := by
  obtain ⟨m, rfl⟩ : ∃ m, h = m + 1 := ⟨h - 1, by omega⟩
  rw [sum_two_ends, sum_range_succ', sum_range_succ]
  simp only [Kind.weight, show m + 1 - 1 = m by omega]
  have e1 : ∑ i ∈ range m, Spec.halfAt 0 (i + 1) * t4L x (i + 1) ^ 2 = ∑ i ∈ range m, (x (2 * i + 1) + x (2 * i + 2)) ^ 2 :=
    sum_congr rfl fun i _ => by rw [halfAt_ne (by omega), one_mul]; simp [t4L, show 2 * (i + 1) - 1 = 2 * i + 1 by omega, show 2 * (i + 1) = 2 * i + 2 by ring]
  have e2 : ∑ i ∈ range m, Spec.halfAt m i * t4R (m + 1) x i ^ 2 = ∑ i ∈ range m, (x (2 * i + 1) - x (2 * i + 2)) ^ 2 :=
    sum_congr rfl fun i hi => by
      rw [mem_range] at hi
      rw [halfAt_ne (by omega), one_mul]
      unfold t4R
      rw [if_neg (by omega)]
  have e3 : t4L x 0 = x 0 * 2 := by simp [t4L]
  have e4 : t4R (m + 1) x m = x (2 * m + 1) * 2 := by simp [t4R, show 2 * (m + 1) - 1 = 2 * m + 1 by omega]
  have e5 : ∑ i ∈ range m, (x (2 * i + 1) + x (2 * i + 2)) ^ 2 + ∑ i ∈ range m, (x (2 * i + 1) - x (2 * i + 2)) ^ 2 = 2 * ∑ i ∈ range m, (x (2 * i + 1) ^ 2 + x (2 * i + 2) ^ 2) := by
    rw [← sum_add_distrib, mul_sum]
    exact sum_congr rfl fun i _ => by ring
  rw [e1, e2, e3, e4, halfAt_self, halfAt_self]
  linear_combination e5

theorem s4Pre_sq {h : ℕ} (hh : 1 ≤ h) (x : ℕ → ℝ) :
    ∑ i ∈ range h, Kind.dst3.weight h i * t4L' h x i ^ 2 + ∑ i ∈ range h, Kind.dct3.weight h i * t4R' x i ^ 2 = 2 * ∑ i ∈ range (2 * h), x i ^ 2 := by
  obtain ⟨m, rfl⟩ : ∃ m, h = m + 1 := ⟨h - 1, by omega⟩
  rw [sum_two_ends, sum_range_succ, sum_range_succ']
  simp only [Kind.weight, show m + 1 - 1 = m by omega]
  have e1 : ∑ i ∈ range m, Spec.halfAt m i * t4L' (m + 1) x i ^ 2 = ∑ i ∈ range m, (x (2 * i + 1) + x (2 * i + 2)) ^ 2 :=
    sum_congr rfl fun i hi => by
      rw [mem_range] at hi
      rw [halfAt_ne (by omega), one_mul]
      unfold t4L'
      rw [if_neg (by omega)]
  have e2 : ∑ i ∈ range m, Spec.halfAt 0 (i + 1) * t4R' x (i + 1) ^ 2 = ∑ i ∈ range m, (x (2 * i + 1) - x (2 * i + 2)) ^ 2 :=
    sum_congr rfl fun i _ => by
      rw [halfAt_ne (by omega), one_mul]; simp [t4R', show 2 * (i + 1) - 1 = 2 * i + 1 by omega, show 2 * (i + 1) = 2 * i + 2 by ring]; ring
  have e3 : t4R' x 0 = x 0 * 2 := by simp [t4R']
  have e4 : t4L' (m + 1) x m = x (2 * m + 1) * 2 := by simp [t4L', show 2 * (m + 1) - 1 = 2 * m + 1 by omega]
  have e5 : ∑ i ∈ range m, (x (2 * i + 1) + x (2 * i + 2)) ^ 2 + ∑ i ∈ range m, (x (2 * i + 1) - x (2 * i + 2)) ^ 2 = 2 * ∑ i ∈ range m, (x (2 * i + 1) ^ 2 + x (2 * i + 2) ^ 2) := by
    rw [← sum_add_distrib, mul_sum]
    exact sum_congr rfl fun i _ => by ring
  rw [e1, e2, e3, e4, halfAt_self, halfAt_self]
  linear_combination e5

theorem c4Pre_bounded {h : ℕ} (hh : 1 ≤ h) : Bounded (Kind.dct4.nm (2 * h)) (n4 .dct3 .dst3 h) (c4Pre h) √2 where
  nn := sqrt_nonneg _
  sub := fun x y => by
    refine Prod.ext ?_ (Prod.ext ?_ ?_) <;> funext i
    · simp only [c4Pre, t4L, Prod.fst_sub, Pi.sub_apply]; split_ifs <;> ring
    · simp only [c4Pre, t4R, Prod.fst_sub, Prod.snd_sub, Pi.sub_apply]; split_ifs <;> ring
    · rfl
  le := fun x => by
    rw [n4_of, Kind.nm_of, ← sqrt_mul (by norm_num)]
    refine sqrt_le_sqrt (le_of_eq ?_)
    simp only [c4Pre]
    rw [c4Pre_sq hh]
    simp [Kind.weight]

theorem s4Pre_bounded {h : ℕ} (hh : 1 ≤ h) : Bounded (Kind.dst4.nm (2 * h)) (n4 .dst3 .dct3 h) (s4Pre h) √2 where
  nn := sqrt_nonneg _
  sub := fun x y => by
    refine Prod.ext ?_ (Prod.ext ?_ ?_) <;> funext i
    · simp only [s4Pre, t4L', Prod.fst_sub, Pi.sub_apply]; split_ifs <;> ring
    · simp only [s4Pre, t4R', Prod.fst_sub, Prod.snd_sub, Pi.sub_apply]; split_ifs <;> ring
    · rfl
  le := fun x => by
    rw [n4_of, Kind.nm_of, ← sqrt_mul (by norm_num)]
    refine sqrt_le_sqrt (le_of_eq ?_)
    simp only [s4Pre]
    rw [s4Pre_sq hh]
    simp [Kind.weight]

theorem c4Pre_acc {h : ℕ} (hh : 1 ≤ h) : Acc R.seq R.seq3 (Kind.dct4.nm (2 * h)) (n4 .dct3 .dst3 h) (c4Pre h) (c4Pre h) √2 R.u := by
  refine Acc.of_entries3 R.u_nonneg (c4Pre_bounded hh) (fun f i hi => ?_) (fun f i hi => ?_) (fun f i hi => absurd hi (Nat.not_lt_zero i))
  · simp only [Rounding.seq, c4Pre, t4L]
    split_ifs
    · rw [ttwo_real, ← R.two]; exact R.mul _ _
    · exact R.add _ _
  · simp only [Rounding.seq, c4Pre, t4R]
    split_ifs
    · rw [ttwo_real, ← R.two]; exact R.mul _ _
    · exact R.sub _ _

theorem s4Pre_acc {h : ℕ} (hh : 1 ≤ h) : Acc R.seq R.seq3 (Kind.dst4.nm (2 * h)) (n4 .dst3 .dct3 h) (s4Pre h) (s4Pre h) √2 R.u := by
  refine Acc.of_entries3 R.u_nonneg (s4Pre_bounded hh) (fun f i hi => ?_) (fun f i hi => ?_) (fun f i hi => absurd hi (Nat.not_lt_zero i))
  · simp only [Rounding.seq, s4Pre, t4L']
    split_ifs
    · rw [ttwo_real, ← R.two]; exact R.mul _ _
    · exact R.add _ _
  · simp only [Rounding.seq, s4Pre, t4R']
    split_ifs
    · rw [ttwo_real, ← R.two]; exact R.mul _ _
    · exact R.sub _ _

/-! ### The final rotations -/

theorem c4Post_bounded {h : ℕ} {tr : ℕ → Cx ℝ} (ht : ∀ i, (tr i).re ^ 2 + (tr i).im ^ 2 = 1) : Bounded (n111 h h 0) (Kind.dct4.nm (2 * h)) (c4Post tr h) 1 where
  nn := zero_le_one
  sub := fun x y => by
    funext k
    simp only [c4Post, t4Out, Prod.fst_sub, Prod.snd_sub, Pi.sub_apply]
    split_ifs <;> ring
  le := fun x => by
    rw [one_mul, n111_of, Kind.nm_of]
    simp only [Kind.weight, one_mul, range_zero, sum_empty, add_zero]
    rw [sum_pair h, ← sum_add_distrib]
    refine sqrt_le_sqrt (le_of_eq (sum_congr rfl fun i hi => ?_))
    rw [mem_range] at hi
    simp only [c4Post, t4Out]
    rw [if_pos hi, if_neg (by omega), show 2 * h - 1 - (2 * h - 1 - i) = i by omega]
    linear_combination (x.1 i ^ 2 + x.2.1 i ^ 2) * ht i

theorem s4Post_bounded {h : ℕ} {tr : ℕ → Cx ℝ} (ht : ∀ i, (tr i).re ^ 2 + (tr i).im ^ 2 = 1) : Bounded (n111 h h 0) (Kind.dst4.nm (2 * h)) (s4Post tr h) 1 where
  nn := zero_le_one
  sub := fun x y => by
    funext k
    simp only [s4Post, t4Out', Prod.fst_sub, Prod.snd_sub, Pi.sub_apply]
    split_ifs <;> ring
  le := fun x => by
    rw [one_mul, n111_of, Kind.nm_of]
    simp only [Kind.weight, one_mul, range_zero, sum_empty, add_zero]
    rw [sum_pair h, ← sum_add_distrib]
    refine sqrt_le_sqrt (le_of_eq (sum_congr rfl fun i hi => ?_))
    rw [mem_range] at hi
    simp only [s4Post, t4Out']
    rw [if_pos hi, if_neg (by omega), show 2 * h - 1 - (2 * h - 1 - i) = i by omega]
    linear_combination (x.1 i ^ 2 + x.2.1 i ^ 2) * ht i

/-- Two outputs with entrywise error `(g - 1) (|c| + |s|)`. -/
theorem rot_pair_le {a b c s g : ℝ} (hg : 1 ≤ g) (h1 : |a| ≤ (g - 1) * (|c| + |s|)) (h2 : |b| ≤ (g - 1) * (|c| + |s|)) : a ^ 2 + b ^ 2 ≤ (g ^ 2 - 1) ^ 2 * (c ^ 2 + s ^ 2) := by
  have e1 := sq_le_of_abs_le h1
  have e2 := sq_le_of_abs_le h2
  have m := mul_le_mul_of_nonneg_left (abs_add_sq_le c s) (sq_nonneg (g - 1))
  have h4 := mul_le_mul_of_nonneg_right (four_sq_le hg) (add_nonneg (sq_nonneg c) (sq_nonneg s))
  nlinarith

theorem c4Post_acc {h : ℕ} {tw : ℕ → Cx T} {tr : ℕ → Cx ℝ}
    (hre : ∀ i, i < h → Ap (R.val (tw i).re) (tr i).re 1 (1 + R.tau)) (him : ∀ i, i < h → Ap (R.val (tw i).im) (tr i).im 1 (1 + R.tau)) :
    Acc R.seq3 R.seq (n111 h h 0) (Kind.dct4.nm (2 * h)) (c4Post tr h) (c4Post tw h) 1 (R.rot ^ 2 - 1) := fun p => by
  have hr := R.one_le_rot
  rw [one_mul, n111_of, Kind.nm_of]
  apply sqrt_le_mul_sqrt (by nlinarith)
  simp only [Kind.weight, one_mul, range_zero, sum_empty, add_zero]
  rw [sum_pair h, ← sum_add_distrib, mul_sum]
  refine sum_le_sum fun i hi => ?_
  rw [mem_range] at hi
  have a1 : Ap (R.val (p.1 i)) ((R.seq3 p).1 i) |(R.seq3 p).1 i| 1 := Ap.exact _
  have a2 : Ap (R.val (p.2.1 i)) ((R.seq3 p).2.1 i) |(R.seq3 p).2.1 i| 1 := Ap.exact _
  have h1 := (R.ap_rot_add a1 a2 (hre i hi) (him i hi)).err
  have h2 := (R.ap_rot_sub a1 a2 (him i hi) (hre i hi)).err
  rw [mul_one] at h1 h2
  refine rot_pair_le hr ?_ ?_
  · refine le_trans (le_of_eq (congrArg abs ?_)) h1
    simp only [Pi.sub_apply, Rounding.seq, c4Post, t4Out, if_pos hi]
  · refine le_trans (le_of_eq (congrArg abs ?_)) h2
    simp only [Pi.sub_apply, Rounding.seq, c4Post, t4Out]
    rw [if_neg (by omega), if_neg (by omega), show 2 * h - 1 - (2 * h - 1 - i) = i by omega]

theorem s4Post_acc {h : ℕ} {tw : ℕ → Cx T} {tr : ℕ → Cx ℝ}
    (hre : ∀ i, i < h → Ap (R.val (tw i).re) (tr i).re 1 (1 + R.tau)) (him : ∀ i, i < h → Ap (R.val (tw i).im) (tr i).im 1 (1 + R.tau)) :
    Acc R.seq3 R.seq (n111 h h 0) (Kind.dst4.nm (2 * h)) (s4Post tr h) (s4Post tw h) 1 (R.rot ^ 2 - 1) := fun p => by
  have hr := R.one_le_rot
  rw [one_mul, n111_of, Kind.nm_of]
  apply sqrt_le_mul_sqrt (by nlinarith)
  simp only [Kind.weight, one_mul, range_zero, sum_empty, add_zero]
  rw [sum_pair h, ← sum_add_distrib, mul_sum]
  refine sum_le_sum fun i hi => ?_
  rw [mem_range] at hi
  have a1 : Ap (R.val (p.1 i)) ((R.seq3 p).1 i) |(R.seq3 p).1 i| 1 := Ap.exact _
  have a2 : Ap (R.val (p.2.1 i)) ((R.seq3 p).2.1 i) |(R.seq3 p).2.1 i| 1 := Ap.exact _
  have h1 := (R.ap_rot_add a1 a2 (hre i hi) (him i hi)).err
  have h2 := (R.ap_rot_sub a2 a1 (hre i hi) (him i hi)).err
  rw [mul_one] at h1 h2
  rw [add_comm |(R.seq3 p).2.1 i|] at h2
  refine rot_pair_le hr ?_ ?_
  · refine le_trans (le_of_eq (congrArg abs ?_)) h1
    simp only [Pi.sub_apply, Rounding.seq, s4Post, t4Out', if_pos hi]
  · refine le_trans (le_of_eq (congrArg abs ?_)) h2
    simp only [Pi.sub_apply, Rounding.seq, s4Post, t4Out']
    rw [if_neg (by omega), if_neg (by omega), show 2 * h - 1 - (2 * h - 1 - i) = i by omega]

/-! ### The whole transform -/

theorem nm_unw {k : Kind} {h : ℕ} (hk : ∀ i, k.weight h i = 1) : k.nm h = nm1 h := by
  have : k.weight h = fun _ => 1 := funext hk
  unfold Kind.nm nm1
  congr 1

theorem even4_acc {k ka kb : Kind} {h : ℕ} (hh : 1 ≤ h) {Pre Prer} {Post : (ℕ → T) × (ℕ → T) × (ℕ → T) → ℕ → T} {Postr : (ℕ → ℝ) × (ℕ → ℝ) × (ℕ → ℝ) → ℕ → ℝ} {A B : (ℕ → T) → ℕ → T} {ε : ℝ} (hε : 0 ≤ ε)
    (hk : k.scale (2 * h) = h) (ha : ka.scale h = h / 2) (hb : kb.scale h = h / 2) (wa : ∀ i, ka.inv.weight h i = 1) (wb : ∀ i, kb.inv.weight h i = 1)
    (ha1 : ka ≠ .dct1) (hb1 : kb ≠ .dct1)
    (bP : Bounded (k.nm (2 * h)) (n4 ka kb h) Prer √2) (aP : Acc R.seq R.seq3 (k.nm (2 * h)) (n4 ka kb h) Prer Pre √2 R.u)
    (bQ : Bounded (n111 h h 0) (k.inv.nm (2 * h)) Postr 1) (aQ : Acc R.seq3 R.seq (n111 h h 0) (k.inv.nm (2 * h)) Postr Post 1 (R.rot ^ 2 - 1))
    (hA : TransAcc R ka h A ε) (hB : TransAcc R kb h B ε)
    (hS : ∀ x i, i < 2 * h → Postr (ka.specAt h (Prer x).1, kb.specAt h (Prer x).2.1, (Prer x).2.2) i = k.specAt (2 * h) x i) :
    TransAcc R k (2 * h) (fun f => Post (A (Pre f).1, B (Pre f).2.1, (Pre f).2.2)) (R.even4 ε) := by
  have hr := R.one_le_rot
  have hu := R.u_nonneg
  have h0 : (0 : ℝ) ≤ h := Nat.cast_nonneg h
  have s0 : √((h : ℝ) / 2) ^ 2 = h / 2 := sq_sqrt (by linarith)
  have nA : ka.inv.nm h = nm1 h := nm_unw wa
  have nB : kb.inv.nm h = nm1 h := nm_unw wb
  have idB : Bounded (nm1 0) (nm1 0) (fun x : ℕ → ℝ => x) 0 := ⟨le_refl _, fun _ _ => rfl, fun x => by rw [nm1_of, range_zero, sum_empty, sqrt_zero, mul_zero]⟩
  have idA : Acc R.seq R.seq (nm1 0) (nm1 0) (fun x : ℕ → ℝ => x) (fun x : ℕ → T => x) 0 ε := fun f => by
    rw [nm1_of, nm1_of, range_zero, sum_empty, sum_empty, sqrt_zero, mul_zero, mul_zero]
  have bA := ka.bounded hh (fun e => absurd e ha1)
  have bB := kb.bounded hh (fun e => absurd e hb1)
  rw [nA, ha] at bA
  rw [nB, hb] at bB
  unfold TransAcc at hA hB
  rw [nA, ha] at hA
  rw [nB, hb] at hB
  have e12 : (1 : ℝ) * √((h : ℝ) / 2) ^ 2 ≤ √((h : ℝ) / 2) ^ 2 * 1 := le_of_eq (by ring)
  have e3 : (1 : ℝ) * 0 ^ 2 ≤ √((h : ℝ) / 2) ^ 2 * 1 := by nlinarith [sq_nonneg √((h : ℝ) / 2)]
  have b2 : Bounded (n4 ka kb h) (n111 h h 0) (fun x => (ka.specAt h x.1, kb.specAt h x.2.1, x.2.2)) √((h : ℝ) / 2) :=
    Bounded.three (S3 := fun x => x) bA bB idB (sqrt_nonneg _) e12 e12 e3
  have a2 : Acc R.seq3 R.seq3 (n4 ka kb h) (n111 h h 0) (fun x => (ka.specAt h x.1, kb.specAt h x.2.1, x.2.2)) (fun a => (A a.1, B a.2.1, a.2.2)) √((h : ℝ) / 2) ε :=
    Acc.three (S1 := ka.specAt h) (S2 := kb.specAt h) (S3 := fun x => x) (P1 := A) (P2 := B) (P3 := fun x => x) (v1 := R.seq) (v2 := R.seq) (v3 := R.seq) (v1' := R.seq) (v2' := R.seq) (v3' := R.seq)
      hA hB idA (sqrt_nonneg _) hε e12 e12 e3
  have a12 := Acc.comp hε bP b2 aP a2
  have a := Acc.comp (show 0 ≤ R.rot ^ 2 - 1 by nlinarith) (bP.comp b2) bQ a12 aQ
  refine TransAcc.of_acc (a.mono (by positivity) (le_of_eq ?_)) hS ?_
  · unfold Rounding.even4; ring
  · rw [one_mul, ← sqrt_mul (by linarith), hk]; congr 1; ring

/-- The type 3 transforms of a naive instance over the reals. -/
theorem naive3 {h : ℕ} (hh : 1 ≤ h) : RunsW (Type2And3Naive.inst h).toObj.dct3 h (Type2And3Naive.inst h).toObj.scratchLen (Spec.dct3At h) ∧
    RunsW (Type2And3Naive.inst h).toObj.dst3 h (Type2And3Naive.inst h).toObj.scratchLen (Spec.dst3At h) := by
  have e : (Type2And3Naive.inst h).toObj.scratchLen = h := Type2And3Naive.scratchLen_inst
  rw [e]
  exact ⟨(Type2And3Naive.dct3_inst hh).weak, (Type2And3Naive.dst3_inst hh).weak⟩

theorem srTw_unit (h i : ℕ) : (srTw h i).re ^ 2 + (srTw h i).im ^ 2 = 1 := srTw_sq h i

theorem Type4ConvertToType3Even.acc_dct4 {h : ℕ} (hh : 1 ≤ h) {inner : Obj23 T} {ε : ℝ} (hε : 0 ≤ ε) (hc : PAccW R .dct3 inner.dct3 h inner.scratchLen ε)
    (hs : PAccW R .dst3 inner.dst3 h inner.scratchLen ε) :
    PAcc R .dct4 (Type4ConvertToType3Even.inst h inner).dct4 (2 * h) (Type4ConvertToType3Even.inst h inner).scratchLen (R.even4 ε) := by
  obtain ⟨A, rA, aA⟩ := hc
  obtain ⟨B, rB, aB⟩ := hs
  refine ⟨_, Type4ConvertToType3Even.dct4_inst hh rA rB, ?_⟩
  exact even4_acc (k := .dct4) (ka := .dct3) (kb := .dst3) hh (Pre := c4Pre h) (Prer := c4Pre h) (Post := c4Post (fun i => Cx.conj (singleTwiddle (2 * i + 1) (2 * h * 8))) h)
    (Postr := c4Post (srTw h) h) hε (by simp [Kind.scale]) rfl rfl (fun _ => rfl) (fun _ => rfl) (by simp) (by simp) (c4Pre_bounded hh) (c4Pre_acc hh)
    (c4Post_bounded (srTw_unit h)) (c4Post_acc (fun i hi => R.srTw_re (by ring) hi) (fun i hi => R.srTw_im (by ring) hi)) aA aB
    (fun x i hi => by
      have e := RunsV.unique (Type4ConvertToType3Even.dct4_inst hh (naive3 hh).1 (naive3 hh).2) (Type4ConvertToType3Even.correct_dct4 hh (naive3 hh).1 (naive3 hh).2) x hi
      rw [t4_tw_eq] at e
      exact e)

theorem Type4ConvertToType3Even.acc_dst4 {h : ℕ} (hh : 1 ≤ h) {inner : Obj23 T} {ε : ℝ} (hε : 0 ≤ ε) (hc : PAccW R .dct3 inner.dct3 h inner.scratchLen ε)
    (hs : PAccW R .dst3 inner.dst3 h inner.scratchLen ε) :
    PAcc R .dst4 (Type4ConvertToType3Even.inst h inner).dst4 (2 * h) (Type4ConvertToType3Even.inst h inner).scratchLen (R.even4 ε) := by
  obtain ⟨A, rA, aA⟩ := hc
  obtain ⟨B, rB, aB⟩ := hs
  refine ⟨_, Type4ConvertToType3Even.dst4_inst hh rA rB, ?_⟩
  exact even4_acc (k := .dst4) (ka := .dst3) (kb := .dct3) hh (Pre := s4Pre h) (Prer := s4Pre h) (Post := s4Post (fun i => Cx.conj (singleTwiddle (2 * i + 1) (2 * h * 8))) h)
    (Postr := s4Post (srTw h) h) hε (by simp [Kind.scale]) rfl rfl (fun _ => rfl) (fun _ => rfl) (by simp) (by simp) (s4Pre_bounded hh) (s4Pre_acc hh)
    (s4Post_bounded (srTw_unit h)) (s4Post_acc (fun i hi => R.srTw_re (by ring) hi) (fun i hi => R.srTw_im (by ring) hi)) aB aA
    (fun x i hi => by
      have e := RunsV.unique (Type4ConvertToType3Even.dst4_inst hh (naive3 hh).1 (naive3 hh).2) (Type4ConvertToType3Even.correct_dst4 hh (naive3 hh).1 (naive3 hh).2) x hi
      rw [t4_tw_eq] at e
      exact e)

end RustDct
