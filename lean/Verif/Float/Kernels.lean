import Verif.Float.Near
import Verif.Proofs.ButterfliesRuns
/-!
# Accuracy of the fixed-size kernels 2, 4, 8 and 16
-/

set_option linter.all false

namespace RustDct
open Finset Real

variable {T F : Type} [F64 F] [DctNum T F] (R : Rounding T F)

/-- The sequence that starts with the entries of a list. -/
def lf (l : List T) : ℕ → T := fun i => l.getD i 0

/-- A computation on `n` values that stays within relative error `ε` of the transform `k`. -/
def KAcc (k : Kind) (n : ℕ) (body : List T → Except Err (List T)) (ε : ℝ) : Prop :=
  ∃ C : (ℕ → T) → ℕ → T, (∀ f, body (vec n f) = .ok (vec n (C f))) ∧ TransAcc R k n C ε

theorem KAcc.of {k : Kind} {n : ℕ} {body : List T → Except Err (List T)} {ε : ℝ}
    (h : ∀ f, ∃ g, body (vec n f) = .ok (vec n g) ∧ Near k n (R.seq g) (R.seq f) ε) : KAcc R k n body ε := by
  choose C hC using h
  exact ⟨C, fun f => (hC f).1, fun f => (hC f).2⟩

theorem KAcc.mono {k : Kind} {n : ℕ} {body : List T → Except Err (List T)} {ε ε' : ℝ} (h : KAcc R k n body ε) (he : ε ≤ ε') : KAcc R k n body ε' := by
  obtain ⟨C, h1, h2⟩ := h
  exact ⟨C, h1, h2.mono he⟩

section
variable {u r x y : ℝ}
theorem rel_of (h : |r - y| ≤ u * |y|) (e : x = y) : |r - x| ≤ u * |x| := by rw [e]; exact h
theorem rel_neg (h : |r - y| ≤ u * |y|) (e : x = -y) : |-r - x| ≤ u * |x| := by
  rw [e, abs_neg, ← abs_neg, show -(-r - -y) = r - y by ring]; exact h
end

section
variable {p r c s : T} {P Q C S : ℝ}
theorem Rounding.kb_add (hp : |R.val p - P| ≤ R.u * |P|) (hr : |R.val r - Q| ≤ R.u * |Q|) (hc : Ap (R.val c) C 1 (1 + R.tau)) (hs : Ap (R.val s) S 1 (1 + R.tau)) :
    |R.val (p * c + r * s) - (P * C + Q * S)| ≤ (R.rot * (1 + R.u) - 1) * (|P| + |Q|) :=
  (R.ap_rot_add (Ap.of_rel R.u_nonneg hp) (Ap.of_rel R.u_nonneg hr) hc hs).err
theorem Rounding.kb_sub (hp : |R.val p - P| ≤ R.u * |P|) (hr : |R.val r - Q| ≤ R.u * |Q|) (hc : Ap (R.val c) C 1 (1 + R.tau)) (hs : Ap (R.val s) S 1 (1 + R.tau)) :
    |R.val (p * c - r * s) - (P * C - Q * S)| ≤ (R.rot * (1 + R.u) - 1) * (|P| + |Q|) :=
  (R.ap_rot_sub (Ap.of_rel R.u_nonneg hp) (Ap.of_rel R.u_nonneg hr) hc hs).err
theorem Rounding.kl_add (hc : Ap (R.val c) C 1 (1 + R.tau)) (hs : Ap (R.val s) S 1 (1 + R.tau)) :
    |R.val (p * c + r * s) - (R.val p * C + R.val r * S)| ≤ (R.rot - 1) * (|R.val p| + |R.val r|) := by
  have := (R.ap_rot_add (Ap.exact (R.val p)) (Ap.exact (R.val r)) hc hs).err
  rwa [mul_one] at this
theorem Rounding.kl_sub (hc : Ap (R.val c) C 1 (1 + R.tau)) (hs : Ap (R.val s) S 1 (1 + R.tau)) :
    |R.val (p * c - r * s) - (R.val p * C - R.val r * S)| ≤ (R.rot - 1) * (|R.val p| + |R.val r|) := by
  have := (R.ap_rot_sub (Ap.exact (R.val p)) (Ap.exact (R.val r)) hc hs).err
  rwa [mul_one] at this
end

theorem Rounding.step_eq : R.step = (1 + R.u) ^ 7 * (1 + R.tau) ^ 2 := by unfold Rounding.step Rounding.rot; ring
theorem Rounding.u6_le_step : (1 + R.u) ^ 6 ≤ R.step := by
  rw [R.step_eq]
  have h1 : (1 + R.u) ^ 6 ≤ (1 + R.u) ^ 7 := pow_le_pow_right₀ R.one_le_u (by norm_num)
  have h2 := one_le_pow₀ (n := 2) R.one_le_tau
  have h3 : 0 ≤ (1 + R.u) ^ 7 := by have := R.u_nonneg; positivity
  nlinarith

theorem Rounding.u_le_cube : 1 + R.u ≤ (1 + R.u) ^ 3 := le_self_pow₀ R.one_le_u (by norm_num)

/-- The computed product with `1/√2`. -/
theorem Rounding.ap_frac {a : T} {x X g : ℝ} (ha : Ap (R.val a) x X g) : Ap (R.val (a * DctNum.fracSqrt2)) (x * (1 / √2)) (X * (1 / √2)) ((1 + R.u) * (g * (1 + R.u))) := by
  have h0 : (0 : ℝ) < 1 / √2 := by positivity
  have h := Ap.of_rel (r := R.val DctNum.fracSqrt2) (x := 1 / √2) R.u_nonneg (by rw [abs_of_pos h0]; exact R.fracSqrt2)
  rw [abs_of_pos h0] at h
  exact R.ap_mul ha h
theorem Rounding.ap_half {a : T} {x X g : ℝ} (ha : Ap (R.val a) x X g) : Ap (R.val (a * thalf T)) (x * (1 / 2)) (X * (1 / 2)) ((1 + R.u) * g) := by
  have h : Ap (R.val (thalf T)) (1 / 2) (1 / 2) 1 := by rw [R.half]; exact Ap.exact' (by norm_num)
  have := R.ap_mul ha h
  rwa [mul_one] at this

/-! ### Size 2 -/

theorem near2_dct2 (a b : T) : Near .dct2 2 (R.seq (lf [a + b, (a - b) * DctNum.fracSqrt2])) (R.seq (lf [a, b])) (R.step - 1) := by
  have hu := R.u_nonneg
  have hg : (1 + R.u) ^ 3 ≤ (1 + R.u) ^ 6 := pow_le_pow_right₀ R.one_le_u (by norm_num)
  have hg1 : 1 ≤ (1 + R.u) ^ 3 := one_le_pow₀ R.one_le_u
  have hs := R.u6_le_step
  have e := b2_dct2 (R.seq (lf [a, b]))
  rw [vec_two] at e
  simp only [List.cons.injEq] at e
  refine Near.mono (le_trans (wn_mul_le (z := Kind.dct2.specAt 2 (R.seq (lf [a, b]))) (c := (1 + R.u) ^ 3 - 1) (by linarith) (Kind.weight_nonneg _ _) ?_)
    (mul_le_mul_of_nonneg_left ((Kind.dct2.bounded (n := 2) (by norm_num) (by simp)).le _) (by linarith))) (show (1 + R.u) ^ 3 - 1 ≤ R.step - 1 by linarith)
  intro i hi
  interval_cases i
  · show |R.val (a + b) - Spec.dct2At 2 _ 0| ≤ _ * |Spec.dct2At 2 _ 0|
    rw [e.1]
    refine (R.add a b).trans (mul_le_mul_of_nonneg_right ?_ (abs_nonneg _))
    linarith [R.u_le_cube]
  · show |R.val ((a - b) * DctNum.fracSqrt2) - Spec.dct2At 2 _ 1| ≤ _ * |Spec.dct2At 2 _ 1|
    rw [e.2.1]
    have h := (R.ap_frac (Ap.of_rel hu (R.sub a b))).err
    rw [abs_mul, abs_of_pos (show (0 : ℝ) < 1 / √2 by positivity), show (1 + R.u) ^ 3 = (1 + R.u) * ((1 + R.u) * (1 + R.u)) by ring]
    exact h

theorem near2_dct3 (a b : T) : Near .dct3 2 (R.seq (lf [a * thalf T + b * DctNum.fracSqrt2, a * thalf T - b * DctNum.fracSqrt2])) (R.seq (lf [a, b])) (R.step - 1) := by
  have hu := R.u_nonneg
  have h2 : (√2 : ℝ) ^ 2 = 2 := sq_sqrt (by norm_num)
  have hg1 : 1 ≤ (1 + R.u) ^ 3 := one_le_pow₀ R.one_le_u
  have hs : 2 * ((1 + R.u) ^ 3 - 1) ≤ R.step - 1 := by
    have := two_g (g := (1 + R.u) ^ 3)
    have e : ((1 + R.u) ^ 3) ^ 2 = (1 + R.u) ^ 6 := by ring
    linarith [R.u6_le_step]
  have e := b2_dct3 (R.seq (lf [a, b]))
  rw [vec_two] at e
  simp only [List.cons.injEq] at e
  have hx := (R.ap_half (Ap.exact (R.val a))).mono (show (1 + R.u) * 1 ≤ (1 + R.u) * (1 * (1 + R.u)) by nlinarith)
  have hy := R.ap_frac (Ap.exact (R.val b))
  have e0 := (R.ap_add hx hy).err
  have e1 := (R.ap_sub hx hy).err
  rw [show (1 + R.u) * ((1 + R.u) * (1 * (1 + R.u))) = (1 + R.u) ^ 3 by ring] at e0 e1
  refine Near.mono ?_ hs
  refine le_trans (sqrt_le_mul_sqrt (b := ∑ i ∈ range 2, (Kind.dct3.inv.weight 2 i) * ‖Kind.dct3.specAt 2 (R.seq (lf [a, b])) i‖ ^ 2) (c := 2 * ((1 + R.u) ^ 3 - 1)) (by linarith) ?_)
    (mul_le_mul_of_nonneg_left ((Kind.dct3.bounded (n := 2) (by norm_num) (by simp)).le _) (by linarith))
  simp only [sum_range_succ, sum_range_zero, Kind.inv, Kind.weight, Real.norm_eq_abs, sq_abs, Pi.sub_apply, zero_add, one_mul]
  have t0 : Kind.dct3.specAt 2 (R.seq (lf [a, b])) 0 = R.val a * (1 / 2) + R.val b * (1 / √2) := e.1
  have t1 : Kind.dct3.specAt 2 (R.seq (lf [a, b])) 1 = R.val a * (1 / 2) - R.val b * (1 / √2) := e.2.1
  rw [t0, t1]
  have q0 := sq_le_of_abs_le e0
  have q1 := sq_le_of_abs_le e1
  have m := abs_add_sq_le (R.val a * (1 / 2)) (R.val b * (1 / √2))
  rw [abs_mul, abs_mul, abs_of_pos (show (0 : ℝ) < 1 / 2 by norm_num), abs_of_pos (show (0 : ℝ) < 1 / √2 by positivity)] at m
  have m' := mul_le_mul_of_nonneg_left m (sq_nonneg ((1 + R.u) ^ 3 - 1))
  have q0' : (R.seq (lf [a * thalf T + b * DctNum.fracSqrt2, a * thalf T - b * DctNum.fracSqrt2]) 0 - (R.val a * (1 / 2) + R.val b * (1 / √2))) ^ 2 ≤ _ := q0
  have q1' : (R.seq (lf [a * thalf T + b * DctNum.fracSqrt2, a * thalf T - b * DctNum.fracSqrt2]) 1 - (R.val a * (1 / 2) - R.val b * (1 / √2))) ^ 2 ≤ _ := q1
  nlinarith

theorem near2_dst2 (a b : T) : Near .dst2 2 (R.seq (lf [(a + b) * DctNum.fracSqrt2, a - b])) (R.seq (lf [a, b])) (R.step - 1) := by
  rw [near_dst2]
  have h := near2_dct2 R a (-b)
  have hu := R.u_nonneg
  have hg : (1 + R.u) ^ 3 ≤ (1 + R.u) ^ 6 := pow_le_pow_right₀ R.one_le_u (by norm_num)
  have hg1 : 1 ≤ (1 + R.u) ^ 3 := one_le_pow₀ R.one_le_u
  have hs := R.u6_le_step
  set x : ℕ → ℝ := fun j => (-1) ^ j * R.seq (lf [a, b]) j with hx
  have e := b2_dct2 x
  rw [vec_two] at e
  simp only [List.cons.injEq] at e
  have x0 : x 0 = R.val a := by simp [hx, Rounding.seq, lf]
  have x1 : x 1 = -R.val b := by simp [hx, Rounding.seq, lf]
  rw [x0, x1] at e
  refine Near.mono (le_trans (wn_mul_le (z := Kind.dct2.specAt 2 x) (c := (1 + R.u) ^ 3 - 1) (by linarith) (Kind.weight_nonneg _ _) ?_)
    (mul_le_mul_of_nonneg_left ((Kind.dct2.bounded (n := 2) (by norm_num) (by simp)).le _) (by linarith))) (show (1 + R.u) ^ 3 - 1 ≤ R.step - 1 by linarith)
  intro i hi
  interval_cases i
  · show |R.val (a - b) - Spec.dct2At 2 _ 0| ≤ _ * |Spec.dct2At 2 _ 0|
    rw [e.1, ← sub_eq_add_neg]
    refine (R.sub a b).trans (mul_le_mul_of_nonneg_right ?_ (abs_nonneg _))
    linarith [R.u_le_cube]
  · show |R.val ((a + b) * DctNum.fracSqrt2) - Spec.dct2At 2 _ 1| ≤ _ * |Spec.dct2At 2 _ 1|
    rw [e.2.1, sub_neg_eq_add]
    have h := (R.ap_frac (Ap.of_rel hu (R.add a b))).err
    rw [abs_mul, abs_of_pos (show (0 : ℝ) < 1 / √2 by positivity)]
    convert h using 2
    ring

theorem near2_dst3 (a b : T) : Near .dst3 2 (R.seq (lf [a * DctNum.fracSqrt2 + b * thalf T, a * DctNum.fracSqrt2 - b * thalf T])) (R.seq (lf [a, b])) (R.step - 1) := by
  have hu := R.u_nonneg
  have h2 : (√2 : ℝ) ^ 2 = 2 := sq_sqrt (by norm_num)
  have hg1 : 1 ≤ (1 + R.u) ^ 3 := one_le_pow₀ R.one_le_u
  have hs : 2 * ((1 + R.u) ^ 3 - 1) ≤ R.step - 1 := by
    have := two_g (g := (1 + R.u) ^ 3)
    have e : ((1 + R.u) ^ 3) ^ 2 = (1 + R.u) ^ 6 := by ring
    linarith [R.u6_le_step]
  have e := b2_dst3 (R.seq (lf [a, b]))
  rw [vec_two] at e
  simp only [List.cons.injEq] at e
  have hx := (R.ap_half (Ap.exact (R.val b))).mono (show (1 + R.u) * 1 ≤ (1 + R.u) * (1 * (1 + R.u)) by nlinarith)
  have hy := R.ap_frac (Ap.exact (R.val a))
  have e0 := (R.ap_add hy hx).err
  have e1 := (R.ap_sub hy hx).err
  rw [show (1 + R.u) * ((1 + R.u) * (1 * (1 + R.u))) = (1 + R.u) ^ 3 by ring] at e0 e1
  refine Near.mono ?_ hs
  refine le_trans (sqrt_le_mul_sqrt (b := ∑ i ∈ range 2, (Kind.dst3.inv.weight 2 i) * ‖Kind.dst3.specAt 2 (R.seq (lf [a, b])) i‖ ^ 2) (c := 2 * ((1 + R.u) ^ 3 - 1)) (by linarith) ?_)
    (mul_le_mul_of_nonneg_left ((Kind.dst3.bounded (n := 2) (by norm_num) (by simp)).le _) (by linarith))
  simp only [sum_range_succ, sum_range_zero, Kind.inv, Kind.weight, Real.norm_eq_abs, sq_abs, Pi.sub_apply, zero_add, one_mul]
  have t0 : Kind.dst3.specAt 2 (R.seq (lf [a, b])) 0 = R.val a * (1 / √2) + R.val b * (1 / 2) := e.1
  have t1 : Kind.dst3.specAt 2 (R.seq (lf [a, b])) 1 = R.val a * (1 / √2) - R.val b * (1 / 2) := e.2.1
  rw [t0, t1]
  have q0 := sq_le_of_abs_le e0
  have q1 := sq_le_of_abs_le e1
  have m := abs_add_sq_le (R.val a * (1 / √2)) (R.val b * (1 / 2))
  rw [abs_mul, abs_mul, abs_of_pos (show (0 : ℝ) < 1 / 2 by norm_num), abs_of_pos (show (0 : ℝ) < 1 / √2 by positivity)] at m
  have m' := mul_le_mul_of_nonneg_left m (sq_nonneg ((1 + R.u) ^ 3 - 1))
  have q0' : (R.seq (lf [a * DctNum.fracSqrt2 + b * thalf T, a * DctNum.fracSqrt2 - b * thalf T]) 0 - (R.val a * (1 / √2) + R.val b * (1 / 2))) ^ 2 ≤ _ := q0
  have q1' : (R.seq (lf [a * DctNum.fracSqrt2 + b * thalf T, a * DctNum.fracSqrt2 - b * thalf T]) 1 - (R.val a * (1 / √2) - R.val b * (1 / 2))) ^ 2 ≤ _ := q1
  nlinarith

theorem lf2 (f : ℕ → T) : ∀ i, i < 2 → R.seq f i = R.seq (lf [f 0, f 1]) i := by intro i hi; interval_cases i <;> rfl

theorem Type2And3Butterfly2.acc_dct2 (self : Type2And3Butterfly2 T) : KAcc R .dct2 2 self.inplaceDct2 (R.step - 1) := KAcc.of R fun f => by
  refine ⟨_, by rw [vec_two, Type2And3Butterfly2.inplaceDct2_gen, vec_two (lf [f 0 + f 1, (f 0 - f 1) * DctNum.fracSqrt2])]; rfl, (near2_dct2 R _ _).congr (lf2 R f) fun _ _ => rfl⟩
theorem Type2And3Butterfly2.acc_dct3 (self : Type2And3Butterfly2 T) : KAcc R .dct3 2 self.inplaceDct3 (R.step - 1) := KAcc.of R fun f => by
  refine ⟨_, by rw [vec_two, Type2And3Butterfly2.inplaceDct3_gen, vec_two (lf [f 0 * thalf T + f 1 * DctNum.fracSqrt2, f 0 * thalf T - f 1 * DctNum.fracSqrt2])]; rfl, (near2_dct3 R _ _).congr (lf2 R f) fun _ _ => rfl⟩
theorem Type2And3Butterfly2.acc_dst2 (self : Type2And3Butterfly2 T) : KAcc R .dst2 2 self.inplaceDst2 (R.step - 1) := KAcc.of R fun f => by
  refine ⟨_, by rw [vec_two, Type2And3Butterfly2.inplaceDst2_gen, vec_two (lf [(f 0 + f 1) * DctNum.fracSqrt2, f 0 - f 1])]; rfl, (near2_dst2 R _ _).congr (lf2 R f) fun _ _ => rfl⟩
theorem Type2And3Butterfly2.acc_dst3 (self : Type2And3Butterfly2 T) : KAcc R .dst3 2 self.inplaceDst3 (R.step - 1) := KAcc.of R fun f => by
  refine ⟨_, by rw [vec_two, Type2And3Butterfly2.inplaceDst3_gen, vec_two (lf [f 0 * DctNum.fracSqrt2 + f 1 * thalf T, f 0 * DctNum.fracSqrt2 - f 1 * thalf T])]; rfl, (near2_dst3 R _ _).congr (lf2 R f) fun _ _ => rfl⟩

/-! ### Values of the recombination for the sizes of the kernels -/

/-- Alternating signs. -/
def alt (x : ℕ → ℝ) : ℕ → ℝ := fun j => if j % 2 = 0 then x j else -x j
theorem alt_eq (x : ℕ → ℝ) (j : ℕ) : alt x j = (-1) ^ j * x j := by unfold alt; rw [ite_neg_pow]

theorem near_dst2' {n : ℕ} {x y : ℕ → ℝ} {ε : ℝ} (h : Near .dct2 n (fun k => y (n - 1 - k)) (alt x) ε) : Near .dst2 n y x ε :=
  near_dst2.2 (h.congr (fun i _ => (alt_eq x i).symm) fun _ _ => rfl)
theorem near_dst3' {n : ℕ} {x y : ℕ → ℝ} {ε : ℝ} (h : Near .dct3 n (alt y) (fun i => x (n - 1 - i)) ε) : Near .dst3 n y x ε :=
  near_dst3.2 (h.congr (fun _ _ => rfl) fun i _ => (alt_eq y i).symm)

theorem near_one_dct2 {x : ℕ → ℝ} {ε : ℝ} (hε : 0 ≤ ε) : Near .dct2 1 x x ε := by
  refine Near.mono (ε := 0) (le_of_eq ?_) hε
  rw [zero_mul]
  have : ∀ i, i < 1 → (x - Kind.dct2.specAt 1 x) i = (fun _ => (0 : ℝ)) i := fun i hi => by
    obtain rfl : i = 0 := by omega
    show x 0 - Spec.dct2At 1 x 0 = 0
    rw [dct2At_one, sub_self]
  show wn _ 1 _ = 0
  rw [wn_congr this]; simp [wn]
theorem near_one_dst2 {x : ℕ → ℝ} {ε : ℝ} (hε : 0 ≤ ε) : Near .dst2 1 x x ε := by
  refine Near.mono (ε := 0) (le_of_eq ?_) hε
  rw [zero_mul]
  have : ∀ i, i < 1 → (x - Kind.dst2.specAt 1 x) i = (fun _ => (0 : ℝ)) i := fun i hi => by
    obtain rfl : i = 0 := by omega
    show x 0 - Spec.dst2At 1 x 0 = 0
    rw [dst2At_one, sub_self]
  show wn _ 1 _ = 0
  rw [wn_congr this]; simp [wn]
theorem near_one_dct3 {x : ℕ → ℝ} {ε : ℝ} (hε : 0 ≤ ε) : Near .dct3 1 x (fun i => x i * 2) ε := by
  refine Near.mono (ε := 0) (le_of_eq ?_) hε
  rw [zero_mul]
  have : ∀ i, i < 1 → (x - Kind.dct3.specAt 1 (fun i => x i * 2)) i = (fun _ => (0 : ℝ)) i := fun i hi => by
    obtain rfl : i = 0 := by omega
    show x 0 - Spec.dct3At 1 (fun i => x i * 2) 0 = 0
    rw [dct3At_one]; ring
  show wn _ 1 _ = 0
  rw [wn_congr this]; simp [wn]
theorem near_one_dst3 {x : ℕ → ℝ} {ε : ℝ} (hε : 0 ≤ ε) : Near .dst3 1 x (fun i => x i * 2) ε := by
  refine Near.mono (ε := 0) (le_of_eq ?_) hε
  rw [zero_mul]
  have : ∀ i, i < 1 → (x - Kind.dst3.specAt 1 (fun i => x i * 2)) i = (fun _ => (0 : ℝ)) i := fun i hi => by
    obtain rfl : i = 0 := by omega
    show x 0 - Spec.dst3At 1 (fun i => x i * 2) 0 = 0
    rw [dst3At_one]; ring
  show wn _ 1 _ = 0
  rw [wn_congr this]; simp [wn]

/-- One step of the type 2 recursion, from the computed sums, differences and rotations. -/
theorem kstage2T {q : ℕ} (hq : 1 ≤ q) {ε : ℝ} (hε : 0 ≤ ε) {x d e o out : ℕ → ℝ} {a b s p r : ℕ → T} {tw : ℕ → Cx T}
    (hre : ∀ i, i < q → Ap (R.val (tw i).re) (srTw q i).re 1 (1 + R.tau)) (him : ∀ i, i < q → Ap (R.val (tw i).im) (srTw q i).im 1 (1 + R.tau))
    (ha : ∀ i, i < 2 * q → |R.val (a i) - (x i + x (4 * q - i - 1))| ≤ R.u * |x i + x (4 * q - i - 1)|)
    (hp : ∀ i, i < q → |R.val (p i) - dA q x i| ≤ R.u * |dA q x i|)
    (hr : ∀ i, i < q → |R.val (r i) - dB q x i| ≤ R.u * |dB q x i|)
    (hb : ∀ i, i < q → b i = p i * (tw i).re + r i * (tw i).im)
    (hs : ∀ i, i < q → s (q - 1 - i) = r i * (tw i).re - p i * (tw i).im)
    (hd : Near .dct2 (2 * q) d (R.seq a) ε) (he : Near .dct2 q e (R.seq b) ε) (ho : Near .dst2 q o (R.seq s) ε)
    (hout : ∀ k, k < 4 * q → |out k - kOut q d e o k| ≤ R.u * |kOut q d e o k|) :
    Near .dct2 (4 * q) out x ((1 + ε) * R.step - 1) := by
  refine kstage2 R hq hε ha ?_ ?_ hd he ho hout
  · intro i hi
    show |R.val (b i) - _| ≤ _
    rw [hb i hi]
    exact R.kb_add (hp i hi) (hr i hi) (hre i hi) (him i hi)
  · intro i hi
    show |R.val (s (q - 1 - i)) - _| ≤ _
    rw [hs i hi, add_comm |dA q x i|]
    exact R.kb_sub (hr i hi) (hp i hi) (hre i hi) (him i hi)

/-- One step of the type 3 recursion, from the computed values. -/
theorem kstage3T {q : ℕ} (hq : 1 ≤ q) {ε : ℝ} (hε : 0 ≤ ε) {x a b s out : ℕ → ℝ} {d e o l h : ℕ → T} {tw : ℕ → Cx T}
    (hre : ∀ i, i < q → Ap (R.val (tw i).re) (srTw q i).re 1 (1 + R.tau)) (him : ∀ i, i < q → Ap (R.val (tw i).im) (srTw q i).im 1 (1 + R.tau))
    (ha : ∀ i, i < 2 * q → a i = x (2 * i)) (hb : ∀ i, i < q → |b i - sr3N1 x i| ≤ R.u * |sr3N1 x i|)
    (hs : ∀ i, i < q → |s (q - 1 - i) - sr3N3 q x i| ≤ R.u * |sr3N3 q x i|)
    (hd : Near .dct3 (2 * q) (R.seq d) a ε) (he : Near .dct3 q (R.seq e) b ε) (ho : Near .dst3 q (R.seq o) s ε)
    (hl : ∀ i, i < q → l i = e i * (tw i).re + o i * (tw i).im)
    (hh : ∀ i, i < q → h i = e i * (tw i).im - o i * (tw i).re)
    (hout : ∀ k, k < 4 * q → |out k - sr3Add q (R.seq d, R.seq l, R.seq h) k| ≤ R.u * |sr3Add q (R.seq d, R.seq l, R.seq h) k|) :
    Near .dct3 (4 * q) out x ((1 + ε) * R.step - 1) := by
  refine kstage3 R (l := R.seq l) (h := R.seq h) hq hε (fun i hi => R.rel_zero (ha i hi)) hb hs hd he ho ?_ ?_ hout
  · intro i hi
    show |R.val (l i) - _| ≤ _
    rw [hl i hi]
    exact R.kl_add (hre i hi) (him i hi)
  · intro i hi
    show |R.val (h i) - _| ≤ _
    rw [hh i hi]
    exact R.kl_sub (him i hi) (hre i hi)

/-- The computed twiddles of a kernel. -/
theorem Rounding.ktw {q m j L : ℕ} (hL : L = 16 * q) (hm : m = 2 * j + 1) (hj : j < q) :
    Ap (R.val (Cx.conj (singleTwiddle m L) : Cx T).re) (srTw q j).re 1 (1 + R.tau) ∧ Ap (R.val (Cx.conj (singleTwiddle m L) : Cx T).im) (srTw q j).im 1 (1 + R.tau) := by
  subst hm
  exact ⟨R.srTw_re hL hj, R.srTw_im hL hj⟩

theorem kOut_1_0 (d e o : ℕ → ℝ) : kOut 1 d e o 0 = d 0 := by norm_num [kOut]
theorem kOut_1_1 (d e o : ℕ → ℝ) : kOut 1 d e o 1 = e 0 := by norm_num [kOut]
theorem kOut_1_2 (d e o : ℕ → ℝ) : kOut 1 d e o 2 = d 1 := by norm_num [kOut]
theorem kOut_1_3 (d e o : ℕ → ℝ) : kOut 1 d e o 3 = -(o 0) := by norm_num [kOut]
theorem kOut_2_0 (d e o : ℕ → ℝ) : kOut 2 d e o 0 = d 0 := by norm_num [kOut]
theorem kOut_2_1 (d e o : ℕ → ℝ) : kOut 2 d e o 1 = e 0 := by norm_num [kOut]
theorem kOut_2_2 (d e o : ℕ → ℝ) : kOut 2 d e o 2 = d 1 := by norm_num [kOut]
theorem kOut_2_3 (d e o : ℕ → ℝ) : kOut 2 d e o 3 = e 1 - o 0 := by norm_num [kOut]; try ring
theorem kOut_2_4 (d e o : ℕ → ℝ) : kOut 2 d e o 4 = d 2 := by norm_num [kOut]
theorem kOut_2_5 (d e o : ℕ → ℝ) : kOut 2 d e o 5 = e 1 + o 0 := by norm_num [kOut]; try ring
theorem kOut_2_6 (d e o : ℕ → ℝ) : kOut 2 d e o 6 = d 3 := by norm_num [kOut]
theorem kOut_2_7 (d e o : ℕ → ℝ) : kOut 2 d e o 7 = o 1 := by norm_num [kOut]
theorem kOut_4_0 (d e o : ℕ → ℝ) : kOut 4 d e o 0 = d 0 := by norm_num [kOut]
theorem kOut_4_1 (d e o : ℕ → ℝ) : kOut 4 d e o 1 = e 0 := by norm_num [kOut]
theorem kOut_4_2 (d e o : ℕ → ℝ) : kOut 4 d e o 2 = d 1 := by norm_num [kOut]
theorem kOut_4_3 (d e o : ℕ → ℝ) : kOut 4 d e o 3 = e 1 - o 0 := by norm_num [kOut]; try ring
theorem kOut_4_4 (d e o : ℕ → ℝ) : kOut 4 d e o 4 = d 2 := by norm_num [kOut]
theorem kOut_4_5 (d e o : ℕ → ℝ) : kOut 4 d e o 5 = e 1 + o 0 := by norm_num [kOut]; try ring
theorem kOut_4_6 (d e o : ℕ → ℝ) : kOut 4 d e o 6 = d 3 := by norm_num [kOut]
theorem kOut_4_7 (d e o : ℕ → ℝ) : kOut 4 d e o 7 = e 2 + o 1 := by norm_num [kOut]; try ring
theorem kOut_4_8 (d e o : ℕ → ℝ) : kOut 4 d e o 8 = d 4 := by norm_num [kOut]
theorem kOut_4_9 (d e o : ℕ → ℝ) : kOut 4 d e o 9 = e 2 - o 1 := by norm_num [kOut]; try ring
theorem kOut_4_10 (d e o : ℕ → ℝ) : kOut 4 d e o 10 = d 5 := by norm_num [kOut]
theorem kOut_4_11 (d e o : ℕ → ℝ) : kOut 4 d e o 11 = e 3 - o 2 := by norm_num [kOut]; try ring
theorem kOut_4_12 (d e o : ℕ → ℝ) : kOut 4 d e o 12 = d 6 := by norm_num [kOut]
theorem kOut_4_13 (d e o : ℕ → ℝ) : kOut 4 d e o 13 = e 3 + o 2 := by norm_num [kOut]; try ring
theorem kOut_4_14 (d e o : ℕ → ℝ) : kOut 4 d e o 14 = d 7 := by norm_num [kOut]
theorem kOut_4_15 (d e o : ℕ → ℝ) : kOut 4 d e o 15 = o 3 := by norm_num [kOut]
theorem sr3N1_0 (x : ℕ → ℝ) : sr3N1 x 0 = x 1 * ttwo ℝ := if_pos rfl
theorem sr3N1_1 (x : ℕ → ℝ) : sr3N1 x 1 = x 3 + x 5 := if_neg (by norm_num)
theorem sr3N1_2 (x : ℕ → ℝ) : sr3N1 x 2 = x 7 + x 9 := if_neg (by norm_num)
theorem sr3N1_3 (x : ℕ → ℝ) : sr3N1 x 3 = x 11 + x 13 := if_neg (by norm_num)
theorem sr3N3_1_0 (x : ℕ → ℝ) : sr3N3 1 x 0 = x 3 * ttwo ℝ := if_pos rfl
theorem sr3N3_2_0 (x : ℕ → ℝ) : sr3N3 2 x 0 = x 7 * ttwo ℝ := if_pos rfl
theorem sr3N3_2_1 (x : ℕ → ℝ) : sr3N3 2 x 1 = x 3 - x 5 := if_neg (by norm_num)
theorem sr3N3_4_0 (x : ℕ → ℝ) : sr3N3 4 x 0 = x 15 * ttwo ℝ := if_pos rfl
theorem sr3N3_4_1 (x : ℕ → ℝ) : sr3N3 4 x 1 = x 11 - x 13 := if_neg (by norm_num)
theorem sr3N3_4_2 (x : ℕ → ℝ) : sr3N3 4 x 2 = x 7 - x 9 := if_neg (by norm_num)
theorem sr3N3_4_3 (x : ℕ → ℝ) : sr3N3 4 x 3 = x 3 - x 5 := if_neg (by norm_num)
theorem sr3Add_1_0 (d l h : ℕ → ℝ) : sr3Add 1 (d, l, h) 0 = d 0 + l 0 := by norm_num [sr3Add]
theorem sr3Add_1_1 (d l h : ℕ → ℝ) : sr3Add 1 (d, l, h) 1 = d 1 + h 0 := by norm_num [sr3Add]
theorem sr3Add_1_2 (d l h : ℕ → ℝ) : sr3Add 1 (d, l, h) 2 = d 1 - h 0 := by norm_num [sr3Add]
theorem sr3Add_1_3 (d l h : ℕ → ℝ) : sr3Add 1 (d, l, h) 3 = d 0 - l 0 := by norm_num [sr3Add]
theorem sr3Add_2_0 (d l h : ℕ → ℝ) : sr3Add 2 (d, l, h) 0 = d 0 + l 0 := by norm_num [sr3Add]
theorem sr3Add_2_1 (d l h : ℕ → ℝ) : sr3Add 2 (d, l, h) 1 = d 1 + l 1 := by norm_num [sr3Add]
theorem sr3Add_2_2 (d l h : ℕ → ℝ) : sr3Add 2 (d, l, h) 2 = d 2 + h 1 := by norm_num [sr3Add]
theorem sr3Add_2_3 (d l h : ℕ → ℝ) : sr3Add 2 (d, l, h) 3 = d 3 + h 0 := by norm_num [sr3Add]
theorem sr3Add_2_4 (d l h : ℕ → ℝ) : sr3Add 2 (d, l, h) 4 = d 3 - h 0 := by norm_num [sr3Add]
theorem sr3Add_2_5 (d l h : ℕ → ℝ) : sr3Add 2 (d, l, h) 5 = d 2 - h 1 := by norm_num [sr3Add]
theorem sr3Add_2_6 (d l h : ℕ → ℝ) : sr3Add 2 (d, l, h) 6 = d 1 - l 1 := by norm_num [sr3Add]
theorem sr3Add_2_7 (d l h : ℕ → ℝ) : sr3Add 2 (d, l, h) 7 = d 0 - l 0 := by norm_num [sr3Add]
theorem sr3Add_4_0 (d l h : ℕ → ℝ) : sr3Add 4 (d, l, h) 0 = d 0 + l 0 := by norm_num [sr3Add]
theorem sr3Add_4_1 (d l h : ℕ → ℝ) : sr3Add 4 (d, l, h) 1 = d 1 + l 1 := by norm_num [sr3Add]
theorem sr3Add_4_2 (d l h : ℕ → ℝ) : sr3Add 4 (d, l, h) 2 = d 2 + l 2 := by norm_num [sr3Add]
theorem sr3Add_4_3 (d l h : ℕ → ℝ) : sr3Add 4 (d, l, h) 3 = d 3 + l 3 := by norm_num [sr3Add]
theorem sr3Add_4_4 (d l h : ℕ → ℝ) : sr3Add 4 (d, l, h) 4 = d 4 + h 3 := by norm_num [sr3Add]
theorem sr3Add_4_5 (d l h : ℕ → ℝ) : sr3Add 4 (d, l, h) 5 = d 5 + h 2 := by norm_num [sr3Add]
theorem sr3Add_4_6 (d l h : ℕ → ℝ) : sr3Add 4 (d, l, h) 6 = d 6 + h 1 := by norm_num [sr3Add]
theorem sr3Add_4_7 (d l h : ℕ → ℝ) : sr3Add 4 (d, l, h) 7 = d 7 + h 0 := by norm_num [sr3Add]
theorem sr3Add_4_8 (d l h : ℕ → ℝ) : sr3Add 4 (d, l, h) 8 = d 7 - h 0 := by norm_num [sr3Add]
theorem sr3Add_4_9 (d l h : ℕ → ℝ) : sr3Add 4 (d, l, h) 9 = d 6 - h 1 := by norm_num [sr3Add]
theorem sr3Add_4_10 (d l h : ℕ → ℝ) : sr3Add 4 (d, l, h) 10 = d 5 - h 2 := by norm_num [sr3Add]
theorem sr3Add_4_11 (d l h : ℕ → ℝ) : sr3Add 4 (d, l, h) 11 = d 4 - h 3 := by norm_num [sr3Add]
theorem sr3Add_4_12 (d l h : ℕ → ℝ) : sr3Add 4 (d, l, h) 12 = d 3 - l 3 := by norm_num [sr3Add]
theorem sr3Add_4_13 (d l h : ℕ → ℝ) : sr3Add 4 (d, l, h) 13 = d 2 - l 2 := by norm_num [sr3Add]
theorem sr3Add_4_14 (d l h : ℕ → ℝ) : sr3Add 4 (d, l, h) 14 = d 1 - l 1 := by norm_num [sr3Add]
theorem sr3Add_4_15 (d l h : ℕ → ℝ) : sr3Add 4 (d, l, h) 15 = d 0 - l 0 := by norm_num [sr3Add]

theorem all1 {P : ℕ → Prop} (h0 : P 0) : ∀ i, i < 1 → P i := by intro i hi; interval_cases i <;> assumption
theorem all2 {P : ℕ → Prop} (h0 : P 0) (h1 : P 1) : ∀ i, i < 2 → P i := by intro i hi; interval_cases i <;> assumption
theorem all4 {P : ℕ → Prop} (h0 : P 0) (h1 : P 1) (h2 : P 2) (h3 : P 3) : ∀ i, i < 4 → P i := by intro i hi; interval_cases i <;> assumption
theorem all8 {P : ℕ → Prop} (h0 : P 0) (h1 : P 1) (h2 : P 2) (h3 : P 3) (h4 : P 4) (h5 : P 5) (h6 : P 6) (h7 : P 7) : ∀ i, i < 8 → P i := by intro i hi; interval_cases i <;> assumption
theorem all16 {P : ℕ → Prop} (h0 : P 0) (h1 : P 1) (h2 : P 2) (h3 : P 3) (h4 : P 4) (h5 : P 5) (h6 : P 6) (h7 : P 7) (h8 : P 8) (h9 : P 9) (h10 : P 10) (h11 : P 11) (h12 : P 12) (h13 : P 13) (h14 : P 14) (h15 : P 15) : ∀ i, i < 16 → P i := by intro i hi; interval_cases i <;> assumption

theorem lf4 (f : ℕ → T) : ∀ i, i < 4 → R.seq f i = R.seq (lf [f 0, f 1, f 2, f 3]) i := all4 rfl rfl rfl rfl

theorem Rounding.step_sub {m : ℕ} : R.step ^ m - 1 ≤ R.step ^ (m + 1) - 1 := by
  have := pow_le_pow_right₀ R.one_le_step (Nat.le_add_right m 1); linarith
theorem Rounding.step_nonneg {m : ℕ} : 0 ≤ R.step ^ m - 1 := by
  have := one_le_pow₀ (n := m) R.one_le_step; linarith
theorem Rounding.step_succ {m : ℕ} : (1 + (R.step ^ m - 1)) * R.step - 1 ≤ R.step ^ (m + 1) - 1 := le_of_eq (by ring)

theorem KAcc.one {k : Kind} {n : ℕ} {body : List T → Except Err (List T)} (h : KAcc R k n body (R.step - 1)) : KAcc R k n body (R.step ^ 1 - 1) := by
  rwa [pow_one]

theorem Rounding.rel_two (a : T) : |R.val (a * ttwo T) - R.val a * ttwo ℝ| ≤ R.u * |R.val a * ttwo ℝ| := by
  have := R.mul a (ttwo T)
  rwa [R.two, ← ttwo_real] at this
theorem Rounding.rel_negadd (a b : T) : |-R.val (-(a + b)) - (R.val a + R.val b)| ≤ R.u * |R.val a + R.val b| := by
  rw [R.neg, neg_neg]; exact R.add a b

/-! ### Size 4 -/

theorem Type2And3Butterfly4.acc_dct2 : KAcc R .dct2 4 (Type2And3Butterfly4.new : Type2And3Butterfly4 T).inplaceDct2 (R.step ^ 2 - 1) := KAcc.of R fun f => by
  obtain ⟨hre, him⟩ := R.ktw (q := 1) (m := 1) (j := 0) (L := 16) rfl rfl (by norm_num)
  refine ⟨lf [(f 0 + f 3) + (f 2 + f 1), (f 0 - f 3) * (Cx.conj (singleTwiddle 1 16) : Cx T).re - (f 2 - f 1) * (Cx.conj (singleTwiddle 1 16) : Cx T).im, ((f 0 + f 3) - (f 2 + f 1)) * DctNum.fracSqrt2,
      (f 2 - f 1) * (Cx.conj (singleTwiddle 1 16) : Cx T).re + (f 0 - f 3) * (Cx.conj (singleTwiddle 1 16) : Cx T).im], ?_, ?_⟩
  · rw [vec_four, vec_four]
    exact Type2And3Butterfly4.inplaceDct2_gen _ _ _ _ _
  · generalize (Cx.conj (singleTwiddle 1 16) : Cx T) = t at hre him ⊢
    refine (kstage2 R (q := 1) (le_refl _) (ε := R.step ^ 1 - 1) R.step_nonneg (a := R.seq (lf [f 0 + f 3, f 2 + f 1]))
      (b := R.seq (lf [(f 0 - f 3) * t.re - (f 2 - f 1) * t.im])) (s := fun i => -R.seq (lf [(f 2 - f 1) * t.re + (f 0 - f 3) * t.im]) i)
      (all2 ?_ ?_) (all1 ?_) (all1 ?_) (by rw [pow_one]; exact near2_dct2 R _ _) (near_one_dct2 R.step_nonneg) (near_one_dst2 R.step_nonneg) ?_).mono R.step_succ
    · exact R.add _ _
    · exact rel_of (R.add (f 2) (f 1)) (add_comm _ _)
    · show |R.val ((f 0 - f 3) * t.re - (f 2 - f 1) * t.im) - ((R.val (f 0) - R.val (f 3)) * (srTw 1 0).re + (R.val (f 1) - R.val (f 2)) * (srTw 1 0).im)| ≤ _ * (|R.val (f 0) - R.val (f 3)| + |R.val (f 1) - R.val (f 2)|)
      rw [show R.val (f 1) - R.val (f 2) = -(R.val (f 2) - R.val (f 1)) by ring, abs_neg, neg_mul, ← sub_eq_add_neg]
      exact R.kb_sub (R.sub _ _) (R.sub _ _) hre him
    · show |-R.val ((f 2 - f 1) * t.re + (f 0 - f 3) * t.im) - ((R.val (f 1) - R.val (f 2)) * (srTw 1 0).re - (R.val (f 0) - R.val (f 3)) * (srTw 1 0).im)| ≤ _ * (|R.val (f 0) - R.val (f 3)| + |R.val (f 1) - R.val (f 2)|)
      rw [show -R.val ((f 2 - f 1) * t.re + (f 0 - f 3) * t.im) - ((R.val (f 1) - R.val (f 2)) * (srTw 1 0).re - (R.val (f 0) - R.val (f 3)) * (srTw 1 0).im)
        = -(R.val ((f 2 - f 1) * t.re + (f 0 - f 3) * t.im) - ((R.val (f 2) - R.val (f 1)) * (srTw 1 0).re + (R.val (f 0) - R.val (f 3)) * (srTw 1 0).im)) by ring, abs_neg, add_comm |R.val (f 0) - _|, abs_sub_comm (R.val (f 1))]
      exact R.kb_add (R.sub _ _) (R.sub _ _) hre him
    · exact all4 (R.rel_zero (by rw [kOut_1_0]; rfl)) (R.rel_zero (by rw [kOut_1_1]; rfl)) (R.rel_zero (by rw [kOut_1_2]; rfl)) (R.rel_zero (by rw [kOut_1_3, neg_neg]; rfl))

theorem Type2And3Butterfly4.acc_dst2 : KAcc R .dst2 4 (Type2And3Butterfly4.new : Type2And3Butterfly4 T).inplaceDst2 (R.step ^ 2 - 1) := KAcc.of R fun f => by
  obtain ⟨hre, him⟩ := R.ktw (q := 1) (m := 1) (j := 0) (L := 16) rfl rfl (by norm_num)
  refine ⟨lf [(f 2 + f 1) * (Cx.conj (singleTwiddle 1 16) : Cx T).re + (f 0 + f 3) * (Cx.conj (singleTwiddle 1 16) : Cx T).im, ((f 0 - f 3) - (f 2 - f 1)) * DctNum.fracSqrt2,
      (f 0 + f 3) * (Cx.conj (singleTwiddle 1 16) : Cx T).re - (f 2 + f 1) * (Cx.conj (singleTwiddle 1 16) : Cx T).im, (f 0 - f 3) + (f 2 - f 1)], ?_, ?_⟩
  · rw [vec_four, vec_four]
    exact Type2And3Butterfly4.inplaceDst2_gen _ _ _ _ _
  · generalize (Cx.conj (singleTwiddle 1 16) : Cx T) = t at hre him ⊢
    refine near_dst2' ((kstage2 R (q := 1) (le_refl _) (ε := R.step ^ 1 - 1) R.step_nonneg (a := R.seq (lf [f 0 - f 3, f 2 - f 1]))
      (b := R.seq (lf [(f 0 + f 3) * t.re - (f 2 + f 1) * t.im])) (s := fun i => -R.seq (lf [(f 2 + f 1) * t.re + (f 0 + f 3) * t.im]) i)
      (all2 ?_ ?_) (all1 ?_) (all1 ?_) (by rw [pow_one]; exact near2_dct2 R _ _) (near_one_dct2 R.step_nonneg) (near_one_dst2 R.step_nonneg) ?_).mono R.step_succ)
    · exact rel_of (R.sub (f 0) (f 3)) (by show R.val (f 0) + -R.val (f 3) = _; ring)
    · exact rel_of (R.sub (f 2) (f 1)) (by show -R.val (f 1) + R.val (f 2) = _; ring)
    · show |R.val ((f 0 + f 3) * t.re - (f 2 + f 1) * t.im) - ((R.val (f 0) - -R.val (f 3)) * (srTw 1 0).re + (-R.val (f 1) - R.val (f 2)) * (srTw 1 0).im)| ≤ _ * (|R.val (f 0) - -R.val (f 3)| + |-R.val (f 1) - R.val (f 2)|)
      rw [show -R.val (f 1) - R.val (f 2) = -(R.val (f 2) + R.val (f 1)) by ring, abs_neg, neg_mul, ← sub_eq_add_neg, sub_neg_eq_add]
      exact R.kb_sub (R.add _ _) (R.add _ _) hre him
    · show |-R.val ((f 2 + f 1) * t.re + (f 0 + f 3) * t.im) - ((-R.val (f 1) - R.val (f 2)) * (srTw 1 0).re - (R.val (f 0) - -R.val (f 3)) * (srTw 1 0).im)| ≤ _ * (|R.val (f 0) - -R.val (f 3)| + |-R.val (f 1) - R.val (f 2)|)
      rw [show -R.val ((f 2 + f 1) * t.re + (f 0 + f 3) * t.im) - ((-R.val (f 1) - R.val (f 2)) * (srTw 1 0).re - (R.val (f 0) - -R.val (f 3)) * (srTw 1 0).im)
        = -(R.val ((f 2 + f 1) * t.re + (f 0 + f 3) * t.im) - ((R.val (f 2) + R.val (f 1)) * (srTw 1 0).re + (R.val (f 0) + R.val (f 3)) * (srTw 1 0).im)) by ring, abs_neg, add_comm |R.val (f 0) - _|, ← abs_neg (-R.val (f 1) - R.val (f 2)),
        show -(-R.val (f 1) - R.val (f 2)) = R.val (f 2) + R.val (f 1) by ring, sub_neg_eq_add]
      exact R.kb_add (R.add _ _) (R.add _ _) hre him
    · exact all4 (R.rel_zero (by rw [kOut_1_0]; rfl)) (R.rel_zero (by rw [kOut_1_1]; rfl)) (R.rel_zero (by rw [kOut_1_2]; rfl)) (R.rel_zero (by rw [kOut_1_3, neg_neg]; rfl))

theorem Type2And3Butterfly4.acc_dct3 : KAcc R .dct3 4 (Type2And3Butterfly4.new : Type2And3Butterfly4 T).inplaceDct3 (R.step ^ 2 - 1) := KAcc.of R fun f => by
  obtain ⟨hre, him⟩ := R.ktw (q := 1) (m := 1) (j := 0) (L := 16) rfl rfl (by norm_num)
  have gen := Type2And3Butterfly4.inplaceDct3_gen (Type2And3Butterfly4.new : Type2And3Butterfly4 T) (f 0) (f 1) (f 2) (f 3)
  have ht : (Type2And3Butterfly4.new : Type2And3Butterfly4 T).twiddle = Cx.conj (singleTwiddle 1 16) := rfl
  rw [ht] at gen
  generalize (Cx.conj (singleTwiddle 1 16) : Cx T) = t at hre him gen
  refine ⟨lf [f 0 * thalf T + f 2 * DctNum.fracSqrt2 + (f 1 * t.re + f 3 * t.im), f 0 * thalf T - f 2 * DctNum.fracSqrt2 + (f 1 * t.im - f 3 * t.re), f 0 * thalf T - f 2 * DctNum.fracSqrt2 - (f 1 * t.im - f 3 * t.re), f 0 * thalf T + f 2 * DctNum.fracSqrt2 - (f 1 * t.re + f 3 * t.im)], by rw [vec_four, vec_four]; exact gen, ?_⟩
  refine ((kstage3T R (x := R.seq f) (out := R.seq (lf [f 0 * thalf T + f 2 * DctNum.fracSqrt2 + (f 1 * t.re + f 3 * t.im), f 0 * thalf T - f 2 * DctNum.fracSqrt2 + (f 1 * t.im - f 3 * t.re), f 0 * thalf T - f 2 * DctNum.fracSqrt2 - (f 1 * t.im - f 3 * t.re), f 0 * thalf T + f 2 * DctNum.fracSqrt2 - (f 1 * t.re + f 3 * t.im)])) (q := 1) (le_refl _) (ε := R.step ^ 1 - 1) R.step_nonneg (tw := fun _ => t) (a := R.seq (lf [f 0, f 2])) (d := lf [f 0 * thalf T + f 2 * DctNum.fracSqrt2, f 0 * thalf T - f 2 * DctNum.fracSqrt2])
    (b := fun i => R.seq (lf [f 1]) i * 2) (s := fun i => R.seq (lf [f 3]) i * 2) (e := lf [f 1]) (o := lf [f 3]) (l := lf [f 1 * t.re + f 3 * t.im]) (h := lf [f 1 * t.im - f 3 * t.re])
    (all1 hre) (all1 him) (all2 rfl rfl) (all1 (R.rel_zero ?_)) (all1 (R.rel_zero ?_)) (by rw [pow_one]; exact near2_dct3 R _ _) (near_one_dct3 R.step_nonneg) (near_one_dst3 R.step_nonneg)
    (all1 rfl) (all1 rfl) ?_).mono R.step_succ)
  · rw [sr3N1_0, ttwo_real]; rfl
  · rw [sr3N3_1_0, ttwo_real]; rfl
  · exact all4 (rel_of (R.add _ _) (by rw [sr3Add_1_0]; rfl)) (rel_of (R.add _ _) (by rw [sr3Add_1_1]; rfl)) (rel_of (R.sub _ _) (by rw [sr3Add_1_2]; rfl)) (rel_of (R.sub _ _) (by rw [sr3Add_1_3]; rfl))

theorem Type2And3Butterfly4.acc_dst3 : KAcc R .dst3 4 (Type2And3Butterfly4.new : Type2And3Butterfly4 T).inplaceDst3 (R.step ^ 2 - 1) := KAcc.of R fun f => by
  obtain ⟨hre, him⟩ := R.ktw (q := 1) (m := 1) (j := 0) (L := 16) rfl rfl (by norm_num)
  have gen := Type2And3Butterfly4.inplaceDst3_gen (Type2And3Butterfly4.new : Type2And3Butterfly4 T) (f 0) (f 1) (f 2) (f 3)
  have ht : (Type2And3Butterfly4.new : Type2And3Butterfly4 T).twiddle = Cx.conj (singleTwiddle 1 16) := rfl
  rw [ht] at gen
  generalize (Cx.conj (singleTwiddle 1 16) : Cx T) = t at hre him gen
  refine ⟨lf [f 3 * thalf T + f 1 * DctNum.fracSqrt2 + (f 2 * t.re + f 0 * t.im), -(f 3 * thalf T - f 1 * DctNum.fracSqrt2 + (f 2 * t.im - f 0 * t.re)), f 3 * thalf T - f 1 * DctNum.fracSqrt2 - (f 2 * t.im - f 0 * t.re), f 2 * t.re + f 0 * t.im - (f 3 * thalf T + f 1 * DctNum.fracSqrt2)], by rw [vec_four, vec_four]; exact gen, ?_⟩
  refine near_dst3' ((kstage3T R (x := fun i => R.seq f (4 - 1 - i)) (out := alt (R.seq (lf [f 3 * thalf T + f 1 * DctNum.fracSqrt2 + (f 2 * t.re + f 0 * t.im), -(f 3 * thalf T - f 1 * DctNum.fracSqrt2 + (f 2 * t.im - f 0 * t.re)), f 3 * thalf T - f 1 * DctNum.fracSqrt2 - (f 2 * t.im - f 0 * t.re), f 2 * t.re + f 0 * t.im - (f 3 * thalf T + f 1 * DctNum.fracSqrt2)]))) (q := 1) (le_refl _) (ε := R.step ^ 1 - 1) R.step_nonneg (tw := fun _ => t) (a := R.seq (lf [f 3, f 1])) (d := lf [f 3 * thalf T + f 1 * DctNum.fracSqrt2, f 3 * thalf T - f 1 * DctNum.fracSqrt2])
    (b := fun i => R.seq (lf [f 2]) i * 2) (s := fun i => R.seq (lf [f 0]) i * 2) (e := lf [f 2]) (o := lf [f 0]) (l := lf [f 2 * t.re + f 0 * t.im]) (h := lf [f 2 * t.im - f 0 * t.re])
    (all1 hre) (all1 him) (all2 rfl rfl) (all1 (R.rel_zero ?_)) (all1 (R.rel_zero ?_)) (by rw [pow_one]; exact near2_dct3 R _ _) (near_one_dct3 R.step_nonneg) (near_one_dst3 R.step_nonneg)
    (all1 rfl) (all1 rfl) ?_).mono R.step_succ)
  · rw [sr3N1_0, ttwo_real]; rfl
  · rw [sr3N3_1_0, ttwo_real]; rfl
  · exact all4 (rel_of (R.add _ _) (by rw [sr3Add_1_0]; rfl)) (rel_of (R.rel_negadd _ _) (by rw [sr3Add_1_1]; rfl)) (rel_of (R.sub _ _) (by rw [sr3Add_1_2]; rfl)) (rel_neg (R.sub _ _) (by rw [sr3Add_1_3]; exact (neg_sub _ _).symm))

/-! ### Size 8 -/

theorem Type2And3Butterfly8.acc_dct2 : KAcc R .dct2 8 (Type2And3Butterfly8.new : Type2And3Butterfly8 T).inplaceDct2 (R.step ^ 3 - 1) := KAcc.of R fun f => by
  obtain ⟨D, hD, aD⟩ := (Type2And3Butterfly4.acc_dct2 R)
  obtain ⟨E, hE, aE⟩ := (KAcc.one R (Type2And3Butterfly2.acc_dct2 R .new))
  obtain ⟨O, hO, aO⟩ := (KAcc.one R (Type2And3Butterfly2.acc_dst2 R .new))
  have ht : ∃ t0 t1 : Cx T, (Type2And3Butterfly8.new : Type2And3Butterfly8 T).twiddles = [t0, t1] ∧ (Ap (R.val t0.re) (srTw 2 0).re 1 (1 + R.tau) ∧ Ap (R.val t0.im) (srTw 2 0).im 1 (1 + R.tau)) ∧ (Ap (R.val t1.re) (srTw 2 1).re 1 (1 + R.tau) ∧ Ap (R.val t1.im) (srTw 2 1).im 1 (1 + R.tau)) :=
    ⟨_, _, rfl, R.ktw rfl rfl (by norm_num), R.ktw rfl rfl (by norm_num)⟩
  obtain ⟨t0, t1, ht, ⟨r0, i0⟩, ⟨r1, i1⟩⟩ := ht
  have hd := hD (lf [f 0 + f 7, f 1 + f 6, f 2 + f 5, f 3 + f 4])
  have nd := aD (lf [f 0 + f 7, f 1 + f 6, f 2 + f 5, f 3 + f 4])
  have he := hE (lf [(f 0 - f 7) * t0.re + (f 3 - f 4) * t0.im, (f 1 - f 6) * t1.re + (f 2 - f 5) * t1.im])
  have ne := aE (lf [(f 0 - f 7) * t0.re + (f 3 - f 4) * t0.im, (f 1 - f 6) * t1.re + (f 2 - f 5) * t1.im])
  have ho := hO (lf [(f 2 - f 5) * t1.re - (f 1 - f 6) * t1.im, (f 3 - f 4) * t0.re - (f 0 - f 7) * t0.im])
  have no := aO (lf [(f 2 - f 5) * t1.re - (f 1 - f 6) * t1.im, (f 3 - f 4) * t0.re - (f 0 - f 7) * t0.im])
  generalize D (lf [f 0 + f 7, f 1 + f 6, f 2 + f 5, f 3 + f 4]) = d at hd nd
  rw [vec_four, vec_four] at hd
  generalize E (lf [(f 0 - f 7) * t0.re + (f 3 - f 4) * t0.im, (f 1 - f 6) * t1.re + (f 2 - f 5) * t1.im]) = e at he ne
  rw [vec_two, vec_two] at he
  generalize O (lf [(f 2 - f 5) * t1.re - (f 1 - f 6) * t1.im, (f 3 - f 4) * t0.re - (f 0 - f 7) * t0.im]) = o at ho no
  rw [vec_two, vec_two] at ho
  refine ⟨lf [d 0, e 0, d 1, e 1 - o 0, d 2, e 1 + o 0, d 3, o 1], by rw [vec_eight, vec_eight]; exact Type2And3Butterfly8.inplaceDct2_gen _ ht hd he ho, ?_⟩
  refine ((kstage2T R (x := R.seq f) (q := 2) (by norm_num) (ε := R.step ^ 2 - 1) R.step_nonneg (tw := fun i => [t0, t1].getD i t0) (a := lf [f 0 + f 7, f 1 + f 6, f 2 + f 5, f 3 + f 4]) (b := lf [(f 0 - f 7) * t0.re + (f 3 - f 4) * t0.im, (f 1 - f 6) * t1.re + (f 2 - f 5) * t1.im]) (s := lf [(f 2 - f 5) * t1.re - (f 1 - f 6) * t1.im, (f 3 - f 4) * t0.re - (f 0 - f 7) * t0.im]) (d := R.seq d) (e := R.seq e) (o := R.seq o) (p := lf [f 0 - f 7, f 1 - f 6]) (r := lf [f 3 - f 4, f 2 - f 5])
    (all2 r0 r1) (all2 i0 i1)
    (all4 (R.add _ _) (R.add _ _) (R.add _ _) (R.add _ _))
    (all2 (R.sub _ _) (R.sub _ _))
    (all2 (R.sub _ _) (R.sub _ _))
    (all2 rfl rfl) (all2 rfl rfl)
    nd (Near.mono ne (by simpa only [pow_one] using (R.step_sub (m := 1)))) (Near.mono no (by simpa only [pow_one] using (R.step_sub (m := 1))))
    (all8 (R.rel_zero (by rw [kOut_2_0]; rfl)) (R.rel_zero (by rw [kOut_2_1]; rfl)) (R.rel_zero (by rw [kOut_2_2]; rfl)) (rel_of (R.sub _ _) (by rw [kOut_2_3]; rfl)) (R.rel_zero (by rw [kOut_2_4]; rfl)) (rel_of (R.add _ _) (by rw [kOut_2_5]; rfl)) (R.rel_zero (by rw [kOut_2_6]; rfl)) (R.rel_zero (by rw [kOut_2_7]; rfl)))).mono R.step_succ)

theorem Type2And3Butterfly8.acc_dst2 : KAcc R .dst2 8 (Type2And3Butterfly8.new : Type2And3Butterfly8 T).inplaceDst2 (R.step ^ 3 - 1) := KAcc.of R fun f => by
  obtain ⟨D, hD, aD⟩ := (Type2And3Butterfly4.acc_dct2 R)
  obtain ⟨E, hE, aE⟩ := (KAcc.one R (Type2And3Butterfly2.acc_dct2 R .new))
  obtain ⟨O, hO, aO⟩ := (KAcc.one R (Type2And3Butterfly2.acc_dst2 R .new))
  have ht : ∃ t0 t1 : Cx T, (Type2And3Butterfly8.new : Type2And3Butterfly8 T).twiddles = [t0, t1] ∧ (Ap (R.val t0.re) (srTw 2 0).re 1 (1 + R.tau) ∧ Ap (R.val t0.im) (srTw 2 0).im 1 (1 + R.tau)) ∧ (Ap (R.val t1.re) (srTw 2 1).re 1 (1 + R.tau) ∧ Ap (R.val t1.im) (srTw 2 1).im 1 (1 + R.tau)) :=
    ⟨_, _, rfl, R.ktw rfl rfl (by norm_num), R.ktw rfl rfl (by norm_num)⟩
  obtain ⟨t0, t1, ht, ⟨r0, i0⟩, ⟨r1, i1⟩⟩ := ht
  have hd := hD (lf [f 0 - f 7, f 6 - f 1, f 2 - f 5, f 4 - f 3])
  have nd := aD (lf [f 0 - f 7, f 6 - f 1, f 2 - f 5, f 4 - f 3])
  have he := hE (lf [(f 0 + f 7) * t0.re + (-f 3 - f 4) * t0.im, (-f 1 - f 6) * t1.re + (f 2 + f 5) * t1.im])
  have ne := aE (lf [(f 0 + f 7) * t0.re + (-f 3 - f 4) * t0.im, (-f 1 - f 6) * t1.re + (f 2 + f 5) * t1.im])
  have ho := hO (lf [(f 2 + f 5) * t1.re - (-f 1 - f 6) * t1.im, (-f 3 - f 4) * t0.re - (f 0 + f 7) * t0.im])
  have no := aO (lf [(f 2 + f 5) * t1.re - (-f 1 - f 6) * t1.im, (-f 3 - f 4) * t0.re - (f 0 + f 7) * t0.im])
  generalize D (lf [f 0 - f 7, f 6 - f 1, f 2 - f 5, f 4 - f 3]) = d at hd nd
  rw [vec_four, vec_four] at hd
  generalize E (lf [(f 0 + f 7) * t0.re + (-f 3 - f 4) * t0.im, (-f 1 - f 6) * t1.re + (f 2 + f 5) * t1.im]) = e at he ne
  rw [vec_two, vec_two] at he
  generalize O (lf [(f 2 + f 5) * t1.re - (-f 1 - f 6) * t1.im, (-f 3 - f 4) * t0.re - (f 0 + f 7) * t0.im]) = o at ho no
  rw [vec_two, vec_two] at ho
  refine ⟨lf [o 1, d 3, e 1 + o 0, d 2, e 1 - o 0, d 1, e 0, d 0], by rw [vec_eight, vec_eight]; exact Type2And3Butterfly8.inplaceDst2_gen _ ht hd he ho, ?_⟩
  refine near_dst2' ((kstage2T R (x := alt (R.seq f)) (q := 2) (by norm_num) (ε := R.step ^ 2 - 1) R.step_nonneg (tw := fun i => [t0, t1].getD i t0) (a := lf [f 0 - f 7, f 6 - f 1, f 2 - f 5, f 4 - f 3]) (b := lf [(f 0 + f 7) * t0.re + (-f 3 - f 4) * t0.im, (-f 1 - f 6) * t1.re + (f 2 + f 5) * t1.im]) (s := lf [(f 2 + f 5) * t1.re - (-f 1 - f 6) * t1.im, (-f 3 - f 4) * t0.re - (f 0 + f 7) * t0.im]) (d := R.seq d) (e := R.seq e) (o := R.seq o) (p := lf [f 0 + f 7, -f 1 - f 6]) (r := lf [-f 3 - f 4, f 2 + f 5])
    (all2 r0 r1) (all2 i0 i1)
    (all4 (rel_of (R.sub (f 0) (f 7)) (by show R.val (f 0) + (-R.val (f 7)) = _; ring)) (rel_of (R.sub (f 6) (f 1)) (by show (-R.val (f 1)) + R.val (f 6) = _; ring)) (rel_of (R.sub (f 2) (f 5)) (by show R.val (f 2) + (-R.val (f 5)) = _; ring)) (rel_of (R.sub (f 4) (f 3)) (by show (-R.val (f 3)) + R.val (f 4) = _; ring)))
    (all2 (rel_of (R.add (f 0) (f 7)) (by show R.val (f 0) - (-R.val (f 7)) = _; ring)) (rel_of (R.sub (-f 1) (f 6)) (by show (-R.val (f 1)) - R.val (f 6) = _; rw [R.neg]; try ring)))
    (all2 (rel_of (R.sub (-f 3) (f 4)) (by show (-R.val (f 3)) - R.val (f 4) = _; rw [R.neg]; try ring)) (rel_of (R.add (f 2) (f 5)) (by show R.val (f 2) - (-R.val (f 5)) = _; ring)))
    (all2 rfl rfl) (all2 rfl rfl)
    nd (Near.mono ne (by simpa only [pow_one] using (R.step_sub (m := 1)))) (Near.mono no (by simpa only [pow_one] using (R.step_sub (m := 1))))
    (all8 (R.rel_zero (by rw [kOut_2_0]; rfl)) (R.rel_zero (by rw [kOut_2_1]; rfl)) (R.rel_zero (by rw [kOut_2_2]; rfl)) (rel_of (R.sub _ _) (by rw [kOut_2_3]; rfl)) (R.rel_zero (by rw [kOut_2_4]; rfl)) (rel_of (R.add _ _) (by rw [kOut_2_5]; rfl)) (R.rel_zero (by rw [kOut_2_6]; rfl)) (R.rel_zero (by rw [kOut_2_7]; rfl)))).mono R.step_succ)

theorem Type2And3Butterfly8.acc_dct3 : KAcc R .dct3 8 (Type2And3Butterfly8.new : Type2And3Butterfly8 T).inplaceDct3 (R.step ^ 3 - 1) := KAcc.of R fun f => by
  obtain ⟨D, hD, aD⟩ := (Type2And3Butterfly4.acc_dct3 R)
  obtain ⟨E, hE, aE⟩ := (KAcc.one R (Type2And3Butterfly2.acc_dct3 R .new))
  obtain ⟨O, hO, aO⟩ := (KAcc.one R (Type2And3Butterfly2.acc_dst3 R .new))
  have ht : ∃ t0 t1 : Cx T, (Type2And3Butterfly8.new : Type2And3Butterfly8 T).twiddles = [t0, t1] ∧ (Ap (R.val t0.re) (srTw 2 0).re 1 (1 + R.tau) ∧ Ap (R.val t0.im) (srTw 2 0).im 1 (1 + R.tau)) ∧ (Ap (R.val t1.re) (srTw 2 1).re 1 (1 + R.tau) ∧ Ap (R.val t1.im) (srTw 2 1).im 1 (1 + R.tau)) :=
    ⟨_, _, rfl, R.ktw rfl rfl (by norm_num), R.ktw rfl rfl (by norm_num)⟩
  obtain ⟨t0, t1, ht, ⟨r0, i0⟩, ⟨r1, i1⟩⟩ := ht
  have hd := hD (lf [f 0, f 2, f 4, f 6])
  have nd := aD (lf [f 0, f 2, f 4, f 6])
  have he := hE (lf [f 1 * ttwo T, f 3 + f 5])
  have ne := aE (lf [f 1 * ttwo T, f 3 + f 5])
  have ho := hO (lf [f 3 - f 5, f 7 * ttwo T])
  have no := aO (lf [f 3 - f 5, f 7 * ttwo T])
  generalize D (lf [f 0, f 2, f 4, f 6]) = d at hd nd
  rw [vec_four, vec_four] at hd
  generalize E (lf [f 1 * ttwo T, f 3 + f 5]) = e at he ne
  rw [vec_two, vec_two] at he
  generalize O (lf [f 3 - f 5, f 7 * ttwo T]) = o at ho no
  rw [vec_two, vec_two] at ho
  refine ⟨lf [d 0 + (e 0 * t0.re + o 0 * t0.im), d 1 + (e 1 * t1.re + o 1 * t1.im), d 2 + (e 1 * t1.im - o 1 * t1.re), d 3 + (e 0 * t0.im - o 0 * t0.re), d 3 - (e 0 * t0.im - o 0 * t0.re), d 2 - (e 1 * t1.im - o 1 * t1.re), d 1 - (e 1 * t1.re + o 1 * t1.im), d 0 - (e 0 * t0.re + o 0 * t0.im)], by rw [vec_eight, vec_eight]; exact Type2And3Butterfly8.inplaceDct3_gen _ ht hd he ho, ?_⟩
  refine ((kstage3T R (out := R.seq (lf [d 0 + (e 0 * t0.re + o 0 * t0.im), d 1 + (e 1 * t1.re + o 1 * t1.im), d 2 + (e 1 * t1.im - o 1 * t1.re), d 3 + (e 0 * t0.im - o 0 * t0.re), d 3 - (e 0 * t0.im - o 0 * t0.re), d 2 - (e 1 * t1.im - o 1 * t1.re), d 1 - (e 1 * t1.re + o 1 * t1.im), d 0 - (e 0 * t0.re + o 0 * t0.im)])) (x := R.seq f) (q := 2) (by norm_num) (ε := R.step ^ 2 - 1) R.step_nonneg (tw := fun i => [t0, t1].getD i t0) (a := R.seq (lf [f 0, f 2, f 4, f 6])) (b := R.seq (lf [f 1 * ttwo T, f 3 + f 5])) (s := R.seq (lf [f 3 - f 5, f 7 * ttwo T])) (d := d) (e := e) (o := o) (l := lf [e 0 * t0.re + o 0 * t0.im, e 1 * t1.re + o 1 * t1.im]) (h := lf [e 0 * t0.im - o 0 * t0.re, e 1 * t1.im - o 1 * t1.re])
    (all2 r0 r1) (all2 i0 i1)
    (all4 rfl rfl rfl rfl) (all2 (rel_of (R.rel_two _) (by rw [sr3N1_0]; rfl)) (rel_of (R.add _ _) (by rw [sr3N1_1]; rfl))) (all2 (rel_of (R.rel_two _) (by rw [sr3N3_2_0]; rfl)) (rel_of (R.sub _ _) (by rw [sr3N3_2_1]; rfl)))
    nd (Near.mono ne (by simpa only [pow_one] using (R.step_sub (m := 1)))) (Near.mono no (by simpa only [pow_one] using (R.step_sub (m := 1))))
    (all2 rfl rfl) (all2 rfl rfl)
    (all8 (rel_of (R.add _ _) (by rw [sr3Add_2_0]; rfl)) (rel_of (R.add _ _) (by rw [sr3Add_2_1]; rfl)) (rel_of (R.add _ _) (by rw [sr3Add_2_2]; rfl)) (rel_of (R.add _ _) (by rw [sr3Add_2_3]; rfl)) (rel_of (R.sub _ _) (by rw [sr3Add_2_4]; rfl)) (rel_of (R.sub _ _) (by rw [sr3Add_2_5]; rfl)) (rel_of (R.sub _ _) (by rw [sr3Add_2_6]; rfl)) (rel_of (R.sub _ _) (by rw [sr3Add_2_7]; rfl)))).mono R.step_succ)

theorem Type2And3Butterfly8.acc_dst3 : KAcc R .dst3 8 (Type2And3Butterfly8.new : Type2And3Butterfly8 T).inplaceDst3 (R.step ^ 3 - 1) := KAcc.of R fun f => by
  obtain ⟨D, hD, aD⟩ := (Type2And3Butterfly4.acc_dct3 R)
  obtain ⟨E, hE, aE⟩ := (KAcc.one R (Type2And3Butterfly2.acc_dct3 R .new))
  obtain ⟨O, hO, aO⟩ := (KAcc.one R (Type2And3Butterfly2.acc_dst3 R .new))
  have ht : ∃ t0 t1 : Cx T, (Type2And3Butterfly8.new : Type2And3Butterfly8 T).twiddles = [t0, t1] ∧ (Ap (R.val t0.re) (srTw 2 0).re 1 (1 + R.tau) ∧ Ap (R.val t0.im) (srTw 2 0).im 1 (1 + R.tau)) ∧ (Ap (R.val t1.re) (srTw 2 1).re 1 (1 + R.tau) ∧ Ap (R.val t1.im) (srTw 2 1).im 1 (1 + R.tau)) :=
    ⟨_, _, rfl, R.ktw rfl rfl (by norm_num), R.ktw rfl rfl (by norm_num)⟩
  obtain ⟨t0, t1, ht, ⟨r0, i0⟩, ⟨r1, i1⟩⟩ := ht
  have hd := hD (lf [f 7, f 5, f 3, f 1])
  have nd := aD (lf [f 7, f 5, f 3, f 1])
  have he := hE (lf [f 6 * ttwo T, f 4 + f 2])
  have ne := aE (lf [f 6 * ttwo T, f 4 + f 2])
  have ho := hO (lf [f 4 - f 2, f 0 * ttwo T])
  have no := aO (lf [f 4 - f 2, f 0 * ttwo T])
  generalize D (lf [f 7, f 5, f 3, f 1]) = d at hd nd
  rw [vec_four, vec_four] at hd
  generalize E (lf [f 6 * ttwo T, f 4 + f 2]) = e at he ne
  rw [vec_two, vec_two] at he
  generalize O (lf [f 4 - f 2, f 0 * ttwo T]) = o at ho no
  rw [vec_two, vec_two] at ho
  refine ⟨lf [d 0 + (e 0 * t0.re + o 0 * t0.im), -(d 1 + (e 1 * t1.re + o 1 * t1.im)), d 2 + (e 1 * t1.im - o 1 * t1.re), -(d 3 + (e 0 * t0.im - o 0 * t0.re)), d 3 - (e 0 * t0.im - o 0 * t0.re), (e 1 * t1.im - o 1 * t1.re) - d 2, d 1 - (e 1 * t1.re + o 1 * t1.im), (e 0 * t0.re + o 0 * t0.im) - d 0], by rw [vec_eight, vec_eight]; exact Type2And3Butterfly8.inplaceDst3_gen _ ht hd he ho, ?_⟩
  refine near_dst3' ((kstage3T R (out := alt (R.seq (lf [d 0 + (e 0 * t0.re + o 0 * t0.im), -(d 1 + (e 1 * t1.re + o 1 * t1.im)), d 2 + (e 1 * t1.im - o 1 * t1.re), -(d 3 + (e 0 * t0.im - o 0 * t0.re)), d 3 - (e 0 * t0.im - o 0 * t0.re), (e 1 * t1.im - o 1 * t1.re) - d 2, d 1 - (e 1 * t1.re + o 1 * t1.im), (e 0 * t0.re + o 0 * t0.im) - d 0]))) (x := fun i => R.seq f (8 - 1 - i)) (q := 2) (by norm_num) (ε := R.step ^ 2 - 1) R.step_nonneg (tw := fun i => [t0, t1].getD i t0) (a := R.seq (lf [f 7, f 5, f 3, f 1])) (b := R.seq (lf [f 6 * ttwo T, f 4 + f 2])) (s := R.seq (lf [f 4 - f 2, f 0 * ttwo T])) (d := d) (e := e) (o := o) (l := lf [e 0 * t0.re + o 0 * t0.im, e 1 * t1.re + o 1 * t1.im]) (h := lf [e 0 * t0.im - o 0 * t0.re, e 1 * t1.im - o 1 * t1.re])
    (all2 r0 r1) (all2 i0 i1)
    (all4 rfl rfl rfl rfl) (all2 (rel_of (R.rel_two _) (by rw [sr3N1_0]; rfl)) (rel_of (R.add _ _) (by rw [sr3N1_1]; rfl))) (all2 (rel_of (R.rel_two _) (by rw [sr3N3_2_0]; rfl)) (rel_of (R.sub _ _) (by rw [sr3N3_2_1]; rfl)))
    nd (Near.mono ne (by simpa only [pow_one] using (R.step_sub (m := 1)))) (Near.mono no (by simpa only [pow_one] using (R.step_sub (m := 1))))
    (all2 rfl rfl) (all2 rfl rfl)
    (all8 (rel_of (R.add _ _) (by rw [sr3Add_2_0]; rfl)) (rel_of (R.rel_negadd _ _) (by rw [sr3Add_2_1]; rfl)) (rel_of (R.add _ _) (by rw [sr3Add_2_2]; rfl)) (rel_of (R.rel_negadd _ _) (by rw [sr3Add_2_3]; rfl)) (rel_of (R.sub _ _) (by rw [sr3Add_2_4]; rfl)) (rel_neg (R.sub _ _) (by rw [sr3Add_2_5]; exact (neg_sub _ _).symm)) (rel_of (R.sub _ _) (by rw [sr3Add_2_6]; rfl)) (rel_neg (R.sub _ _) (by rw [sr3Add_2_7]; exact (neg_sub _ _).symm)))).mono R.step_succ)

/-! ### Size 16 -/

set_option maxHeartbeats 1000000 in
theorem Type2And3Butterfly16.acc_dct2 : KAcc R .dct2 16 (Type2And3Butterfly16.new : Type2And3Butterfly16 T).inplaceDct2 (R.step ^ 4 - 1) := KAcc.of R fun f => by
  obtain ⟨D, hD, aD⟩ := (Type2And3Butterfly8.acc_dct2 R)
  obtain ⟨E, hE, aE⟩ := (Type2And3Butterfly4.acc_dct2 R)
  obtain ⟨O, hO, aO⟩ := (Type2And3Butterfly4.acc_dst2 R)
  have ht : ∃ t0 t1 t2 t3 : Cx T, (Type2And3Butterfly16.new : Type2And3Butterfly16 T).twiddles = [t0, t1, t2, t3] ∧ (Ap (R.val t0.re) (srTw 4 0).re 1 (1 + R.tau) ∧ Ap (R.val t0.im) (srTw 4 0).im 1 (1 + R.tau)) ∧ (Ap (R.val t1.re) (srTw 4 1).re 1 (1 + R.tau) ∧ Ap (R.val t1.im) (srTw 4 1).im 1 (1 + R.tau)) ∧ (Ap (R.val t2.re) (srTw 4 2).re 1 (1 + R.tau) ∧ Ap (R.val t2.im) (srTw 4 2).im 1 (1 + R.tau)) ∧ (Ap (R.val t3.re) (srTw 4 3).re 1 (1 + R.tau) ∧ Ap (R.val t3.im) (srTw 4 3).im 1 (1 + R.tau)) :=
    ⟨_, _, _, _, rfl, R.ktw rfl rfl (by norm_num), R.ktw rfl rfl (by norm_num), R.ktw rfl rfl (by norm_num), R.ktw rfl rfl (by norm_num)⟩
  obtain ⟨t0, t1, t2, t3, ht, ⟨r0, i0⟩, ⟨r1, i1⟩, ⟨r2, i2⟩, ⟨r3, i3⟩⟩ := ht
  have hd := hD (lf [f 0 + f 15, f 1 + f 14, f 2 + f 13, f 3 + f 12, f 4 + f 11, f 5 + f 10, f 6 + f 9, f 7 + f 8])
  have nd := aD (lf [f 0 + f 15, f 1 + f 14, f 2 + f 13, f 3 + f 12, f 4 + f 11, f 5 + f 10, f 6 + f 9, f 7 + f 8])
  have he := hE (lf [(f 0 - f 15) * t0.re + (f 7 - f 8) * t0.im, (f 1 - f 14) * t1.re + (f 6 - f 9) * t1.im, (f 2 - f 13) * t2.re + (f 5 - f 10) * t2.im, (f 3 - f 12) * t3.re + (f 4 - f 11) * t3.im])
  have ne := aE (lf [(f 0 - f 15) * t0.re + (f 7 - f 8) * t0.im, (f 1 - f 14) * t1.re + (f 6 - f 9) * t1.im, (f 2 - f 13) * t2.re + (f 5 - f 10) * t2.im, (f 3 - f 12) * t3.re + (f 4 - f 11) * t3.im])
  have ho := hO (lf [(f 4 - f 11) * t3.re - (f 3 - f 12) * t3.im, (f 5 - f 10) * t2.re - (f 2 - f 13) * t2.im, (f 6 - f 9) * t1.re - (f 1 - f 14) * t1.im, (f 7 - f 8) * t0.re - (f 0 - f 15) * t0.im])
  have no := aO (lf [(f 4 - f 11) * t3.re - (f 3 - f 12) * t3.im, (f 5 - f 10) * t2.re - (f 2 - f 13) * t2.im, (f 6 - f 9) * t1.re - (f 1 - f 14) * t1.im, (f 7 - f 8) * t0.re - (f 0 - f 15) * t0.im])
  generalize D (lf [f 0 + f 15, f 1 + f 14, f 2 + f 13, f 3 + f 12, f 4 + f 11, f 5 + f 10, f 6 + f 9, f 7 + f 8]) = d at hd nd
  rw [vec_eight, vec_eight] at hd
  generalize E (lf [(f 0 - f 15) * t0.re + (f 7 - f 8) * t0.im, (f 1 - f 14) * t1.re + (f 6 - f 9) * t1.im, (f 2 - f 13) * t2.re + (f 5 - f 10) * t2.im, (f 3 - f 12) * t3.re + (f 4 - f 11) * t3.im]) = e at he ne
  rw [vec_four, vec_four] at he
  generalize O (lf [(f 4 - f 11) * t3.re - (f 3 - f 12) * t3.im, (f 5 - f 10) * t2.re - (f 2 - f 13) * t2.im, (f 6 - f 9) * t1.re - (f 1 - f 14) * t1.im, (f 7 - f 8) * t0.re - (f 0 - f 15) * t0.im]) = o at ho no
  rw [vec_four, vec_four] at ho
  refine ⟨lf [d 0, e 0, d 1, e 1 - o 0, d 2, e 1 + o 0, d 3, e 2 + o 1, d 4, e 2 - o 1, d 5, e 3 - o 2, d 6, e 3 + o 2, d 7, o 3], by rw [vec_sixteen, vec_sixteen]; exact Type2And3Butterfly16.inplaceDct2_gen _ ht hd he ho, ?_⟩
  refine ((kstage2T R (x := R.seq f) (q := 4) (by norm_num) (ε := R.step ^ 3 - 1) R.step_nonneg (tw := fun i => [t0, t1, t2, t3].getD i t0) (a := lf [f 0 + f 15, f 1 + f 14, f 2 + f 13, f 3 + f 12, f 4 + f 11, f 5 + f 10, f 6 + f 9, f 7 + f 8]) (b := lf [(f 0 - f 15) * t0.re + (f 7 - f 8) * t0.im, (f 1 - f 14) * t1.re + (f 6 - f 9) * t1.im, (f 2 - f 13) * t2.re + (f 5 - f 10) * t2.im, (f 3 - f 12) * t3.re + (f 4 - f 11) * t3.im]) (s := lf [(f 4 - f 11) * t3.re - (f 3 - f 12) * t3.im, (f 5 - f 10) * t2.re - (f 2 - f 13) * t2.im, (f 6 - f 9) * t1.re - (f 1 - f 14) * t1.im, (f 7 - f 8) * t0.re - (f 0 - f 15) * t0.im]) (d := R.seq d) (e := R.seq e) (o := R.seq o) (p := lf [f 0 - f 15, f 1 - f 14, f 2 - f 13, f 3 - f 12]) (r := lf [f 7 - f 8, f 6 - f 9, f 5 - f 10, f 4 - f 11])
    (all4 r0 r1 r2 r3) (all4 i0 i1 i2 i3)
    (all8 (R.add _ _) (R.add _ _) (R.add _ _) (R.add _ _) (R.add _ _) (R.add _ _) (R.add _ _) (R.add _ _))
    (all4 (R.sub _ _) (R.sub _ _) (R.sub _ _) (R.sub _ _))
    (all4 (R.sub _ _) (R.sub _ _) (R.sub _ _) (R.sub _ _))
    (all4 rfl rfl rfl rfl) (all4 rfl rfl rfl rfl)
    nd (Near.mono ne (by simpa only [pow_one] using (R.step_sub (m := 2)))) (Near.mono no (by simpa only [pow_one] using (R.step_sub (m := 2))))
    (all16 (R.rel_zero (by rw [kOut_4_0]; rfl)) (R.rel_zero (by rw [kOut_4_1]; rfl)) (R.rel_zero (by rw [kOut_4_2]; rfl)) (rel_of (R.sub _ _) (by rw [kOut_4_3]; rfl)) (R.rel_zero (by rw [kOut_4_4]; rfl)) (rel_of (R.add _ _) (by rw [kOut_4_5]; rfl)) (R.rel_zero (by rw [kOut_4_6]; rfl)) (rel_of (R.add _ _) (by rw [kOut_4_7]; rfl)) (R.rel_zero (by rw [kOut_4_8]; rfl)) (rel_of (R.sub _ _) (by rw [kOut_4_9]; rfl)) (R.rel_zero (by rw [kOut_4_10]; rfl)) (rel_of (R.sub _ _) (by rw [kOut_4_11]; rfl)) (R.rel_zero (by rw [kOut_4_12]; rfl)) (rel_of (R.add _ _) (by rw [kOut_4_13]; rfl)) (R.rel_zero (by rw [kOut_4_14]; rfl)) (R.rel_zero (by rw [kOut_4_15]; rfl)))).mono R.step_succ)

set_option maxHeartbeats 1000000 in
theorem Type2And3Butterfly16.acc_dst2 : KAcc R .dst2 16 (Type2And3Butterfly16.new : Type2And3Butterfly16 T).inplaceDst2 (R.step ^ 4 - 1) := KAcc.of R fun f => by
  obtain ⟨D, hD, aD⟩ := (Type2And3Butterfly8.acc_dct2 R)
  obtain ⟨E, hE, aE⟩ := (Type2And3Butterfly4.acc_dct2 R)
  obtain ⟨O, hO, aO⟩ := (Type2And3Butterfly4.acc_dst2 R)
  have ht : ∃ t0 t1 t2 t3 : Cx T, (Type2And3Butterfly16.new : Type2And3Butterfly16 T).twiddles = [t0, t1, t2, t3] ∧ (Ap (R.val t0.re) (srTw 4 0).re 1 (1 + R.tau) ∧ Ap (R.val t0.im) (srTw 4 0).im 1 (1 + R.tau)) ∧ (Ap (R.val t1.re) (srTw 4 1).re 1 (1 + R.tau) ∧ Ap (R.val t1.im) (srTw 4 1).im 1 (1 + R.tau)) ∧ (Ap (R.val t2.re) (srTw 4 2).re 1 (1 + R.tau) ∧ Ap (R.val t2.im) (srTw 4 2).im 1 (1 + R.tau)) ∧ (Ap (R.val t3.re) (srTw 4 3).re 1 (1 + R.tau) ∧ Ap (R.val t3.im) (srTw 4 3).im 1 (1 + R.tau)) :=
    ⟨_, _, _, _, rfl, R.ktw rfl rfl (by norm_num), R.ktw rfl rfl (by norm_num), R.ktw rfl rfl (by norm_num), R.ktw rfl rfl (by norm_num)⟩
  obtain ⟨t0, t1, t2, t3, ht, ⟨r0, i0⟩, ⟨r1, i1⟩, ⟨r2, i2⟩, ⟨r3, i3⟩⟩ := ht
  have hd := hD (lf [f 0 - f 15, -f 1 + f 14, f 2 - f 13, -f 3 + f 12, f 4 - f 11, -f 5 + f 10, f 6 - f 9, -f 7 + f 8])
  have nd := aD (lf [f 0 - f 15, -f 1 + f 14, f 2 - f 13, -f 3 + f 12, f 4 - f 11, -f 5 + f 10, f 6 - f 9, -f 7 + f 8])
  have he := hE (lf [(f 0 + f 15) * t0.re + (-f 7 - f 8) * t0.im, (-f 1 - f 14) * t1.re + (f 6 + f 9) * t1.im, (f 2 + f 13) * t2.re + (-f 5 - f 10) * t2.im, (-f 3 - f 12) * t3.re + (f 4 + f 11) * t3.im])
  have ne := aE (lf [(f 0 + f 15) * t0.re + (-f 7 - f 8) * t0.im, (-f 1 - f 14) * t1.re + (f 6 + f 9) * t1.im, (f 2 + f 13) * t2.re + (-f 5 - f 10) * t2.im, (-f 3 - f 12) * t3.re + (f 4 + f 11) * t3.im])
  have ho := hO (lf [(f 4 + f 11) * t3.re - (-f 3 - f 12) * t3.im, (-f 5 - f 10) * t2.re - (f 2 + f 13) * t2.im, (f 6 + f 9) * t1.re - (-f 1 - f 14) * t1.im, (-f 7 - f 8) * t0.re - (f 0 + f 15) * t0.im])
  have no := aO (lf [(f 4 + f 11) * t3.re - (-f 3 - f 12) * t3.im, (-f 5 - f 10) * t2.re - (f 2 + f 13) * t2.im, (f 6 + f 9) * t1.re - (-f 1 - f 14) * t1.im, (-f 7 - f 8) * t0.re - (f 0 + f 15) * t0.im])
  generalize D (lf [f 0 - f 15, -f 1 + f 14, f 2 - f 13, -f 3 + f 12, f 4 - f 11, -f 5 + f 10, f 6 - f 9, -f 7 + f 8]) = d at hd nd
  rw [vec_eight, vec_eight] at hd
  generalize E (lf [(f 0 + f 15) * t0.re + (-f 7 - f 8) * t0.im, (-f 1 - f 14) * t1.re + (f 6 + f 9) * t1.im, (f 2 + f 13) * t2.re + (-f 5 - f 10) * t2.im, (-f 3 - f 12) * t3.re + (f 4 + f 11) * t3.im]) = e at he ne
  rw [vec_four, vec_four] at he
  generalize O (lf [(f 4 + f 11) * t3.re - (-f 3 - f 12) * t3.im, (-f 5 - f 10) * t2.re - (f 2 + f 13) * t2.im, (f 6 + f 9) * t1.re - (-f 1 - f 14) * t1.im, (-f 7 - f 8) * t0.re - (f 0 + f 15) * t0.im]) = o at ho no
  rw [vec_four, vec_four] at ho
  refine ⟨lf [o 3, d 7, e 3 + o 2, d 6, e 3 - o 2, d 5, e 2 - o 1, d 4, e 2 + o 1, d 3, e 1 + o 0, d 2, e 1 - o 0, d 1, e 0, d 0], by rw [vec_sixteen, vec_sixteen]; exact Type2And3Butterfly16.inplaceDst2_gen _ ht hd he ho, ?_⟩
  refine near_dst2' ((kstage2T R (x := alt (R.seq f)) (q := 4) (by norm_num) (ε := R.step ^ 3 - 1) R.step_nonneg (tw := fun i => [t0, t1, t2, t3].getD i t0) (a := lf [f 0 - f 15, -f 1 + f 14, f 2 - f 13, -f 3 + f 12, f 4 - f 11, -f 5 + f 10, f 6 - f 9, -f 7 + f 8]) (b := lf [(f 0 + f 15) * t0.re + (-f 7 - f 8) * t0.im, (-f 1 - f 14) * t1.re + (f 6 + f 9) * t1.im, (f 2 + f 13) * t2.re + (-f 5 - f 10) * t2.im, (-f 3 - f 12) * t3.re + (f 4 + f 11) * t3.im]) (s := lf [(f 4 + f 11) * t3.re - (-f 3 - f 12) * t3.im, (-f 5 - f 10) * t2.re - (f 2 + f 13) * t2.im, (f 6 + f 9) * t1.re - (-f 1 - f 14) * t1.im, (-f 7 - f 8) * t0.re - (f 0 + f 15) * t0.im]) (d := R.seq d) (e := R.seq e) (o := R.seq o) (p := lf [f 0 + f 15, -f 1 - f 14, f 2 + f 13, -f 3 - f 12]) (r := lf [-f 7 - f 8, f 6 + f 9, -f 5 - f 10, f 4 + f 11])
    (all4 r0 r1 r2 r3) (all4 i0 i1 i2 i3)
    (all8 (rel_of (R.sub (f 0) (f 15)) (by show R.val (f 0) + (-R.val (f 15)) = _; ring)) (rel_of (R.add (-f 1) (f 14)) (by show (-R.val (f 1)) + R.val (f 14) = _; rw [R.neg]; try ring)) (rel_of (R.sub (f 2) (f 13)) (by show R.val (f 2) + (-R.val (f 13)) = _; ring)) (rel_of (R.add (-f 3) (f 12)) (by show (-R.val (f 3)) + R.val (f 12) = _; rw [R.neg]; try ring)) (rel_of (R.sub (f 4) (f 11)) (by show R.val (f 4) + (-R.val (f 11)) = _; ring)) (rel_of (R.add (-f 5) (f 10)) (by show (-R.val (f 5)) + R.val (f 10) = _; rw [R.neg]; try ring)) (rel_of (R.sub (f 6) (f 9)) (by show R.val (f 6) + (-R.val (f 9)) = _; ring)) (rel_of (R.add (-f 7) (f 8)) (by show (-R.val (f 7)) + R.val (f 8) = _; rw [R.neg]; try ring)))
    (all4 (rel_of (R.add (f 0) (f 15)) (by show R.val (f 0) - (-R.val (f 15)) = _; ring)) (rel_of (R.sub (-f 1) (f 14)) (by show (-R.val (f 1)) - R.val (f 14) = _; rw [R.neg]; try ring)) (rel_of (R.add (f 2) (f 13)) (by show R.val (f 2) - (-R.val (f 13)) = _; ring)) (rel_of (R.sub (-f 3) (f 12)) (by show (-R.val (f 3)) - R.val (f 12) = _; rw [R.neg]; try ring)))
    (all4 (rel_of (R.sub (-f 7) (f 8)) (by show (-R.val (f 7)) - R.val (f 8) = _; rw [R.neg]; try ring)) (rel_of (R.add (f 6) (f 9)) (by show R.val (f 6) - (-R.val (f 9)) = _; ring)) (rel_of (R.sub (-f 5) (f 10)) (by show (-R.val (f 5)) - R.val (f 10) = _; rw [R.neg]; try ring)) (rel_of (R.add (f 4) (f 11)) (by show R.val (f 4) - (-R.val (f 11)) = _; ring)))
    (all4 rfl rfl rfl rfl) (all4 rfl rfl rfl rfl)
    nd (Near.mono ne (by simpa only [pow_one] using (R.step_sub (m := 2)))) (Near.mono no (by simpa only [pow_one] using (R.step_sub (m := 2))))
    (all16 (R.rel_zero (by rw [kOut_4_0]; rfl)) (R.rel_zero (by rw [kOut_4_1]; rfl)) (R.rel_zero (by rw [kOut_4_2]; rfl)) (rel_of (R.sub _ _) (by rw [kOut_4_3]; rfl)) (R.rel_zero (by rw [kOut_4_4]; rfl)) (rel_of (R.add _ _) (by rw [kOut_4_5]; rfl)) (R.rel_zero (by rw [kOut_4_6]; rfl)) (rel_of (R.add _ _) (by rw [kOut_4_7]; rfl)) (R.rel_zero (by rw [kOut_4_8]; rfl)) (rel_of (R.sub _ _) (by rw [kOut_4_9]; rfl)) (R.rel_zero (by rw [kOut_4_10]; rfl)) (rel_of (R.sub _ _) (by rw [kOut_4_11]; rfl)) (R.rel_zero (by rw [kOut_4_12]; rfl)) (rel_of (R.add _ _) (by rw [kOut_4_13]; rfl)) (R.rel_zero (by rw [kOut_4_14]; rfl)) (R.rel_zero (by rw [kOut_4_15]; rfl)))).mono R.step_succ)

set_option maxHeartbeats 1000000 in
theorem Type2And3Butterfly16.acc_dct3 : KAcc R .dct3 16 (Type2And3Butterfly16.new : Type2And3Butterfly16 T).inplaceDct3 (R.step ^ 4 - 1) := KAcc.of R fun f => by
  obtain ⟨D, hD, aD⟩ := (Type2And3Butterfly8.acc_dct3 R)
  obtain ⟨E, hE, aE⟩ := (Type2And3Butterfly4.acc_dct3 R)
  obtain ⟨O, hO, aO⟩ := (Type2And3Butterfly4.acc_dst3 R)
  have ht : ∃ t0 t1 t2 t3 : Cx T, (Type2And3Butterfly16.new : Type2And3Butterfly16 T).twiddles = [t0, t1, t2, t3] ∧ (Ap (R.val t0.re) (srTw 4 0).re 1 (1 + R.tau) ∧ Ap (R.val t0.im) (srTw 4 0).im 1 (1 + R.tau)) ∧ (Ap (R.val t1.re) (srTw 4 1).re 1 (1 + R.tau) ∧ Ap (R.val t1.im) (srTw 4 1).im 1 (1 + R.tau)) ∧ (Ap (R.val t2.re) (srTw 4 2).re 1 (1 + R.tau) ∧ Ap (R.val t2.im) (srTw 4 2).im 1 (1 + R.tau)) ∧ (Ap (R.val t3.re) (srTw 4 3).re 1 (1 + R.tau) ∧ Ap (R.val t3.im) (srTw 4 3).im 1 (1 + R.tau)) :=
    ⟨_, _, _, _, rfl, R.ktw rfl rfl (by norm_num), R.ktw rfl rfl (by norm_num), R.ktw rfl rfl (by norm_num), R.ktw rfl rfl (by norm_num)⟩
  obtain ⟨t0, t1, t2, t3, ht, ⟨r0, i0⟩, ⟨r1, i1⟩, ⟨r2, i2⟩, ⟨r3, i3⟩⟩ := ht
  have hd := hD (lf [f 0, f 2, f 4, f 6, f 8, f 10, f 12, f 14])
  have nd := aD (lf [f 0, f 2, f 4, f 6, f 8, f 10, f 12, f 14])
  have he := hE (lf [f 1 * ttwo T, f 3 + f 5, f 7 + f 9, f 11 + f 13])
  have ne := aE (lf [f 1 * ttwo T, f 3 + f 5, f 7 + f 9, f 11 + f 13])
  have ho := hO (lf [f 3 - f 5, f 7 - f 9, f 11 - f 13, f 15 * ttwo T])
  have no := aO (lf [f 3 - f 5, f 7 - f 9, f 11 - f 13, f 15 * ttwo T])
  generalize D (lf [f 0, f 2, f 4, f 6, f 8, f 10, f 12, f 14]) = d at hd nd
  rw [vec_eight, vec_eight] at hd
  generalize E (lf [f 1 * ttwo T, f 3 + f 5, f 7 + f 9, f 11 + f 13]) = e at he ne
  rw [vec_four, vec_four] at he
  generalize O (lf [f 3 - f 5, f 7 - f 9, f 11 - f 13, f 15 * ttwo T]) = o at ho no
  rw [vec_four, vec_four] at ho
  refine ⟨lf [d 0 + (e 0 * t0.re + o 0 * t0.im), d 1 + (e 1 * t1.re + o 1 * t1.im), d 2 + (e 2 * t2.re + o 2 * t2.im), d 3 + (e 3 * t3.re + o 3 * t3.im), d 4 + (e 3 * t3.im - o 3 * t3.re), d 5 + (e 2 * t2.im - o 2 * t2.re), d 6 + (e 1 * t1.im - o 1 * t1.re), d 7 + (e 0 * t0.im - o 0 * t0.re), d 7 - (e 0 * t0.im - o 0 * t0.re), d 6 - (e 1 * t1.im - o 1 * t1.re), d 5 - (e 2 * t2.im - o 2 * t2.re), d 4 - (e 3 * t3.im - o 3 * t3.re), d 3 - (e 3 * t3.re + o 3 * t3.im), d 2 - (e 2 * t2.re + o 2 * t2.im), d 1 - (e 1 * t1.re + o 1 * t1.im), d 0 - (e 0 * t0.re + o 0 * t0.im)], by rw [vec_sixteen, vec_sixteen]; exact Type2And3Butterfly16.inplaceDct3_gen _ ht hd he ho, ?_⟩
  refine ((kstage3T R (out := R.seq (lf [d 0 + (e 0 * t0.re + o 0 * t0.im), d 1 + (e 1 * t1.re + o 1 * t1.im), d 2 + (e 2 * t2.re + o 2 * t2.im), d 3 + (e 3 * t3.re + o 3 * t3.im), d 4 + (e 3 * t3.im - o 3 * t3.re), d 5 + (e 2 * t2.im - o 2 * t2.re), d 6 + (e 1 * t1.im - o 1 * t1.re), d 7 + (e 0 * t0.im - o 0 * t0.re), d 7 - (e 0 * t0.im - o 0 * t0.re), d 6 - (e 1 * t1.im - o 1 * t1.re), d 5 - (e 2 * t2.im - o 2 * t2.re), d 4 - (e 3 * t3.im - o 3 * t3.re), d 3 - (e 3 * t3.re + o 3 * t3.im), d 2 - (e 2 * t2.re + o 2 * t2.im), d 1 - (e 1 * t1.re + o 1 * t1.im), d 0 - (e 0 * t0.re + o 0 * t0.im)])) (x := R.seq f) (q := 4) (by norm_num) (ε := R.step ^ 3 - 1) R.step_nonneg (tw := fun i => [t0, t1, t2, t3].getD i t0) (a := R.seq (lf [f 0, f 2, f 4, f 6, f 8, f 10, f 12, f 14])) (b := R.seq (lf [f 1 * ttwo T, f 3 + f 5, f 7 + f 9, f 11 + f 13])) (s := R.seq (lf [f 3 - f 5, f 7 - f 9, f 11 - f 13, f 15 * ttwo T])) (d := d) (e := e) (o := o) (l := lf [e 0 * t0.re + o 0 * t0.im, e 1 * t1.re + o 1 * t1.im, e 2 * t2.re + o 2 * t2.im, e 3 * t3.re + o 3 * t3.im]) (h := lf [e 0 * t0.im - o 0 * t0.re, e 1 * t1.im - o 1 * t1.re, e 2 * t2.im - o 2 * t2.re, e 3 * t3.im - o 3 * t3.re])
    (all4 r0 r1 r2 r3) (all4 i0 i1 i2 i3)
    (all8 rfl rfl rfl rfl rfl rfl rfl rfl) (all4 (rel_of (R.rel_two _) (by rw [sr3N1_0]; rfl)) (rel_of (R.add _ _) (by rw [sr3N1_1]; rfl)) (rel_of (R.add _ _) (by rw [sr3N1_2]; rfl)) (rel_of (R.add _ _) (by rw [sr3N1_3]; rfl))) (all4 (rel_of (R.rel_two _) (by rw [sr3N3_4_0]; rfl)) (rel_of (R.sub _ _) (by rw [sr3N3_4_1]; rfl)) (rel_of (R.sub _ _) (by rw [sr3N3_4_2]; rfl)) (rel_of (R.sub _ _) (by rw [sr3N3_4_3]; rfl)))
    nd (Near.mono ne (by simpa only [pow_one] using (R.step_sub (m := 2)))) (Near.mono no (by simpa only [pow_one] using (R.step_sub (m := 2))))
    (all4 rfl rfl rfl rfl) (all4 rfl rfl rfl rfl)
    (all16 (rel_of (R.add _ _) (by rw [sr3Add_4_0]; rfl)) (rel_of (R.add _ _) (by rw [sr3Add_4_1]; rfl)) (rel_of (R.add _ _) (by rw [sr3Add_4_2]; rfl)) (rel_of (R.add _ _) (by rw [sr3Add_4_3]; rfl)) (rel_of (R.add _ _) (by rw [sr3Add_4_4]; rfl)) (rel_of (R.add _ _) (by rw [sr3Add_4_5]; rfl)) (rel_of (R.add _ _) (by rw [sr3Add_4_6]; rfl)) (rel_of (R.add _ _) (by rw [sr3Add_4_7]; rfl)) (rel_of (R.sub _ _) (by rw [sr3Add_4_8]; rfl)) (rel_of (R.sub _ _) (by rw [sr3Add_4_9]; rfl)) (rel_of (R.sub _ _) (by rw [sr3Add_4_10]; rfl)) (rel_of (R.sub _ _) (by rw [sr3Add_4_11]; rfl)) (rel_of (R.sub _ _) (by rw [sr3Add_4_12]; rfl)) (rel_of (R.sub _ _) (by rw [sr3Add_4_13]; rfl)) (rel_of (R.sub _ _) (by rw [sr3Add_4_14]; rfl)) (rel_of (R.sub _ _) (by rw [sr3Add_4_15]; rfl)))).mono R.step_succ)

set_option maxHeartbeats 1000000 in
theorem Type2And3Butterfly16.acc_dst3 : KAcc R .dst3 16 (Type2And3Butterfly16.new : Type2And3Butterfly16 T).inplaceDst3 (R.step ^ 4 - 1) := KAcc.of R fun f => by
  obtain ⟨D, hD, aD⟩ := (Type2And3Butterfly8.acc_dct3 R)
  obtain ⟨E, hE, aE⟩ := (Type2And3Butterfly4.acc_dct3 R)
  obtain ⟨O, hO, aO⟩ := (Type2And3Butterfly4.acc_dst3 R)
  have ht : ∃ t0 t1 t2 t3 : Cx T, (Type2And3Butterfly16.new : Type2And3Butterfly16 T).twiddles = [t0, t1, t2, t3] ∧ (Ap (R.val t0.re) (srTw 4 0).re 1 (1 + R.tau) ∧ Ap (R.val t0.im) (srTw 4 0).im 1 (1 + R.tau)) ∧ (Ap (R.val t1.re) (srTw 4 1).re 1 (1 + R.tau) ∧ Ap (R.val t1.im) (srTw 4 1).im 1 (1 + R.tau)) ∧ (Ap (R.val t2.re) (srTw 4 2).re 1 (1 + R.tau) ∧ Ap (R.val t2.im) (srTw 4 2).im 1 (1 + R.tau)) ∧ (Ap (R.val t3.re) (srTw 4 3).re 1 (1 + R.tau) ∧ Ap (R.val t3.im) (srTw 4 3).im 1 (1 + R.tau)) :=
    ⟨_, _, _, _, rfl, R.ktw rfl rfl (by norm_num), R.ktw rfl rfl (by norm_num), R.ktw rfl rfl (by norm_num), R.ktw rfl rfl (by norm_num)⟩
  obtain ⟨t0, t1, t2, t3, ht, ⟨r0, i0⟩, ⟨r1, i1⟩, ⟨r2, i2⟩, ⟨r3, i3⟩⟩ := ht
  have hd := hD (lf [f 15, f 13, f 11, f 9, f 7, f 5, f 3, f 1])
  have nd := aD (lf [f 15, f 13, f 11, f 9, f 7, f 5, f 3, f 1])
  have he := hE (lf [f 14 * ttwo T, f 12 + f 10, f 8 + f 6, f 4 + f 2])
  have ne := aE (lf [f 14 * ttwo T, f 12 + f 10, f 8 + f 6, f 4 + f 2])
  have ho := hO (lf [f 12 - f 10, f 8 - f 6, f 4 - f 2, f 0 * ttwo T])
  have no := aO (lf [f 12 - f 10, f 8 - f 6, f 4 - f 2, f 0 * ttwo T])
  generalize D (lf [f 15, f 13, f 11, f 9, f 7, f 5, f 3, f 1]) = d at hd nd
  rw [vec_eight, vec_eight] at hd
  generalize E (lf [f 14 * ttwo T, f 12 + f 10, f 8 + f 6, f 4 + f 2]) = e at he ne
  rw [vec_four, vec_four] at he
  generalize O (lf [f 12 - f 10, f 8 - f 6, f 4 - f 2, f 0 * ttwo T]) = o at ho no
  rw [vec_four, vec_four] at ho
  refine ⟨lf [d 0 + (e 0 * t0.re + o 0 * t0.im), -(d 1 + (e 1 * t1.re + o 1 * t1.im)), d 2 + (e 2 * t2.re + o 2 * t2.im), -(d 3 + (e 3 * t3.re + o 3 * t3.im)), d 4 + (e 3 * t3.im - o 3 * t3.re), -(d 5 + (e 2 * t2.im - o 2 * t2.re)), d 6 + (e 1 * t1.im - o 1 * t1.re), -(d 7 + (e 0 * t0.im - o 0 * t0.re)), d 7 - (e 0 * t0.im - o 0 * t0.re), (e 1 * t1.im - o 1 * t1.re) - d 6, d 5 - (e 2 * t2.im - o 2 * t2.re), (e 3 * t3.im - o 3 * t3.re) - d 4, d 3 - (e 3 * t3.re + o 3 * t3.im), (e 2 * t2.re + o 2 * t2.im) - d 2, d 1 - (e 1 * t1.re + o 1 * t1.im), (e 0 * t0.re + o 0 * t0.im) - d 0], by rw [vec_sixteen, vec_sixteen]; exact Type2And3Butterfly16.inplaceDst3_gen _ ht hd he ho, ?_⟩
  refine near_dst3' ((kstage3T R (out := alt (R.seq (lf [d 0 + (e 0 * t0.re + o 0 * t0.im), -(d 1 + (e 1 * t1.re + o 1 * t1.im)), d 2 + (e 2 * t2.re + o 2 * t2.im), -(d 3 + (e 3 * t3.re + o 3 * t3.im)), d 4 + (e 3 * t3.im - o 3 * t3.re), -(d 5 + (e 2 * t2.im - o 2 * t2.re)), d 6 + (e 1 * t1.im - o 1 * t1.re), -(d 7 + (e 0 * t0.im - o 0 * t0.re)), d 7 - (e 0 * t0.im - o 0 * t0.re), (e 1 * t1.im - o 1 * t1.re) - d 6, d 5 - (e 2 * t2.im - o 2 * t2.re), (e 3 * t3.im - o 3 * t3.re) - d 4, d 3 - (e 3 * t3.re + o 3 * t3.im), (e 2 * t2.re + o 2 * t2.im) - d 2, d 1 - (e 1 * t1.re + o 1 * t1.im), (e 0 * t0.re + o 0 * t0.im) - d 0]))) (x := fun i => R.seq f (16 - 1 - i)) (q := 4) (by norm_num) (ε := R.step ^ 3 - 1) R.step_nonneg (tw := fun i => [t0, t1, t2, t3].getD i t0) (a := R.seq (lf [f 15, f 13, f 11, f 9, f 7, f 5, f 3, f 1])) (b := R.seq (lf [f 14 * ttwo T, f 12 + f 10, f 8 + f 6, f 4 + f 2])) (s := R.seq (lf [f 12 - f 10, f 8 - f 6, f 4 - f 2, f 0 * ttwo T])) (d := d) (e := e) (o := o) (l := lf [e 0 * t0.re + o 0 * t0.im, e 1 * t1.re + o 1 * t1.im, e 2 * t2.re + o 2 * t2.im, e 3 * t3.re + o 3 * t3.im]) (h := lf [e 0 * t0.im - o 0 * t0.re, e 1 * t1.im - o 1 * t1.re, e 2 * t2.im - o 2 * t2.re, e 3 * t3.im - o 3 * t3.re])
    (all4 r0 r1 r2 r3) (all4 i0 i1 i2 i3)
    (all8 rfl rfl rfl rfl rfl rfl rfl rfl) (all4 (rel_of (R.rel_two _) (by rw [sr3N1_0]; rfl)) (rel_of (R.add _ _) (by rw [sr3N1_1]; rfl)) (rel_of (R.add _ _) (by rw [sr3N1_2]; rfl)) (rel_of (R.add _ _) (by rw [sr3N1_3]; rfl))) (all4 (rel_of (R.rel_two _) (by rw [sr3N3_4_0]; rfl)) (rel_of (R.sub _ _) (by rw [sr3N3_4_1]; rfl)) (rel_of (R.sub _ _) (by rw [sr3N3_4_2]; rfl)) (rel_of (R.sub _ _) (by rw [sr3N3_4_3]; rfl)))
    nd (Near.mono ne (by simpa only [pow_one] using (R.step_sub (m := 2)))) (Near.mono no (by simpa only [pow_one] using (R.step_sub (m := 2))))
    (all4 rfl rfl rfl rfl) (all4 rfl rfl rfl rfl)
    (all16 (rel_of (R.add _ _) (by rw [sr3Add_4_0]; rfl)) (rel_of (R.rel_negadd _ _) (by rw [sr3Add_4_1]; rfl)) (rel_of (R.add _ _) (by rw [sr3Add_4_2]; rfl)) (rel_of (R.rel_negadd _ _) (by rw [sr3Add_4_3]; rfl)) (rel_of (R.add _ _) (by rw [sr3Add_4_4]; rfl)) (rel_of (R.rel_negadd _ _) (by rw [sr3Add_4_5]; rfl)) (rel_of (R.add _ _) (by rw [sr3Add_4_6]; rfl)) (rel_of (R.rel_negadd _ _) (by rw [sr3Add_4_7]; rfl)) (rel_of (R.sub _ _) (by rw [sr3Add_4_8]; rfl)) (rel_neg (R.sub _ _) (by rw [sr3Add_4_9]; exact (neg_sub _ _).symm)) (rel_of (R.sub _ _) (by rw [sr3Add_4_10]; rfl)) (rel_neg (R.sub _ _) (by rw [sr3Add_4_11]; exact (neg_sub _ _).symm)) (rel_of (R.sub _ _) (by rw [sr3Add_4_12]; rfl)) (rel_neg (R.sub _ _) (by rw [sr3Add_4_13]; exact (neg_sub _ _).symm)) (rel_of (R.sub _ _) (by rw [sr3Add_4_14]; rfl)) (rel_neg (R.sub _ _) (by rw [sr3Add_4_15]; exact (neg_sub _ _).symm)))).mono R.step_succ)


end RustDct
