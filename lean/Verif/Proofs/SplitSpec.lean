import Verif.Proofs.ConvertReal
/-!
# Recursive identities between the textbook transforms

These are facts about `Spec` alone; the butterflies, the split radix algorithm and the type 4 conversion all
rest on them.
-/

set_option linter.all false

namespace RustDct
open Real Finset

theorem sum_pair (h : ℕ) (g : ℕ → ℝ) :
    ∑ i ∈ range (2 * h), g i = ∑ i ∈ range h, (g i + g (2 * h - 1 - i)) := by
  rw [sum_half_reflect, show (2 * h + 1) / 2 = h by omega, show 2 * h / 2 = h by omega, sum_add_distrib]

theorem cast_mirror {h i : ℕ} (hi : i < h) : ((h - 1 - i : ℕ) : ℝ) = h - 1 - i := by
  rw [show h - 1 - i = h - (i + 1) by omega, Nat.cast_sub (by omega)]; push_cast; ring

theorem dct2At_even {h : ℕ} (f : ℕ → ℝ) (k : ℕ) :
    Spec.dct2At (2 * h) f (2 * k) = Spec.dct2At h (fun i => f i + f (2 * h - 1 - i)) k := by
  unfold Spec.dct2At
  rw [sum_pair]
  refine sum_congr rfl fun i hi => ?_
  rw [mem_range] at hi
  have z : (h : ℝ) ≠ 0 := by exact_mod_cast (by omega : h ≠ 0)
  rw [cast_mirror (by omega)]
  push_cast
  rw [show 2 * (k : ℝ) * (2 * h - 1 - i + 1 / 2) * π / (2 * h) = 2 * π * k - k * (i + 1 / 2) * π / h by field_simp; ring,
    cos_nat_two_pi_sub, show 2 * (k : ℝ) * (i + 1 / 2) * π / (2 * h) = k * (i + 1 / 2) * π / h by field_simp]
  ring

theorem dct2At_odd {h : ℕ} (f : ℕ → ℝ) (k : ℕ) :
    Spec.dct2At (2 * h) f (2 * k + 1) = Spec.dct4At h (fun i => f i - f (2 * h - 1 - i)) k := by
  unfold Spec.dct2At Spec.dct4At
  rw [sum_pair]
  refine sum_congr rfl fun i hi => ?_
  rw [mem_range] at hi
  have z : (h : ℝ) ≠ 0 := by exact_mod_cast (by omega : h ≠ 0)
  rw [cast_mirror (by omega)]
  push_cast
  rw [show (2 * (k : ℝ) + 1) * (2 * h - 1 - i + 1 / 2) * π / (2 * h) =
    2 * π * k + (π - (k + 1 / 2) * (i + 1 / 2) * π / h) by field_simp; ring,
    cos_nat_two_pi_add, cos_pi_sub,
    show (2 * (k : ℝ) + 1) * (i + 1 / 2) * π / (2 * h) = (k + 1 / 2) * (i + 1 / 2) * π / h by field_simp]
  ring

/-- The angle of the split-radix twiddle factors for a type 4 transform of size `2q`. -/
noncomputable def th4 (q i : ℕ) : ℝ := (2 * i + 1) * π / (8 * q)

/-- The cosine half of the inputs. -/
noncomputable def cIn (q : ℕ) (d : ℕ → ℝ) (i : ℕ) : ℝ := d i * cos (th4 q i) + d (2 * q - 1 - i) * sin (th4 q i)
/-- The sine half of the inputs. -/
noncomputable def sIn (q : ℕ) (d : ℕ → ℝ) (i : ℕ) : ℝ := d (2 * q - 1 - i) * cos (th4 q i) - d i * sin (th4 q i)

theorem dct4_pair {q : ℕ} (d : ℕ → ℝ) (k : ℕ) :
    Spec.dct4At (2 * q) d k = ∑ i ∈ range q, (d i * cos ((2 * k + 1) * th4 q i) +
      (-1) ^ k * (d (2 * q - 1 - i) * sin ((2 * k + 1) * th4 q i))) := by
  unfold Spec.dct4At
  rw [sum_pair]
  refine sum_congr rfl fun i hi => ?_
  rw [mem_range] at hi
  have z : (q : ℝ) ≠ 0 := by exact_mod_cast (by omega : q ≠ 0)
  rw [cast_mirror (by omega)]
  push_cast
  unfold th4
  rw [show ((k : ℝ) + 1 / 2) * (2 * q - 1 - i + 1 / 2) * π / (2 * q) =
    (π * k + π / 2) - (2 * k + 1) * ((2 * i + 1) * π / (8 * q)) by field_simp; ring, cos_sub, cos_half_odd, neg_one_pow_cos,
    show ((k : ℝ) + 1 / 2) * (i + 1 / 2) * π / (2 * q) = (2 * k + 1) * ((2 * i + 1) * π / (8 * q)) by field_simp; ring]
  ring

theorem th4_four {q i : ℕ} (hi : i < q) (m : ℝ) : m * (i + 1 / 2) * π / q = 4 * m * th4 q i := by
  have z : (q : ℝ) ≠ 0 := by exact_mod_cast (by omega : q ≠ 0)
  unfold th4; field_simp; ring

theorem dct4At_zero {q : ℕ} (d : ℕ → ℝ) : Spec.dct4At (2 * q) d 0 = Spec.dct2At q (cIn q d) 0 := by
  rw [dct4_pair]
  unfold Spec.dct2At
  refine sum_congr rfl fun i hi => ?_
  unfold cIn
  simp

theorem dct4At_even {q : ℕ} (d : ℕ → ℝ) {m : ℕ} (hm : 1 ≤ m) :
    Spec.dct4At (2 * q) d (2 * m) = Spec.dct2At q (cIn q d) m + Spec.dst2At q (sIn q d) (m - 1) := by
  rw [dct4_pair]
  unfold Spec.dct2At Spec.dst2At
  rw [← sum_add_distrib]
  refine sum_congr rfl fun i hi => ?_
  rw [mem_range] at hi
  have e : ((m - 1 : ℕ) : ℝ) + 1 = m := by rw [Nat.cast_sub hm]; push_cast; ring
  rw [e, th4_four hi]
  unfold cIn sIn
  push_cast
  rw [show (2 * (2 * (m : ℝ)) + 1) * th4 q i = 4 * m * th4 q i + th4 q i by ring, cos_add, sin_add,
    (even_two_mul m).neg_one_pow]
  ring

theorem dct4At_odd {q : ℕ} (d : ℕ → ℝ) {m : ℕ} (hm : 1 ≤ m) :
    Spec.dct4At (2 * q) d (2 * m - 1) = Spec.dct2At q (cIn q d) m - Spec.dst2At q (sIn q d) (m - 1) := by
  rw [dct4_pair]
  unfold Spec.dct2At Spec.dst2At
  rw [← sum_sub_distrib]
  refine sum_congr rfl fun i hi => ?_
  rw [mem_range] at hi
  have e : ((m - 1 : ℕ) : ℝ) + 1 = m := by rw [Nat.cast_sub hm]; push_cast; ring
  have e2 : ((2 * m - 1 : ℕ) : ℝ) = 2 * m - 1 := by rw [Nat.cast_sub (by omega)]; push_cast; ring
  have e3 : Odd (2 * m - 1) := by rw [Nat.odd_iff]; omega
  rw [e, th4_four hi, e2, e3.neg_one_pow]
  unfold cIn sIn
  rw [show (2 * (2 * (m : ℝ) - 1) + 1) * th4 q i = 4 * m * th4 q i - th4 q i by ring, cos_sub, sin_sub]
  ring

theorem dct2At_self (q : ℕ) (f : ℕ → ℝ) : Spec.dct2At q f q = 0 := by
  unfold Spec.dct2At
  apply sum_eq_zero
  intro i hi
  rw [mem_range] at hi
  have z : (q : ℝ) ≠ 0 := by exact_mod_cast (by omega : q ≠ 0)
  rw [show (q : ℝ) * (i + 1 / 2) * π / q = π * i + π / 2 by field_simp, cos_half_odd, mul_zero]

theorem dct4At_last {q : ℕ} (d : ℕ → ℝ) (hq : 1 ≤ q) :
    Spec.dct4At (2 * q) d (2 * q - 1) = -Spec.dst2At q (sIn q d) (q - 1) := by
  rw [dct4At_odd d hq, dct2At_self]; ring

theorem dst2At_rev {q : ℕ} (s : ℕ → ℝ) (k : ℕ) :
    Spec.dst2At q (fun i => s (q - 1 - i)) k = (-1) ^ k * Spec.dst2At q s k := by
  unfold Spec.dst2At
  rw [mul_sum, ← Finset.sum_range_reflect]
  refine sum_congr rfl fun i hi => ?_
  rw [mem_range] at hi
  have z : (q : ℝ) ≠ 0 := by exact_mod_cast (by omega : q ≠ 0)
  beta_reduce
  rw [cast_mirror hi, show q - 1 - (q - 1 - i) = i by omega,
    show ((k : ℝ) + 1) * (q - 1 - i + 1 / 2) * π / q = ((k + 1 : ℕ) : ℝ) * π - (k + 1) * (i + 1 / 2) * π / q by
      push_cast; field_simp; ring, sin_nat_mul_pi_sub, pow_succ]
  ring

theorem dct2At_rev {q : ℕ} (s : ℕ → ℝ) (k : ℕ) :
    Spec.dct2At q (fun i => s (q - 1 - i)) k = (-1) ^ k * Spec.dct2At q s k := by
  unfold Spec.dct2At
  rw [mul_sum, ← Finset.sum_range_reflect]
  refine sum_congr rfl fun i hi => ?_
  rw [mem_range] at hi
  have z : (q : ℝ) ≠ 0 := by exact_mod_cast (by omega : q ≠ 0)
  beta_reduce
  rw [cast_mirror hi, show q - 1 - (q - 1 - i) = i by omega,
    show (k : ℝ) * (q - 1 - i + 1 / 2) * π / q = (k : ℝ) * π - k * (i + 1 / 2) * π / q by
      field_simp; ring, cos_nat_mul_pi_sub]
  ring

/-! ### Type 3 -/

theorem dct3At_low {h : ℕ} (f : ℕ → ℝ) (k : ℕ) :
    Spec.dct3At (2 * h) f k = Spec.dct3At h (fun i => f (2 * i)) k + Spec.dct4At h (fun i => f (2 * i + 1)) k := by
  unfold Spec.dct3At Spec.dct4At
  rw [sum_even_odd, show (2 * h + 1) / 2 = h by omega, show 2 * h / 2 = h by omega]
  congr 1
  · refine sum_congr rfl fun i hi => ?_
    rw [mem_range] at hi
    have z : (h : ℝ) ≠ 0 := by exact_mod_cast (by omega : h ≠ 0)
    unfold Spec.halfAt
    push_cast
    rw [show ((k : ℝ) + 1 / 2) * (2 * i) * π / (2 * h) = (k + 1 / 2) * i * π / h by field_simp]
    by_cases hi0 : i = 0
    · simp [hi0]
    · rw [if_neg (by omega), if_neg hi0]
  · refine sum_congr rfl fun i hi => ?_
    rw [mem_range] at hi
    have z : (h : ℝ) ≠ 0 := by exact_mod_cast (by omega : h ≠ 0)
    unfold Spec.halfAt
    push_cast
    rw [show ((k : ℝ) + 1 / 2) * (2 * i + 1) * π / (2 * h) = (k + 1 / 2) * (i + 1 / 2) * π / h by
      field_simp]
    ring

theorem dct3At_high {h : ℕ} (f : ℕ → ℝ) {k : ℕ} (hk : k < 2 * h) :
    Spec.dct3At (2 * h) f (2 * h - 1 - k) =
      Spec.dct3At h (fun i => f (2 * i)) k - Spec.dct4At h (fun i => f (2 * i + 1)) k := by
  unfold Spec.dct3At Spec.dct4At
  have z : (h : ℝ) ≠ 0 := by exact_mod_cast (by omega : h ≠ 0)
  rw [sum_even_odd, show (2 * h + 1) / 2 = h by omega, show 2 * h / 2 = h by omega, sub_eq_add_neg, ← sum_neg_distrib,
    cast_mirror hk]
  congr 1
  · refine sum_congr rfl fun i hi => ?_
    rw [mem_range] at hi
    unfold Spec.halfAt
    push_cast
    rw [show (2 * (h : ℝ) - 1 - k + 1 / 2) * (2 * i) * π / (2 * h) = 2 * π * i - (k + 1 / 2) * i * π / h by
      field_simp; ring, cos_nat_two_pi_sub]
    by_cases hi0 : i = 0
    · simp [hi0]
    · rw [if_neg (by omega), if_neg hi0]
  · refine sum_congr rfl fun i hi => ?_
    rw [mem_range] at hi
    unfold Spec.halfAt
    push_cast
    rw [show (2 * (h : ℝ) - 1 - k + 1 / 2) * (2 * i + 1) * π / (2 * h) =
      2 * π * i + (π - (k + 1 / 2) * (i + 1 / 2) * π / h) by field_simp; ring, cos_nat_two_pi_add, cos_pi_sub]
    ring

/-- Inputs of the inner DCT3 of a DCT4 (and, reversed, of the inner DST3 of a DST4). -/
noncomputable def aIn (x : ℕ → ℝ) (m : ℕ) : ℝ := if m = 0 then x 0 * 2 else x (2 * m - 1) + x (2 * m)
/-- Inputs of the inner DST3 of a DCT4. -/
noncomputable def bIn (q : ℕ) (x : ℕ → ℝ) (m : ℕ) : ℝ := if m = q - 1 then x (2 * q - 1) * 2 else x (2 * m + 1) - x (2 * m + 2)

theorem sum_aIn {q : ℕ} (hq : 1 ≤ q) (x : ℕ → ℝ) (g : ℕ → ℝ) :
    ∑ i ∈ range q, Spec.halfAt 0 i * aIn x i * g i =
      x 0 * g 0 + ∑ m ∈ range (q - 1), (x (2 * m + 1) + x (2 * m + 2)) * g (m + 1) := by
  obtain ⟨p, rfl⟩ : ∃ p, q = p + 1 := ⟨q - 1, by omega⟩
  rw [sum_range_succ']
  rw [add_comm, Nat.add_sub_cancel]
  congr 1
  · simp only [Spec.halfAt, aIn, if_true]; ring
  · refine sum_congr rfl fun i hi => ?_
    simp only [Spec.halfAt, aIn, if_neg (Nat.succ_ne_zero i)]
    rw [show 2 * (i + 1) - 1 = 2 * i + 1 by omega, show 2 * (i + 1) = 2 * i + 2 by omega]
    ring

theorem sum_bIn {q : ℕ} (hq : 1 ≤ q) (x : ℕ → ℝ) (g : ℕ → ℝ) :
    ∑ i ∈ range q, Spec.halfAt (q - 1) i * bIn q x i * g i =
      x (2 * q - 1) * g (q - 1) + ∑ m ∈ range (q - 1), (x (2 * m + 1) - x (2 * m + 2)) * g m := by
  obtain ⟨p, rfl⟩ : ∃ p, q = p + 1 := ⟨q - 1, by omega⟩
  rw [sum_range_succ]
  rw [add_comm, Nat.add_sub_cancel]
  congr 1
  · simp only [Spec.halfAt, bIn, Nat.add_sub_cancel, if_true]; ring
  · refine sum_congr rfl fun i hi => ?_
    rw [mem_range] at hi
    simp only [Spec.halfAt, bIn, Nat.add_sub_cancel, if_neg (Nat.ne_of_lt hi)]
    ring

theorem sum_ends {q : ℕ} (hq : 1 ≤ q) (g : ℕ → ℝ) :
    ∑ i ∈ range (2 * q), g i = g 0 + g (2 * q - 1) + ∑ m ∈ range (q - 1), (g (2 * m + 1) + g (2 * m + 2)) := by
  obtain ⟨p, rfl⟩ : ∃ p, q = p + 1 := ⟨q - 1, by omega⟩
  rw [show 2 * (p + 1) = 2 * p + 1 + 1 by ring, sum_range_succ, sum_range_succ', sum_even_odd, sum_add_distrib,
    show (2 * p + 1) / 2 = p by omega, show 2 * p / 2 = p by omega, show 2 * p + 1 + 1 - 1 = 2 * p + 1 by omega]
  simp only [Nat.add_sub_cancel]
  ring

/-- The value of DCT4 at the angle `φ`, from the two type-3 sums. -/
theorem dct4_angle {q : ℕ} (hq : 1 ≤ q) (x : ℕ → ℝ) (φ : ℝ) (hφ : cos (4 * q * φ) = 0) :
    ∑ i ∈ range (2 * q), x i * cos ((2 * i + 1) * φ) =
      (∑ i ∈ range q, Spec.halfAt 0 i * aIn x i * cos (4 * i * φ)) * cos φ +
      (∑ i ∈ range q, Spec.halfAt (q - 1) i * bIn q x i * sin (4 * (i + 1) * φ)) * sin φ := by
  rw [sum_ends hq, sum_aIn hq x (fun i => cos (4 * i * φ)), sum_bIn hq x (fun i => sin (4 * (i + 1) * φ))]
  have e1 : ((2 * q - 1 : ℕ) : ℝ) = 2 * q - 1 := by rw [Nat.cast_sub (by omega)]; push_cast; ring
  have e2 : ((q - 1 : ℕ) : ℝ) = q - 1 := by rw [Nat.cast_sub (by omega)]; push_cast; ring
  rw [e1, e2, show (2 * (2 * (q : ℝ) - 1) + 1) * φ = 4 * q * φ - φ by ring, cos_sub, hφ, show 4 * ((q : ℝ) - 1 + 1) * φ = 4 * q * φ by ring]
  have : ∀ m ∈ range (q - 1), (x (2 * m + 1) * cos ((2 * ((2 * m + 1 : ℕ) : ℝ) + 1) * φ) +
      x (2 * m + 2) * cos ((2 * ((2 * m + 2 : ℕ) : ℝ) + 1) * φ)) =
      (x (2 * m + 1) + x (2 * m + 2)) * cos (4 * ((m + 1 : ℕ) : ℝ) * φ) * cos φ +
      (x (2 * m + 1) - x (2 * m + 2)) * sin (4 * ((m : ℝ) + 1) * φ) * sin φ := by
    intro m hm
    push_cast
    rw [show (2 * (2 * (m : ℝ) + 1) + 1) * φ = 4 * (m + 1) * φ - φ by ring,
      show (2 * (2 * (m : ℝ) + 2) + 1) * φ = 4 * (m + 1) * φ + φ by ring, cos_sub, cos_add]
    ring
  rw [sum_congr rfl this, sum_add_distrib, ← sum_mul, ← sum_mul]
  simp only [Nat.cast_zero, mul_zero, zero_mul, zero_add, cos_zero, one_mul]
  ring

theorem dst4_angle {q : ℕ} (hq : 1 ≤ q) (x : ℕ → ℝ) (φ : ℝ) (hφ : cos (4 * q * φ) = 0) :
    ∑ i ∈ range (2 * q), x i * sin ((2 * i + 1) * φ) =
      (∑ i ∈ range q, Spec.halfAt (q - 1) i * (if i = q - 1 then x (2 * q - 1) * 2 else x (2 * i + 1) + x (2 * i + 2)) *
        sin (4 * (i + 1) * φ)) * cos φ +
      (∑ i ∈ range q, Spec.halfAt 0 i * (if i = 0 then x 0 * 2 else x (2 * i) - x (2 * i - 1)) * cos (4 * i * φ)) * sin φ := by
  have A := sum_aIn hq (fun i => if i % 2 = 1 then -x i else x i) (fun i => cos (4 * i * φ))
  have B := sum_bIn hq (fun i => if i % 2 = 0 then -x i else x i) (fun i => sin (4 * (i + 1) * φ))
  have A' : ∀ i, aIn (fun i => if i % 2 = 1 then -x i else x i) i = if i = 0 then x 0 * 2 else x (2 * i) - x (2 * i - 1) := by
    intro i
    unfold aIn
    beta_reduce
    by_cases h : i = 0
    · simp [h]
    · rw [if_neg h, if_neg h, if_pos (by omega), if_neg (by omega)]; ring
  have B' : ∀ i, bIn q (fun i => if i % 2 = 0 then -x i else x i) i =
      if i = q - 1 then x (2 * q - 1) * 2 else x (2 * i + 1) + x (2 * i + 2) := by
    intro i
    unfold bIn
    beta_reduce
    by_cases h : i = q - 1
    · rw [if_pos h, if_pos h, if_neg (by omega)]
    · rw [if_neg h, if_neg h, if_neg (by omega), if_pos (by omega)]; ring
  simp only [A'] at A
  simp only [B'] at B
  rw [A, B, sum_ends hq]
  have e1 : ((2 * q - 1 : ℕ) : ℝ) = 2 * q - 1 := by rw [Nat.cast_sub (by omega)]; push_cast; ring
  have e2 : ((q - 1 : ℕ) : ℝ) = q - 1 := by rw [Nat.cast_sub (by omega)]; push_cast; ring
  rw [e1, e2, show (2 * (2 * (q : ℝ) - 1) + 1) * φ = 4 * q * φ - φ by ring, sin_sub, hφ, show 4 * ((q : ℝ) - 1 + 1) * φ = 4 * q * φ by ring]
  have : ∀ m ∈ range (q - 1), (x (2 * m + 1) * sin ((2 * ((2 * m + 1 : ℕ) : ℝ) + 1) * φ) +
      x (2 * m + 2) * sin ((2 * ((2 * m + 2 : ℕ) : ℝ) + 1) * φ)) =
      (x (2 * m + 1) + x (2 * m + 2)) * sin (4 * ((m : ℝ) + 1) * φ) * cos φ +
      (x (2 * m + 2) - x (2 * m + 1)) * cos (4 * ((m + 1 : ℕ) : ℝ) * φ) * sin φ := by
    intro m hm
    push_cast
    rw [show (2 * (2 * (m : ℝ) + 1) + 1) * φ = 4 * (m + 1) * φ - φ by ring,
      show (2 * (2 * (m : ℝ) + 2) + 1) * φ = 4 * (m + 1) * φ + φ by ring, sin_sub, sin_add]
    ring
  rw [sum_congr rfl this, sum_add_distrib, ← sum_mul, ← sum_mul]
  have s1 : ∑ m ∈ range (q - 1), ((if (2 * m + 1) % 2 = 1 then -x (2 * m + 1) else x (2 * m + 1)) +
      (if (2 * m + 2) % 2 = 1 then -x (2 * m + 2) else x (2 * m + 2))) * cos (4 * ((m + 1 : ℕ) : ℝ) * φ) =
      ∑ m ∈ range (q - 1), (x (2 * m + 2) - x (2 * m + 1)) * cos (4 * ((m + 1 : ℕ) : ℝ) * φ) := by
    refine sum_congr rfl fun m hm => ?_
    rw [if_pos (by omega), if_neg (by omega)]; ring
  have s2 : ∑ m ∈ range (q - 1), ((if (2 * m + 1) % 2 = 0 then -x (2 * m + 1) else x (2 * m + 1)) -
      (if (2 * m + 2) % 2 = 0 then -x (2 * m + 2) else x (2 * m + 2))) * sin (4 * ((m : ℝ) + 1) * φ) =
      ∑ m ∈ range (q - 1), (x (2 * m + 1) + x (2 * m + 2)) * sin (4 * ((m : ℝ) + 1) * φ) := by
    refine sum_congr rfl fun m hm => ?_
    rw [if_neg (by omega), if_pos (by omega)]; ring
  rw [s1, s2, if_neg (by omega), if_neg (by omega)]
  simp only [Nat.cast_zero, mul_zero, zero_mul, zero_add, cos_zero, one_mul]
  ring

/-- Output angle of a type 4 transform of size `2q`. -/
theorem th4_eq {q : ℕ} (hq : 1 ≤ q) (k : ℕ) (i : ℝ) :
    ((k : ℝ) + 1 / 2) * (i + 1 / 2) * π / ((2 * q : ℕ) : ℝ) = (2 * i + 1) * th4 q k := by
  have z : (q : ℝ) ≠ 0 := by exact_mod_cast (by omega : q ≠ 0)
  unfold th4; push_cast; field_simp; ring

theorem th4_mirror {q : ℕ} (hq : 1 ≤ q) {k : ℕ} (hk : k < 2 * q) : th4 q (2 * q - 1 - k) = π / 2 - th4 q k := by
  have z : (q : ℝ) ≠ 0 := by exact_mod_cast (by omega : q ≠ 0)
  unfold th4; rw [cast_mirror hk]; push_cast; field_simp; ring

theorem cos_th4_self {q : ℕ} (hq : 1 ≤ q) (k : ℕ) : cos (4 * q * th4 q k) = 0 := by
  have z : (q : ℝ) ≠ 0 := by exact_mod_cast (by omega : q ≠ 0)
  rw [show 4 * q * th4 q k = π * k + π / 2 by unfold th4; field_simp; ring, cos_half_odd]

theorem dct3At_th4 {q : ℕ} (hq : 1 ≤ q) (a : ℕ → ℝ) (k : ℕ) :
    Spec.dct3At q a k = ∑ i ∈ range q, Spec.halfAt 0 i * a i * cos (4 * i * th4 q k) := by
  have z : (q : ℝ) ≠ 0 := by exact_mod_cast (by omega : q ≠ 0)
  unfold Spec.dct3At th4
  refine sum_congr rfl fun i hi => ?_
  congr 2; field_simp; ring

theorem dst3At_th4 {q : ℕ} (hq : 1 ≤ q) (a : ℕ → ℝ) (k : ℕ) :
    Spec.dst3At q a k = ∑ i ∈ range q, Spec.halfAt (q - 1) i * a i * sin (4 * (i + 1) * th4 q k) := by
  have z : (q : ℝ) ≠ 0 := by exact_mod_cast (by omega : q ≠ 0)
  unfold Spec.dst3At th4
  refine sum_congr rfl fun i hi => ?_
  congr 2; field_simp; ring

theorem cos_four_mirror (i : ℕ) (t : ℝ) : cos (4 * i * (π / 2 - t)) = cos (4 * i * t) := by
  rw [show 4 * (i : ℝ) * (π / 2 - t) = 2 * π * i - 4 * i * t by ring, cos_nat_two_pi_sub]
theorem sin_four_mirror (i : ℕ) (t : ℝ) : sin (4 * ((i : ℝ) + 1) * (π / 2 - t)) = -sin (4 * (i + 1) * t) := by
  rw [show 4 * ((i : ℝ) + 1) * (π / 2 - t) = 2 * π * (i + 1 : ℕ) - 4 * (i + 1) * t by push_cast; ring, sin_nat_two_pi_sub]

theorem dct4At_low3 {q : ℕ} (hq : 1 ≤ q) (x : ℕ → ℝ) (k : ℕ) :
    Spec.dct4At (2 * q) x k = Spec.dct3At q (aIn x) k * cos (th4 q k) + Spec.dst3At q (bIn q x) k * sin (th4 q k) := by
  unfold Spec.dct4At
  simp only [th4_eq hq k]
  rw [dct4_angle hq x _ (cos_th4_self hq k), dct3At_th4 hq, dst3At_th4 hq]

theorem dct4At_high3 {q : ℕ} (hq : 1 ≤ q) (x : ℕ → ℝ) {k : ℕ} (hk : k < 2 * q) :
    Spec.dct4At (2 * q) x (2 * q - 1 - k) =
      Spec.dct3At q (aIn x) k * sin (th4 q k) - Spec.dst3At q (bIn q x) k * cos (th4 q k) := by
  unfold Spec.dct4At
  simp only [th4_eq hq]
  rw [dct4_angle hq x _ (cos_th4_self hq _), dct3At_th4 hq, dst3At_th4 hq, th4_mirror hq hk, cos_pi_div_two_sub,
    sin_pi_div_two_sub]
  simp only [cos_four_mirror, sin_four_mirror, mul_neg, sum_neg_distrib]
  ring

theorem dst4At_low3 {q : ℕ} (hq : 1 ≤ q) (x : ℕ → ℝ) (k : ℕ) :
    Spec.dst4At (2 * q) x k =
      Spec.dst3At q (fun i => if i = q - 1 then x (2 * q - 1) * 2 else x (2 * i + 1) + x (2 * i + 2)) k * cos (th4 q k) +
      Spec.dct3At q (fun i => if i = 0 then x 0 * 2 else x (2 * i) - x (2 * i - 1)) k * sin (th4 q k) := by
  unfold Spec.dst4At
  simp only [th4_eq hq k]
  rw [dst4_angle hq x _ (cos_th4_self hq k), dct3At_th4 hq, dst3At_th4 hq]

theorem dst4At_high3 {q : ℕ} (hq : 1 ≤ q) (x : ℕ → ℝ) {k : ℕ} (hk : k < 2 * q) :
    Spec.dst4At (2 * q) x (2 * q - 1 - k) =
      Spec.dct3At q (fun i => if i = 0 then x 0 * 2 else x (2 * i) - x (2 * i - 1)) k * cos (th4 q k) -
      Spec.dst3At q (fun i => if i = q - 1 then x (2 * q - 1) * 2 else x (2 * i + 1) + x (2 * i + 2)) k * sin (th4 q k) := by
  unfold Spec.dst4At
  simp only [th4_eq hq]
  rw [dst4_angle hq x _ (cos_th4_self hq _), dct3At_th4 hq, dst3At_th4 hq, th4_mirror hq hk, cos_pi_div_two_sub,
    sin_pi_div_two_sub]
  simp only [cos_four_mirror, sin_four_mirror, mul_neg, sum_neg_distrib]
  ring

end RustDct
