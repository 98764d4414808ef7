import Verif.Proofs.Mdct
import Verif.Proofs.ConvertReal
/-!
# Over ℝ both MDCT algorithms compute the defining sums
-/

set_option linter.all false

namespace RustDct
open Real Finset

/-- The `2n` samples of one MDCT block: first `a`, then `b`. -/
noncomputable def cat (n : ℕ) (a b : ℕ → ℝ) (i : ℕ) : ℝ := if i < n then a i else b (i - n)

theorem mdctSum_real (L : ℕ) (t : ℕ → ℝ) (v : ℕ → ℝ → ℝ) (stride : ℕ) (acc : ℝ) (idx cnt : ℕ) :
    mdctSum L t v stride acc idx cnt = acc + ∑ i ∈ range cnt, v i (t ((idx + stride * i) % L)) := by
  unfold mdctSum
  induction cnt with
  | zero => simp
  | succ m ih =>
    rw [List.range_succ, List.foldl_append, ih, Finset.sum_range_succ]
    simp [add_assoc]

/-! ### MdctNaive -/

/-- The object built by `MdctNaive::new` when the window has the right length. -/
noncomputable def MdctNaive.inst (n : ℕ) (w : ℕ → ℝ) : MdctNaive ℝ :=
  ⟨vec (4 * n) fun i => cos (1 / 2 * π / n * (i + 1 / 2)), vec (2 * n) w⟩

theorem MdctNaive.new_real {n : ℕ} (hn : n % 2 = 0) {windowFn : ℕ → List ℝ} {w : ℕ → ℝ} (hw : windowFn (n * 2) = vec (2 * n) w) :
    (MdctNaive.new n windowFn : Except Err (MdctNaive ℝ)) = .ok (MdctNaive.inst n w) := by
  unfold MdctNaive.new MdctNaive.inst
  simp only [hn, not_true_eq_false, if_false, hw, length_vec, Nat.mul_comm 2 n, ne_eq, map_range_eq_vec, Nat.mul_comm 4 n]
  rfl

theorem mdct_angle {n : ℕ} (hn : n % 2 = 0) (h1 : 1 ≤ n) (idx : ℕ) :
    cos (1 / 2 * π / n * (((idx % (4 * n) : ℕ) : ℝ) + 1 / 2)) = cos (1 / 2 * π / n * ((idx : ℝ) + 1 / 2)) := by
  have hn0 : (n : ℝ) ≠ 0 := by exact_mod_cast (by omega : n ≠ 0)
  exact cos_mod (c := 1 / 2 * π / n) (L := 4 * n) (by push_cast; field_simp; ring) (1 / 2) idx

theorem half_cast {n : ℕ} (hn : n % 2 = 0) : ((n / 2 : ℕ) : ℝ) = n / 2 := by
  rw [Nat.cast_div (Nat.dvd_of_mod_eq_zero hn) (by norm_num)]; norm_num

theorem MdctNaive.correct_mdct {n : ℕ} (hn : n % 2 = 0) (w : ℕ → ℝ) :
    RunsM (MdctNaive.inst n w).mdct n 0 (fun a b => Spec.mdctAt n w (cat n a b)) :=
  (MdctNaive.mdct_vec hn _ w).congr fun a b k hk => by
    have hn0 : (n : ℝ) ≠ 0 := by exact_mod_cast (by omega : n ≠ 0)
    dsimp only
    rw [mdctSum_real, mdctSum_real]
    unfold Spec.mdctAt
    rw [two_mul, sum_range_add, zero_add]
    congr 1
    · refine sum_congr rfl fun i hi => ?_
      have hi' := mem_range.1 hi
      rw [Nat.mod_add_mod, mdct_angle hn (by omega)]
      unfold cat
      rw [if_pos hi', show 1 / 2 * π / (n : ℝ) * (((n / 2 + k * (n + 1) + (k * 2 + 1) * i : ℕ) : ℝ) + 1 / 2) =
        π / n * (i + 1 / 2 + n / 2) * (k + 1 / 2) by push_cast; rw [half_cast hn]; field_simp; ring]
      ring
    · refine sum_congr rfl fun i hi => ?_
      have hi' := mem_range.1 hi
      rw [Nat.mod_add_mod, Nat.add_assoc, Nat.mod_add_mod, mdct_angle hn (by omega)]
      unfold cat
      rw [if_neg (by omega), Nat.add_sub_cancel_left, show 1 / 2 * π / (n : ℝ) * (((n / 2 + k * (n + 1) + ((k * 2 + 1) * n + (k * 2 + 1) * i) : ℕ) : ℝ) + 1 / 2) =
        π / n * (((n + i : ℕ) : ℝ) + 1 / 2 + n / 2) * (k + 1 / 2) by push_cast; rw [half_cast hn]; field_simp; ring, Nat.add_comm i n]
      ring

theorem MdctNaive.correct_imdct {n : ℕ} (hn : n % 2 = 0) (w : ℕ → ℝ) :
    RunsI (MdctNaive.inst n w).imdct n 0 (fun X o k => o k + Spec.imdctAt n w X k) (fun X o k => o k + Spec.imdctAt n w X (n + k)) :=
  (MdctNaive.imdct_vec hn _ w).congr
    (fun X o k hk => by
      have hn0 : (n : ℝ) ≠ 0 := by exact_mod_cast (by omega : n ≠ 0)
      rw [mdctSum_real, zero_add, mul_comm]
      unfold Spec.imdctAt
      congr 2
      refine sum_congr rfl fun i hi => ?_
      rw [mdct_angle hn (by omega)]
      congr 2
      push_cast; rw [half_cast hn]; field_simp; ring)
    (fun X o k hk => by
      have hn0 : (n : ℝ) ≠ 0 := by exact_mod_cast (by omega : n ≠ 0)
      rw [mdctSum_real, zero_add, mul_comm, Nat.add_comm k n]
      unfold Spec.imdctAt
      congr 2
      refine sum_congr rfl fun i hi => ?_
      rw [mdct_angle hn (by omega)]
      congr 1
      unfold imdctTw
      by_cases h : k < n / 2
      · rw [if_pos h, show 4 * n - n * 2 + n / 2 - k - 1 + (n - 1 - k * 2) * i = 2 * n + n / 2 - 1 - k + (n - 1 - k * 2) * i by omega]
        rw [← cos_nat_two_pi_sub (i + 1)]
        congr 1
        rw [Nat.cast_add i 1, Nat.cast_add (2 * n + n / 2 - 1 - k), Nat.cast_mul, Nat.cast_sub (by omega), Nat.cast_sub (by omega), Nat.cast_sub (by omega), Nat.cast_sub (by omega)]
        push_cast; rw [half_cast hn]; field_simp; ring
      · rw [if_neg h, show 4 * n - n * 2 + n / 2 - (n - k - 1) - 1 + (n - 1 - (n - k - 1) * 2) * i = n + n / 2 + k + (2 * k + 1 - n) * i by
          rw [show n - 1 - (n - k - 1) * 2 = 2 * k + 1 - n by omega]; omega]
        rw [← cos_nat_two_pi_add i]
        congr 1
        rw [Nat.cast_add, Nat.cast_mul, Nat.cast_sub (by omega)]
        push_cast; rw [half_cast hn]; field_simp; ring)

/-! ### MdctViaDct4 -/

theorem MdctViaDct4.new_eq {T : Type} {F : Type} [F64 F] [DctNum T F] {g : ℕ} {dct : Obj4 T} (hl : dct.len = 2 * g) {windowFn : ℕ → List T} {w : ℕ → T}
    (hw : windowFn (2 * g * 2) = vec (4 * g) w) :
    MdctViaDct4.new dct windowFn = .ok ⟨dct, vec (4 * g) w, 2 * g + dct.scratchLen⟩ := by
  unfold MdctViaDct4.new
  simp only [hl, hw, length_vec]
  rw [if_neg (by omega), if_neg (by omega)]

/-- Folding the `2n` windowed samples: the MDCT is the DCT4 of the folded block. -/
theorem mdctAt_fold {g : ℕ} (w a b : ℕ → ℝ) (k : ℕ) :
    Spec.mdctAt (2 * g) w (cat (2 * g) a b) k = Spec.dct4At (2 * g) (mdctFold g w a b) k := by
  rcases Nat.eq_zero_or_pos g with h0 | h0
  · subst h0; simp [Spec.mdctAt, Spec.dct4At]
  have hg : (g : ℝ) ≠ 0 := by exact_mod_cast (by omega : g ≠ 0)
  unfold Spec.mdctAt Spec.dct4At
  -- the kernel at virtual position j
  set c : ℕ → ℝ := fun j => cos (((j : ℝ) + 1 / 2) * (k + 1 / 2) * π / ((2 * g : ℕ) : ℝ)) with hc
  have cA : ∀ i : ℕ, cos (π / ((2 * g : ℕ) : ℝ) * ((i : ℝ) + 1 / 2 + ((2 * g : ℕ) : ℝ) / 2) * (k + 1 / 2)) = c (g + i) := by
    intro i; simp only [hc]; congr 1; push_cast; field_simp; ring
  have cR : ∀ j : ℕ, j < 4 * g → c (4 * g - 1 - j) = -c j := by
    intro j hj
    simp only [hc]
    rw [← cos_add_pi, ← cos_nat_two_pi_sub (k + 1), Nat.cast_sub (by omega), Nat.cast_sub (by omega)]
    congr 1; push_cast; field_simp; ring
  have cP : ∀ j : ℕ, c (4 * g + j) = -c j := by
    intro j
    simp only [hc]
    symm
    rw [← cos_add_pi, ← cos_nat_two_pi_add k]
    congr 1; push_cast; field_simp; ring
  have e1 : ∑ i ∈ range (2 * (2 * g)), w i * cat (2 * g) a b i * cos (π / ((2 * g : ℕ) : ℝ) * ((i : ℝ) + 1 / 2 + ((2 * g : ℕ) : ℝ) / 2) * (k + 1 / 2)) =
      ∑ i ∈ range (g + g + g + g), w i * cat (2 * g) a b i * c (g + i) := by
    rw [show 2 * (2 * g) = g + g + g + g by omega]
    exact sum_congr rfl fun i hi => by rw [cA i]
  rw [e1, sum_range_add, sum_range_add, sum_range_add]
  have r2 : ∑ i ∈ range g, w (g + i) * cat (2 * g) a b (g + i) * c (g + (g + i)) =
      ∑ i ∈ range g, -(a (2 * g - 1 - i) * w (2 * g - 1 - i)) * c (g + i) := by
    rw [← sum_range_reflect]
    refine sum_congr rfl fun i hi => ?_
    have hi' := mem_range.1 hi
    rw [show g + (g - 1 - i) = 2 * g - 1 - i by omega, show g + (2 * g - 1 - i) = 4 * g - 1 - (g + i) by omega, cR _ (by omega)]
    unfold cat
    rw [if_pos (by omega)]
    ring
  have r3 : ∑ i ∈ range g, w (g + g + i) * cat (2 * g) a b (g + g + i) * c (g + (g + g + i)) =
      ∑ i ∈ range g, -(b (g - 1 - i) * w (2 * g + (g - 1 - i))) * c i := by
    rw [← sum_range_reflect]
    refine sum_congr rfl fun i hi => ?_
    have hi' := mem_range.1 hi
    rw [show g + (g + g + (g - 1 - i)) = 4 * g - 1 - i by omega, cR _ (by omega)]
    unfold cat
    rw [if_neg (by omega), show g + g + (g - 1 - i) - 2 * g = g - 1 - i by omega, show g + g = 2 * g by omega]
    ring
  have r4 : ∑ i ∈ range g, w (g + g + g + i) * cat (2 * g) a b (g + g + g + i) * c (g + (g + g + g + i)) =
      ∑ i ∈ range g, -(b (g + i) * w (2 * g + (g + i))) * c i := by
    refine sum_congr rfl fun i hi => ?_
    rw [show g + (g + g + g + i) = 4 * g + i by omega, cP]
    unfold cat
    rw [if_neg (by omega), show g + g + g + i - 2 * g = g + i by omega, show g + g + g + i = 2 * g + (g + i) by omega]
    ring
  rw [r2, r3, r4]
  rw [show 2 * g = g + g by omega] 
  rw [sum_range_add]
  have q1 : ∑ i ∈ range g, mdctFold g w a b i * cos (((k : ℝ) + 1 / 2) * (i + 1 / 2) * π / ((g + g : ℕ) : ℝ)) =
      ∑ i ∈ range g, -(b (g - 1 - i) * w (2 * g + (g - 1 - i))) * c i + ∑ i ∈ range g, -(b (g + i) * w (2 * g + (g + i))) * c i := by
    rw [← sum_add_distrib]
    refine sum_congr rfl fun i hi => ?_
    unfold mdctFold
    rw [if_pos (mem_range.1 hi)]
    simp only [hc, ← two_mul, mul_comm ((k : ℝ) + 1 / 2)]
    ring
  have q2 : ∑ i ∈ range g, mdctFold g w a b (g + i) * cos (((k : ℝ) + 1 / 2) * (((g + i : ℕ) : ℝ) + 1 / 2) * π / ((g + g : ℕ) : ℝ)) =
      ∑ i ∈ range g, w i * cat (2 * g) a b i * c (g + i) + ∑ i ∈ range g, -(a (2 * g - 1 - i) * w (2 * g - 1 - i)) * c (g + i) := by
    rw [← sum_add_distrib]
    refine sum_congr rfl fun i hi => ?_
    unfold mdctFold cat
    have := mem_range.1 hi
    rw [if_neg (by omega), if_pos (by omega), Nat.add_sub_cancel_left]
    simp only [hc, ← two_mul, mul_comm ((k : ℝ) + 1 / 2)]
    ring
  rw [q1, q2]
  simp only [← two_mul]
  ring

theorem MdctViaDct4.correct_mdct {g s : ℕ} (w : ℕ → ℝ) {dct : Obj4 ℝ} (hl : dct.len = 2 * g)
    (hD : RunsW dct.dct4 (2 * g) dct.scratchLen (Spec.dct4At (2 * g))) (hs : s = 2 * g + dct.scratchLen) :
    RunsM (MdctViaDct4.mdct ⟨dct, vec (4 * g) w, s⟩) (2 * g) s (fun a b => Spec.mdctAt (2 * g) w (cat (2 * g) a b)) :=
  (MdctViaDct4.mdct_vec w hl hD hs).congr fun a b k hk => (mdctAt_fold w a b k).symm

theorem imdct_kernel {g : ℕ} (h0 : 1 ≤ g) (X : ℕ → ℝ) :
    ∃ C : ℕ → ℝ, (∀ w : ℕ → ℝ, ∀ i, Spec.imdctAt (2 * g) w X i = w i * C (g + i)) ∧ (∀ j, Spec.dct4At (2 * g) X j = C j) ∧
      (∀ j, j < 4 * g → C (4 * g - 1 - j) = -C j) ∧ (∀ j, C (4 * g + j) = -C j) := by
  have hg : (g : ℝ) ≠ 0 := by exact_mod_cast (by omega : g ≠ 0)
  refine ⟨fun j => ∑ k ∈ range (2 * g), X k * cos (((k : ℝ) + 1 / 2) * (j + 1 / 2) * π / ((2 * g : ℕ) : ℝ)), ?_, ?_, ?_, ?_⟩
  · intro w i
    unfold Spec.imdctAt
    congr 1
    refine sum_congr rfl fun k hk => ?_
    congr 2; push_cast; field_simp; ring
  · intro j
    unfold Spec.dct4At
    refine sum_congr rfl fun k hk => ?_
    congr 2; ring
  · intro j hj
    rw [← sum_neg_distrib]
    refine sum_congr rfl fun k hk => ?_
    rw [← mul_neg]
    congr 1
    rw [← cos_add_pi, ← cos_nat_two_pi_sub (k + 1), Nat.cast_sub (by omega), Nat.cast_sub (by omega)]
    congr 1; push_cast; field_simp; ring
  · intro j
    beta_reduce
    rw [← sum_neg_distrib]
    refine sum_congr rfl fun k hk => ?_
    rw [← mul_neg]
    congr 1
    symm
    rw [← cos_add_pi, ← cos_nat_two_pi_add k]
    congr 1; push_cast; field_simp; ring

theorem MdctViaDct4.correct_imdct {g s : ℕ} (w : ℕ → ℝ) {dct : Obj4 ℝ} (hl : dct.len = 2 * g)
    (hD : RunsW dct.dct4 (2 * g) dct.scratchLen (Spec.dct4At (2 * g))) (hs : s = 2 * g + dct.scratchLen) :
    RunsI (MdctViaDct4.imdct ⟨dct, vec (4 * g) w, s⟩) (2 * g) s
      (fun X o k => o k + Spec.imdctAt (2 * g) w X k) (fun X o k => o k + Spec.imdctAt (2 * g) w X (2 * g + k)) :=
  (MdctViaDct4.imdct_vec w hl hD hs).congr
    (fun X o k hk => by
      obtain ⟨C, c1, c2, c3, c4⟩ := imdct_kernel (g := g) (by omega) X
      rw [c1, c2, c2]
      split_ifs with h
      · ring
      · have := c3 (3 * g - 1 - k) (by omega)
        rw [show 4 * g - 1 - (3 * g - 1 - k) = g + k by omega] at this
        rw [this]; ring)
    (fun X o k hk => by
      obtain ⟨C, c1, c2, c3, c4⟩ := imdct_kernel (g := g) (by omega) X
      rw [c1, c2, c2]
      split_ifs with h
      · have := c3 (g - 1 - k) (by omega)
        rw [show 4 * g - 1 - (g - 1 - k) = g + (2 * g + k) by omega] at this
        rw [this]; ring
      · have := c4 (k - g)
        rw [show 4 * g + (k - g) = g + (2 * g + k) by omega] at this
        rw [this]; ring)

end RustDct
