import Verif.Proofs.SplitRadix
import Verif.Proofs.ButterfliesReal
/-!
# Over ℝ split radix and the even type 4 conversion compute the defining sums, given correct inner transforms
-/

set_option linter.all false

namespace RustDct
open Real Finset

theorem dct2At_congr {n : ℕ} {f g : ℕ → ℝ} (h : ∀ i, i < n → f i = g i) (k : ℕ) : Spec.dct2At n f k = Spec.dct2At n g k := by
  unfold Spec.dct2At
  exact sum_congr rfl fun i hi => by rw [h i (mem_range.1 hi)]
theorem dct3At_congr {n : ℕ} {f g : ℕ → ℝ} (h : ∀ i, i < n → f i = g i) (k : ℕ) : Spec.dct3At n f k = Spec.dct3At n g k := by
  unfold Spec.dct3At
  exact sum_congr rfl fun i hi => by rw [h i (mem_range.1 hi)]
theorem dst2At_congr {n : ℕ} {f g : ℕ → ℝ} (h : ∀ i, i < n → f i = g i) (k : ℕ) : Spec.dst2At n f k = Spec.dst2At n g k := by
  unfold Spec.dst2At
  exact sum_congr rfl fun i hi => by rw [h i (mem_range.1 hi)]
theorem dst3At_congr {n : ℕ} {f g : ℕ → ℝ} (h : ∀ i, i < n → f i = g i) (k : ℕ) : Spec.dst3At n f k = Spec.dst3At n g k := by
  unfold Spec.dst3At
  exact sum_congr rfl fun i hi => by rw [h i (mem_range.1 hi)]

theorem dct2At_smul {n : ℕ} (c : ℝ) (f : ℕ → ℝ) (k : ℕ) : Spec.dct2At n (fun i => c * f i) k = c * Spec.dct2At n f k := by
  unfold Spec.dct2At
  rw [mul_sum]
  exact sum_congr rfl fun i hi => by ring

theorem neg_one_pow_sub_one {m j : ℕ} (h : j ≤ m) : ((-1 : ℝ)) ^ (m - j) = (-1) ^ m * (-1) ^ j := by
  obtain ⟨c, rfl⟩ := Nat.exists_eq_add_of_le h
  rw [Nat.add_sub_cancel_left, pow_add]
  have : ((-1 : ℝ)) ^ j * (-1) ^ j = 1 := by rw [← pow_add]; exact Even.neg_one_pow ⟨j, rfl⟩
  calc ((-1 : ℝ)) ^ c = ((-1) ^ j * (-1) ^ j) * (-1) ^ c := by rw [this]; ring
    _ = _ := by ring

theorem ite_neg_pow (i : ℕ) (v : ℝ) : (if i % 2 = 0 then v else -v) = (-1) ^ i * v := by
  split_ifs with h
  · rw [Even.neg_one_pow (Nat.even_iff.2 h)]; ring
  · rw [Odd.neg_one_pow (Nat.odd_iff.2 (by omega))]; ring

/-- The twiddles of split radix and of the even type 4 conversion. -/
theorem sr_twiddle {q L i : ℕ} (hL : L = 16 * q) :
    (Cx.conj (singleTwiddle (2 * i + 1) L) : Cx ℝ) = ⟨cos (th4 q i), sin (th4 q i)⟩ := by
  rw [← twiddle_cos (i := i) hL, ← twiddle_sin (i := i) hL]

noncomputable def srTw (q : ℕ) : ℕ → Cx ℝ := fun i => ⟨cos (th4 q i), sin (th4 q i)⟩

theorem sr2_out {q : ℕ} (hq : 1 ≤ q) (f : ℕ → ℝ) {k : ℕ} (hk : k < 4 * q) :
    sr2Out q (Spec.dct2At (2 * q) (sr2Half q f)) (Spec.dct2At q (sr2Cos (srTw q) q f)) (Spec.dct2At q (sr2Sin (srTw q) q f)) k =
      Spec.dct2At (4 * q) f k := by
  have hA : ∀ j, Spec.dct2At (2 * q) (sr2Half q f) j = Spec.dct2At (2 * q) (rSum (4 * q) f) j := fun j =>
    dct2At_congr (fun i hi => by
      unfold sr2Half rSum
      rw [show 4 * q - i - 1 = 4 * q - 1 - i by omega]
      split_ifs <;> ring) j
  have hE : ∀ j, Spec.dct2At q (sr2Cos (srTw q) q f) j = Spec.dct2At q (rCos (4 * q) q f) j := fun j =>
    dct2At_congr (fun i hi => by
      unfold sr2Cos rCos cIn rDiff srTw
      rw [show 4 * q - i - 1 = 4 * q - 1 - i by omega, show 2 * q - i - 1 = 2 * q - 1 - i by omega,
        show 4 * q - 1 - (2 * q - 1 - i) = 2 * q + i by omega]) j
  have hO : ∀ j, j < q → Spec.dct2At q (sr2Sin (srTw q) q f) j = (-1) ^ (q - 1) * Spec.dst2At q (rSin (4 * q) q f) (q - 1 - j) := fun j hj => by
    rw [dst2At_eq _ hj, ← dct2At_smul]
    refine dct2At_congr (fun i hi => ?_) j
    unfold sr2Sin
    rw [ite_neg_pow, neg_one_pow_sub_one (by omega), mul_assoc]
    congr 2
    unfold sr2SinRaw rSin sIn rDiff srTw
    dsimp only
    rw [show 4 * q - 1 - (2 * q - 1 - (q - 1 - i)) = 2 * q + (q - 1 - i) by omega,
      show 2 * q - (q - 1 - i) - 1 = 2 * q - 1 - (q - 1 - i) by omega, show 4 * q - (q - 1 - i) - 1 = 4 * q - 1 - (q - 1 - i) by omega]
  have hsg : ∀ i, 1 ≤ i → i < q → -(if (i + q) % 2 = 0 then -(Spec.dct2At q (sr2Sin (srTw q) q f) (q - i)) else Spec.dct2At q (sr2Sin (srTw q) q f) (q - i)) =
      (-1) ^ (i - 1) * Spec.dst2At q (rSin (4 * q) q f) (i - 1) := fun i h1 h2 => by
    rw [hO _ (by omega), show q - 1 - (q - i) = i - 1 by omega]
    have hp : ((-1 : ℝ)) ^ (q - 1) = (-1) ^ (i + q) * (-1) ^ (i - 1) := by
      rw [← pow_add]
      rw [show i + q + (i - 1) = 2 * i + (q - 1) by omega, pow_add, pow_mul]; norm_num
    rw [hp]
    split_ifs with h3
    · rw [Even.neg_one_pow (Nat.even_iff.2 h3)]; ring
    · rw [Odd.neg_one_pow (Nat.odd_iff.2 (by omega) : Odd (i + q))]; ring
  unfold sr2Out
  by_cases h0 : k % 2 = 0
  · rw [if_pos h0, hA]
    exact (rec2_even (by omega) (by omega) f).symm
  rw [if_neg h0]
  by_cases h1 : k = 1
  · rw [if_pos h1, hE, h1]
    exact (rec2_one rfl f).symm
  rw [if_neg h1]
  by_cases h2 : k = 4 * q - 1
  · rw [if_pos h2, hO 0 (by omega), rec2_last (m := q - 1) rfl (by omega) (by omega) f, Nat.sub_zero]
  rw [if_neg h2]
  by_cases h3 : k % 4 = 1
  · rw [if_pos h3, sub_eq_add_neg, hsg _ (by omega) (by omega), hE, rec2_p1 (m := k / 4 - 1) rfl (by omega) f, show k / 4 - 1 + 1 = k / 4 by omega]
  · rw [if_neg h3]
    have := hsg (k / 4 + 1) (by omega) (by omega)
    rw [Nat.add_sub_cancel] at this
    rw [hE, rec2_m1 (m := k / 4) rfl (by omega) f, sub_eq_add_neg, ← this, neg_neg]

theorem sr3_out {q : ℕ} (hq : 1 ≤ q) (f : ℕ → ℝ) {k : ℕ} (hk : k < 4 * q) :
    sr3Out (srTw q) q (Spec.dct3At (2 * q) (sr3Even f)) (Spec.dct3At q (sr3N1 f)) (Spec.dct3At q (sr3N3 q f)) k =
      Spec.dct3At (4 * q) f k := by
  have hC : ∀ j, Spec.dct3At q (sr3N1 f) j = Spec.dct3At q (rA f) j := fun j =>
    dct3At_congr (fun i hi => by
      unfold sr3N1 rA aIn
      by_cases h : i = 0
      · simp [h]
      · rw [if_neg h, if_neg h]; beta_reduce; rw [show 2 * (2 * i - 1) + 1 = 4 * i - 1 by omega, show 2 * (2 * i) + 1 = 4 * i + 1 by omega]) j
  have hS : ∀ j, j < q → (if j % 2 = 0 then Spec.dct3At q (sr3N3 q f) j else -(Spec.dct3At q (sr3N3 q f) j)) = Spec.dst3At q (rB q f) j := fun j hj => by
    rw [ite_neg_pow, dst3At_eq _ hj]
    congr 1
    refine dct3At_congr (fun i hi => ?_) j
    unfold sr3N3 rB bIn
    by_cases h : i = 0
    · simp [h, show 2 * (2 * q - 1) + 1 = 4 * q - 1 by omega]
    · rw [if_neg h, if_neg (by omega)]; beta_reduce; rw [show 2 * (2 * (q - 1 - i) + 1) + 1 = 4 * (q - i) - 1 by omega, show 2 * (2 * (q - 1 - i) + 2) + 1 = 4 * (q - i) + 1 by omega]
  have hA : sr3Even f = rEven f := rfl
  have hL : ∀ j, j < q → sr3Low (srTw q) (Spec.dct3At q (sr3N1 f)) (Spec.dct3At q (sr3N3 q f)) j =
      Spec.dct3At q (rA f) j * cos (th4 q j) + Spec.dst3At q (rB q f) j * sin (th4 q j) := fun j hj => by
    unfold sr3Low
    rw [hS j hj, hC]; rfl
  have hH : ∀ j, j < q → sr3High (srTw q) (Spec.dct3At q (sr3N1 f)) (Spec.dct3At q (sr3N3 q f)) j =
      Spec.dct3At q (rA f) j * sin (th4 q j) - Spec.dst3At q (rB q f) j * cos (th4 q j) := fun j hj => by
    unfold sr3High
    rw [hS j hj, hC]; rfl
  unfold sr3Out
  rw [hA]
  by_cases h1 : k < q
  · rw [if_pos h1, hL k h1, rec3_low rfl rfl hq f]
  rw [if_neg h1]
  by_cases h2 : k < 2 * q
  · rw [if_pos h2, hH _ (by omega), rec3_mid_low (j := 2 * q - k - 1) rfl rfl (by omega) (by omega) f]
  rw [if_neg h2]
  by_cases h3 : k < 3 * q
  · rw [if_pos h3, hH _ (by omega), rec3_mid_high (j := k - 2 * q) (i := 4 * q - k - 1) rfl rfl (by omega) (by omega) (by omega) f]
  · rw [if_neg h3, hL _ (by omega), rec3_top (j := 4 * q - k - 1) rfl rfl (by omega) (by omega) f]

section
variable {q : ℕ} {half quarter : Obj23 ℝ} {sh sq : ℕ}

theorem sr_tw_eq (q : ℕ) : (fun i => Cx.conj (singleTwiddle (2 * i + 1) (4 * q * 4)) : ℕ → Cx ℝ) = srTw q :=
  funext fun i => sr_twiddle (by ring)

theorem Type2And3SplitRadix.correct_dct2 (hq : 1 ≤ q) (hsh : sh ≤ 4 * q) (hsq : sq ≤ 4 * q)
    (hh : RunsW half.dct2 (2 * q) sh (Spec.dct2At (2 * q))) (hqq : RunsW quarter.dct2 q sq (Spec.dct2At q)) :
    RunsV (Type2And3SplitRadix.inst q half quarter).dct2 (4 * q) (4 * q) (Spec.dct2At (4 * q)) :=
  (Type2And3SplitRadix.dct2_inst hq hsh hsq hh hqq).congr fun f k hk => by
    rw [sr_tw_eq]
    exact sr2_out hq f hk

theorem Type2And3SplitRadix.correct_dct3 (hq : 1 ≤ q) (hsh : sh ≤ 4 * q) (hsq : sq ≤ 4 * q)
    (hh : RunsW half.dct3 (2 * q) sh (Spec.dct3At (2 * q))) (hqq : RunsW quarter.dct3 q sq (Spec.dct3At q)) :
    RunsV (Type2And3SplitRadix.inst q half quarter).dct3 (4 * q) (4 * q) (Spec.dct3At (4 * q)) :=
  (Type2And3SplitRadix.dct3_inst hq hsh hsq hh hqq).congr fun f k hk => by
    rw [sr_tw_eq]
    exact sr3_out hq f hk

theorem Type2And3SplitRadix.correct_dst2 (hq : 1 ≤ q) (hsh : sh ≤ 4 * q) (hsq : sq ≤ 4 * q)
    (hh : RunsW half.dct2 (2 * q) sh (Spec.dct2At (2 * q))) (hqq : RunsW quarter.dct2 q sq (Spec.dct2At q)) :
    RunsV (Type2And3SplitRadix.inst q half quarter).dst2 (4 * q) (4 * q) (Spec.dst2At (4 * q)) :=
  (Type2And3SplitRadix.dst2_inst (Type2And3SplitRadix.correct_dct2 hq hsh hsq hh hqq)).congr fun f k hk => by
    rw [dst2_eq' (j := 4 * q - 1 - k) (by omega) (by omega)]
    refine dct2At_congr (fun i hi => ?_) _
    rw [← ite_neg_pow]
    by_cases h : i % 2 = 0
    · rw [if_pos h, if_neg (by omega)]
    · rw [if_neg h, if_pos (by omega)]

theorem Type2And3SplitRadix.correct_dst3 (hq : 1 ≤ q) (hsh : sh ≤ 4 * q) (hsq : sq ≤ 4 * q)
    (hh : RunsW half.dct3 (2 * q) sh (Spec.dct3At (2 * q))) (hqq : RunsW quarter.dct3 q sq (Spec.dct3At q)) :
    RunsV (Type2And3SplitRadix.inst q half quarter).dst3 (4 * q) (4 * q) (Spec.dst3At (4 * q)) :=
  (Type2And3SplitRadix.dst3_inst (Type2And3SplitRadix.correct_dct3 hq hsh hsq hh hqq)).congr fun f k hk => by
    rw [dst3At_eq f hk, ← ite_neg_pow]
    by_cases h : k % 2 = 0
    · rw [if_pos h, if_neg (by omega)]
    · rw [if_neg h, if_pos (by omega)]
end

section
variable {h : ℕ} {inner : Obj23 ℝ}

theorem t4_tw_eq (h : ℕ) : (fun i => Cx.conj (singleTwiddle (2 * i + 1) (2 * h * 8)) : ℕ → Cx ℝ) = srTw h :=
  funext fun i => sr_twiddle (by ring)

theorem Type4ConvertToType3Even.correct_dct4 (hh : 1 ≤ h)
    (hc : RunsW inner.dct3 h inner.scratchLen (Spec.dct3At h)) (hs : RunsW inner.dst3 h inner.scratchLen (Spec.dst3At h)) :
    RunsV (Type4ConvertToType3Even.inst h inner).dct4 (2 * h) (Type4ConvertToType3Even.inst h inner).scratchLen (Spec.dct4At (2 * h)) :=
  (Type4ConvertToType3Even.dct4_inst hh hc hs).congr fun f k hk => by
    rw [t4_tw_eq]
    have hL : t4L f = aIn f := by
      funext k; unfold t4L aIn; rw [ttwo_real]
    have hR : t4R h f = bIn h f := by
      funext k; unfold t4R bIn; rw [ttwo_real]
    unfold t4Out
    rw [hL, hR]
    by_cases h1 : k < h
    · rw [if_pos h1, dct4At_low3 hh]; rfl
    · rw [if_neg h1]
      obtain ⟨j, hj, rfl⟩ : ∃ j, j < h ∧ k = 2 * h - 1 - j := ⟨2 * h - 1 - k, by omega, by omega⟩
      rw [show 2 * h - 1 - (2 * h - 1 - j) = j by omega, dct4At_high3 hh _ (by omega)]; rfl

theorem Type4ConvertToType3Even.correct_dst4 (hh : 1 ≤ h)
    (hc : RunsW inner.dct3 h inner.scratchLen (Spec.dct3At h)) (hs : RunsW inner.dst3 h inner.scratchLen (Spec.dst3At h)) :
    RunsV (Type4ConvertToType3Even.inst h inner).dst4 (2 * h) (Type4ConvertToType3Even.inst h inner).scratchLen (Spec.dst4At (2 * h)) :=
  (Type4ConvertToType3Even.dst4_inst hh hc hs).congr fun f k hk => by
    rw [t4_tw_eq]
    have hL : t4L' h f = fun i => if i = h - 1 then f (2 * h - 1) * 2 else f (2 * i + 1) + f (2 * i + 2) := by
      funext k; unfold t4L'; rw [ttwo_real]
    have hR : t4R' f = fun i => if i = 0 then f 0 * 2 else f (2 * i) - f (2 * i - 1) := by
      funext k; unfold t4R'; rw [ttwo_real]
    unfold t4Out'
    rw [hL, hR]
    by_cases h1 : k < h
    · rw [if_pos h1, dst4At_low3 hh]; rfl
    · rw [if_neg h1]
      obtain ⟨j, hj, rfl⟩ : ∃ j, j < h ∧ k = 2 * h - 1 - j := ⟨2 * h - 1 - k, by omega, by omega⟩
      rw [show 2 * h - 1 - (2 * h - 1 - j) = j by omega, dst4At_high3 hh _ (by omega)]; rfl
end

end RustDct
