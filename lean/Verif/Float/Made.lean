import Verif.RoundingMade
import Verif.Float.Planned
import Verif.Float.Window
import Verif.Float.Mdct
import Verif.Proofs.MdctReal
import Verif.Proofs.MadeMdct
/-!
# Accuracy of the instances built with the public constructors
-/

set_option linter.all false

namespace RustDct
open Finset Real

variable {T F : Type} [F64 F] [DctNum T F] {R : Rounding T F}

/-! ### The contract and its form on sequences -/

theorem wnorm_vec (w : ℕ → ℝ) (n : ℕ) (f : ℕ → ℝ) : Spec.wnorm w (vec n f) = wn w n f := by
  unfold Spec.wnorm wn
  rw [length_vec]
  congr 1
  refine sum_congr rfl fun i hi => ?_
  rw [getD_vec (mem_range.1 hi)]
  simp

theorem TransAcc.iff_close {k : Kind} {n : ℕ} {C : (ℕ → T) → ℕ → T} {ε : ℝ} (hn : 1 ≤ n) (h1 : k = .dct1 → 2 ≤ n) :
    TransAcc R k n C ε ↔ ∀ f, Spec.Close (k.inv.weight n) ε ((vec n (C f)).map R.val) (k.spec ((vec n f).map R.val)) := by
  have e : ∀ f : ℕ → T, √(k.scale n) * (k.nm n).of (R.seq f) = (k.inv.nm n).of (k.specAt n (R.seq f)) := fun f => by
    have hp := k.parseval h1 (R.seq f)
    simp only [Kind.nm, Nm.w, wn, Real.norm_eq_abs, sq_abs]
    rw [← sqrt_mul (k.scale_nonneg hn)]
    congr 1
    simpa [pow_two] using hp.symm
  refine forall_congr' fun f => ?_
  rw [map_vec, map_vec, k.spec_vec, Spec.Close, zipWith_vec_same, wnorm_vec, wnorm_vec]
  rw [e]
  simp only [length_vec, true_and]
  rfl

theorem PAccW.accurateAs {k : Kind} {p : Proc T} {n s : ℕ} {ε : ℝ} (hn : 1 ≤ n) (h1 : k = .dct1 → 2 ≤ n) (h : PAccW R k p n s ε) : AccurateAs R k p n s ε := by
  obtain ⟨C, hC, ha⟩ := h
  rw [TransAcc.iff_close hn h1] at ha
  have hv : ∀ l : List T, l.length = n → vec n (fun i => l.getD i 0) = l := fun l hl => by
    obtain ⟨f, rfl⟩ := exists_vec hl
    exact vec_congr fun i hi => getD_vec hi
  refine ⟨fun l => vec n (C fun i => l.getD i 0), ?_, fun l hl => ?_⟩
  · rintro ⟨buf, scr⟩ ⟨hb, hs⟩
    obtain ⟨scr', e, hl⟩ := hC (fun i => buf.getD i 0) scr hs
    rw [hv buf hb] at e
    exact ⟨scr', e, hl⟩
  · have := ha fun i => l.getD i 0
    rwa [hv l hl] at this

theorem AccurateAs.accW {k : Kind} {p : Proc T} {n s : ℕ} {ε : ℝ} (hn : 1 ≤ n) (h1 : k = .dct1 → 2 ≤ n) (h : AccurateAs R k p n s ε) : PAccW R k p n s ε := by
  obtain ⟨G, hG, ha⟩ := h
  have hl : ∀ f : ℕ → T, G (vec n f) = vec n fun i => (G (vec n f)).getD i 0 := fun f => by
    have := (ha (vec n f) (length_vec _ _)).1
    rw [map_vec, k.spec_vec] at this
    have h2 : (G (vec n f)).length = n := by simpa using this
    obtain ⟨g, hg⟩ := exists_vec h2
    rw [hg]
    exact vec_congr fun i hi => (getD_vec hi).symm
  refine ⟨fun f i => (G (vec n f)).getD i 0, fun f scr hs => ?_, (TransAcc.iff_close hn h1).2 fun f => ?_⟩
  · obtain ⟨scr', e, hl'⟩ := hG ⟨vec n f, scr⟩ ⟨by simp, hs⟩
    rw [e]
    exact ⟨scr', by dsimp only; rw [← hl f], hl'⟩
  · rw [← hl f]
    exact ha _ (length_vec _ _)

theorem PAccW.approximates {k : Kind} {p : Proc T} {n s : ℕ} {ε : ℝ} (h : PAccW R k p n s ε) (hε : 0 ≤ ε) (hn : 1 ≤ n) (h1 : k = .dct1 → 2 ≤ n) :
    Approximates R p n s k.spec (k.boundary * ε) := by
  obtain ⟨C, hC, h⟩ := h
  have key : ∀ m, ValidCall n s m → ∃ m', p m = .ok m' ∧ Spec.RelErr (k.boundary * ε) (m'.buf.map R.val) (k.spec (m.buf.map R.val)) := by
    rintro ⟨buf, scr⟩ ⟨hb, hs⟩
    obtain ⟨f, rfl⟩ := exists_vec hb
    obtain ⟨scr', e, -⟩ := hC f scr hs
    exact ⟨_, e, h.relErr hε hn h1 f⟩
  refine ⟨key, fun buf hb => ?_⟩
  obtain ⟨m', e, hm⟩ := key ⟨buf, List.replicate s 0⟩ ⟨hb, by simp⟩
  exact ⟨m'.buf, by unfold processDefault; rw [e], hm⟩

/-! ### The bounds -/

theorem Rounding.naive_mono (R : Rounding T F) {a b : ℕ} (h : a ≤ b) : R.naive a ≤ R.naive b := by
  unfold Rounding.naive gainErr
  have h1 : (a : ℝ) ≤ b := by exact_mod_cast h
  exact mul_le_mul (sqrt_le_sqrt (by linarith)) (by linarith [R.pow_term_le h]) (by linarith [R.one_le_naive a]) (sqrt_nonneg _)

section
variable {φ : ℝ} {n : ℕ}

theorem Rounding.leaf_le (R : Rounding T F) {ε : ℝ} (h0 : 0 ≤ ε) (h : ε ≤ max (R.naive n) (max (R.fft2 φ) (R.fft3 φ))) : ε ≤ R.made23 φ n := by
  unfold Rounding.made23
  have h1 := one_le_pow₀ (n := Nat.log 2 n) R.one_le_step
  nlinarith

theorem Rounding.made23_nonneg (R : Rounding T F) (φ : ℝ) (n : ℕ) : 0 ≤ R.made23 φ n :=
  (R.naive_nonneg n).trans (R.leaf_le (R.naive_nonneg n) (le_max_left _ _))

theorem Rounding.pow_le_made23 (R : Rounding T F) (φ : ℝ) (n : ℕ) : R.step ^ Nat.log 2 n - 1 ≤ R.made23 φ n := by
  unfold Rounding.made23
  have h1 := one_le_pow₀ (n := Nat.log 2 n) R.one_le_step
  have h2 := (R.naive_nonneg n).trans (le_max_left (R.naive n) (max (R.fft2 φ) (R.fft3 φ)))
  nlinarith

theorem Rounding.made23_mono (R : Rounding T F) (φ : ℝ) {a b : ℕ} (h : a ≤ b) : R.made23 φ a ≤ R.made23 φ b := by
  unfold Rounding.made23
  have h1 := (R.naive_nonneg b).trans (le_max_left (R.naive b) (max (R.fft2 φ) (R.fft3 φ)))
  have h2 := one_le_pow₀ (n := Nat.log 2 a) R.one_le_step
  have := mul_le_mul (add_le_add_right (max_le_max (R.naive_mono h) (le_refl (max (R.fft2 φ) (R.fft3 φ)))) 1)
    (pow_le_pow_right₀ R.one_le_step (Nat.log_mono_right (b := 2) h)) (by linarith) (by linarith)
  linarith

theorem Rounding.made23_step (R : Rounding T F) (φ : ℝ) (hn : n ≠ 0) : (1 + R.made23 φ n) * R.step - 1 ≤ R.made23 φ (2 * n) := by
  unfold Rounding.made23
  rw [mul_comm 2 n, Nat.log_mul_base (by norm_num) hn, pow_succ]
  have h1 := (R.naive_nonneg n).trans (le_max_left (R.naive n) (max (R.fft2 φ) (R.fft3 φ)))
  have h2 := one_le_pow₀ (n := Nat.log 2 n) R.one_le_step
  have h3 := R.one_le_step
  have h4 : max (R.naive n) (max (R.fft2 φ) (R.fft3 φ)) ≤ max (R.naive (n * 2)) (max (R.fft2 φ) (R.fft3 φ)) := max_le_max (R.naive_mono (by omega)) (le_refl _)
  have h5 : 0 ≤ R.step ^ Nat.log 2 n * R.step := mul_nonneg (by linarith) (by linarith)
  nlinarith [mul_le_mul_of_nonneg_right h4 h5]

theorem Rounding.made_nonneg (R : Rounding T F) (φ : ℝ) (k : Kind) (n : ℕ) : 0 ≤ R.made φ k n := by
  cases k <;> simp only [Rounding.made] <;> first | exact R.naive_nonneg n | exact R.made23_nonneg φ n | exact (R.naive_nonneg n).trans (le_max_left _ _)

end

/-! ### All instances -/

variable {φ : ℝ}

theorem Made23.acc (hφ : 0 ≤ φ) {o : Obj23 T} (h : Made23 (fun f => FftAccurate R f φ) o) (hn : 1 ≤ o.len) : Acc23 R o.len o (R.made23 φ o.len) := by
  induction h with
  | @naive n x h =>
    have e := Type2And3Naive.len_new h
    have hx := Type2And3Naive.new_tab (T := T) (n := n)
    rw [hx] at h
    injection h with h
    have hl : (Type2And3Naive.toObj x).len = n := e
    have hs : (Type2And3Naive.toObj x).scratchLen = n := e
    rw [hl] at hn
    have key : Acc23 R n (Type2And3Naive.toObj x) (R.naive n) := by
      subst h
      constructor <;> rw [hs]
      · exact Type2And3Naive.acc_dct2 R hn
      · exact Type2And3Naive.acc_dct3 R hn
      · exact Type2And3Naive.acc_dst2 R hn
      · exact Type2And3Naive.acc_dst3 R hn
    rw [hl]
    exact key.mono (R.leaf_le (R.naive_nonneg n) (le_max_left _ _))
  | butterfly2 => exact (Type2And3Butterfly2.acc R).mono (by have := R.pow_le_made23 φ (2 ^ 1); rwa [Nat.log_pow (by norm_num), pow_one] at this)
  | butterfly3 =>
    refine (Type2And3Butterfly3.acc R).mono (R.leaf_le (Rounding.gainErr_nonneg R.one_le_term) (le_trans ?_ (le_max_left _ _)))
    unfold Rounding.naive gainErr
    refine mul_le_mul_of_nonneg_left ?_ (sqrt_nonneg _)
    have := R.pow_term_le (a := 0) (b := 3) (by norm_num)
    rw [pow_zero, one_mul] at this
    exact sub_le_sub_right this 1
  | butterfly4 => exact (Type2And3Butterfly4.acc R).mono (by have := R.pow_le_made23 φ (2 ^ 2); rwa [Nat.log_pow (by norm_num)] at this)
  | butterfly8 => exact (Type2And3Butterfly8.acc R).mono (by have := R.pow_le_made23 φ (2 ^ 3); rwa [Nat.log_pow (by norm_num)] at this)
  | butterfly16 => exact (Type2And3Butterfly16.acc R).mono (by have := R.pow_le_made23 φ (2 ^ 4); rwa [Nat.log_pow (by norm_num)] at this)
  | @fft fft x hf h =>
    obtain ⟨hd, rfl⟩ := Type2And3ConvertToFft.new_shape h
    obtain ⟨G, hG, hD⟩ := hf.runs hφ
    have hl : (Type2And3ConvertToFft.inst fft).toObj.len = fft.len := Type2And3ConvertToFft.len_inst _
    rw [hl] at hn ⊢
    have l2 := R.leaf_le (n := fft.len) (R.fft2_nonneg hφ) ((le_max_left (R.fft2 φ) (R.fft3 φ)).trans (le_max_right _ _))
    have l3 := R.leaf_le (n := fft.len) (R.fft3_nonneg hφ) ((le_max_right (R.fft2 φ) (R.fft3 φ)).trans (le_max_right _ _))
    exact ⟨(Type2And3ConvertToFft.acc_dct2 hφ hG hn rfl hD).mono l2, (Type2And3ConvertToFft.acc_dct3 hφ hG hn rfl hD).mono l3,
      (Type2And3ConvertToFft.acc_dst2 hφ hG hn rfl hD).mono l2, (Type2And3ConvertToFft.acc_dst3 hφ hG hn rfl hD).mono l3⟩
  | @splitRadix half quarter x hh hq sh sq h ih iq =>
    obtain ⟨h1, h2, h3, rfl⟩ := Type2And3SplitRadix.new_shape h
    have e : (Type2And3SplitRadix.inst quarter.len half quarter).toObj.len = 4 * quarter.len := Type2And3SplitRadix.inst_len _ _ _
    rw [e]
    have a := ih (by omega)
    have b := (iq h2).mono (R.made23_mono φ (show quarter.len ≤ 2 * quarter.len by omega))
    rw [h1] at a
    refine (Acc23.splitRadix h2 (R.made23_nonneg φ _) a b (by omega) (by omega)).mono ?_
    have := R.made23_step φ (n := 2 * quarter.len) (by omega)
    rwa [show 2 * (2 * quarter.len) = 4 * quarter.len by omega] at this

theorem Made4.acc (hφ : 0 ≤ φ) {o : Obj4 T} (h : Made4 (fun f => FftAccurate R f φ) o) (hn : 1 ≤ o.len) :
    PAcc R .dct4 o.dct4 o.len o.scratchLen (R.made φ .dct4 o.len) ∧ PAcc R .dst4 o.dst4 o.len o.scratchLen (R.made φ .dst4 o.len) := by
  simp only [Rounding.made]
  cases h with
  | @naive n x h =>
    have e := Type4Naive.len_new h
    have hx := Type4Naive.new_tab (T := T) (n := n)
    rw [hx] at h
    injection h with h
    have hl : (Type4Naive.toObj x).len = n := e
    have hs : (Type4Naive.toObj x).scratchLen = n := e
    rw [hl] at hn
    rw [hl, hs]
    subst h
    exact ⟨(Type4Naive.acc_dct4 R hn).mono (le_max_left _ _), (Type4Naive.acc_dst4 R hn).mono (le_max_left _ _)⟩
  | @fft fft x hf h =>
    obtain ⟨hp, hd, rfl⟩ := Type4ConvertToFftOdd.new_shape h
    obtain ⟨G, hG, hD⟩ := hf.runs hφ
    have hl : (Type4ConvertToFftOdd.inst fft).toObj.len = fft.len := rfl
    rw [hl]
    have l := (le_max_left (R.fft4 φ) (R.even4 (R.made23 φ (fft.len / 2)))).trans (le_max_right (R.naive fft.len) _)
    exact ⟨(Type4ConvertToFftOdd.acc_dct4 hφ hG hp rfl hD).mono l, (Type4ConvertToFftOdd.acc_dst4 hφ hG hp rfl hD).mono l⟩
  | @type3 inner x hi h =>
    rw [Type4ConvertToType3Even.new_eq rfl] at h
    injection h with h
    subst h
    have hl : (Type4ConvertToType3Even.inst inner.len inner).toObj.len = 2 * inner.len := Type4ConvertToType3Even.inst_len ..
    rw [hl] at hn
    have a := hi.acc hφ (by omega)
    have hε := R.made23_nonneg φ inner.len
    rw [hl, show 2 * inner.len / 2 = inner.len by omega]
    have l := (le_max_right (R.fft4 φ) (R.even4 (R.made23 φ inner.len))).trans (le_max_right (R.naive (2 * inner.len)) _)
    exact ⟨(Type4ConvertToType3Even.acc_dct4 (by omega) hε a.dct3.weak a.dst3.weak).mono l, (Type4ConvertToType3Even.acc_dst4 (by omega) hε a.dct3.weak a.dst3.weak).mono l⟩

/-- Every instance made by the public constructors is accurate: on zeroed scratch, and on any scratch where scratch does not matter. -/
theorem Method.acc (hφ : 0 ≤ φ) {k : Kind} {p : Proc T} {n s : ℕ} (h : Method (fun f => FftAccurate R f φ) k p n s) (hn : 1 ≤ n) :
    PAccZ R k p n s (R.made φ k n) ∧ (¬ k.leaky → PAcc R k p n s (R.made φ k n)) := by
  have V : ∀ {k : Kind} {p : Proc T} {n s : ℕ} {ε : ℝ} {P : Prop}, PAcc R k p n s ε → PAccZ R k p n s ε ∧ (P → PAcc R k p n s ε) := fun h => ⟨h.toZ, fun _ => h⟩
  cases h with
  | @dct1 o h h2 =>
    refine V ?_
    simp only [Rounding.made]
    cases h with
    | @naive n x h =>
      have e := Dct1Naive.len_new h
      have hl : (Dct1Naive.toObj x).len = n := e
      have hs : (Dct1Naive.toObj x).scratchLen = n := e
      rw [hl] at h2
      have hx := Dct1Naive.new_tab (T := T) h2
      rw [hx] at h
      injection h with h
      rw [hl, hs]
      subst h
      exact (Dct1Naive.acc_dct1 R h2).mono (le_max_left _ _)
    | @fft fft x hf h =>
      obtain ⟨h1, -, rfl⟩ := Dct1ConvertToFft.new_shape h
      obtain ⟨G, hG, hD⟩ := hf.runs hφ
      have hl : fft.len = ((Dct1ConvertToFft.inst fft).toObj.len - 1) * 2 := by
        change fft.len = (fft.len / 2 + 1 - 1) * 2
        omega
      generalize (Dct1ConvertToFft.inst fft).toObj.len = n at hl h2 ⊢
      rw [hl] at hD
      exact (Dct1ConvertToFft.acc hφ hG h2 hl hD).mono (le_max_right _ _)
  | @dct2 o h => exact V (h.acc hφ hn).dct2
  | @dct3 o h _ => exact V (h.acc hφ hn).dct3
  | @dst2 o h => exact V (h.acc hφ hn).dst2
  | @dst3 o h _ => exact V (h.acc hφ hn).dst3
  | @dct4 o h _ => exact V (h.acc hφ hn).1
  | @dst4 o h _ => exact V (h.acc hφ hn).2
  | @dct5 o h =>
    refine V ?_
    simp only [Rounding.made]
    cases h with
    | @naive n x h =>
      have e := Dct5Naive.len_new h
      have hl : (Dct5Naive.toObj x).len = n := e
      have hs : (Dct5Naive.toObj x).scratchLen = n := e
      rw [hl] at hn
      have hx := Dct5Naive.new_tab (T := T) hn
      rw [hx] at h
      injection h with h
      rw [hl, hs]
      subst h
      exact Dct5Naive.acc_dct5 R hn
  | @dct6 o h =>
    refine V ?_
    simp only [Rounding.made]
    cases h with
    | @naive n x h =>
      have e := Dct6And7Naive.len_new h
      have hl : (Dct6And7Naive.toObj x).len = n := e
      have hs : (Dct6And7Naive.toObj x).scratchLen = n := e
      rw [hl] at hn
      have hx := Dct6And7Naive.new_tab (T := T) hn
      rw [hx] at h
      injection h with h
      rw [hl, hs]
      subst h
      exact Dct6And7Naive.acc_dct6 R hn
  | @dct7 o h =>
    refine V ?_
    simp only [Rounding.made]
    cases h with
    | @naive n x h =>
      have e := Dct6And7Naive.len_new h
      have hl : (Dct6And7Naive.toObj x).len = n := e
      have hs : (Dct6And7Naive.toObj x).scratchLen = n := e
      rw [hl] at hn
      have hx := Dct6And7Naive.new_tab (T := T) hn
      rw [hx] at h
      injection h with h
      rw [hl, hs]
      subst h
      exact Dct6And7Naive.acc_dct7 R hn
  | @dct8 o h =>
    refine V ?_
    simp only [Rounding.made]
    cases h with
    | @naive n x h =>
      have e := Dct8Naive.len_new h
      have hl : (Dct8Naive.toObj x).len = n := e
      have hs : (Dct8Naive.toObj x).scratchLen = n := e
      rw [hl] at hn
      have hx := Dct8Naive.new_tab (T := T) (n := n)
      rw [hx] at h
      injection h with h
      rw [hl, hs]
      subst h
      exact Dct8Naive.acc_dct8 R hn
  | @dst5 o h =>
    refine V ?_
    simp only [Rounding.made]
    cases h with
    | @naive n x h =>
      have e := Dst5Naive.len_new h
      have hl : (Dst5Naive.toObj x).len = n := e
      have hs : (Dst5Naive.toObj x).scratchLen = n := e
      rw [hl] at hn
      have hx := Dst5Naive.new_tab (T := T) (n := n)
      rw [hx] at h
      injection h with h
      rw [hl, hs]
      subst h
      exact Dst5Naive.acc_dst5 R hn
  | @dst8 o h =>
    refine V ?_
    simp only [Rounding.made]
    cases h with
    | @naive n x h =>
      have e := Dst8Naive.len_new h
      have hl : (Dst8Naive.toObj x).len = n := e
      have hs : (Dst8Naive.toObj x).scratchLen = n := e
      rw [hl] at hn
      have hx := Dst8Naive.new_tab (T := T) hn
      rw [hx] at h
      injection h with h
      rw [hl, hs]
      subst h
      exact Dst8Naive.acc_dst8 R hn
  | @dst1 o h =>
    refine ⟨?_, fun hk => absurd trivial hk⟩
    simp only [Rounding.made]
    cases h with
    | @naive n x h =>
      have e := Dst1Naive.len_new h
      have hl : (Dst1Naive.toObj x).len = n := e
      have hs : (Dst1Naive.toObj x).scratchLen = n := e
      rw [hl] at hn
      have hx := Dst1Naive.new_tab (T := T) (n := n)
      rw [hx] at h
      injection h with h
      rw [hl, hs]
      subst h
      exact ((Dst1Naive.acc_dst1 R hn).mono (le_max_left _ _)).toZ
    | @fft fft x hf h =>
      obtain ⟨h1, -, h3, rfl⟩ := Dst1ConvertToFft.new_shape h
      obtain ⟨G, hG, hD⟩ := hf.runs hφ
      have hl : fft.len = ((Dst1ConvertToFft.inst fft).toObj.len + 1) * 2 := by
        change fft.len = (fft.len / 2 - 1 + 1) * 2
        omega
      generalize (Dst1ConvertToFft.inst fft).toObj.len = n at hl hn ⊢
      rw [hl] at hD
      exact (Dst1ConvertToFft.acc hφ hG hl hD).mono (le_max_right _ _)
  | @dst6 o h =>
    refine ⟨?_, fun hk => absurd trivial hk⟩
    simp only [Rounding.made]
    cases h with
    | @naive n x h =>
      have e := Dst6And7Naive.len_new h
      have hl : (Dst6And7Naive.toObj x).len = n := e
      have hs : (Dst6And7Naive.toObj x).scratchLen = n := e
      rw [hl] at hn
      have hx := Dst6And7Naive.new_tab (T := T) (n := n)
      rw [hx] at h
      injection h with h
      rw [hl, hs]
      subst h
      exact ((Dst6And7Naive.acc_dst6 R hn).mono (le_max_left _ _)).toZ
    | @fft fft x hf h =>
      obtain ⟨h1, -, rfl⟩ := Dst6And7ConvertToFft.new_shape h
      obtain ⟨G, hG, hD⟩ := hf.runs hφ
      have hl : fft.len = (Dst6And7ConvertToFft.inst fft).toObj.len * 2 + 1 := by
        change fft.len = (fft.len - 1) / 2 * 2 + 1
        omega
      generalize (Dst6And7ConvertToFft.inst fft).toObj.len = n at hl hn ⊢
      rw [hl] at hD
      exact (Dst6And7ConvertToFft.acc_dst6 hφ hG hl hD).mono (le_max_right _ _)
  | @dst7 o h =>
    refine ⟨?_, fun hk => absurd trivial hk⟩
    simp only [Rounding.made]
    cases h with
    | @naive n x h =>
      have e := Dst6And7Naive.len_new h
      have hl : (Dst6And7Naive.toObj x).len = n := e
      have hs : (Dst6And7Naive.toObj x).scratchLen = n := e
      rw [hl] at hn
      have hx := Dst6And7Naive.new_tab (T := T) (n := n)
      rw [hx] at h
      injection h with h
      rw [hl, hs]
      subst h
      exact ((Dst6And7Naive.acc_dst7 R hn).mono (le_max_left _ _)).toZ
    | @fft fft x hf h =>
      obtain ⟨h1, -, rfl⟩ := Dst6And7ConvertToFft.new_shape h
      obtain ⟨G, hG, hD⟩ := hf.runs hφ
      have hl : fft.len = (Dst6And7ConvertToFft.inst fft).toObj.len * 2 + 1 := by
        change fft.len = (fft.len - 1) / 2 * 2 + 1
        omega
      generalize (Dst6And7ConvertToFft.inst fft).toObj.len = n at hl hn ⊢
      rw [hl] at hD
      exact (Dst6And7ConvertToFft.acc_dst7 hφ hG hl hD).mono (le_max_right _ _)

/-! ### MDCT -/

theorem vec_getD' {A : Type} [Zero A] (z : A) {l : List A} {m : ℕ} (h : l.length = m) : l = vec m (fun i => l.getD i z) := by
  obtain ⟨f, hf⟩ := exists_vec h
  rw [hf]
  exact vec_congr fun i hi => (getD_vec hi).symm

theorem RunsM.unique {p : List ℝ → List ℝ → Mem ℝ → Outcome (Mem ℝ)} {n s : ℕ} {C D : (ℕ → ℝ) → (ℕ → ℝ) → ℕ → ℝ} (h : RunsM p n s C) (h' : RunsM p n s D)
    (a b : ℕ → ℝ) {k : ℕ} (hk : k < n) : C a b k = D a b k := by
  obtain ⟨s1, e1, -⟩ := h a b (fun _ => 0) (List.replicate s 0) (by simp)
  obtain ⟨s2, e2, -⟩ := h' a b (fun _ => 0) (List.replicate s 0) (by simp)
  rw [e1] at e2
  injection e2 with e2
  have e3 : vec n (C a b) = vec n (D a b) := congrArg Mem.buf e2
  have := congrArg (fun l => l.getD k 0) e3
  simpa only [getD_vec hk] using this

theorem RunsI.unique {p : List ℝ → IMem ℝ → Outcome (IMem ℝ)} {n s : ℕ} {A B A' B' : (ℕ → ℝ) → (ℕ → ℝ) → ℕ → ℝ} (h : RunsI p n s A B) (h' : RunsI p n s A' B')
    (x oa ob : ℕ → ℝ) {k : ℕ} (hk : k < n) : A x oa k = A' x oa k ∧ B x ob k = B' x ob k := by
  obtain ⟨s1, e1, -⟩ := h x oa ob (List.replicate s 0) (by simp)
  obtain ⟨s2, e2, -⟩ := h' x oa ob (List.replicate s 0) (by simp)
  rw [e1] at e2
  injection e2 with e2
  injection e2 with e3 e4
  have h3 := congrArg (fun l => l.getD k 0) e3
  have h4 := congrArg (fun l => l.getD k 0) e4
  exact ⟨by simpa only [getD_vec hk] using h3, by simpa only [getD_vec hk] using h4⟩

def MdctNaive.tab (n : ℕ) : ℕ → T := fun i => fromF64 (F64.cos ((F64.half * F64.pi / F64.nat n : F) * (F64.nat i + F64.half)))

theorem MdctNaive.tab_real (n i : ℕ) : (MdctNaive.tab n i : ℝ) = cos (1 / 2 * π / n * (i + 1 / 2)) := rfl

theorem MdctNaive.new_tab {n : ℕ} {w : ℕ → List T} {x : MdctNaive T} (h : MdctNaive.new n w = .ok x) :
    n % 2 = 0 ∧ (w (2 * n)).length = 2 * n ∧ x = ⟨vec (4 * n) (MdctNaive.tab n), w (2 * n)⟩ := by
  unfold MdctNaive.new at h
  dsimp only at h
  split at h
  · cases h
  · split at h
    · cases h
    · rename_i h1 h2
      injection h with h
      rw [map_range_eq_vec, Nat.mul_comm n 4, Nat.mul_comm n 2] at h
      rw [Nat.mul_comm n 2] at h2
      exact ⟨by simpa using h1, by simpa using h2, h.symm⟩

theorem MdctNaive.ap_tab (R : Rounding T F) {n : ℕ} (hn : 1 ≤ n) : ∀ j < 4 * n, Ap (R.val (MdctNaive.tab n j : T)) (MdctNaive.tab n j : ℝ) 1 (1 + R.tau) := by
  intro j hj
  have hn' : (0 : ℝ) < n := by exact_mod_cast hn
  have hj' : (j : ℝ) + 1 ≤ 4 * n := by exact_mod_cast hj
  have hh : Ap (R.valF F64.half) (1 / 2) (1 / 2) 1 := by rw [R.f_half]; exact Ap.exact' (by norm_num)
  have h1 := R.ap_mulf hh R.ap_pi
  obtain ⟨hs, h2⟩ := h1.div0 R.v_nonneg R.v_lt hn' (R.f_nat n)
  have h3 := h2.round R.v_nonneg (R.f_div _ _ hs)
  have h0 := ((R.ap_nat j).add0 R.ap_halfF).round R.v_nonneg (R.f_add _ _)
  have h4 := R.ap_mulf h3 h0
  rw [MdctNaive.tab_real]
  refine R.ap_cosT ((h4.mono ?_).monoX ?_)
  · refine le_trans (le_of_eq (?_ : _ = (1 + R.v) ^ 6 / (1 - R.v))) (R.ang_mono (by norm_num))
    ring
  · rw [div_mul_eq_mul_div, div_le_iff₀ hn']
    nlinarith [pi_pos, mul_le_mul_of_nonneg_left hj' pi_pos.le]

theorem Rounding.ap_mdctSum (R : Rounding T F) {L cnt st idx m : ℕ} (hL : 0 < L) {t : ℕ → T} {tr : ℕ → ℝ} {v : ℕ → T → T} {vr : ℕ → ℝ → ℝ} {X : ℕ → ℝ} {g : ℝ} (hg : 1 ≤ g)
    (hv : ∀ i < cnt, ∀ j < L, Ap (R.val (v i (t j))) (vr i (tr j)) (X i) g) {acc : T} {accr A : ℝ} (ha : Ap (R.val acc) accr A ((1 + R.u) ^ m * g)) :
    Ap (R.val (mdctSum L t v st acc idx cnt)) (mdctSum L tr vr st accr idx cnt) (A + ∑ i ∈ range cnt, X i) ((1 + R.u) ^ (m + cnt) * g) := by
  induction cnt with
  | zero => simpa [mdctSum] using ha
  | succ c ih =>
    have h1 := ih fun i hi => hv i (by omega)
    unfold mdctSum at h1 ⊢
    rw [List.range_succ, List.foldl_append, List.foldl_append, List.foldl_cons, List.foldl_cons, List.foldl_nil, List.foldl_nil, Finset.sum_range_succ, ← add_assoc, ← add_assoc,
      pow_succ, mul_comm _ (1 + R.u), mul_assoc]
    have h2 := hv c (by omega) _ (Nat.mod_lt (idx + st * c) hL)
    refine R.ap_add h1 (h2.mono ?_)
    have := one_le_pow₀ (n := m + c) R.one_le_u
    nlinarith

theorem sum_abs_sq (n : ℕ) (f : ℕ → ℝ) : (∑ i ∈ range n, |f i|) ^ 2 ≤ n * ∑ i ∈ range n, f i ^ 2 := by
  have h := sum_mul_sq_le_sq_mul_sq (range n) (fun _ => (1 : ℝ)) (fun i => |f i|)
  simpa using h

/-- Each of `m` errors at most `c` times the sum of `n` absolute values. -/
theorem nm1_le_of_sum {m n : ℕ} {e x : ℕ → ℝ} {c : ℝ} (hc : 0 ≤ c) (h : ∀ i < m, |e i| ≤ c * ∑ j ∈ range n, |x j|) :
    (nm1 m).of e ≤ c * (√(m * n) * (nm1 n).of x) := by
  rw [nm1_of, nm1_of, ← sqrt_mul (by positivity)]
  have h1 : ∑ i ∈ range m, e i ^ 2 ≤ c ^ 2 * (m * n * ∑ i ∈ range n, x i ^ 2) := by
    calc ∑ i ∈ range m, e i ^ 2 ≤ ∑ i ∈ range m, c ^ 2 * (n * ∑ i ∈ range n, x i ^ 2) := by
          refine sum_le_sum fun i hi => ?_
          have h2 := sq_le_of_abs_le (h i (mem_range.1 hi))
          exact h2.trans (mul_le_mul_of_nonneg_left (sum_abs_sq n x) (sq_nonneg c))
      _ = _ := by rw [sum_const, card_range, nsmul_eq_mul]; ring
  refine sqrt_le_iff.2 ⟨by positivity, ?_⟩
  rw [mul_pow, sq_sqrt (by have : 0 ≤ ∑ i ∈ range n, x i ^ 2 := sum_nonneg fun i _ => sq_nonneg _
                           positivity)]
  exact h1

theorem sqrt_lapNaive {n : ℕ} (g : ℝ) : (g - 1) * √((2 * n : ℕ) * n) = √n * gainErr n g := by
  unfold gainErr
  have : √((2 * n : ℕ) * (n : ℝ)) = √n * √(2 * n) := by rw [← sqrt_mul (by positivity)]; congr 1; push_cast; ring
  rw [this]; ring

theorem MdctNaive.acc {n : ℕ} (hn : n % 2 = 0) (h1 : 1 ≤ n) {w : ℕ → T} {v : ℕ → ℝ} {M γ : ℝ} (hM : 0 ≤ M) (hγ : 0 ≤ γ) (hw : ∀ i, i < 2 * n → Ap (R.val (w i)) (v i) M (1 + γ)) :
    Nonempty (MdctAcc R (MdctNaive.toObj ⟨vec (4 * n) (MdctNaive.tab n), vec (2 * n) w⟩) n v (√n * M) (R.lapNaive n γ)) := by
  have hu := R.one_le_u
  have ht := R.tau_nonneg
  have hL : 0 < 4 * n := by omega
  refine ⟨_, _, _, MdctNaive.mdct_vec hn _ w, MdctNaive.imdct_vec hn _ w, fun a b => ?_, fun x oa ob => ?_⟩
  · have hg : (1 : ℝ) ≤ (1 + R.u) * ((1 + R.u) * (1 * (1 + γ)) * (1 + R.tau)) := by
      have : 1 ≤ (1 + R.u) * (1 * (1 + γ)) := one_le_mul_of_one_le_of_one_le hu (by linarith)
      exact one_le_mul_of_one_le_of_one_le hu (one_le_mul_of_one_le_of_one_le this (by linarith))
    have h0 : 0 ≤ M * ((1 + R.u) ^ (2 * n) * R.term * (1 + γ) - 1) := by
      refine mul_nonneg hM ?_
      have := one_le_mul_of_one_le_of_one_le (one_le_mul_of_one_le_of_one_le (one_le_pow₀ (n := 2 * n) hu) R.one_le_term) (show 1 ≤ 1 + γ by linarith)
      linarith
    refine (nm1_le_of_sum (n := 2 * n) (x := glue n (R.seq a) (R.seq b)) h0 fun k hk => ?_).trans (le_of_eq ?_)
    · have e := RunsM.unique (MdctNaive.mdct_vec hn (MdctNaive.tab n : ℕ → ℝ) v) (MdctNaive.correct_mdct hn v) (R.seq a) (R.seq b) hk
      rw [Pi.sub_apply, ← e]
      have a1 := R.ap_mdctSum (cnt := n) (st := k * 2 + 1) (idx := (n / 2 + k * (n + 1)) % (4 * n)) (m := 0) hL (t := MdctNaive.tab n) (tr := MdctNaive.tab n) (v := fun i tw => a i * w i * tw)
        (vr := fun i tw => R.seq a i * v i * tw) hg
        (fun i hi j hj => R.ap_mul (R.ap_mul (Ap.exact (R.val (a i))) (hw i (by omega))) (MdctNaive.ap_tab R h1 j hj)) (acc := 0) (accr := 0) (A := 0)
        (by rw [R.zero]; exact (Ap.exact' (by simp)).mono (by rw [pow_zero, one_mul]; exact hg))
      have a2 := R.ap_mdctSum (cnt := n) (st := k * 2 + 1) (idx := ((n / 2 + k * (n + 1)) % (4 * n) + (k * 2 + 1) * n) % (4 * n)) hL (t := MdctNaive.tab n) (tr := MdctNaive.tab n) (v := fun i tw => b i * w (i + n) * tw)
        (vr := fun i tw => R.seq b i * v (i + n) * tw) hg
        (fun i hi j hj => R.ap_mul (R.ap_mul (Ap.exact (R.val (b i))) (hw (i + n) (by omega))) (MdctNaive.ap_tab R h1 j hj)) a1
      have hsum : (0 + ∑ i ∈ range n, |R.val (a i)| * M * 1 + ∑ i ∈ range n, |R.val (b i)| * M * 1) = M * ∑ j ∈ range (2 * n), |glue n (R.seq a) (R.seq b) j| := by
        rw [sum_glue n (R.seq a) (R.seq b) (fun x => |x|), mul_add, mul_sum, mul_sum, zero_add]
        congr 1 <;> exact sum_congr rfl fun i _ => by simp only [Rounding.seq]; ring
      rw [hsum] at a2
      refine (a2.mono (g' := (1 + R.u) ^ (2 * n) * R.term * (1 + γ)) ?_).err.trans (le_of_eq (by ring))
      have h5 : 0 ≤ (1 + R.u) ^ (2 * n) * (1 + R.u) ^ 2 * (1 + R.tau) * (1 + γ) := by positivity
      unfold Rounding.term
      rw [show 0 + n + n = 2 * n by ring]
      nlinarith
    · have := sqrt_lapNaive (n := n) ((1 + R.u) ^ (2 * n) * R.term * (1 + γ))
      unfold Rounding.lapNaive
      rw [show √(n * (2 * n : ℕ)) = √((2 * n : ℕ) * (n : ℝ)) by rw [mul_comm]]
      linear_combination (M * (nm1 (2 * n)).of (glue n (R.seq a) (R.seq b))) * this
  · have hg : (1 : ℝ) ≤ (1 + R.u) * (1 * (1 + R.tau)) := one_le_mul_of_one_le_of_one_le hu (by linarith)
    set g := (1 + R.u) ^ (2 * n) * R.term * (1 + γ) with hgd
    have hg1 : 1 ≤ g := one_le_mul_of_one_le_of_one_le (one_le_mul_of_one_le_of_one_le (one_le_pow₀ (n := 2 * n) hu) R.one_le_term) (show 1 ≤ 1 + γ by linarith)
    have h0 : 0 ≤ M * (g - 1) := mul_nonneg hM (by linarith)
    -- one output sample
    have entry : ∀ (st idx i : ℕ) (o : T), i < 2 * n →
        mdctSum (4 * n) (MdctNaive.tab n : ℕ → ℝ) (fun i tw => R.seq x i * tw) st 0 idx n * v i = Spec.imdctAt n v (R.seq x) i →
        |R.val (o + mdctSum (4 * n) (MdctNaive.tab n : ℕ → T) (fun i tw => x i * tw) st 0 idx n * w i) - (R.val o + Spec.imdctAt n v (R.seq x) i)| ≤
          R.u * |R.val o| + M * (g - 1) * ∑ j ∈ range n, |R.seq x j| := by
      intro st idx i o hi he
      have a1 := R.ap_mdctSum (cnt := n) (st := st) (idx := idx) (m := 0) hL (t := MdctNaive.tab n) (tr := MdctNaive.tab n) (v := fun i tw => x i * tw)
        (vr := fun i tw => R.seq x i * tw) hg (fun i hi j hj => R.ap_mul (Ap.exact (R.val (x i))) (MdctNaive.ap_tab R h1 j hj)) (acc := 0) (accr := 0) (A := 0)
        (by rw [R.zero]; exact (Ap.exact' (by simp)).mono (by rw [pow_zero, one_mul]; exact hg))
      rw [show (0 + ∑ i ∈ range n, |R.val (x i)| * 1) = ∑ j ∈ range n, |R.seq x j| by rw [zero_add]; exact sum_congr rfl fun i _ => mul_one _] at a1
      rw [← he]
      generalize mdctSum (4 * n) (MdctNaive.tab n : ℕ → T) (fun i tw => x i * tw) st 0 idx n = d at a1 ⊢
      generalize mdctSum (4 * n) (MdctNaive.tab n : ℕ → ℝ) (fun i tw => R.seq x i * tw) st 0 idx n = D at a1 ⊢
      have h := imdct_entry (R := R) (w := 0) (r := o + d * w i) (d := d) (o := o) (hw i hi) (σ := 1) (by simp) (by simpa using R.add o (d * w i)) D
      rw [one_mul] at h
      refine h.trans (add_le_add_right ?_ _)
      rw [mul_assoc]
      refine mul_le_mul_of_nonneg_left ?_ hM
      have e1 := a1.size
      have e2 := a1.err
      have S0 : 0 ≤ ∑ j ∈ range n, |R.seq x j| := sum_nonneg fun i _ => abs_nonneg _
      have q0 : 0 ≤ (1 + R.u) ^ 2 * (1 + γ) - 1 := by
        have := one_le_mul_of_one_le_of_one_le (one_le_pow₀ (n := 2) hu) (show 1 ≤ 1 + γ by linarith)
        linarith
      refine (add_le_add (mul_le_mul_of_nonneg_left e1 q0) e2).trans ?_
      rw [← mul_assoc, ← add_mul]
      refine mul_le_mul_of_nonneg_right ?_ S0
      have e3 : (1 + R.u) ^ 2 * (1 + γ) * ((1 + R.u) ^ (0 + n) * ((1 + R.u) * (1 * (1 + R.tau)))) ≤ g := by
        rw [hgd, Rounding.term]
        have : (1 + R.u) ^ n ≤ (1 + R.u) ^ (2 * n) := pow_le_pow_right₀ hu (by omega)
        have h6 : 0 ≤ (1 + R.u) ^ 3 * (1 + R.tau) * (1 + γ) := by positivity
        rw [zero_add]
        nlinarith [mul_le_mul_of_nonneg_right this h6]
      linarith
    have point : ∀ i < 2 * n, ‖(glue n (R.seq (fun k => oa k + mdctSum (4 * n) (MdctNaive.tab n) (fun i tw => x i * tw) (n + k * 2 + 1) 0 (n / 2 + k) n * w k))
        (R.seq (fun k => ob k + mdctSum (4 * n) (MdctNaive.tab n) (fun i tw => x i * tw) (n - 1 - imdctTw n k * 2) 0 (4 * n - n * 2 + n / 2 - imdctTw n k - 1) n * w (k + n))) -
        (glue n (R.seq oa) (R.seq ob) + Spec.imdctAt n v (R.seq x))) i‖ ≤
        1 * ‖((fun i => R.u * |glue n (R.seq oa) (R.seq ob) i| : ℕ → ℝ) + (fun _ => M * (g - 1) * ∑ j ∈ range n, |R.seq x j| : ℕ → ℝ) : ℕ → ℝ) i‖ := by
      intro i hi
      have un := fun k hk => RunsI.unique (MdctNaive.imdct_vec hn (MdctNaive.tab n : ℕ → ℝ) v) (MdctNaive.correct_imdct hn v) (R.seq x) 0 0 (k := k) hk
      rw [one_mul, Real.norm_eq_abs, Real.norm_eq_abs]
      refine le_trans ?_ (le_abs_self _)
      simp only [Pi.sub_apply, Pi.add_apply, glue]
      by_cases h : i < n
      · simp only [if_pos h]
        exact entry _ _ i (oa i) hi (by have := (un i h).1; simpa using this)
      · simp only [if_neg h]
        have e2 := entry (n - 1 - imdctTw n (i - n) * 2) (4 * n - n * 2 + n / 2 - imdctTw n (i - n) - 1) i (ob (i - n)) hi
          (by have := (un (i - n) (by omega)).2; simpa [show i - n + n = i by omega, show n + (i - n) = i by omega] using this)
        rw [show R.seq (fun k => ob k + mdctSum (4 * n) (MdctNaive.tab n) (fun i tw => x i * tw) (n - 1 - imdctTw n k * 2) 0 (4 * n - n * 2 + n / 2 - imdctTw n k - 1) n * w (k + n)) (i - n) =
          R.val (ob (i - n) + mdctSum (4 * n) (MdctNaive.tab n) (fun i tw => x i * tw) (n - 1 - imdctTw n (i - n) * 2) 0 (4 * n - n * 2 + n / 2 - imdctTw n (i - n) - 1) n * w i) by
            simp only [Rounding.seq, show i - n + n = i by omega]]
        exact e2
    refine (wn_mul_le zero_le_one (fun _ => zero_le_one) point).trans ?_
    rw [one_mul]
    refine (nm1_add_le _ _ _).trans (add_le_add ?_ ?_)
    · refine wn_mul_le R.u_nonneg (fun _ => zero_le_one) fun i hi => ?_
      rw [Real.norm_eq_abs, Real.norm_eq_abs, abs_mul, abs_abs, abs_of_nonneg R.u_nonneg]
    · refine (nm1_le_of_sum (n := n) (x := R.seq x) h0 fun i hi => ?_).trans (le_of_eq ?_)
      · rw [abs_of_nonneg (mul_nonneg h0 (sum_nonneg fun i _ => abs_nonneg _))]
      · have := sqrt_lapNaive (n := n) g
        unfold Rounding.lapNaive
        linear_combination (M * (nm1 n).of (R.seq x)) * this

end RustDct
