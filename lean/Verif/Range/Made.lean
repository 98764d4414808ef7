import Verif.RangeMade
import Verif.Range.Mdct
import Verif.Range.Window
import Verif.Float.Made
/-!
# Instances built with the public constructors, in arithmetic of bounded range
-/

set_option linter.all false

namespace RustDct
open Finset Real

variable {T F : Type} [F64 F] [DctNum T F] {R : Ieee T F} {r c : ℕ} {μ : ℕ → ℕ}

theorem FftOfGain.rel {fft : Fft T} (hc : 2 ≤ c) (h : FftOfGain R c μ fft) (h1 : 1 ≤ fft.len) (h2 : fft.len ≤ 2 ^ 62) :
    1 ≤ c * fft.len ∧ ∃ G, FftRuns fft G ∧ DftRel R fft.len G (c * fft.len) (μ fft.len) := by
  have : 1 * 1 ≤ c * fft.len := Nat.mul_le_mul (by omega) h1
  exact ⟨this, (h h2).rel (by omega) (Nat.mul_le_mul_right _ hc)⟩

/-! ### Types 2 and 3 -/

theorem gain_half {c n : ℕ} (hn : 1 ≤ n) : 2 * (2 * c * n * 2 ^ (Nat.log 2 n / 2)) ≤ 2 * c * (2 * n) * 2 ^ (Nat.log 2 (2 * n) / 2) := by
  have h : Nat.log 2 (2 * n) = Nat.log 2 n + 1 := by rw [mul_comm, Nat.log_mul_base (by norm_num) (by omega)]
  rw [h]
  have : 2 ^ (Nat.log 2 n / 2) ≤ 2 ^ ((Nat.log 2 n + 1) / 2) := Nat.pow_le_pow_right (by norm_num) (by omega)
  calc 2 * (2 * c * n * 2 ^ (Nat.log 2 n / 2)) = 2 * c * (2 * n) * 2 ^ (Nat.log 2 n / 2) := by ring
    _ ≤ _ := Nat.mul_le_mul_left _ this

theorem log_double {n : ℕ} (hn : 1 ≤ n) : Nat.log 2 (2 * n) = Nat.log 2 n + 1 := by rw [mul_comm, Nat.log_mul_base (by norm_num) (by omega)]
theorem log_quad {n : ℕ} (hn : 1 ≤ n) : Nat.log 2 (4 * n) = Nat.log 2 n + 2 := by
  rw [show 4 * n = 2 * (2 * n) by ring, log_double (by omega), log_double hn]

theorem gain_quarter {c n : ℕ} (hn : 1 ≤ n) : 8 * (2 * c * n * 2 ^ (Nat.log 2 n / 2)) = 2 * c * (4 * n) * 2 ^ (Nat.log 2 (4 * n) / 2) := by
  rw [log_quad hn, show (Nat.log 2 n + 2) / 2 = Nat.log 2 n / 2 + 1 by omega, pow_succ]
  ring

theorem gain_leaf {c n x : ℕ} (h : x ≤ 2 * c * n) : x ≤ 2 * c * n * 2 ^ (Nat.log 2 n / 2) :=
  h.trans (Nat.le_mul_of_pos_right _ (by positivity))

theorem Made23.rel (hr : R.Twiddles r) (hc : 2 ≤ c) (hμ : Monotone μ) {o : Obj23 T} (h : Made23 (FftOfGain R c μ) o) (hn : 1 ≤ o.len) (hn' : o.len ≤ 2 ^ 60) :
    Rel23 R o.len o (2 * c * o.len * 2 ^ (Nat.log 2 o.len / 2)) (max o.len (μ o.len) + (r + 4) * (Nat.log 2 o.len + 1)) := by
  have lf : ∀ {n d : ℕ}, d ≤ max n (μ n) + r + 4 → d ≤ max n (μ n) + (r + 4) * (Nat.log 2 n + 1) := fun {n d} h => by
    rw [mul_add, mul_one]; have := Nat.zero_le ((r + 4) * Nat.log 2 n); omega
  induction h with
  | @naive n x h =>
    have e := Type2And3Naive.len_new h
    have hx := Type2And3Naive.new_tab (T := T) (n := n)
    rw [hx] at h
    injection h with h
    have hl : (Type2And3Naive.toObj x).len = n := e
    have hs : (Type2And3Naive.toObj x).scratchLen = n := e
    rw [hl] at hn hn'
    have key : Rel23 R n (Type2And3Naive.toObj x) (n + 1) (n + r + 3) := by
      subst h
      constructor <;> rw [hs]
      · exact Type2And3Naive.rel_dct2 hr hn hn'
      · exact Type2And3Naive.rel_dct3 hr hn hn'
      · exact Type2And3Naive.rel_dst2 hr hn hn'
      · exact Type2And3Naive.rel_dst3 hr hn hn'
    rw [hl]
    exact key.mono (gain_leaf (by nlinarith)) (lf (by have := le_max_left n (μ n); omega))
  | butterfly2 => exact Type2And3Butterfly2.rel.mono (gain_leaf (by change 2 ≤ 2 * c * 2; omega)) (lf (by omega))
  | butterfly3 => exact (Type2And3Butterfly3.rel hr).mono (gain_leaf (by change 3 ≤ 2 * c * 3; omega)) (lf (by omega))
  | butterfly4 => exact (Type2And3Butterfly4.rel hr).mono (gain_leaf (by change 4 ≤ 2 * c * 4; omega)) (lf (by omega))
  | butterfly8 => exact (Type2And3Butterfly8.rel hr).mono (gain_leaf (by change 16 ≤ 2 * c * 8; omega)) (lf (by have : 8 ≤ max 8 (μ 8) := le_max_left _ _; change r + 7 ≤ max 8 (μ 8) + r + 4; omega))
  | butterfly16 =>
    refine (Type2And3Butterfly16.rel hr).mono (gain_leaf (by change 32 ≤ 2 * c * 16; omega)) ?_
    change 2 * r + 8 ≤ max 16 (μ 16) + (r + 4) * (Nat.log 2 (2 ^ 4) + 1)
    rw [Nat.log_pow (by norm_num)]
    omega
  | @fft fft x hf h =>
    obtain ⟨hd, rfl⟩ := Type2And3ConvertToFft.new_shape h
    have hl : (Type2And3ConvertToFft.inst fft).toObj.len = fft.len := Type2And3ConvertToFft.len_inst _
    rw [hl] at hn hn' ⊢
    obtain ⟨-, G, hG, hD⟩ := hf.rel hc hn (by omega)
    refine Rel23.mono (a := 2 * (c * fft.len)) (d := μ fft.len + r + 3) ⟨Type2And3ConvertToFft.rel_dct2 hr hG hn hn' rfl hD, Type2And3ConvertToFft.rel_dct3 hr hG hn hn' rfl hD,
      Type2And3ConvertToFft.rel_dst2 hr hG hn hn' rfl hD, Type2And3ConvertToFft.rel_dst3 hr hG hn hn' rfl hD⟩ (gain_leaf (le_of_eq (by ring))) (lf (by have := le_max_right fft.len (μ fft.len); omega))
  | @splitRadix half quarter x hh hq sh sq h ih iq =>
    obtain ⟨h1, h2, h3, rfl⟩ := Type2And3SplitRadix.new_shape h
    have e : (Type2And3SplitRadix.inst quarter.len half quarter).toObj.len = 4 * quarter.len := Type2And3SplitRadix.inst_len _ _ _
    rw [e] at hn' ⊢
    have a := ih (by omega) (by omega)
    have b := iq h2 (by omega)
    rw [h1] at a
    have m1 : max (2 * quarter.len) (μ (2 * quarter.len)) ≤ max (4 * quarter.len) (μ (4 * quarter.len)) := max_le_max (by omega) (hμ (by omega))
    have m2 : max quarter.len (μ quarter.len) ≤ max (4 * quarter.len) (μ (4 * quarter.len)) := max_le_max (by omega) (hμ (by omega))
    refine Rel23.splitRadix hr h2 hn' a b (by omega) (by omega) ?_ (le_of_eq (gain_quarter h2)) ?_ ?_
    · have := gain_half (c := c) (n := 2 * quarter.len) (by omega)
      rwa [show 2 * (2 * quarter.len) = 4 * quarter.len by ring] at this
    · rw [log_quad h2, log_double h2]
      nlinarith
    · rw [log_quad h2]
      nlinarith

theorem Made4.rel (hr : R.Twiddles r) (hc : 2 ≤ c) (hμ : Monotone μ) {o : Obj4 T} (h : Made4 (FftOfGain R c μ) o) (hn : 1 ≤ o.len) (hn' : o.len ≤ 2 ^ 60) :
    PRel R .dct4 o.dct4 o.len o.scratchLen (Kind.gainMade c .dct4 o.len) (Kind.unitsMade r μ .dct4 o.len) ∧
    PRel R .dst4 o.dst4 o.len o.scratchLen (Kind.gainMade c .dst4 o.len) (Kind.unitsMade r μ .dst4 o.len) := by
  simp only [Kind.gainMade, Kind.unitsMade]
  have lf : ∀ {n d : ℕ}, d ≤ max n (μ n) + 2 * (r + 4) → d ≤ max n (μ n) + (r + 4) * (Nat.log 2 n + 2) := fun {n d} h => by
    rw [mul_add]; have := Nat.zero_le ((r + 4) * Nat.log 2 n); omega
  have gl : ∀ {n x : ℕ}, x ≤ 4 * c * n → x ≤ 4 * c * n * 2 ^ (Nat.log 2 n / 2) := fun h => h.trans (Nat.le_mul_of_pos_right _ (by positivity))
  cases h with
  | @naive n x h =>
    have e := Type4Naive.len_new h
    have hx := Type4Naive.new_tab (T := T) (n := n)
    rw [hx] at h
    injection h with h
    have hl : (Type4Naive.toObj x).len = n := e
    have hs : (Type4Naive.toObj x).scratchLen = n := e
    rw [hl] at hn hn'
    rw [hl, hs]
    subst h
    have g : n + 1 ≤ 4 * c * n := by nlinarith
    have u : n + r + 3 ≤ max n (μ n) + 2 * (r + 4) := by have := le_max_left n (μ n); omega
    exact ⟨(Type4Naive.rel_dct4 hr hn hn').mono (gl g) (lf u), (Type4Naive.rel_dst4 hr hn hn').mono (gl g) (lf u)⟩
  | @fft fft x hf h =>
    obtain ⟨hp, hd, rfl⟩ := Type4ConvertToFftOdd.new_shape h
    have hl : (Type4ConvertToFftOdd.inst fft).toObj.len = fft.len := rfl
    rw [hl] at hn hn' ⊢
    obtain ⟨h1, G, hG, hD⟩ := hf.rel hc hn (by omega)
    have g : 2 * (c * fft.len) ≤ 4 * c * fft.len := by nlinarith
    have u : μ fft.len + 6 ≤ max fft.len (μ fft.len) + 2 * (r + 4) := by have := le_max_right fft.len (μ fft.len); omega
    exact ⟨(Type4ConvertToFftOdd.rel_dct4 h1 hG hp rfl hD).mono (gl g) (lf u), (Type4ConvertToFftOdd.rel_dst4 h1 hG hp rfl hD).mono (gl g) (lf u)⟩
  | @type3 inner x hi h =>
    rw [Type4ConvertToType3Even.new_eq rfl] at h
    injection h with h
    subst h
    have hl : (Type4ConvertToType3Even.inst inner.len inner).toObj.len = 2 * inner.len := Type4ConvertToType3Even.inst_len ..
    rw [hl] at hn hn'
    have h1 : 1 ≤ inner.len := by omega
    have a := hi.rel hr hc hμ h1 (by omega)
    rw [hl]
    have g : 4 * (2 * c * inner.len * 2 ^ (Nat.log 2 inner.len / 2)) ≤ 4 * c * (2 * inner.len) * 2 ^ (Nat.log 2 (2 * inner.len) / 2) := by
      have := gain_half (c := c) h1
      nlinarith
    have u : max inner.len (μ inner.len) + (r + 4) * (Nat.log 2 inner.len + 1) + r + 3 ≤ max (2 * inner.len) (μ (2 * inner.len)) + (r + 4) * (Nat.log 2 (2 * inner.len) + 2) := by
      have : max inner.len (μ inner.len) ≤ max (2 * inner.len) (μ (2 * inner.len)) := max_le_max (by omega) (hμ (by omega))
      rw [log_double h1]
      nlinarith
    exact ⟨(Type4ConvertToType3Even.rel_dct4 hr h1 hn' a.dct3.weak a.dst3.weak).mono g u, (Type4ConvertToType3Even.rel_dst4 hr h1 hn' a.dct3.weak a.dst3.weak).mono g u⟩

theorem PRelZ.mono {k : Kind} {p : Proc T} {n s a d a' d' : ℕ} (h : PRelZ R k p n s a d) (ha : a ≤ a') (hd : d ≤ d') : PRelZ R k p n s a' d' := by
  obtain ⟨C, h1, h2⟩ := h
  exact ⟨C, h1, h2.mono ha hd⟩

/-- Every instance made by the public constructors: on zeroed scratch, and on any scratch where scratch does not matter. -/
theorem Method.rel (hr : R.Twiddles r) (hc : 2 ≤ c) (hμ : Monotone μ) {k : Kind} {p : Proc T} {n s : ℕ} (h : Method (FftOfGain R c μ) k p n s) (hn : 1 ≤ n) (hn' : n ≤ 2 ^ 60) :
    PRelZ R k p n s (k.gainMade c n) (k.unitsMade r μ n) ∧ (¬ k.leaky → PRel R k p n s (k.gainMade c n) (k.unitsMade r μ n)) := by
  have V : ∀ {k : Kind} {p : Proc T} {n s a d : ℕ} {P : Prop}, PRel R k p n s a d → PRelZ R k p n s a d ∧ (P → PRel R k p n s a d) := fun h => ⟨h.toZ, fun _ => h⟩
  have g1 : ∀ {n : ℕ}, n + 1 ≤ 2 * c * (n + 1) := fun {n} => by nlinarith
  have u1 : ∀ {n : ℕ}, n + r + 3 ≤ max n (μ (2 * n + 2)) + r + 3 := fun {n} => by have := le_max_left n (μ (2 * n + 2)); omega
  have uf : ∀ {n m d : ℕ}, m ≤ 2 * n + 2 → d ≤ μ m + 1 → d ≤ max n (μ (2 * n + 2)) + r + 3 := fun {n m d} h h' => by
    have := le_max_right n (μ (2 * n + 2)); have := hμ h; omega
  cases h with
  | @dct1 o h h2 =>
    refine V ?_
    simp only [Kind.gainMade, Kind.unitsMade]
    cases h with
    | @naive n x h =>
      have e := Dct1Naive.len_new h
      have hl : (Dct1Naive.toObj x).len = n := e
      have hs : (Dct1Naive.toObj x).scratchLen = n := e
      rw [hl] at h2 hn'
      have hx := Dct1Naive.new_tab (T := T) h2
      rw [hx] at h
      injection h with h
      rw [hl, hs]
      subst h
      exact (Dct1Naive.rel_dct1 hr h2 hn').mono g1 u1
    | @fft fft x hf h =>
      obtain ⟨h1, -, rfl⟩ := Dct1ConvertToFft.new_shape h
      have hl : fft.len = ((Dct1ConvertToFft.inst fft).toObj.len - 1) * 2 := by
        change fft.len = (fft.len / 2 + 1 - 1) * 2
        omega
      generalize (Dct1ConvertToFft.inst fft).toObj.len = n at hl h2 hn' ⊢
      obtain ⟨-, G, hG, hD⟩ := hf.rel hc (by omega) (by omega)
      rw [hl] at hD
      exact (Dct1ConvertToFft.rel hG h2 hl hD).mono (by rw [mul_comm 2 c, mul_assoc]; exact Nat.mul_le_mul_left _ (by omega)) (uf (by omega) (le_refl _))
  | @dct2 o h => exact V (h.rel hr hc hμ hn hn').dct2
  | @dct3 o h _ => exact V (h.rel hr hc hμ hn hn').dct3
  | @dst2 o h => exact V (h.rel hr hc hμ hn hn').dst2
  | @dst3 o h _ => exact V (h.rel hr hc hμ hn hn').dst3
  | @dct4 o h _ => exact V (h.rel hr hc hμ hn hn').1
  | @dst4 o h _ => exact V (h.rel hr hc hμ hn hn').2
  | @dct5 o h =>
    refine V ?_
    simp only [Kind.gainMade, Kind.unitsMade]
    cases h with
    | @naive n x h =>
      have e := Dct5Naive.len_new h
      have hl : (Dct5Naive.toObj x).len = n := e
      have hs : (Dct5Naive.toObj x).scratchLen = n := e
      rw [hl] at hn hn'
      have hx := Dct5Naive.new_tab (T := T) hn
      rw [hx] at h
      injection h with h
      rw [hl, hs]
      subst h
      exact Dct5Naive.rel_dct5 hr hn hn'
  | @dct6 o h =>
    refine V ?_
    simp only [Kind.gainMade, Kind.unitsMade]
    cases h with
    | @naive n x h =>
      have e := Dct6And7Naive.len_new h
      have hl : (Dct6And7Naive.toObj x).len = n := e
      have hs : (Dct6And7Naive.toObj x).scratchLen = n := e
      rw [hl] at hn hn'
      have hx := Dct6And7Naive.new_tab (T := T) hn
      rw [hx] at h
      injection h with h
      rw [hl, hs]
      subst h
      exact Dct6And7Naive.rel_dct6 hr hn hn'
  | @dct7 o h =>
    refine V ?_
    simp only [Kind.gainMade, Kind.unitsMade]
    cases h with
    | @naive n x h =>
      have e := Dct6And7Naive.len_new h
      have hl : (Dct6And7Naive.toObj x).len = n := e
      have hs : (Dct6And7Naive.toObj x).scratchLen = n := e
      rw [hl] at hn hn'
      have hx := Dct6And7Naive.new_tab (T := T) hn
      rw [hx] at h
      injection h with h
      rw [hl, hs]
      subst h
      exact Dct6And7Naive.rel_dct7 hr hn hn'
  | @dct8 o h =>
    refine V ?_
    simp only [Kind.gainMade, Kind.unitsMade]
    cases h with
    | @naive n x h =>
      have e := Dct8Naive.len_new h
      have hl : (Dct8Naive.toObj x).len = n := e
      have hs : (Dct8Naive.toObj x).scratchLen = n := e
      rw [hl] at hn hn'
      have hx := Dct8Naive.new_tab (T := T) (n := n)
      rw [hx] at h
      injection h with h
      rw [hl, hs]
      subst h
      exact Dct8Naive.rel_dct8 hr hn hn'
  | @dst5 o h =>
    refine V ?_
    simp only [Kind.gainMade, Kind.unitsMade]
    cases h with
    | @naive n x h =>
      have e := Dst5Naive.len_new h
      have hl : (Dst5Naive.toObj x).len = n := e
      have hs : (Dst5Naive.toObj x).scratchLen = n := e
      rw [hl] at hn hn'
      have hx := Dst5Naive.new_tab (T := T) (n := n)
      rw [hx] at h
      injection h with h
      rw [hl, hs]
      subst h
      exact Dst5Naive.rel_dst5 hr hn hn'
  | @dst8 o h =>
    refine V ?_
    simp only [Kind.gainMade, Kind.unitsMade]
    cases h with
    | @naive n x h =>
      have e := Dst8Naive.len_new h
      have hl : (Dst8Naive.toObj x).len = n := e
      have hs : (Dst8Naive.toObj x).scratchLen = n := e
      rw [hl] at hn hn'
      have hx := Dst8Naive.new_tab (T := T) hn
      rw [hx] at h
      injection h with h
      rw [hl, hs]
      subst h
      exact Dst8Naive.rel_dst8 hr hn hn'
  | @dst1 o h =>
    refine ⟨?_, fun hk => absurd trivial hk⟩
    simp only [Kind.gainMade, Kind.unitsMade]
    cases h with
    | @naive n x h =>
      have e := Dst1Naive.len_new h
      have hl : (Dst1Naive.toObj x).len = n := e
      have hs : (Dst1Naive.toObj x).scratchLen = n := e
      rw [hl] at hn hn'
      have hx := Dst1Naive.new_tab (T := T) (n := n)
      rw [hx] at h
      injection h with h
      rw [hl, hs]
      subst h
      exact ((Dst1Naive.rel_dst1 hr hn hn').mono g1 u1).toZ
    | @fft fft x hf h =>
      obtain ⟨h1, -, h3, rfl⟩ := Dst1ConvertToFft.new_shape h
      have hl : fft.len = ((Dst1ConvertToFft.inst fft).toObj.len + 1) * 2 := by
        change fft.len = (fft.len / 2 - 1 + 1) * 2
        omega
      generalize (Dst1ConvertToFft.inst fft).toObj.len = n at hl hn hn' ⊢
      obtain ⟨-, G, hG, hD⟩ := hf.rel hc (by omega) (by omega)
      rw [hl] at hD
      exact (Dst1ConvertToFft.rel hG hl hD).mono (by rw [mul_comm 2 c, mul_assoc]; exact Nat.mul_le_mul_left _ (by omega)) (uf (by omega) (le_refl _))
  | @dst6 o h =>
    refine ⟨?_, fun hk => absurd trivial hk⟩
    simp only [Kind.gainMade, Kind.unitsMade]
    cases h with
    | @naive n x h =>
      have e := Dst6And7Naive.len_new h
      have hl : (Dst6And7Naive.toObj x).len = n := e
      have hs : (Dst6And7Naive.toObj x).scratchLen = n := e
      rw [hl] at hn hn'
      have hx := Dst6And7Naive.new_tab (T := T) (n := n)
      rw [hx] at h
      injection h with h
      rw [hl, hs]
      subst h
      exact ((Dst6And7Naive.rel_dst6 hr hn hn').mono g1 u1).toZ
    | @fft fft x hf h =>
      obtain ⟨h1, -, rfl⟩ := Dst6And7ConvertToFft.new_shape h
      have hl : fft.len = (Dst6And7ConvertToFft.inst fft).toObj.len * 2 + 1 := by
        change fft.len = (fft.len - 1) / 2 * 2 + 1
        omega
      generalize (Dst6And7ConvertToFft.inst fft).toObj.len = n at hl hn hn' ⊢
      obtain ⟨-, G, hG, hD⟩ := hf.rel hc (by omega) (by omega)
      rw [hl] at hD
      exact (Dst6And7ConvertToFft.rel_dst6 hG hl hD).mono (by rw [mul_comm 2 c, mul_assoc]; exact Nat.mul_le_mul_left _ (by omega)) (uf (by omega) (Nat.le_succ _))
  | @dst7 o h =>
    refine ⟨?_, fun hk => absurd trivial hk⟩
    simp only [Kind.gainMade, Kind.unitsMade]
    cases h with
    | @naive n x h =>
      have e := Dst6And7Naive.len_new h
      have hl : (Dst6And7Naive.toObj x).len = n := e
      have hs : (Dst6And7Naive.toObj x).scratchLen = n := e
      rw [hl] at hn hn'
      have hx := Dst6And7Naive.new_tab (T := T) (n := n)
      rw [hx] at h
      injection h with h
      rw [hl, hs]
      subst h
      exact ((Dst6And7Naive.rel_dst7 hr hn hn').mono g1 u1).toZ
    | @fft fft x hf h =>
      obtain ⟨h1, -, rfl⟩ := Dst6And7ConvertToFft.new_shape h
      have hl : fft.len = (Dst6And7ConvertToFft.inst fft).toObj.len * 2 + 1 := by
        change fft.len = (fft.len - 1) / 2 * 2 + 1
        omega
      generalize (Dst6And7ConvertToFft.inst fft).toObj.len = n at hl hn hn' ⊢
      obtain ⟨-, G, hG, hD⟩ := hf.rel hc (by omega) (by omega)
      rw [hl] at hD
      exact (Dst6And7ConvertToFft.rel_dst7 hG hl hD).mono (by rw [mul_comm 2 c, mul_assoc]; exact Nat.mul_le_mul_left _ (by omega)) (uf (by omega) (le_refl _))

/-! ### MDCT -/

theorem MdctRel.mono {o : MdctObj T} {n G d k G' d' : ℕ} {v : ℕ → ℝ} (h : MdctRel R o n v G d k) (hG : G ≤ G') (hd : d ≤ d') : Nonempty (MdctRel R o n v G' d' k) := by
  refine ⟨h.C, h.A, h.B, h.runM, h.runI, ?_, ?_, ?_⟩
  · intro b c m x y x' y' hb hc hx hy i hi
    exact (h.relM b c m x y x' y' hb hc hx hy i hi).mono hb (Nat.mul_le_mul_right _ (by omega)) (by omega)
  · intro b c m c0 m0 x o x' o' hb hc hx ho i hi
    exact (h.relA b c m c0 m0 x o x' o' hb hc hx ho i hi).mono hb (Nat.add_le_add_left (Nat.mul_le_mul_right _ hG) _) (by omega)
  · intro b c m c0 m0 x o x' o' hb hc hx ho i hi
    exact (h.relB b c m c0 m0 x o x' o' hb hc hx ho i hi).mono hb (Nat.add_le_add_left (Nat.mul_le_mul_right _ hG) _) (by omega)

theorem MdctNaive.tw_tab (hr : R.Twiddles r) {n : ℕ} (hn : 1 ≤ n) (hn' : n ≤ 2 ^ 60) : ∀ j < 4 * n, Tw R 1 r (MdctNaive.tab n j : T) (MdctNaive.tab n j : ℝ) := by
  intro j hj
  have hn0 : (1 : ℝ) ≤ n := by exact_mod_cast hn
  have hn2 : (n : ℝ) ≤ 2 ^ 60 := by exact_mod_cast hn'
  have hj2 : (j : ℝ) ≤ 2 ^ 62 := by exact_mod_cast (show j ≤ 2 ^ 62 by omega)
  have hj0 : (0 : ℝ) ≤ j := Nat.cast_nonneg j
  have hj' : (j : ℝ) + 1 ≤ 4 * n := by exact_mod_cast hj
  obtain ⟨p1, p2⟩ := pi_range
  have hv := R.v_le
  have hv0 := R.v_nonneg
  have hh := ApF.half R
  have hp := ApF.pi R
  have h1 := ApF.round (hh.2.mul0 hp.2) (by norm_num; linarith) (by norm_num; linarith) (by nlinarith) (R.f_mul _ _ hh.1 hp.1)
  obtain ⟨hd, hdn⟩ := R.f_nat n (by omega)
  obtain ⟨hs, h4⟩ := h1.2.div0 hv0 R.v_lt (show (0 : ℝ) < n by linarith) hdn
  have h5 := ApF.round h4 (by
      rw [le_div_iff₀ (by linarith)]
      have := mul_le_mul_of_nonneg_left hn2 (show (0 : ℝ) ≤ (1 / 2) ^ 100 by positivity)
      norm_num at this ⊢
      linarith) (by
      rw [div_le_iff₀ (by linarith)]
      norm_num
      linarith) (by
      rw [div_le_iff₀ (by linarith)]
      have := R.pow_v_le (k := 3) (by norm_num)
      nlinarith) (R.f_div _ _ h1.1 hd hs)
  have hb := ApF.nat R (n := j) (by omega)
  have h0 := ApF.round (hb.2.add0 hh.2) (by norm_num; linarith) (by linarith) (by linarith [R.v_le]) (R.f_add _ _ hb.1 hh.1)
  have h6 : Ap (R.valF (F64.half * F64.pi / F64.nat n) * R.valF (F64.nat j + F64.half)) (1 / 2 * π / n * ((j : ℝ) + 1 / 2)) (2 * π) ((1 + R.v) ^ 6 / (1 - R.v)) := by
    refine ((h5.2.mul0 h0.2).mono (le_of_eq (by ring))).monoX ?_
    rw [div_mul_eq_mul_div, div_le_iff₀ (by linarith)]
    nlinarith [pi_pos, mul_le_mul_of_nonneg_left hj' pi_pos.le]
  have h7 := ApF.round h6 (by norm_num; linarith) (by norm_num; linarith) (by linarith [R.ang_le (show 6 ≤ 7 by norm_num)]) (R.f_mul _ _ h5.1 h0.1)
  rw [← mul_div_assoc, ← pow_succ'] at h7
  rw [MdctNaive.tab_real]
  exact Tw.cos hr h7

theorem Bd.mdctSum {b : ℝ} {L cnt st idx m a c A : ℕ} (hb : R.L ≤ b) (hL : 0 < L) {t : ℕ → T} {tr : ℕ → ℝ} {v : ℕ → T → T} {vr : ℕ → ℝ → ℝ}
    (hv : ∀ i < cnt, ∀ j < L, Bd R b c m (v i (t j)) (vr i (tr j))) {acc : T} {accr : ℝ} (ha : Bd R b A (m + a) acc accr) :
    Bd R b (A + cnt * c) (m + a + cnt) (mdctSum L t v st acc idx cnt) (mdctSum L tr vr st accr idx cnt) := by
  induction cnt with
  | zero => simpa [RustDct.mdctSum] using ha
  | succ q ih =>
    have h1 := ih fun i hi => hv i (by omega)
    unfold RustDct.mdctSum at h1 ⊢
    rw [List.range_succ, List.foldl_append, List.foldl_append, List.foldl_cons, List.foldl_cons, List.foldl_nil, List.foldl_nil]
    have h2 := hv q (by omega) _ (Nat.mod_lt (idx + st * q) hL)
    exact (Bd.add hb h1 h2).mono hb (le_of_eq (by ring)) (by omega)

theorem MdctNaive.rel (hr : R.Twiddles r) {n k : ℕ} (hn : n % 2 = 0) (h1 : 1 ≤ n) (hn' : n ≤ 2 ^ 60) {w : ℕ → T} {v : ℕ → ℝ} (hw : ∀ i, i < 2 * n → Tw R 1 k (w i) (v i)) :
    Nonempty (MdctRel R (MdctNaive.toObj ⟨vec (4 * n) (MdctNaive.tab n), vec (2 * n) w⟩) n v (n + 1) (2 * n + r) k) := by
  have hL : 0 < 4 * n := by omega
  have tw := MdctNaive.tw_tab hr h1 hn'
  have entry : ∀ (b : ℝ) (c m c0 m0 st idx i : ℕ) (x : ℕ → T) (x' : ℕ → ℝ) (o : T) (o' : ℝ), R.L ≤ b → 1 ≤ c → (∀ i < n, Bd R b c m (x i) (x' i)) → Bd R b c0 m0 o o' → i < 2 * n →
      Bd R b (c0 + (n + 1) * c) (max m0 (m + (2 * n + r) + k + 1) + 1) (o + mdctSum (4 * n) (MdctNaive.tab n : ℕ → T) (fun i tw => x i * tw) st 0 idx n * w i)
        (o' + mdctSum (4 * n) (MdctNaive.tab n : ℕ → ℝ) (fun i tw => x' i * tw) st 0 idx n * v i) := by
    intro b c m c0 m0 st idx i x x' o o' hb hc hx ho hi
    have s := Bd.mdctSum (a := 0) (st := st) (idx := idx) hb hL (t := MdctNaive.tab n) (tr := MdctNaive.tab n) (v := fun i tw => x i * tw) (vr := fun i tw => x' i * tw)
      (fun i hi j hj => Bd.mul1 hb (hx i hi) (tw j hj)) (acc := 0) (accr := 0) (A := c) (Bd.zero' hb hc)
    exact (Bd.add hb ho (Bd.mul1 hb s (hw i hi))).mono hb (le_of_eq (by ring)) (by omega)
  refine ⟨_, _, _, MdctNaive.mdct_vec hn _ w, MdctNaive.imdct_vec hn _ w, ?_, ?_, ?_⟩
  · intro b c m x y x' y' hb hc hx hy i hi
    have e := RunsM.unique (MdctNaive.mdct_vec hn (MdctNaive.tab n : ℕ → ℝ) v) (MdctNaive.correct_mdct hn v) x' y' hi
    have s1 := Bd.mdctSum (a := 0) (st := i * 2 + 1) (idx := (n / 2 + i * (n + 1)) % (4 * n)) (cnt := n) hb hL (t := MdctNaive.tab n) (tr := MdctNaive.tab n) (v := fun i tw => x i * w i * tw) (vr := fun i tw => x' i * v i * tw)
      (fun i hi j hj => Bd.mul1 hb (Bd.mul1 hb (hx i hi) (hw i (by omega))) (tw j hj)) (acc := 0) (accr := 0) (A := c) (Bd.zero' hb hc)
    have s2 := Bd.mdctSum (a := 0 + n) (A := c + n * c) (st := i * 2 + 1) (idx := ((n / 2 + i * (n + 1)) % (4 * n) + (i * 2 + 1) * n) % (4 * n)) (cnt := n) hb hL (t := MdctNaive.tab n) (tr := MdctNaive.tab n) (v := fun i tw => y i * w (i + n) * tw) (vr := fun i tw => y' i * v (i + n) * tw)
      (fun i hi j hj => Bd.mul1 hb (Bd.mul1 hb (hy i hi) (hw (i + n) (by omega))) (tw j hj)) (by rw [add_assoc] at s1; exact s1)
    have e' : Spec.mdctAt n v (cat n x' y') i = _ := e.symm
    rw [e']
    exact s2.mono hb (by nlinarith) (by omega)
  · intro b c m c0 m0 x o x' o' hb hc hx ho i hi
    have e := (RunsI.unique (MdctNaive.imdct_vec hn (MdctNaive.tab n : ℕ → ℝ) v) (MdctNaive.correct_imdct hn v) x' o' o' hi).1
    rw [← e]
    exact entry b c m c0 m0 _ _ i x x' (o i) (o' i) hb hc hx (ho i hi) (by omega)
  · intro b c m c0 m0 x o x' o' hb hc hx ho i hi
    have e := (RunsI.unique (MdctNaive.imdct_vec hn (MdctNaive.tab n : ℕ → ℝ) v) (MdctNaive.correct_imdct hn v) x' o' o' hi).2
    rw [← e]
    exact entry b c m c0 m0 _ _ (i + n) x x' (o i) (o' i) hb hc hx (ho i hi) (by omega)

end RustDct
