import Verif.Silence
import Verif.Props.SignOfZero
import Verif.Props.RangeMade
import Verif.Props.Safety
/-!
# C89: silence stays silent
-/

set_option linter.all false

namespace RustDct
open Real

variable {f : Format}

/-! ### One value -/

theorem Fp.zero_of_opposite {x : Fp f} (h : Fp.Opposite x x) (hx : x.Fin) : ∃ s, x = .zero s := by
  rcases h with h | ⟨s, t, -, h⟩
  · cases x with
    | zero s => exact ⟨s, rfl⟩
    | num x hr h0 =>
      have := congrArg Fp.val h
      have e : -x = x := this
      exact absurd (by linarith) h0
    | inf s => exact absurd hx id
    | nan => exact absurd hx id
  · exact ⟨t, h⟩

theorem Fp.opposite_zero (s t : Bool) : Fp.Opposite (.zero s : Fp f) (.zero t) := Or.inr ⟨!s, t, rfl, rfl⟩

theorem Fp.zero_mul_fin (s : Bool) {c : Fp f} (hc : c.Fin) : ∃ t, (Fp.zero s : Fp f) * c = .zero t := by
  change ∃ t, Fp.mul _ _ = _
  rw [Fp.mul_fin (a := .zero s) trivial hc]
  change ∃ t, Fp.rnd f _ (0 * c.val) = _
  rw [zero_mul, Fp.rnd_zero]
  exact ⟨_, rfl⟩

theorem Fp.rnd_self {s : Bool} {x : ℝ} (h : f.Rep x) (h0 : x ≠ 0) : Fp.rnd f s x = .num x h h0 := by
  have e := h.round
  unfold Fp.rnd
  rw [dif_pos (by rw [e]; exact h), dif_neg (by rw [e]; exact h0)]
  simp only [e]

theorem Fp.add_silence (x : Fp f) (s : Bool) : Fp.Same x (x + .zero s) := by
  change Fp.Same x (Fp.add x (.zero s))
  cases x with
  | zero t =>
    rw [Fp.add_fin (a := .zero t) (b := .zero s) trivial trivial]
    change Fp.Same _ (Fp.rnd f _ (0 + 0))
    rw [add_zero, Fp.rnd_zero]
    exact Or.inr ⟨_, _, rfl, rfl⟩
  | num y h h0 =>
    rw [Fp.add_fin (a := .num y h h0) (b := .zero s) trivial trivial]
    change Fp.Same _ (Fp.rnd f _ (y + 0))
    rw [add_zero, Fp.rnd_self h h0]
    exact Or.inl rfl
  | inf t => exact Or.inl rfl
  | nan => exact Or.inl rfl

theorem Fp.sub_silence (x : Fp f) (s : Bool) : Fp.Same x (x - .zero s) := Fp.add_silence x (!s)

theorem Fp.silence_add {a b : Fp f} (ha : ∃ s, a = .zero s) (hb : ∃ s, b = .zero s) : ∃ s, a + b = .zero s := by
  obtain ⟨s, rfl⟩ := ha
  obtain ⟨t, rfl⟩ := hb
  rcases Fp.add_silence (.zero s : Fp f) t with h | ⟨-, u, -, h⟩
  · exact ⟨_, h.symm⟩
  · exact ⟨_, h⟩

theorem Fp.silence_sub {a b : Fp f} (ha : ∃ s, a = .zero s) (hb : ∃ s, b = .zero s) : ∃ s, a - b = .zero s := by
  obtain ⟨s, rfl⟩ := ha
  obtain ⟨t, rfl⟩ := hb
  rcases Fp.sub_silence (.zero s : Fp f) t with h | ⟨-, u, -, h⟩
  · exact ⟨_, h.symm⟩
  · exact ⟨_, h⟩

theorem Fp.silence_neg {a : Fp f} (ha : ∃ s, a = .zero s) : ∃ s, -a = .zero s := by
  obtain ⟨s, rfl⟩ := ha
  exact ⟨!s, rfl⟩

theorem Fp.silence_mul {a c : Fp f} (ha : ∃ s, a = .zero s) (hc : c.Fin) : ∃ s, a * c = .zero s := by
  obtain ⟨s, rfl⟩ := ha
  exact Fp.zero_mul_fin s hc

/-! ### Transforms -/

section
variable {p : Proc (Fp f)} {n s : ℕ} {k : Kind}

theorem Silent.opposite {l : List (Fp f)} (h : Silent l) : List.Forall₂ Fp.Opposite l l :=
  List.forall₂_same.2 fun x hx => by
    obtain ⟨s, rfl⟩ := h x hx
    exact Fp.opposite_zero s s

theorem Silent.bounded {l : List (Fp f)} (h : Silent l) : (Fp.ieee f).Bounded f.min l := fun x hx => by
  obtain ⟨s, rfl⟩ := h x hx
  refine ⟨trivial, ?_⟩
  change |(0 : ℝ)| ≤ _
  rw [abs_zero]; exact f.min_pos.le

theorem Ieee.Near.fin {δ : ℝ} {y : List (Fp f)} {z : List ℝ} (h : (Fp.ieee f).Near δ y z) : ∀ x ∈ y, x.Fin := by
  intro x hx
  obtain ⟨i, hi, rfl⟩ := List.getElem_of_mem hx
  exact (h.2 (y[i], z[i]'(by rw [← h.1]; exact hi)) (List.mem_iff_getElem.2 ⟨i, by rw [List.length_zip, ← h.1]; omega, List.getElem_zip⟩)).1

/-- The windows of C61 are finite, the six built-in ones (`C61_windows`) among them. -/
theorem Ieee.WindowNear.fin {T F : Type} [F64 F] [DctNum T F] {R : Ieee T F} {win : List T} {v : List ℝ} {k : ℕ} (h : R.WindowNear win v k) : ∀ x ∈ win, R.fin x := by
  intro x hx
  obtain ⟨i, hi, rfl⟩ := List.getElem_of_mem hx
  have hl := h.1
  exact (h.2 (win[i], v[i]'(hl ▸ hi)) (List.mem_iff_getElem.2 ⟨i, by rw [List.length_zip]; exact lt_min hi (hl ▸ hi), List.getElem_zip⟩)).1

theorem silent_of {l : List (Fp f)} (h : List.Forall₂ Fp.Opposite l l) (hl : ∀ x ∈ l, x.Fin) : Silent l := fun x hx =>
  Fp.zero_of_opposite (List.forall₂_same.1 h x hx) (hl x hx)

theorem silent_replicate (s : ℕ) : Silent (List.replicate s (0 : Fp f)) := fun x hx => ⟨false, (List.mem_replicate.1 hx).2⟩

/-- What is needed: negated inputs give negated outputs, and outputs are finite. -/
theorem keepsSilenceZeroed_of {spec : List ℝ → List ℝ} (hspec : ∀ x, (spec x).length = x.length) {g u : ℕ}
    (hp : ∀ m, MemRel Fp.Opposite m m → ORel (MemRel Fp.Opposite) (p m) (p m))
    (hfin : StaysFiniteZeroed (Fp.ieee f) p n s spec g u) (hroom : f.Room g u) : KeepsSilenceZeroed p n s := by
  obtain ⟨h1, h2⟩ := hfin f.min (le_refl _) hroom
  have key : ∀ buf, buf.length = n → Silent buf → ∃ m', p ⟨buf, List.replicate s 0⟩ = .ok m' ∧ m'.buf.length = n ∧ Silent m'.buf := by
    intro buf hb hs
    obtain ⟨m', e, hm⟩ := h1 buf hb hs.bounded
    have := hp ⟨buf, List.replicate s 0⟩ ⟨hs.opposite, (silent_replicate s).opposite⟩
    rw [e] at this
    cases this with
    | ok h => exact ⟨m', e, by rw [hm.1, hspec, List.length_map, hb], silent_of h.1 hm.fin⟩
  refine ⟨key, fun buf hb hs => ?_⟩
  obtain ⟨m', e, hl, hm⟩ := key buf hb hs
  exact ⟨m'.buf, by unfold processDefault; rw [e], hl, hm⟩

theorem KeepsSilenceZeroed.free (h : KeepsSilenceZeroed p n s) (hf : ScratchFree p n s) : KeepsSilence p n s := by
  refine ⟨fun m hm hs => ?_, h.2⟩
  obtain ⟨m', e, hl, hm'⟩ := h.1 m.buf hm.1 hs
  obtain ⟨out, s₁, s₂, e1, e2⟩ := hf m.buf m.scr (List.replicate s 0) hm ⟨hm.1, by simp⟩
  rw [e] at e2
  injection e2 with e2
  subst e2
  exact ⟨_, e1, hl, hm'⟩

theorem Kind.spec_length (k : Kind) (x : List ℝ) : (k.spec x).length = x.length := by
  cases k <;> simp [Kind.spec, Spec.dct1, Spec.dct2, Spec.dct3, Spec.dct4, Spec.dct5, Spec.dct6, Spec.dct7, Spec.dct8, Spec.dst1, Spec.dst2, Spec.dst3,
    Spec.dst4, Spec.dst5, Spec.dst6, Spec.dst7, Spec.dst8, Spec.onList]

/-- Every instance built with the public constructors, from any FFTs that respect negation and stay finite: on zeroed scratch, and on any
scratch unless it is one of the instances that read it. -/
theorem C89_made {r c : ℕ} {μ : ℕ → ℕ} (hr : (Fp.ieee f).Twiddles r) (hc : 2 ≤ c) (hμ : Monotone μ)
    (h : Method (fun fft => FftSane fft ∧ FftRel Fp.Opposite fft fft ∧ FftOfGain (Fp.ieee f) c μ fft) k p n s) (hn : 1 ≤ n) (hn' : n ≤ 2 ^ 60)
    (hroom : f.Room (k.gainMade c n) (k.unitsMade r μ n)) : KeepsSilenceZeroed p n s ∧ (¬ k.leaky → KeepsSilence p n s) := by
  have h0 := keepsSilenceZeroed_of k.spec_length (fun m hm => C72_made (C72_neg f) (h.mono fun _ h => h.2.1) hm)
    (C73_constructed hr hc hμ (h.mono fun _ h => h.2.2) hn hn').1 hroom
  exact ⟨h0, fun hk => h0.free (C30_made_partial (h.mono fun _ h => h.1) hk)⟩

/-- Planned instances. -/
theorem C89_planned {planFft : ℕ → Fft (Fp f)} {calls : List (PlanCall (Fp f))} {r : ℕ} {γ μ : ℕ → ℕ} (hr : (Fp.ieee f).Twiddles r)
    (hf : PlanFftRange (Fp.ieee f) planFft γ μ) (ho : ∀ m, k.fftLen n = some m → FftRel Fp.Opposite (planFft m) (planFft m))
    (h : Planned planFft calls k p n s) (hn : 1 ≤ n) (hn' : n ≤ 2 ^ 60) (hroom : f.Room (k.gain γ n) (k.units r μ n)) :
    KeepsSilenceZeroed p n s ∧ (PlanFftSane planFft → ¬ k.leakyAt n → KeepsSilence p n s) := by
  have h0 := keepsSilenceZeroed_of k.spec_length (fun m hm => C72_planned (C72_neg f) ho h hm) (C60_planned_zeroed hr hf h hn hn') hroom
  exact ⟨h0, fun hs hk => h0.free (C30_planned_partial hs h hk)⟩

/-- The instances that use no FFT (C65), among them all type 2, 3 and 4 transforms of power-of-two lengths, in formats of at most 53 bits
of precision. -/
theorem C89_no_fft {planFft : ℕ → Fft (Fp f)} {calls : List (PlanCall (Fp f))} (hp : f.p ≤ 53) (h : Planned planFft calls k p n s)
    (hk : (k = .dct2 ∨ k = .dct3 ∨ k = .dst2 ∨ k = .dst3) ∧ (∃ i, n = 2 ^ (i + 1)) ∨ (k = .dct4 ∨ k = .dst4) ∧ (∃ i, n = 2 ^ i) ∨
      k = .dct1 ∧ n < 10 ∨ k = .dst1 ∧ n < 25 ∨ (k = .dst6 ∨ k = .dst7) ∧ n < 45 ∨
      k = .dct5 ∨ k = .dct6 ∨ k = .dct7 ∨ k = .dct8 ∨ k = .dst5 ∨ k = .dst8) (hn : 1 ≤ n) (hn' : n ≤ 2 ^ 60)
    (hroom : f.Room (k.gain (fun n => 2 * n + 1) n) (k.units 64 (fun n => n + 64 + 2) n)) : KeepsSilence p n s := by
  have h' : Planned (fun n => (sumFft n : Fft (Fp f))) [] k p n s := C65_none planFft _ h hk
  refine (C89_planned (Fp.twiddles hp) (sumFft_planRange (Fp.twiddles hp)) (fun m _ => sumFft_rel (C72_neg f).param m) h' hn hn' hroom).2
    sumFft_sane ?_
  rcases hk with ⟨rfl | rfl | rfl | rfl, -⟩ | ⟨rfl | rfl, -⟩ | ⟨rfl, -⟩ | ⟨rfl, h⟩ | ⟨rfl | rfl, h⟩ | rfl | rfl | rfl | rfl | rfl | rfl <;> simp [Kind.leakyAt] <;> omega


theorem gain23_sum_le (n : ℕ) : gain23 (fun n => 2 * n + 1) n ≤ 4 * (n + 1) * (n + 1) := by
  unfold gain23
  have h2 : n ≤ (n + 1) * (n + 1) := by nlinarith
  split
  · nlinarith
  split
  · rename_i h
    have : 2 ^ ((Nat.log 2 n - 1) / 2) ≤ 2 ^ Nat.log 2 n := Nat.pow_le_pow_right (by norm_num) (by omega)
    rw [← h.2] at this
    have := Nat.mul_le_mul_left n this
    nlinarith
  · nlinarith

theorem gain_sum_le (k : Kind) (n : ℕ) : k.gain (fun n => 2 * n + 1) n ≤ 16 * (n + 1) * (n + 1) := by
  have h1 := gain23_sum_le n
  have h2 : 4 * gain23 (fun n => 2 * n + 1) (n / 2) ≤ 16 * (n + 1) * (n + 1) := by
    have := gain23_sum_le (n / 2)
    have h : n / 2 + 1 ≤ n + 1 := by omega
    have := Nat.mul_le_mul h h
    nlinarith
  have h4 : gain4 (fun n => 2 * n + 1) n ≤ 16 * (n + 1) * (n + 1) := by
    unfold gain4
    split <;> split <;> nlinarith
  have h5 : n ≤ (n + 1) * (n + 1) := by nlinarith
  have h6 : (n - 1) * 2 ≤ 2 * n := by omega
  cases k <;> simp only [Kind.gain] <;> (try split) <;> nlinarith

theorem units23_sum_le {n : ℕ} (hn : n ≤ 2 ^ 60) : units23 64 (fun n => n + 64 + 2) n ≤ n + 2200 := by
  have : Nat.log 2 n ≤ 60 := (Nat.log_mono_right hn).trans (by rw [Nat.log_pow (by norm_num)])
  unfold units23
  beta_reduce
  split
  · omega
  split <;> omega

theorem units_sum_le (k : Kind) {n : ℕ} (hn : n ≤ 2 ^ 60) : k.units 64 (fun n => n + 64 + 2) n ≤ 2 * n + 2400 := by
  have h1 := units23_sum_le hn
  have h2 := units23_sum_le (n := n / 2) (by omega)
  have h4 : units4 64 (fun n => n + 64 + 2) n ≤ 2 * n + 2400 := by
    unfold units4
    beta_reduce
    split <;> split <;> omega
  cases k <;> simp only [Kind.units] <;> (try split) <;> omega

theorem exp_pow_le {x : ℝ} (hx : 0 ≤ x) {n N e : ℕ} (hn : n ≤ N) (h : N * x ≤ e) : (1 + x) ^ n ≤ 3 ^ e := by
  calc (1 + x) ^ n ≤ (1 + x) ^ N := pow_le_pow_right₀ (by linarith) hn
    _ ≤ exp x ^ N := pow_le_pow_left₀ (by linarith) (by linarith [add_one_le_exp x]) N
    _ = exp (N * x) := by rw [← exp_nat_mul]
    _ ≤ exp (e : ℝ) := exp_le_exp.2 h
    _ = exp 1 ^ e := by rw [← exp_nat_mul, mul_one]
    _ ≤ 3 ^ e := pow_le_pow_left₀ (exp_pos _).le (by
      have := (abs_le.1 (abs_exp_sub_one_le (x := 1) (by norm_num))).2
      norm_num at this
      linarith) e

theorem room_f32 (k : Kind) {n : ℕ} (hn : n ≤ 2 ^ 28) : b32.Room (k.gain (fun n => 2 * n + 1) n) (k.units 64 (fun n => n + 64 + 2) n) := by
  unfold Format.Room
  refine le_trans ?_ Fp.b32_max
  have hg : ((k.gain (fun n => 2 * n + 1) n : ℕ) : ℝ) ≤ 2 ^ 70 := by
    have := (gain_sum_le k n).trans (Nat.mul_le_mul (Nat.mul_le_mul_left 16 (show n + 1 ≤ 2 ^ 29 by omega)) (show n + 1 ≤ 2 ^ 29 by omega))
    calc ((k.gain (fun n => 2 * n + 1) n : ℕ) : ℝ) ≤ ((16 * 2 ^ 29 * 2 ^ 29 : ℕ) : ℝ) := by exact_mod_cast this
      _ ≤ 2 ^ 70 := by norm_num
  have hu : (1 + (1 / 2 : ℝ) ^ b32.p) ^ (k.units 64 (fun n => n + 64 + 2) n) ≤ 3 ^ 48 :=
    exp_pow_le (by positivity) (N := 2 ^ 29 + 2400) ((units_sum_le k (by omega)).trans (by omega)) (by change (_ : ℝ) * (1 / 2) ^ 24 ≤ _; norm_num)
  have hm : b32.min ≤ 1 / 2 ^ 60 := by
    unfold Format.min b32
    norm_num [zpow_neg]
  have h0 := b32.min_pos
  calc _ ≤ (2 ^ 70 * (1 / 2 ^ 60) * 3 ^ 48 : ℝ) := by gcongr
    _ ≤ _ := ?_
  norm_num

theorem room_f64 (k : Kind) {n : ℕ} (hn : n ≤ 2 ^ 50) : b64.Room (k.gain (fun n => 2 * n + 1) n) (k.units 64 (fun n => n + 64 + 2) n) := by
  unfold Format.Room
  refine le_trans ?_ Fp.b64_max
  have hg : ((k.gain (fun n => 2 * n + 1) n : ℕ) : ℝ) ≤ 2 ^ 110 := by
    have := (gain_sum_le k n).trans (Nat.mul_le_mul (Nat.mul_le_mul_left 16 (show n + 1 ≤ 2 ^ 51 by omega)) (show n + 1 ≤ 2 ^ 51 by omega))
    calc ((k.gain (fun n => 2 * n + 1) n : ℕ) : ℝ) ≤ ((16 * 2 ^ 51 * 2 ^ 51 : ℕ) : ℝ) := by exact_mod_cast this
      _ ≤ 2 ^ 110 := by norm_num
  have hu : (1 + (1 / 2 : ℝ) ^ b64.p) ^ (k.units 64 (fun n => n + 64 + 2) n) ≤ 3 ^ 1 :=
    exp_pow_le (by positivity) (N := 2 ^ 51 + 2400) ((units_sum_le k (by omega)).trans (by omega)) (by change (_ : ℝ) * (1 / 2) ^ 53 ≤ _; norm_num)
  have hm : b64.min ≤ 1 := b64.min_le
  have h0 := b64.min_pos
  calc _ ≤ (2 ^ 110 * 1 * 3 ^ 1 : ℝ) := by gcongr
    _ ≤ 2 ^ 112 := by norm_num
    _ ≤ 2 ^ 1000 := pow_le_pow_right₀ (by norm_num) (by norm_num)

/-- In `f32`, lengths up to `2^28`. -/
theorem C89_f32 {planFft : ℕ → Fft (Fp b32)} {calls : List (PlanCall (Fp b32))} {p : Proc (Fp b32)} (h : Planned planFft calls k p n s)
    (hk : (k = .dct2 ∨ k = .dct3 ∨ k = .dst2 ∨ k = .dst3) ∧ (∃ i, n = 2 ^ (i + 1)) ∨ (k = .dct4 ∨ k = .dst4) ∧ (∃ i, n = 2 ^ i) ∨
      k = .dct1 ∧ n < 10 ∨ k = .dst1 ∧ n < 25 ∨ (k = .dst6 ∨ k = .dst7) ∧ n < 45 ∨
      k = .dct5 ∨ k = .dct6 ∨ k = .dct7 ∨ k = .dct8 ∨ k = .dst5 ∨ k = .dst8) (hn : 1 ≤ n) (hn' : n ≤ 2 ^ 28) : KeepsSilence p n s :=
  C89_no_fft (by norm_num [b32]) h hk hn (by omega) (room_f32 k hn')

/-- In `f64`, lengths up to `2^50`. -/
theorem C89_f64 {planFft : ℕ → Fft (Fp b64)} {calls : List (PlanCall (Fp b64))} {p : Proc (Fp b64)} (h : Planned planFft calls k p n s)
    (hk : (k = .dct2 ∨ k = .dct3 ∨ k = .dst2 ∨ k = .dst3) ∧ (∃ i, n = 2 ^ (i + 1)) ∨ (k = .dct4 ∨ k = .dst4) ∧ (∃ i, n = 2 ^ i) ∨
      k = .dct1 ∧ n < 10 ∨ k = .dst1 ∧ n < 25 ∨ (k = .dst6 ∨ k = .dst7) ∧ n < 45 ∨
      k = .dct5 ∨ k = .dct6 ∨ k = .dct7 ∨ k = .dct8 ∨ k = .dst5 ∨ k = .dst8) (hn : 1 ≤ n) (hn' : n ≤ 2 ^ 50) : KeepsSilence p n s :=
  C89_no_fft (le_refl _) h hk hn (by omega) (room_f64 k hn')

end

/-! ### MDCT and IMDCT -/

section
variable {n s : ℕ}

theorem silent_vec {x : ℕ → Fp f} : Silent (vec n x) ↔ ∀ i, i < n → ∃ s, x i = .zero s := by
  unfold Silent vec
  simp only [List.mem_map, List.mem_range, forall_exists_index, and_imp, forall_apply_eq_imp_iff₂]

theorem same_vec {x y : ℕ → Fp f} (h : ∀ i, i < n → Fp.Same (x i) (y i)) : List.Forall₂ Fp.Same (vec n x) (vec n y) := by
  unfold vec
  rw [List.forall₂_map_left_iff, List.forall₂_map_right_iff]
  exact List.forall₂_same.2 fun i hi => h i (List.mem_range.1 hi)

theorem keepsSilenceMdct_of {p : List (Fp f) → List (Fp f) → Mem (Fp f) → Outcome (Mem (Fp f))} {C : (ℕ → Fp f) → (ℕ → Fp f) → ℕ → Fp f} (h : RunsM p n s C)
    (hC : ∀ a b, (∀ i, i < n → ∃ s, a i = .zero s) → (∀ i, i < n → ∃ s, b i = .zero s) → ∀ i, i < n → ∃ s, C a b i = .zero s) : KeepsSilenceMdct p n s := by
  rintro a b ⟨o, scr⟩ ⟨ha, hb, ho, hs⟩ za zb
  obtain ⟨a, rfl⟩ := exists_vec ha
  obtain ⟨b, rfl⟩ := exists_vec hb
  obtain ⟨o, rfl⟩ := exists_vec (l := o) ho
  obtain ⟨scr', e, -⟩ := h a b o scr hs
  exact ⟨_, e, by simp, silent_vec.2 (hC a b (silent_vec.1 za) (silent_vec.1 zb))⟩

theorem keepsSilenceImdct_of {p : List (Fp f) → IMem (Fp f) → Outcome (IMem (Fp f))} {A B : (ℕ → Fp f) → (ℕ → Fp f) → ℕ → Fp f} (h : RunsI p n s A B)
    (hA : ∀ x o, (∀ i, i < n → ∃ s, x i = .zero s) → ∀ i, i < n → Fp.Same (o i) (A x o i))
    (hB : ∀ x o, (∀ i, i < n → ∃ s, x i = .zero s) → ∀ i, i < n → Fp.Same (o i) (B x o i)) : KeepsSilenceImdct p n s := by
  rintro x ⟨oa, ob, scr⟩ ⟨hx, ha, hb, hs⟩ zx
  obtain ⟨x, rfl⟩ := exists_vec hx
  obtain ⟨oa, rfl⟩ := exists_vec (l := oa) ha
  obtain ⟨ob, rfl⟩ := exists_vec (l := ob) hb
  obtain ⟨scr', e, -⟩ := h x oa ob scr hs
  exact ⟨_, e, same_vec (hA x oa (silent_vec.1 zx)), same_vec (hB x ob (silent_vec.1 zx))⟩

theorem same_add {o v : Fp f} (h : ∃ s, v = .zero s) : Fp.Same o (o + v) := by obtain ⟨s, rfl⟩ := h; exact Fp.add_silence o s
theorem same_sub {o v : Fp f} (h : ∃ s, v = .zero s) : Fp.Same o (o - v) := by obtain ⟨s, rfl⟩ := h; exact Fp.sub_silence o s

theorem silence_mdctSum {L : ℕ} {t : ℕ → Fp f} {v : ℕ → Fp f → Fp f} {st idx cnt : ℕ} {a : Fp f} (ha : ∃ s, a = .zero s) (hL : 0 < L) (ht : ∀ i, i < L → (t i).Fin)
    (hv : ∀ i c, i < cnt → c.Fin → ∃ s, v i c = .zero s) : ∃ s, mdctSum L t v st a idx cnt = .zero s := by
  induction cnt with
  | zero => exact ha
  | succ m ih =>
    have e : mdctSum L t v st a idx (m + 1) = mdctSum L t v st a idx m + v m (t ((idx + st * m) % L)) := by
      unfold mdctSum
      rw [List.range_succ, List.foldl_append, List.foldl_cons, List.foldl_nil]
    rw [e]
    exact Fp.silence_add (ih fun i c hi => hv i c (by omega)) (hv m _ (by omega) (ht _ (Nat.mod_lt _ hL)))

/-- `MdctNaive` over a finite window. -/
theorem naive_silence {r : ℕ} (hr : (Fp.ieee f).Twiddles r) {w : ℕ → List (Fp f)} {x : MdctNaive (Fp f)} (h : MdctNaive.new n w = .ok x) (hn : 1 ≤ n) (hn' : n ≤ 2 ^ 60)
    (hw : ∀ c ∈ w (2 * n), c.Fin) : KeepsSilenceMdct x.mdct n 0 ∧ KeepsSilenceImdct x.imdct n 0 := by
  obtain ⟨he, hlen, rfl⟩ := MdctNaive.new_tab h
  obtain ⟨v, hv⟩ := exists_vec hlen
  rw [hv] at hw ⊢
  have hv' : ∀ i, i < 2 * n → (v i).Fin := fun i hi => hw _ (by unfold vec; exact List.mem_map.2 ⟨i, List.mem_range.2 hi, rfl⟩)
  have tw : ∀ i, i < 4 * n → (MdctNaive.tab n i : Fp f).Fin := fun i hi => (MdctNaive.tw_tab hr hn hn' i hi).2.1
  refine ⟨keepsSilenceMdct_of (MdctNaive.mdct_vec he _ v) fun a b ha hb i hi => ?_, keepsSilenceImdct_of (MdctNaive.imdct_vec he _ v)
    (fun x o hx i hi => same_add (Fp.silence_mul (silence_mdctSum ⟨false, rfl⟩ (by omega) tw fun j c hj hc => Fp.silence_mul (hx j hj) hc) (hv' i (by omega))))
    (fun x o hx i hi => same_add (Fp.silence_mul (silence_mdctSum ⟨false, rfl⟩ (by omega) tw fun j c hj hc => Fp.silence_mul (hx j hj) hc) (hv' _ (by omega))))⟩
  exact silence_mdctSum (silence_mdctSum ⟨false, rfl⟩ (by omega) tw fun j c hj hc => Fp.silence_mul (Fp.silence_mul (ha j hj) (hv' j (by omega))) hc) (by omega) tw
    fun j c hj hc => Fp.silence_mul (Fp.silence_mul (hb j hj) (hv' _ (by omega))) hc

theorem keepsSilence_vec {p : Proc (Fp f)} {D : (ℕ → Fp f) → ℕ → Fp f} (h : RunsW p n s D) (hk : KeepsSilence p n s) {x : ℕ → Fp f}
    (hx : ∀ i, i < n → ∃ s, x i = .zero s) : ∀ i, i < n → ∃ s, D x i = .zero s := by
  obtain ⟨scr', e, -⟩ := h x (List.replicate s 0) (by simp)
  obtain ⟨m', e', -, hm⟩ := hk.1 ⟨vec n x, List.replicate s 0⟩ ⟨by simp, by simp⟩ (silent_vec.2 hx)
  rw [e] at e'
  injection e' with e'
  subst e'
  exact silent_vec.1 hm

/-- `MdctViaDct4` over a finite window and a DCT4 that keeps silence. -/
theorem viaDct4_silence {d : Obj4 (Fp f)} {w : ℕ → List (Fp f)} {x : MdctViaDct4 (Fp f)} (h : MdctViaDct4.new d w = .ok x) (hn : 1 ≤ d.len)
    (hd : ∃ D, RunsW d.dct4 d.len d.scratchLen D) (hk : KeepsSilence d.dct4 d.len d.scratchLen) (hw : ∀ c ∈ w (2 * d.len), c.Fin) :
    KeepsSilenceMdct x.mdct d.len x.scratchLen ∧ KeepsSilenceImdct x.imdct d.len x.scratchLen := by
  obtain ⟨h1, h2, rfl⟩ := MdctViaDct4.new_shape h
  obtain ⟨g, hg⟩ : ∃ g, d.len = 2 * g := ⟨d.len / 2, by omega⟩
  obtain ⟨D, hD⟩ := hd
  have h2' : (w (d.len * 2)).length = 4 * g := by omega
  obtain ⟨v, hv⟩ := exists_vec h2'
  rw [Nat.mul_comm 2 d.len, hv] at hw
  rw [hv]
  have hv' : ∀ i, i < 4 * g → (v i).Fin := fun i hi => hw _ (by unfold vec; exact List.mem_map.2 ⟨i, List.mem_range.2 hi, rfl⟩)
  have hz := fun {x : ℕ → Fp f} => keepsSilence_vec hD hk (x := x)
  rw [hg] at hD hz ⊢
  refine ⟨keepsSilenceMdct_of (MdctViaDct4.mdct_vec v hg hD rfl) fun a b ha hb => hz fun i hi => ?_, keepsSilenceImdct_of (MdctViaDct4.imdct_vec v hg hD rfl) ?_ ?_⟩
  · unfold mdctFold
    split
    · exact Fp.silence_sub (Fp.silence_neg (Fp.silence_mul (hb _ (by omega)) (hv' _ (by omega)))) (Fp.silence_mul (hb _ (by omega)) (hv' _ (by omega)))
    · exact Fp.silence_sub (Fp.silence_mul (ha _ (by omega)) (hv' _ (by omega))) (Fp.silence_mul (ha _ (by omega)) (hv' _ (by omega)))
  · intro x o hx i hi
    beta_reduce
    split
    · exact same_add (Fp.silence_mul (hz hx _ (by omega)) (hv' _ (by omega)))
    · exact same_sub (Fp.silence_mul (hz hx _ (by omega)) (hv' _ (by omega)))
  · intro x o hx i hi
    beta_reduce
    split
    · exact same_sub (Fp.silence_mul (hz hx _ (by omega)) (hv' _ (by omega)))
    · exact same_sub (Fp.silence_mul (hz hx _ (by omega)) (hv' _ (by omega)))

/-- MDCT and IMDCT built with the public constructors, over any window of finite numbers. -/
theorem C89_mdct_made {r c : ℕ} {μ : ℕ → ℕ} (hr : (Fp.ieee f).Twiddles r) (hc : 2 ≤ c) (hμ : Monotone μ) {win : List (Fp f)} {o : MdctObj (Fp f)}
    (h : MadeMdct (fun fft => FftSane fft ∧ FftRel Fp.Opposite fft fft ∧ FftOfGain (Fp.ieee f) c μ fft) win o) (hn : 1 ≤ o.len) (hn' : o.len ≤ 2 ^ 60)
    (hw : ∀ v ∈ win, v.Fin) (hroom : f.Room (Kind.gainMade c .dct4 o.len) (Kind.unitsMade r μ .dct4 o.len)) :
    KeepsSilenceMdct o.mdct o.len o.scratchLen ∧ KeepsSilenceImdct o.imdct o.len o.scratchLen := by
  cases h with
  | @naive n w x h =>
    have hl : x.toObj.len = n := by
      obtain ⟨he, hlen, rfl⟩ := MdctNaive.new_tab h
      change (vec (4 * n) (MdctNaive.tab n : ℕ → Fp f)).length / 4 = n
      rw [length_vec]; omega
    rw [hl] at hn hn' ⊢
    exact naive_silence hr h hn hn' (by rw [Nat.mul_comm]; exact hw)
  | @viaDct4 inner w x hi h =>
    have e : x.toObj.len = inner.len := by
      obtain ⟨h1, h2, rfl⟩ := MdctViaDct4.new_shape h
      rfl
    rw [e] at hn hn' hroom ⊢
    obtain ⟨D, hD⟩ := ((hi.mono fun _ h => h.1).meth hn).1.total
    exact viaDct4_silence h hn ⟨D, hD.weak⟩ ((C89_made hr hc hμ (.dct4 hi hn) hn hn' hroom).2 id) (by rw [Nat.mul_comm]; exact hw)

theorem plannedMdct_silence {planFft : ℕ → Fft (Fp f)} {calls : List (PlanCall (Fp f))} (hf : PlanFftShape planFft)
    (hd : ∀ p s, Planned planFft [] .dct4 p n s → (∃ D, RunsW p n s D) ∧ KeepsSilence p n s)
    {w : ℕ → List (Fp f)} {o : MdctObj (Fp f)} (h : PlannedMdct planFft calls n w o) (hn : 1 ≤ n) (hw : ∀ v ∈ effectiveWindow n calls w (2 * n), v.Fin) :
    KeepsSilenceMdct o.mdct n o.scratchLen ∧ KeepsSilenceImdct o.imdct n o.scratchLen := by
  have hc := h.canon hf
  generalize effectiveWindow n calls w = W at hw hc
  obtain ⟨a, s', e⟩ : Returns (planDct4 planFft n (plannerAfter planFft [])) := (C33_domain hf [] n).2.2.2.1
  obtain ⟨hD, hk⟩ := hd _ _ (.dct4 e hn)
  obtain ⟨i, h1, h2, h3⟩ := canon4_made hf n
  have e4 := Yields.canon (fun W => planDct4_yields n) e
  rw [h1] at e4
  injection e4 with e4
  subst e4
  unfold canonMdct at hc
  rw [h1] at hc
  have hc' : (MdctViaDct4.new a.val W).map MdctViaDct4.toObj = .ok o := hc
  cases hx : MdctViaDct4.new a.val W with
  | error e => rw [hx] at hc'; cases hc'
  | ok x =>
    rw [hx] at hc'
    injection hc' with hc'
    subst hc'
    have := viaDct4_silence hx (by rw [h3]; exact hn) (by rw [h3]; exact hD) (by rw [h3]; exact hk) (by rw [h3]; exact hw)
    rw [h3] at this
    exact this

/-- Planned MDCT and IMDCT, over any window of finite numbers. -/
theorem C89_mdct_planned {planFft : ℕ → Fft (Fp f)} {calls : List (PlanCall (Fp f))} {r : ℕ} {γ μ : ℕ → ℕ} (hr : (Fp.ieee f).Twiddles r)
    (hf : PlanFftRange (Fp.ieee f) planFft γ μ) (hs : PlanFftSane planFft) (ho : ∀ m, Kind.dct4.fftLen n = some m → FftRel Fp.Opposite (planFft m) (planFft m))
    {w : ℕ → List (Fp f)} {o : MdctObj (Fp f)} (h : PlannedMdct planFft calls n w o) (hn : 1 ≤ n) (hn' : n ≤ 2 ^ 60)
    (hw : ∀ v ∈ effectiveWindow n calls w (2 * n), v.Fin) (hroom : f.Room (Kind.gain γ .dct4 n) (Kind.units r μ .dct4 n)) :
    KeepsSilenceMdct o.mdct n o.scratchLen ∧ KeepsSilenceImdct o.imdct n o.scratchLen :=
  plannedMdct_silence hf.shape (fun p s hp => ⟨((hp.sane hs).clean id).imp fun _ h => h.weak, (C89_planned hr hf ho hp hn hn' hroom).2 hs id⟩) h hn hw

theorem runsW_dyadic {planFft : ℕ → Fft (Fp f)} {i : ℕ} {p : Proc (Fp f)} (h : Planned planFft [] .dct4 p (2 ^ i) s) : ∃ D, RunsW p (2 ^ i) s D := by
  have h' : Planned (fun n => (sumFft n : Fft (Fp f))) [] .dct4 p (2 ^ i) s := C65_none planFft _ h (.inr (.inl ⟨.inl rfl, i, rfl⟩))
  exact ((h'.sane sumFft_sane).clean id).imp fun _ h => h.weak

/-- In `f32` and `f64`, for block lengths that are powers of two, whatever the FFT library does. -/
theorem C89_mdct_f32 {planFft : ℕ → Fft (Fp b32)} {calls : List (PlanCall (Fp b32))} (hf : PlanFftShape planFft) {w : ℕ → List (Fp b32)} {o : MdctObj (Fp b32)} {i : ℕ}
    (h : PlannedMdct planFft calls (2 ^ i) w o) (hi : i ≤ 28) (hw : ∀ v ∈ effectiveWindow (2 ^ i) calls w (2 * 2 ^ i), v.Fin) :
    KeepsSilenceMdct o.mdct (2 ^ i) o.scratchLen ∧ KeepsSilenceImdct o.imdct (2 ^ i) o.scratchLen :=
  plannedMdct_silence hf (fun p s hp => ⟨runsW_dyadic hp, C89_f32 hp (.inr (.inl ⟨.inl rfl, i, rfl⟩)) Nat.one_le_two_pow (Nat.pow_le_pow_right (by norm_num) hi)⟩) h
    Nat.one_le_two_pow hw

theorem C89_mdct_f64 {planFft : ℕ → Fft (Fp b64)} {calls : List (PlanCall (Fp b64))} (hf : PlanFftShape planFft) {w : ℕ → List (Fp b64)} {o : MdctObj (Fp b64)} {i : ℕ}
    (h : PlannedMdct planFft calls (2 ^ i) w o) (hi : i ≤ 50) (hw : ∀ v ∈ effectiveWindow (2 ^ i) calls w (2 * 2 ^ i), v.Fin) :
    KeepsSilenceMdct o.mdct (2 ^ i) o.scratchLen ∧ KeepsSilenceImdct o.imdct (2 ^ i) o.scratchLen :=
  plannedMdct_silence hf (fun p s hp => ⟨runsW_dyadic hp, C89_f64 hp (.inr (.inl ⟨.inl rfl, i, rfl⟩)) Nat.one_le_two_pow (Nat.pow_le_pow_right (by norm_num) hi)⟩) h
    Nat.one_le_two_pow hw

end

/-! The hypotheses can be met. -/

/-- A DCT1 of 100 points in `f32`, which uses an FFT, on scratch full of NaN. -/
example (calls : List (PlanCall (Fp b32))) : ∃ p s, Planned (fun n => (sumFft n : Fft (Fp b32))) calls .dct1 p 100 s ∧
    ∃ m', p ⟨List.replicate 100 (.zero true), List.replicate s Fp.nan⟩ = .ok m' ∧ m'.buf.length = 100 ∧ Silent m'.buf := by
  obtain ⟨p, s, hp⟩ := planned_exists (T := Fp b32) sumFft_sane.shape calls .dct1 (n := 100) (by norm_num)
  refine ⟨p, s, hp, ((C89_planned (Fp.twiddles (f := b32) (by norm_num [b32])) (sumFft_planRange (Fp.twiddles (by norm_num [b32])))
    (fun m _ => sumFft_rel (C72_neg b32).param m) hp (by norm_num) (by norm_num) (room_f32 .dct1 (by norm_num))).2 sumFft_sane id).1 _ ⟨by simp, by simp⟩ ?_⟩
  exact fun x hx => ⟨true, (List.mem_replicate.1 hx).2⟩

/-- An IMDCT of 256 zero coefficients in `f64` under the Vorbis window leaves the outputs alone. -/
example (planFft : ℕ → Fft (Fp b64)) (hf : PlanFftShape planFft) : ∃ o, PlannedMdct planFft [] (2 ^ 8) WindowFn.vorbis o ∧
    KeepsSilenceImdct o.imdct (2 ^ 8) o.scratchLen := by
  obtain ⟨o, ho⟩ := plannedMdct_exists hf [] (n := 2 ^ 8) (by norm_num) (w := WindowFn.vorbis) (by simp [WindowFn.vorbis])
  have hw := (C61_windows (R := Fp.ieee b64) (Fp.windows (le_refl _)) (len := 2 * 2 ^ 8) (by norm_num) (by norm_num)).2.2.1
  exact ⟨o, ho, (C89_mdct_f64 hf ho (by norm_num) hw.fin).2⟩

end RustDct
