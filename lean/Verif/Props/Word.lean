import Mathlib.Analysis.SpecialFunctions.Trigonometric.Complex
import Verif.Model.Word
import Verif.Props.Mdct
/-!
# C58: `MdctNaive` and the size of `usize`

The start index of the sums of `MdctNaive` grows with the square of the length.  Up to a bound on the length (65534 for a 32-bit
`usize`) that does not matter; beyond it, debug builds panic, and release builds compute wrong values unless the number of values of
`usize` is a multiple of four times the length.
-/

set_option linter.all false

namespace RustDct
open Finset Real

/-- The largest start index of an MDCT of length `n` is a value of `usize`. -/
def Machine.Fits (M : Machine) (n : ℕ) : Prop := n / 2 + (n - 1) * (n + 1) < M.values

section
variable {T : Type} {F : Type} [F64 F] [DctNum T F] {M : Machine}

theorem Machine.arith_lt {x : ℕ} (h : x < M.values) : M.arith x = .ok x := if_pos h

theorem forRange_error {σ : Type} {hi k : ℕ} {s : σ} {f : ℕ → σ → Except Err σ} {e : Err} (g : ℕ → σ) (hs : s = g 0)
    (hstep : ∀ i, i < k → f i (g i) = .ok (g (i + 1))) (hk : k < hi) (he : f k (g k) = .error e) : forRange 0 hi s f = .error e := by
  have h1 : forRange 0 k s f = .ok (g k) := forRange_eq g hs (fun i _ hi => hstep i hi) (Nat.zero_le _)
  unfold forRange at h1 ⊢
  obtain ⟨d, rfl⟩ : ∃ d, hi = k + 1 + d := ⟨hi - k - 1, by omega⟩
  rw [Nat.sub_zero] at h1 ⊢
  rw [Nat.add_assoc, ← List.range'_append_1, List.foldlM_append, h1, ok_bind, Nat.zero_add, Nat.add_comm 1 d, List.range'_succ, List.foldlM_cons, he]
  rfl

theorem mdctLoopOn_eq {L cnt stride idx : Nat} (t : Nat → T) {term : Nat → T → Except Err T} (v : Nat → T → T)
    (hv : ∀ i tw, i < cnt → term i tw = .ok (v i tw)) (acc : T) (hi : idx < L) (hst : stride ≤ L) (hW : L + stride ≤ M.values) :
    mdctLoopOn M (vec L t) cnt stride term acc idx =
      .ok (mdctSum L t v stride acc idx cnt, (idx + stride * cnt) % L) := by
  unfold mdctLoopOn
  rw [forRange_eq (fun m => (mdctSum L t v stride acc idx m, (idx + stride * m) % L))]
  · simp [mdctSum, Nat.mod_eq_of_lt hi]
  · intro i h1 h2
    have hL : 0 < L := by omega
    have hlt := Nat.mod_lt (idx + stride * i) hL
    simp only [rd_vec hlt, ok_bind, length_vec, hv i _ h2]
    have e1 : mdctSum L t v stride acc idx (i + 1) = mdctSum L t v stride acc idx i + v i (t ((idx + stride * i) % L)) := by
      unfold mdctSum
      rw [List.range_succ, List.foldl_append, List.foldl_cons, List.foldl_nil]
    have e2 : (idx + stride * (i + 1)) % L = ((idx + stride * i) % L + stride) % L := by
      rw [Nat.mod_add_mod, Nat.mul_add, Nat.mul_one, Nat.add_assoc]
    rw [e1, e2]
    generalize (idx + stride * i) % L = r at hlt ⊢
    rw [M.arith_lt (by omega), ok_bind]
    by_cases h : r + stride ≥ L
    · rw [if_pos h, Nat.mod_eq_sub_mod h, Nat.mod_eq_of_lt (by omega)]
    · rw [if_neg h, Nat.mod_eq_of_lt (by omega)]
  · exact Nat.zero_le _

/-- One output value of the method, if the start index is `J`. -/
def mdctCell (n : ℕ) (t w a b : ℕ → T) (k J : ℕ) : T :=
  let i0 := J % (4 * n)
  mdctSum (4 * n) t (fun i tw => b i * w (i + n) * tw) (k * 2 + 1)
    (mdctSum (4 * n) t (fun i tw => a i * w i * tw) (k * 2 + 1) 0 i0 n)
    ((i0 + (k * 2 + 1) * n) % (4 * n)) n

/-- The start index the machine computes. -/
def Machine.start (M : Machine) (n k : ℕ) : Except Err ℕ := do
  let p ← M.arith (n + 1)
  let q ← M.arith (k * p)
  M.arith (n / 2 + q)

theorem Machine.start_wraps {n k : ℕ} (hw : M.wraps = true) (hn : n + 1 < M.values) : M.start n k = .ok ((n / 2 + k * (n + 1)) % M.values) := by
  have A : ∀ x, M.arith x = .ok (x % M.values) := fun x => by
    unfold Machine.arith
    split_ifs with h
    · rw [Nat.mod_eq_of_lt h]
    · rfl
  unfold Machine.start
  rw [A, ok_bind, A, ok_bind, A, Nat.add_mod_mod, Nat.mod_eq_of_lt hn]

theorem Machine.start_fits {n k : ℕ} (hn : n + 1 < M.values) (h : n / 2 + k * (n + 1) < M.values) : M.start n k = .ok (n / 2 + k * (n + 1)) := by
  unfold Machine.start
  rw [M.arith_lt hn, ok_bind, M.arith_lt (by omega), ok_bind, M.arith_lt h]

theorem Machine.start_panics {n k : ℕ} (hw : M.wraps = false) (hn : n + 1 < M.values) (h : M.values ≤ n / 2 + k * (n + 1)) : M.start n k = .error .overflow := by
  unfold Machine.start
  rw [M.arith_lt hn, ok_bind]
  by_cases h1 : k * (n + 1) < M.values
  · rw [M.arith_lt h1, ok_bind]
    unfold Machine.arith
    rw [if_neg (by omega), hw]; rfl
  · have : M.arith (k * (n + 1)) = .error .overflow := by
      unfold Machine.arith
      rw [if_neg h1, hw]; rfl
    rw [this]; rfl

/-- One iteration of the outer loop. -/
def mdctStepOn (M : Machine) (n : ℕ) (t w a b : ℕ → T) (k : ℕ) (output : List T) : Except Err (List T) := do
  let p ← M.arith (n + 1)
  let q ← M.arith (k * p)
  let r ← M.arith (n / 2 + q)
  let twiddleIndex := r % (4 * n)
  let d ← M.arith (k * 2)
  let twiddleStride ← M.arith (d + 1)
  let st ← mdctLoopOn M (vec (4 * n) t) n twiddleStride (fun i twiddle => do
    let a ← rd (vec n a) i
    let w ← rd (vec (2 * n) w) i
    .ok (a * w * twiddle)) 0 twiddleIndex
  let st ← mdctLoopOn M (vec (4 * n) t) n twiddleStride (fun i twiddle => do
    let b ← rd (vec n b) i
    let j ← M.arith (i + n)
    let w ← rd (vec (2 * n) w) j
    .ok (b * w * twiddle)) st.1 st.2
  wr output k st.1

theorem mdctOn_body {n : ℕ} (hn : n % 2 = 0) (t w a b o : ℕ → T) (scr : List T) :
    MdctNaive.mdctOn M ⟨vec (4 * n) t, vec (2 * n) w⟩ (vec n a) (vec n b) ⟨vec n o, scr⟩ =
      match forRange 0 n (vec n o) (mdctStepOn M n t w a b) with
      | .ok out => .ok ⟨out, scr⟩
      | .error e => .panic e none := by
  unfold MdctNaive.mdctOn
  have hl : MdctNaive.len (⟨vec (4 * n) t, vec (2 * n) w⟩ : MdctNaive T) = n := by simp [MdctNaive.len]
  simp only [hl, MdctNaive.scratchLen, validateMdct, length_vec]
  rw [if_neg (by simp), if_pos (Nat.zero_le _)]
  change (match (forRange 0 n (vec n o) (mdctStepOn M n t w a b) >>= fun output => Except.ok (output, List.take 0 scr)) with
    | .ok (b, s) => (Outcome.ok ⟨b, s ++ List.drop 0 scr⟩ : Outcome (Mem T))
    | .error e => Outcome.panic e none) = _
  cases forRange 0 n (vec n o) (mdctStepOn M n t w a b) <;> rfl

theorem mdctStepOn_start {n k : ℕ} (t w a b : ℕ → T) (output : List T) {e : Err} (h : M.start n k = .error e) : mdctStepOn M n t w a b k output = .error e := by
  unfold Machine.start at h
  unfold mdctStepOn
  cases h1 : M.arith (n + 1) with
  | error e1 => rw [h1] at h; injection h with h; rw [h]; rfl
  | ok p =>
    rw [h1, ok_bind] at h
    rw [ok_bind]
    cases h2 : M.arith (k * p) with
    | error e2 => rw [h2] at h; injection h with h; rw [h]; rfl
    | ok q =>
      rw [h2, ok_bind] at h
      rw [ok_bind]
      cases h3 : M.arith (n / 2 + q) with
      | error e3 => rw [h3] at h; injection h with h; rw [h]; rfl
      | ok r => rw [h3] at h; cases h

theorem mdctStepOn_ok {n k J : ℕ} (hn : n % 2 = 0) (hW : 8 * n ≤ M.values) (hk : k < n) (t w a b : ℕ → T) (output : List T) (h : M.start n k = .ok J) :
    mdctStepOn M n t w a b k output = wr output k (mdctCell n t w a b k J) := by
  unfold Machine.start at h
  unfold mdctStepOn
  rw [M.arith_lt (by omega), ok_bind] at h ⊢
  cases h2 : M.arith (k * (n + 1)) with
  | error e2 => rw [h2] at h; cases h
  | ok q =>
    rw [h2, ok_bind] at h
    rw [ok_bind, h, ok_bind, M.arith_lt (by omega), ok_bind, M.arith_lt (by omega), ok_bind]
    rw [mdctLoopOn_eq t (fun i tw => a i * w i * tw) (by
      intro i tw hi
      rw [rd_vec hi, ok_bind, rd_vec (by omega), ok_bind]) _ (Nat.mod_lt _ (by omega)) (by omega) (by omega), ok_bind]
    rw [mdctLoopOn_eq t (fun i tw => b i * w (i + n) * tw) (by
      intro i tw hi
      rw [rd_vec hi, ok_bind, M.arith_lt (by omega), ok_bind, rd_vec (by omega), ok_bind]) _ (Nat.mod_lt _ (by omega)) (by omega) (by omega), ok_bind]
    rfl

theorem mdctOn_vec {n : ℕ} (hn : n % 2 = 0) (hW : 8 * n ≤ M.values) {J : ℕ → ℕ} (hJ : ∀ k, k < n → M.start n k = .ok (J k)) (t w a b o : ℕ → T) (scr : List T) :
    MdctNaive.mdctOn M ⟨vec (4 * n) t, vec (2 * n) w⟩ (vec n a) (vec n b) ⟨vec n o, scr⟩ = .ok ⟨vec n fun k => mdctCell n t w a b k (J k), scr⟩ := by
  rw [mdctOn_body hn]
  rw [forRange_eq (fun m => vec n (fun j => if j < m then mdctCell n t w a b j (J j) else o j)) ?h1 ?h2 (by omega)]
  case h1 => exact target_start (by omega)
  case h2 =>
    intro k _ hk
    rw [mdctStepOn_ok hn hW hk _ _ _ _ _ (hJ k hk), wr_target hk rfl]
    congr 1
    exact target_congr (by omega)
  dsimp only
  rw [target_done (by simp)]

theorem mdct_vec' {n : ℕ} (hn : n % 2 = 0) (t w a b o : ℕ → T) (scr : List T) :
    MdctNaive.mdct ⟨vec (4 * n) t, vec (2 * n) w⟩ (vec n a) (vec n b) ⟨vec n o, scr⟩ = .ok ⟨vec n fun k => mdctCell n t w a b k (n / 2 + k * (n + 1)), scr⟩ := by
  obtain ⟨scr', e, -, h⟩ := MdctNaive.mdct_vec hn t w a b o scr (Nat.zero_le _)
  rw [List.drop_zero, List.drop_zero] at h
  rw [e, h]
  rfl

theorem MdctNaive.rejects_mdctOn (self : MdctNaive T) : RejectsMdct (self.mdctOn M) self.len self.scratchLen := by
  unfold MdctNaive.mdctOn
  exact rejects_validateMdct _ _ _

/-- If the start indices agree up to multiples of the table length, the machine does not matter. -/
theorem mdctOn_eq {n : ℕ} {windowFn : ℕ → List T} {x : MdctNaive T} (hx : MdctNaive.new n windowFn = .ok x) (hW : 8 * n ≤ M.values)
    {J : ℕ → ℕ} (hJ : ∀ k, k < n → M.start n k = .ok (J k)) (hj : ∀ k, k < n → J k % (4 * n) = (n / 2 + k * (n + 1)) % (4 * n)) (a b : List T) (m : Mem T) :
    x.mdctOn M a b m = x.mdct a b m := by
  by_cases hv : ValidMdct x.len x.scratchLen a b m
  swap
  · rw [x.rejects_mdctOn a b m hv, x.rejects_mdct a b m hv]
  obtain ⟨h1, h2, t, rfl⟩ := MdctNaive.new_shape hx
  rw [Nat.mul_comm n 2] at h2
  rw [Nat.mul_comm n 2] at hv ⊢
  obtain ⟨w, hw⟩ := exists_vec h2
  rw [hw] at hv ⊢
  have hl : MdctNaive.len (⟨vec (4 * n) t, vec (2 * n) w⟩ : MdctNaive T) = n := by simp [MdctNaive.len]
  rw [hl] at hv
  obtain ⟨ha, hb, ho, -⟩ := hv
  obtain ⟨o, scr⟩ := m
  obtain ⟨f, rfl⟩ := exists_vec ha
  obtain ⟨g, rfl⟩ := exists_vec hb
  obtain ⟨y, hy⟩ := exists_vec ho
  change o = vec n y at hy
  subst hy
  rw [mdctOn_vec h1 hW hJ, mdct_vec' h1]
  congr 2
  refine vec_congr fun k hk => ?_
  unfold mdctCell
  rw [hj k hk]

/-! ### C58 -/

/-- As long as the largest start index is a value of `usize` the method behaves as in the model with unbounded integers.  (`8 * n ≤ M.values` because
the table of `4 * n` values of at least four bytes exists.) -/
theorem C58_fits {n : ℕ} {windowFn : ℕ → List T} {x : MdctNaive T} (hx : MdctNaive.new n windowFn = .ok x) (hW : 8 * n ≤ M.values) (hf : M.Fits n) (a b : List T)
    (m : Mem T) : x.mdctOn M a b m = x.mdct a b m := by
  refine mdctOn_eq hx hW (J := fun k => n / 2 + k * (n + 1)) (fun k hk => ?_) (fun _ _ => rfl) a b m
  have : k * (n + 1) ≤ (n - 1) * (n + 1) := Nat.mul_le_mul_right _ (by omega)
  unfold Machine.Fits at hf
  have h2 : n ≤ (n - 1) * (n + 1) + 1 := by
    have := Nat.mul_le_mul (show 0 ≤ n - 1 by omega) (show 1 ≤ n + 1 by omega)
    rcases Nat.eq_zero_or_pos n with h | h
    · omega
    · have : (n - 1) * 1 ≤ (n - 1) * (n + 1) := Nat.mul_le_mul_left _ (by omega)
      omega
  exact M.start_fits (by omega) (by omega)

/-- With wrap-around the method is also unaffected if the number of values of `usize` is a multiple of the table length. -/
theorem C58_wraps {n : ℕ} {windowFn : ℕ → List T} {x : MdctNaive T} (hx : MdctNaive.new n windowFn = .ok x) (hW : 8 * n ≤ M.values) (hw : M.wraps = true)
    (hd : 4 * n ∣ M.values) (a b : List T) (m : Mem T) : x.mdctOn M a b m = x.mdct a b m :=
  mdctOn_eq hx hW (J := fun k => (n / 2 + k * (n + 1)) % M.values) (fun k hk => M.start_wraps hw (by omega)) (fun k _ => Nat.mod_mod_of_dvd _ hd) a b m

/-- Otherwise debug builds panic, on every call that respects the sizes. -/
theorem C58_debug {n : ℕ} {windowFn : ℕ → List T} {x : MdctNaive T} (hx : MdctNaive.new n windowFn = .ok x) (hn : 1 ≤ n) (hW : 8 * n ≤ M.values) (hw : M.wraps = false)
    (hf : ¬ M.Fits n) {a b : List T} {m : Mem T} (hv : ValidMdct n x.scratchLen a b m) : x.mdctOn M a b m = .panic .overflow none := by
  obtain ⟨h1, h2, t, rfl⟩ := MdctNaive.new_shape hx
  rw [Nat.mul_comm n 2] at h2
  rw [Nat.mul_comm n 2] at hv ⊢
  obtain ⟨w, hw'⟩ := exists_vec h2
  rw [hw'] at hv ⊢
  obtain ⟨ha, hb, ho, -⟩ := hv
  obtain ⟨o, scr⟩ := m
  obtain ⟨f, rfl⟩ := exists_vec ha
  obtain ⟨g, rfl⟩ := exists_vec hb
  obtain ⟨y, hy⟩ := exists_vec ho
  change o = vec n y at hy
  subst hy
  rw [mdctOn_body h1]
  have hex : ∃ k, k < n ∧ M.values ≤ n / 2 + k * (n + 1) := ⟨n - 1, by omega, by unfold Machine.Fits at hf; omega⟩
  classical
  obtain ⟨hk, hov⟩ := Nat.find_spec hex
  have hmin := fun j (hj : j < Nat.find hex) => Nat.find_min hex hj
  generalize Nat.find hex = k at hk hov hmin
  rw [forRange_error (k := k) (e := .overflow) (fun m => vec n (fun j => if j < m then mdctCell n t w f g j (n / 2 + j * (n + 1)) else y j)) (target_start (by omega)) ?_ hk ?_]
  · intro j hj
    have hjs := hmin j hj
    rw [mdctStepOn_ok h1 hW (by omega) _ _ _ _ _ (M.start_fits (by omega) (by omega)), wr_target (by omega) rfl]
    congr 1
    exact target_congr (by omega)
  · exact mdctStepOn_start _ _ _ _ _ (M.start_panics hw (by omega) hov)

end

/-! ### Release builds, over the reals -/

theorem cos_shift {α δ d : ℝ} (h0 : cos (α - δ) = cos α) (h1 : cos (α + d - δ) = cos (α + d)) : (∃ k : ℤ, δ = 2 * k * π) ∨ ∃ k : ℤ, d = k * π := by
  rw [cos_eq_cos_iff] at h0 h1
  obtain ⟨k, h0⟩ := h0
  obtain ⟨l, h1⟩ := h1
  rcases h0 with h0 | h0
  · exact .inl ⟨k, by linarith⟩
  · rcases h1 with h1 | h1
    · exact .inl ⟨l, by linarith⟩
    · refine .inr ⟨l - k, ?_⟩
      push_cast
      linarith

/-- The output value `k` of the method for an impulse at `i`. -/
theorem mdctCell_impulse {n : ℕ} (w : ℕ → ℝ) (k J : ℕ) {i : ℕ} (hi : i < n) :
    mdctCell n (fun i => cos (1 / 2 * π / n * (i + 1 / 2))) w (fun j => if j = i then 1 else 0) (fun _ => 0) k J =
      w i * cos (1 / 2 * π / n * (((J + (k * 2 + 1) * i) % (4 * n) : ℕ) + 1 / 2)) := by
  unfold mdctCell
  rw [mdctSum_real, mdctSum_real]
  rw [sum_eq_single i (fun j _ hj => by beta_reduce; rw [if_neg hj]; ring) (fun h => absurd (mem_range.2 hi) h)]
  rw [Nat.mod_add_mod]
  simp

/-- With wrap-around the method computes the MDCT if and only if nothing overflows or the wrap-around does no harm. -/
theorem C58_release {M : Machine} {n : ℕ} {windowFn : ℕ → List ℝ} {x : MdctNaive ℝ} (hx : MdctNaive.new n windowFn = .ok x) (hn : 1 ≤ n) (hW : 8 * n ≤ M.values)
    (hw : M.wraps = true) (h0 : (windowFn (2 * n)).getD 0 0 ≠ 0) (h1 : (windowFn (2 * n)).getD 1 0 ≠ 0) :
    ComputesMdct (x.mdctOn M) n x.scratchLen (fun a b => Spec.mdct n (windowFn (2 * n)) (a ++ b)) ↔ M.Fits n ∨ 4 * n ∣ M.values := by
  have hx' := hx
  obtain ⟨he, hwl, -⟩ := MdctNaive.new_shape hx
  rw [Nat.mul_comm n 2] at hwl
  obtain ⟨w, hw'⟩ := exists_vec hwl
  rw [MdctNaive.new_real he (by rw [Nat.mul_comm n 2]; exact hw')] at hx'
  injection hx' with hx'
  subst hx'
  have hs := (MdctNaive.correct_mdct he w).computes
  rw [hw'] at h0 h1 ⊢
  rw [getD_vec (by omega)] at h0 h1
  have hn0 : (n : ℝ) ≠ 0 := Nat.cast_ne_zero.2 (by omega)
  constructor
  swap
  · intro h a b m hv
    have e : (MdctNaive.inst n w).mdctOn M a b m = (MdctNaive.inst n w).mdct a b m := by
      rcases h with h | h
      · exact C58_fits hx hW h a b m
      · exact C58_wraps hx hW hw h a b m
    rw [e]
    exact hs a b m hv
  · intro h
    by_contra hc
    rw [not_or] at hc
    obtain ⟨hf, hd⟩ := hc
    have hex : ∃ k, k < n ∧ M.values ≤ n / 2 + k * (n + 1) := ⟨n - 1, by omega, by unfold Machine.Fits at hf; omega⟩
    classical
    obtain ⟨hk, hov⟩ := Nat.find_spec hex
    have hmin := fun j (hj : j < Nat.find hex) => Nat.find_min hex hj
    generalize Nat.find hex = k at hk hov hmin
    have hk0 : 0 < k := by rcases Nat.eq_zero_or_pos k with h | h; · subst h; omega
                           · exact h
    have hup : n / 2 + k * (n + 1) < M.values + (n + 1) := by
      have := hmin (k - 1) (by omega)
      obtain ⟨j, rfl⟩ : ∃ j, k = j + 1 := ⟨k - 1, by omega⟩
      rw [Nat.add_sub_cancel] at this
      have h3 : ¬ M.values ≤ n / 2 + j * (n + 1) := fun hh => this ⟨by omega, hh⟩
      rw [Nat.add_mul]
      omega
    have hmod : (n / 2 + k * (n + 1)) % M.values = n / 2 + k * (n + 1) - M.values := by
      rw [Nat.mod_eq_sub_mod hov, Nat.mod_eq_of_lt (by omega)]
    -- what an impulse tells
    have key : ∀ i, i < n → w i ≠ 0 →
        cos (1 / 2 * π / n * ((n / 2 + k * (n + 1) : ℕ) + 1 / 2) + 1 / 2 * π / n * ((k * 2 + 1) * i) - 1 / 2 * π / n * M.values) =
        cos (1 / 2 * π / n * ((n / 2 + k * (n + 1) : ℕ) + 1 / 2) + 1 / 2 * π / n * ((k * 2 + 1) * i)) := by
      intro i hi hwi
      obtain ⟨s1, e1⟩ := h (vec n fun j => if j = i then 1 else 0) (vec n fun _ => 0) ⟨vec n fun _ => 0, []⟩ ⟨by simp, by simp, by simp, Nat.zero_le _⟩
      obtain ⟨s2, e2⟩ := hs (vec n fun j => if j = i then 1 else 0) (vec n fun _ => 0) ⟨vec n fun _ => 0, []⟩ ⟨by simp, by simp, by simp, Nat.zero_le _⟩
      have f1 := mdctOn_vec (M := M) he hW (J := fun k => (n / 2 + k * (n + 1)) % M.values) (fun k hk => M.start_wraps hw (by omega))
        (fun i => cos (1 / 2 * π / n * (i + 1 / 2))) w (fun j => if j = i then 1 else 0) (fun _ => 0) (fun _ => 0) []
      have f2 := mdct_vec' he (fun i => cos (1 / 2 * π / n * (i + 1 / 2))) w (fun j => if j = i then 1 else 0) (fun _ => 0) (fun _ => 0) []
      change (MdctNaive.inst n w).mdctOn M _ _ _ = _ at f1
      change (MdctNaive.inst n w).mdct _ _ _ = _ at f2
      rw [f1] at e1
      rw [f2] at e2
      injection e1 with e1
      injection e2 with e2
      injection e1 with e1
      injection e2 with e2
      have e := vec_inj (e1.trans e2.symm) k hk
      beta_reduce at e
      rw [mdctCell_impulse w k _ hi, mdctCell_impulse w k _ hi] at e
      have e' := mul_left_cancel₀ hwi e
      rw [mdct_angle he hn, mdct_angle he hn, hmod] at e'
      rw [Nat.cast_add, Nat.cast_sub hov] at e'
      refine Eq.trans (Eq.trans ?_ e') ?_
      · congr 1; push_cast; ring
      · congr 1; push_cast; ring
    have k0 := key 0 (by omega) h0
    have k1 := key 1 (by omega) h1
    rw [Nat.cast_zero, mul_zero, mul_zero, add_zero] at k0
    rw [Nat.cast_one, mul_one] at k1
    have hp := pi_pos.ne'
    rcases cos_shift k0 k1 with ⟨z, hz⟩ | ⟨z, hz⟩
    · apply hd
      have h3 : (M.values : ℝ) = 4 * n * z := by
        field_simp at hz
        linarith
      have h4 : (M.values : ℤ) = (4 * n : ℕ) * z := by exact_mod_cast h3
      exact Int.natCast_dvd_natCast.1 ⟨z, h4⟩
    · have h3 : ((k : ℝ) * 2 + 1) = 2 * n * z := by
        field_simp at hz
        linarith
      have h4 : (k : ℤ) * 2 + 1 = 2 * (n * z) := by
        have : ((k : ℤ) * 2 + 1 : ℝ) = 2 * (n * z) := by push_cast; linarith
        exact_mod_cast this
      omega

/-! Concretely. -/

theorem fits32 {n : ℕ} (hn : n % 2 = 0) (w : Bool) : Machine.Fits ⟨2 ^ 32, w⟩ n ↔ n < 65536 := by
  unfold Machine.Fits
  constructor
  · intro h
    by_contra hc
    have := Nat.mul_le_mul (show 65535 ≤ n - 1 by omega) (show 65537 ≤ n + 1 by omega)
    dsimp only at h
    omega
  · intro h
    have := Nat.mul_le_mul (show n - 1 ≤ 65533 by omega) (show n + 1 ≤ 65535 by omega)
    dsimp only
    omega

theorem fits64 {n : ℕ} (hn : n % 2 = 0) (w : Bool) : Machine.Fits ⟨2 ^ 64, w⟩ n ↔ n < 4294967296 := by
  unfold Machine.Fits
  constructor
  · intro h
    by_contra hc
    have := Nat.mul_le_mul (show 4294967295 ≤ n - 1 by omega) (show 4294967297 ≤ n + 1 by omega)
    dsimp only at h
    omega
  · intro h
    have := Nat.mul_le_mul (show n - 1 ≤ 4294967293 by omega) (show n + 1 ≤ 4294967295 by omega)
    dsimp only
    omega

/-- The hypotheses of `C58_debug` are met by every even length from 65536 to `2^29` and a 32-bit `usize`: `new` accepts the length, and there are
valid calls. -/
example {n : ℕ} (hn : n % 2 = 0) (h1 : 65536 ≤ n) (h2 : n ≤ 2 ^ 29) : ∃ x : MdctNaive ℝ, MdctNaive.new n WindowFn.one = .ok x ∧ 8 * n ≤ (2 ^ 32 : ℕ) ∧
    ¬ Machine.Fits ⟨2 ^ 32, false⟩ n ∧ ValidMdct n x.scratchLen (vec n fun _ => (1 : ℝ)) (vec n fun _ => 1) ⟨vec n fun _ => 0, []⟩ :=
  ⟨_, MdctNaive.new_real hn (w := fun _ => 1) (by unfold WindowFn.one; rw [map_range_eq_vec, Nat.mul_comm]), by omega,
    fun h => absurd ((fits32 hn _).1 h) (by omega), length_vec _ _, length_vec _ _, length_vec _ _, Nat.zero_le _⟩

/-- A 32-bit release build is wrong at length 98304 (with a rectangular window) and right at 131072. -/
theorem mdctNaive_word_finding :
    (∃ x : MdctNaive ℝ, MdctNaive.new 98304 WindowFn.one = .ok x ∧
      ¬ ComputesMdct (x.mdctOn ⟨2 ^ 32, true⟩) 98304 x.scratchLen (fun a b => Spec.mdct 98304 (WindowFn.one (2 * 98304)) (a ++ b))) ∧
    ∃ x : MdctNaive ℝ, MdctNaive.new 131072 WindowFn.one = .ok x ∧
      ComputesMdct (x.mdctOn ⟨2 ^ 32, true⟩) 131072 x.scratchLen (fun a b => Spec.mdct 131072 (WindowFn.one (2 * 131072)) (a ++ b)) := by
  have ex : ∀ n, n % 2 = 0 → ∃ x : MdctNaive ℝ, MdctNaive.new n WindowFn.one = .ok x := fun n hn =>
    ⟨_, MdctNaive.new_real hn (w := fun _ => 1) (by unfold WindowFn.one; rw [map_range_eq_vec, Nat.mul_comm])⟩
  have e : ∀ n, 2 ≤ n → ((WindowFn.one (2 * n) : List ℝ)).getD 0 0 ≠ 0 ∧ ((WindowFn.one (2 * n) : List ℝ)).getD 1 0 ≠ 0 := fun n hn => by
    unfold WindowFn.one
    rw [map_range_eq_vec, getD_vec (by omega), getD_vec (by omega)]
    exact ⟨one_ne_zero, one_ne_zero⟩
  constructor
  · obtain ⟨x, hx⟩ := ex 98304 (by norm_num)
    refine ⟨x, hx, fun h => ?_⟩
    rcases (C58_release (M := ⟨2 ^ 32, true⟩) hx (by norm_num) (by norm_num) rfl (e _ (by norm_num)).1 (e _ (by norm_num)).2).1 h with h | h
    · exact absurd ((fits32 (by norm_num) _).1 h) (by norm_num)
    · revert h; norm_num
  · obtain ⟨x, hx⟩ := ex 131072 (by norm_num)
    exact ⟨x, hx, (C58_release (M := ⟨2 ^ 32, true⟩) hx (by norm_num) (by norm_num) rfl (e _ (by norm_num)).1 (e _ (by norm_num)).2).2 (.inr (by norm_num))⟩

end RustDct
