import Verif.Proofs.WordMid
import Verif.Props.Scratch
import Verif.Props.Formula
/-!
# C66: lengths and `usize`

Constructors and planner compute sizes from the requested length: `2 * (n - 1)`, `4 * n` and the like.  For absurdly large lengths these
products leave the range of `usize`.
-/

set_option linter.all false

namespace RustDct

section
variable {T : Type} {F : Type} [F64 F] [DctNum T F] {M : Target} {n : ℕ}

theorem arith_bind {α : Type} {x : ℕ} {f : ℕ → Except Err α} {o : α} (h : (M.arith x >>= f) = .ok o) (hx : M.wraps = false ∨ x < M.values) : f x = .ok o := by
  unfold Machine.arith at h
  by_cases h1 : x < M.values
  · rw [if_pos h1] at h; exact h
  · rw [if_neg h1] at h
    rcases hx with hx | hx
    · rw [hx] at h; cases h
    · exact absurd hx h1

theorem arith_bind_wraps {α : Type} {x : ℕ} {f : ℕ → Except Err α} {o : α} (h : (M.arith x >>= f) = .ok o) (hx : M.wraps = true) : f (x % M.values) = .ok o := by
  unfold Machine.arith at h
  by_cases h1 : x < M.values
  · rw [if_pos h1] at h; rw [Nat.mod_eq_of_lt h1]; exact h
  · rw [if_neg h1, if_pos hx] at h; exact h

theorem sub_bind {α : Type} {a b : ℕ} {f : ℕ → Except Err α} {o : α} (h : (M.sub a b >>= f) = .ok o) :
    (b ≤ a ∧ f (a - b) = .ok o) ∨ (a < b ∧ M.wraps = true ∧ f (a + M.values - b) = .ok o) := by
  unfold Machine.sub at h
  by_cases h1 : b ≤ a
  · rw [if_pos h1] at h; exact .inl ⟨h1, h⟩
  · rw [if_neg h1] at h
    by_cases h2 : M.wraps = true
    · rw [if_pos h2] at h; exact .inr ⟨by omega, h2, h⟩
    · rw [if_neg h2] at h; cases h

theorem collect_bind {α β : Type} {words k : ℕ} {g : ℕ → β} {f : List β → Except Err α} {o : α} (h : (M.collect words k g >>= f) = .ok o) :
    k * words ≤ M.maxVec ∧ f ((List.range k).map g) = .ok o := by
  unfold Target.collect at h
  by_cases h1 : k * words ≤ M.maxVec
  · rw [if_pos h1] at h; exact ⟨h1, h⟩
  · rw [if_neg h1] at h; cases h

/-- The arithmetic of `M` cannot go wrong for the length `n`: it panics instead of wrapping around, or the length is one that a buffer can have. -/
def Target.Trusts (M : Target) (n : ℕ) : Prop := M.wraps = false ∨ M.Realistic ∧ n ≤ M.maxVec

theorem Target.Trusts.fits (h : M.Trusts n) {x : ℕ} (hx : x ≤ 4 * n + 178) : M.wraps = false ∨ x < M.values := by
  rcases h with h | ⟨⟨h1, h2, -⟩, h3⟩
  · exact .inl h
  · exact .inr (by omega)

theorem Target.Trusts.mono (h : M.Trusts n) {m : ℕ} (hm : m ≤ n) : M.Trusts m := h.imp id fun ⟨a, b⟩ => ⟨a, by omega⟩

theorem Target.Trusts.no_wrap (h : M.Trusts n) (hw : M.wraps = true) : M.Realistic := by
  rcases h with h | h
  · rw [h] at hw; cases hw
  · exact h.1

theorem Dct1Naive.newOn_exact (hE : M.Trusts n) {o : Dct1Naive T} (h : Dct1Naive.newOn M n = .ok o) : Dct1Naive.new n = .ok o := by
  unfold Dct1Naive.newOn at h
  unfold Dct1Naive.new
  by_cases h1 : n = 1
  · rw [if_pos h1] at h; cases h
  rw [if_neg h1] at h ⊢
  rcases sub_bind h with ⟨a, h⟩ | ⟨a, hw, h⟩
  · rw [csub_ok a]
    exact (collect_bind (arith_bind h (hE.fits (by omega)))).2
  · have := (collect_bind (arith_bind_wraps h hw)).1
    obtain ⟨r1, r2, -⟩ := hE.no_wrap hw
    obtain rfl : n = 0 := by omega
    rw [show (0 + M.values - 1) * 2 = (M.values - 2) + M.values by omega, Nat.add_mod_right, Nat.mod_eq_of_lt (by omega)] at this
    omega

theorem Dst1Naive.newOn_exact (hE : M.Trusts n) {o : Dst1Naive T} (h : Dst1Naive.newOn M n = .ok o) : Dst1Naive.new n = .ok o := by
  unfold Dst1Naive.newOn at h
  exact (collect_bind (arith_bind (arith_bind h (hE.fits (by omega))) (hE.fits (by omega)))).2

theorem Type2And3Naive.newOn_exact (hE : M.Trusts n) {o : Type2And3Naive T} (h : Type2And3Naive.newOn M n = .ok o) : Type2And3Naive.new n = .ok o := by
  unfold Type2And3Naive.newOn at h
  exact (collect_bind (arith_bind h (hE.fits (by omega)))).2

theorem Type4Naive.newOn_exact (hE : M.Trusts n) {o : Type4Naive T} (h : Type4Naive.newOn M n = .ok o) : Type4Naive.new n = .ok o := by
  unfold Type4Naive.newOn at h
  exact (collect_bind (arith_bind h (hE.fits (by omega)))).2

theorem Dct5Naive.newOn_exact (hE : M.Trusts n) {o : Dct5Naive T} (h : Dct5Naive.newOn M n = .ok o) : Dct5Naive.new n = .ok o := by
  unfold Dct5Naive.newOn at h
  unfold Dct5Naive.new
  rcases sub_bind (arith_bind h (hE.fits (by omega))) with ⟨a, h⟩ | ⟨a, hw, h⟩
  · dsimp only
    rw [csub_ok a]
    exact (collect_bind h).2
  · have := (collect_bind h).1
    obtain ⟨r1, r2, -⟩ := hE.no_wrap hw
    omega

theorem Dst5Naive.newOn_exact (hE : M.Trusts n) {o : Dst5Naive T} (h : Dst5Naive.newOn M n = .ok o) : Dst5Naive.new n = .ok o := by
  unfold Dst5Naive.newOn at h
  exact (collect_bind (arith_bind (arith_bind h (hE.fits (by omega))) (hE.fits (by omega)))).2

theorem Dct6And7Naive.newOn_exact (hE : M.Trusts n) {o : Dct6And7Naive T} (h : Dct6And7Naive.newOn M n = .ok o) : Dct6And7Naive.new n = .ok o := by
  unfold Dct6And7Naive.newOn at h
  unfold Dct6And7Naive.new
  rcases sub_bind (arith_bind h (hE.fits (by omega))) with ⟨a, h⟩ | ⟨a, hw, h⟩
  · rw [csub_ok a, ok_bind]
    rcases sub_bind (arith_bind h (hE.fits (by omega))) with ⟨b, h⟩ | ⟨b, hw, h⟩
    · dsimp only
      rw [csub_ok b]
      exact (collect_bind h).2
    · omega
  · rcases sub_bind (arith_bind h (hE.fits (by omega))) with ⟨b, h⟩ | ⟨b, hw, h⟩
    · omega
    · have := (collect_bind h).1
      obtain ⟨r1, r2, -⟩ := hE.no_wrap hw
      omega

theorem Dst6And7Naive.newOn_exact (hE : M.Trusts n) {o : Dst6And7Naive T} (h : Dst6And7Naive.newOn M n = .ok o) : Dst6And7Naive.new n = .ok o := by
  unfold Dst6And7Naive.newOn at h
  exact (collect_bind (arith_bind (arith_bind (arith_bind (arith_bind h (hE.fits (by omega))) (hE.fits (by omega))) (hE.fits (by omega))) (hE.fits (by omega)))).2

theorem Dct8Naive.newOn_exact (hE : M.Trusts n) {o : Dct8Naive T} (h : Dct8Naive.newOn M n = .ok o) : Dct8Naive.new n = .ok o := by
  unfold Dct8Naive.newOn at h
  exact (collect_bind (arith_bind (arith_bind (arith_bind (arith_bind h (hE.fits (by omega))) (hE.fits (by omega))) (hE.fits (by omega))) (hE.fits (by omega)))).2

theorem Dst8Naive.newOn_exact (hE : M.Trusts n) {o : Dst8Naive T} (h : Dst8Naive.newOn M n = .ok o) : Dst8Naive.new n = .ok o := by
  unfold Dst8Naive.newOn at h
  unfold Dst8Naive.new
  rcases sub_bind (arith_bind h (hE.fits (by omega))) with ⟨a, h⟩ | ⟨a, hw, h⟩
  · rw [csub_ok a, ok_bind]
    rcases sub_bind (arith_bind h (hE.fits (by omega))) with ⟨b, h⟩ | ⟨b, hw, h⟩
    · dsimp only
      rw [csub_ok b]
      exact (collect_bind h).2
    · omega
  · rcases sub_bind (arith_bind h (hE.fits (by omega))) with ⟨b, h⟩ | ⟨b, hw, h⟩
    · omega
    · have := (collect_bind h).1
      obtain ⟨r1, r2, -⟩ := hE.no_wrap hw
      omega

theorem MdctNaive.newOn_exact (hE : M.Trusts n) {w : ℕ → List T} {o : MdctNaive T} (h : MdctNaive.newOn M n w = .ok o) : MdctNaive.new n w = .ok o := by
  unfold MdctNaive.newOn at h
  unfold MdctNaive.new
  split at h
  · cases h
  · next h1 =>
    rw [if_neg h1]
    exact arith_bind (collect_bind (arith_bind h (hE.fits (by omega)))).2 (hE.fits (by omega))

/-- The arithmetic of `M` cannot go wrong for the FFT `f`. -/
def Target.TrustsFft (M : Target) (f : Fft T) : Prop := M.wraps = false ∨ M.Realistic ∧ M.Usable f

theorem fftScratchOn_bind {α : Type} {fft : Fft T} {f : ℕ → Except Err α} {o : α} (hE : M.TrustsFft fft) (h : (fftScratchOn M fft >>= f) = .ok o) :
    f (2 * (fft.len + fft.inplaceScratchLen)) = .ok o := by
  unfold fftScratchOn at h
  rw [bind_assoc] at h
  have hx : ∀ x, x ≤ 2 * (fft.len + fft.inplaceScratchLen) → M.wraps = false ∨ x < M.values := fun x hx => hE.imp id fun ⟨⟨a, b, _⟩, c, d⟩ => by omega
  exact arith_bind (arith_bind h (hx _ (by omega))) (hx _ le_rfl)

theorem Dct1ConvertToFft.newOn_exact {fft : Fft T} (hE : M.TrustsFft fft) {o : Dct1ConvertToFft T} (h : Dct1ConvertToFft.newOn M fft = .ok o) : Dct1ConvertToFft.new fft = .ok o := by
  unfold Dct1ConvertToFft.newOn at h
  unfold Dct1ConvertToFft.new
  split at h
  · cases h
  next h1 =>
  split at h
  · cases h
  next h2 =>
  rw [if_neg h1, if_neg h2]
  exact fftScratchOn_bind hE (arith_bind h (hE.imp id fun ⟨⟨a, b, _⟩, c, d⟩ => by omega))

theorem Dst1ConvertToFft.newOn_exact {fft : Fft T} (h0 : 2 ≤ fft.len) (hE : M.TrustsFft fft) {o : Dst1ConvertToFft T} (h : Dst1ConvertToFft.newOn M fft = .ok o) : Dst1ConvertToFft.new fft = .ok o := by
  unfold Dst1ConvertToFft.newOn at h
  unfold Dst1ConvertToFft.new
  split at h
  · cases h
  next h1 =>
  split at h
  · cases h
  next h2 =>
  rw [if_neg h1, if_neg h2]
  rcases sub_bind h with ⟨a, h⟩ | ⟨a, hw, h⟩
  · rw [csub_ok a]
    exact fftScratchOn_bind hE h
  · omega

theorem Type2And3ConvertToFft.newOn_exact {fft : Fft T} (hE : M.TrustsFft fft) {o : Type2And3ConvertToFft T} (h : Type2And3ConvertToFft.newOn M fft = .ok o) : Type2And3ConvertToFft.new fft = .ok o := by
  unfold Type2And3ConvertToFft.newOn at h
  unfold Type2And3ConvertToFft.new
  split at h
  · cases h
  next h1 =>
  rw [if_neg h1]
  obtain ⟨c, h⟩ := collect_bind h
  by_cases hp : 0 < fft.len
  · rw [if_pos hp] at h
    exact fftScratchOn_bind hE (collect_bind (arith_bind h (hE.imp id fun ⟨⟨a, b, _⟩, c, d⟩ => by omega))).2
  · rw [if_neg hp, ok_bind] at h
    have h := fftScratchOn_bind hE (collect_bind h).2
    have e : fft.len = 0 := by omega
    rw [e] at h ⊢
    exact h

theorem Type4ConvertToFftOdd.newOn_exact {fft : Fft T} (hE : M.TrustsFft fft) {o : Type4ConvertToFftOdd T} (h : Type4ConvertToFftOdd.newOn M fft = .ok o) : Type4ConvertToFftOdd.new fft = .ok o := by
  unfold Type4ConvertToFftOdd.newOn at h
  unfold Type4ConvertToFftOdd.new
  split at h
  · cases h
  next h1 =>
  split at h
  · cases h
  next h2 =>
  rw [if_neg h1, if_neg h2]
  exact fftScratchOn_bind hE h

theorem Dst6And7ConvertToFft.newOn_exact {fft : Fft T} (hE : M.TrustsFft fft) {o : Dst6And7ConvertToFft T} (h : Dst6And7ConvertToFft.newOn M fft = .ok o) : Dst6And7ConvertToFft.new fft = .ok o := by
  unfold Dst6And7ConvertToFft.newOn at h
  unfold Dst6And7ConvertToFft.new
  split at h
  · cases h
  next h1 =>
  split at h
  · cases h
  next h2 =>
  rw [if_neg h1, if_neg h2]
  rcases sub_bind h with ⟨a, h⟩ | ⟨a, hw, h⟩
  · rw [csub_ok a]
    exact fftScratchOn_bind hE h
  · omega

/-- Split radix: its length is one a machine word holds. -/
theorem Type2And3SplitRadix.newOn_exact {half quarter : Obj23 T} (hE : M.wraps = false ∨ M.Realistic ∧ 2 * half.len < M.values ∧ 2 * quarter.len < M.values)
    {o : Type2And3SplitRadix T} (h : Type2And3SplitRadix.newOn M half quarter = .ok o) : Type2And3SplitRadix.new half quarter = .ok o := by
  unfold Type2And3SplitRadix.newOn at h
  unfold Type2And3SplitRadix.new
  have h := arith_bind h (hE.imp id fun ⟨a, b, c⟩ => by omega)
  dsimp only at h ⊢
  split at h
  · cases h
  next h1 =>
  rw [if_neg h1]
  have h := arith_bind h (hE.imp id fun ⟨a, b, c⟩ => by omega)
  split at h
  · cases h
  next h2 =>
  rw [if_neg h2]
  obtain ⟨c, h⟩ := collect_bind h
  by_cases hp : 0 < half.len * 2 / 4
  · rw [if_pos hp] at h
    refine (collect_bind (arith_bind h (hE.imp id fun ⟨⟨a, _, _⟩, b, d⟩ => ?_))).2
    omega
  · exfalso
    omega

theorem Type4ConvertToType3Even.newOn_exact {inner : Obj23 T} (hE : M.wraps = false ∨ M.Realistic ∧ 2 * inner.len < M.values ∧ inner.scratchLen ≤ 2 * M.maxVec)
    {o : Type4ConvertToType3Even T} (h : Type4ConvertToType3Even.newOn M inner = .ok o) : Type4ConvertToType3Even.new inner = .ok o := by
  unfold Type4ConvertToType3Even.newOn at h
  unfold Type4ConvertToType3Even.new
  have h := arith_bind h (hE.imp id fun ⟨a, b, c⟩ => by omega)
  dsimp only at h ⊢
  obtain ⟨c, h⟩ := collect_bind h
  have key : ∀ {t : List (Cx T)}, (if inner.scratchLen ≤ inner.len * 2 then (Except.ok (inner.len * 2) >>= fun scratchLen =>
      Except.ok (ε := Err) { innerDct := inner, twiddles := t, scratchLen }) else M.arith (inner.len * 2 + inner.scratchLen) >>= fun scratchLen =>
      Except.ok (ε := Err) { innerDct := inner, twiddles := t, scratchLen }) = .ok o →
      (Except.ok { innerDct := inner, twiddles := t, scratchLen := if inner.scratchLen ≤ inner.len * 2 then inner.len * 2 else inner.len * 2 + inner.scratchLen } : Except Err _) = .ok o := by
    intro t h
    split at h
    · next hs => rw [if_pos hs]; exact h
    · next hs =>
      rw [if_neg hs]
      exact arith_bind h (hE.imp id fun ⟨⟨a, _, _⟩, b, d⟩ => by omega)
  by_cases hp : 0 < inner.len
  · rw [if_pos hp] at h
    exact key (collect_bind (arith_bind h (hE.imp id fun ⟨⟨a, _, _⟩, b, d⟩ => by omega))).2
  · rw [if_neg hp, ok_bind] at h
    have h := key (collect_bind h).2
    have e : inner.len = 0 := by omega
    rw [e] at h ⊢
    exact h

theorem MdctViaDct4.newOn_exact {inner : Obj4 T} (hE : M.wraps = false ∨ M.Realistic ∧ inner.len ≤ M.maxVec ∧ inner.scratchLen ≤ 3 * M.maxVec)
    {w : ℕ → List T} {o : MdctViaDct4 T} (h : MdctViaDct4.newOn M inner w = .ok o) : MdctViaDct4.new inner w = .ok o := by
  unfold MdctViaDct4.newOn at h
  unfold MdctViaDct4.new
  dsimp only at h ⊢
  split at h
  · cases h
  next h1 =>
  rw [if_neg h1]
  have h := arith_bind h (hE.imp id fun ⟨⟨a, _, _⟩, b, c⟩ => by omega)
  split at h
  · cases h
  next h2 =>
  rw [if_neg h2]
  exact arith_bind h (hE.imp id fun ⟨⟨a, _, _⟩, b, c⟩ => by omega)

theorem map_exact {α β : Type} {x y : Except Err α} {f : α → β} (hxy : ∀ {a}, x = .ok a → y = .ok a) {o : β} (h : x.map f = .ok o) : y.map f = .ok o := by
  cases hx : x with
  | error e => rw [hx] at h; cases h
  | ok a => rw [hxy hx]; rw [hx] at h; exact h

variable {planFft : ℕ → Fft T}

theorem canonDct1Mid_exact (hE : M.Trusts n) (hF : ∀ m, Kind.dct1.fftLen n = some m → M.TrustsFft (planFft m)) {o : Obj1 T} (h : canonDct1Mid M planFft n = .ok o) :
    canonDct1 planFft n = .ok o := by
  unfold canonDct1Mid at h
  unfold canonDct1
  split at h
  · next h1 => rw [if_pos h1]; exact map_exact (Dct1Naive.newOn_exact hE) h
  · next h1 =>
    rw [if_neg h1]
    rcases sub_bind h with ⟨a, h⟩ | ⟨a, hw, h⟩
    · refine map_exact (Dct1ConvertToFft.newOn_exact (hF _ ?_)) (arith_bind h (hE.fits (by omega)))
      simp only [Kind.fftLen, if_neg h1]
      congr 1; omega
    · omega

theorem canonDst1Mid_exact (hf : PlanFftShape planFft) (hE : M.Trusts n) (hF : ∀ m, Kind.dst1.fftLen n = some m → M.TrustsFft (planFft m)) {o : Obj1 T}
    (h : canonDst1Mid M planFft n = .ok o) : canonDst1 planFft n = .ok o := by
  unfold canonDst1Mid at h
  unfold canonDst1
  split at h
  · next h1 => rw [if_pos h1]; exact map_exact (Dst1Naive.newOn_exact hE) h
  · next h1 =>
    rw [if_neg h1]
    refine map_exact (Dst1ConvertToFft.newOn_exact (by rw [(hf _).1]; omega) (hF _ ?_)) (arith_bind (arith_bind h (hE.fits (by omega))) (hE.fits (by omega)))
    simp only [Kind.fftLen, if_neg h1]
    congr 1; omega

theorem canonDst6Mid_exact (hE : M.Trusts n) (hF : ∀ m, Kind.dst6.fftLen n = some m → M.TrustsFft (planFft m)) {o : Obj67 T}
    (h : canonDst6Mid M planFft n = .ok o) : canonDst6 planFft n = .ok o := by
  unfold canonDst6Mid at h
  unfold canonDst6
  split at h
  · next h1 => rw [if_pos h1]; exact map_exact (Dst6And7Naive.newOn_exact hE) h
  · next h1 =>
    rw [if_neg h1]
    refine map_exact (Dst6And7ConvertToFft.newOn_exact (hF _ ?_)) (arith_bind (arith_bind h (hE.fits (by omega))) (hE.fits (by omega)))
    simp only [Kind.fftLen, if_neg h1]
    congr 1; omega

theorem fftLen23_pow (hp : isPowerOfTwo n = true) (h2 : 2 ≤ n) : fftLen23 n = none := by
  obtain ⟨j, rfl⟩ := (isPowerOfTwo_iff _).1 hp
  unfold fftLen23 straightLine
  rw [if_pos]
  by_cases h : 2 ^ j = 2
  · exact .inl (.inl h)
  · exact .inr ⟨by omega, by rw [Nat.log_pow (by norm_num)]⟩

theorem fftLen23_other (hb : ¬ dct2Butterflies.contains n = true) (hp : ¬ (isPowerOfTwo n = true ∧ n > 2)) : fftLen23 n = some n := by
  unfold fftLen23
  rw [if_neg]
  rintro (h | ⟨h1, h2⟩)
  · apply hb
    rcases h with rfl | rfl | rfl | rfl | rfl <;> decide
  · exact hp ⟨(isPowerOfTwo_iff _).2 ⟨_, h2⟩, h1⟩

theorem pow_parts (hb : ¬ dct2Butterflies.contains n = true) (hp : isPowerOfTwo n = true ∧ n > 2) :
    16 ≤ n / 2 ∧ n = 4 * (n / 4) ∧ isPowerOfTwo (n / 2) = true ∧ isPowerOfTwo (n / 4) = true := by
  obtain ⟨hp, h2⟩ := hp
  obtain ⟨j, hj⟩ := (isPowerOfTwo_iff _).1 hp
  have h5 : 5 ≤ j := by
    by_contra hc
    apply hb
    have : j = 0 ∨ j = 1 ∨ j = 2 ∨ j = 3 ∨ j = 4 := by omega
    rcases this with rfl | rfl | rfl | rfl | rfl
    · omega
    all_goals (rw [hj]; decide)
  obtain ⟨i, rfl⟩ : ∃ i, j = i + 5 := ⟨j - 5, by omega⟩
  have e : n = 32 * 2 ^ i := by rw [hj, pow_add]; ring
  have hi : 1 ≤ 2 ^ i := Nat.one_le_two_pow
  refine ⟨by omega, by omega, (isPowerOfTwo_iff _).2 ⟨i + 4, ?_⟩, (isPowerOfTwo_iff _).2 ⟨i + 3, ?_⟩⟩
  · rw [pow_add]; omega
  · rw [pow_add]; omega

theorem canon23Mid_exact (hf : PlanFftShape planFft) : ∀ {n : ℕ} (hn : M.wraps = false ∨ M.Realistic ∧ n < M.values)
    (hF : ∀ m, fftLen23 n = some m → M.TrustsFft (planFft m)) {o : Obj23 T} (h : canon23Mid M planFft n = .ok o), canon23 planFft n = .ok o := by
  intro n
  induction n using Nat.strongRecOn with
  | ind n ih =>
    intro hn hF o h
    rw [canon23Mid] at h
    rw [canon23.eq_def planFft n]
    split at h
    · next hb => rw [if_pos hb]; exact h
    next hb =>
    rw [if_neg hb]
    split at h
    · next hp =>
      rw [dif_pos hp]
      obtain ⟨h16, h4, p2, p4⟩ := pow_parts hb hp
      cases e1 : canon23Mid M planFft (n / 2) with
      | error e => rw [e1] at h; cases h
      | ok half =>
        rw [e1, ok_bind] at h
        cases e2 : canon23Mid M planFft (n / 4) with
        | error e => rw [e2] at h; cases h
        | ok quarter =>
          rw [e2, ok_bind] at h
          have c1 := ih (n / 2) (by omega) (hn.imp id fun ⟨a, b⟩ => ⟨a, by omega⟩) (by rw [fftLen23_pow p2 (by omega)]; intro m hm; cases hm) e1
          have c2 := ih (n / 4) (by omega) (hn.imp id fun ⟨a, b⟩ => ⟨a, by omega⟩) (by rw [fftLen23_pow p4 (by omega)]; intro m hm; cases hm) e2
          rw [c1, c2, ok_bind, ok_bind]
          obtain ⟨o1, d1, -, l1⟩ := canon23_made hf (n / 2)
          obtain ⟨o2, d2, -, l2⟩ := canon23_made hf (n / 4)
          rw [c1] at d1; injection d1 with d1; subst d1
          rw [c2] at d2; injection d2 with d2; subst d2
          exact map_exact (Type2And3SplitRadix.newOn_exact (hn.imp id fun ⟨a, b⟩ => ⟨a, by omega, by omega⟩)) h
    · next hp =>
      rw [dif_neg hp]
      exact map_exact (Type2And3ConvertToFft.newOn_exact (hF n (fftLen23_other hb hp))) h

theorem scratch23_le {σ : ℕ → ℕ} (h : ∀ m, fftLen23 n = some m → 2 * m ≤ M.maxVec ∧ 2 * σ m ≤ M.maxVec) (hn : n ≤ M.maxVec) : scratch23 σ n ≤ 2 * M.maxVec := by
  unfold scratch23
  split
  · omega
  split
  · omega
  next h1 h2 =>
  have := h n (by unfold fftLen23; rw [if_neg]; tauto)
  omega

theorem canon4Mid_exact (hf : PlanFftShape planFft) (hE : M.Trusts n) (hF : ∀ m, Kind.dct4.fftLen n = some m → M.TrustsFft (planFft m)) {o : Obj4 T}
    (h : canon4Mid M planFft n = .ok o) : canon4 planFft n = .ok o := by
  unfold canon4Mid at h
  unfold canon4
  split at h
  · next h2 =>
    rw [if_pos h2]
    split at h
    · next h6 => rw [if_pos h6]; exact map_exact (Type4Naive.newOn_exact hE) h
    · next h6 =>
      rw [if_neg h6]
      cases e : canon23Mid M planFft (n / 2) with
      | error e' => rw [e] at h; cases h
      | ok inner =>
        rw [e, ok_bind] at h
        have hF' : ∀ m, fftLen23 (n / 2) = some m → M.TrustsFft (planFft m) := fun m hm => hF m (by simp only [Kind.fftLen, if_pos h2, if_neg h6]; exact hm)
        have c := canon23Mid_exact hf (M := M) (n := n / 2) (hE.imp id fun ⟨a, b⟩ => ⟨a, by have := a.room; omega⟩) hF' e
        rw [c, ok_bind]
        obtain ⟨i, d, -, l⟩ := canon23_made hf (n / 2)
        rw [c] at d; injection d with d; subst d
        refine map_exact (Type4ConvertToType3Even.newOn_exact ?_) h
        by_cases hw : M.wraps = false
        · exact .inl hw
        · obtain ⟨a, b⟩ := hE.resolve_left hw
          refine .inr ⟨a, by have := a.room; omega, ?_⟩
          rw [canon23_scratch hf c]
          refine scratch23_le (fun m hm => ?_) (by omega)
          have := ((hF' m hm).resolve_left hw).2
          unfold Target.Usable at this
          rwa [(hf m).1] at this
  · next h2 =>
    rw [if_neg h2]
    split at h
    · next h7 => rw [if_pos h7]; exact map_exact (Type4Naive.newOn_exact hE) h
    · next h7 =>
      rw [if_neg h7]
      exact map_exact (Type4ConvertToFftOdd.newOn_exact (hF n (by simp only [Kind.fftLen, if_neg h2, if_neg h7]))) h

theorem canonMdctMid_exact (hf : PlanFftShape planFft) (hE : M.Trusts n) (hF : ∀ m, Kind.dct4.fftLen n = some m → M.TrustsFft (planFft m)) {w : ℕ → List T} {o : MdctObj T}
    (h : canonMdctMid M planFft n w = .ok o) : canonMdct planFft n w = .ok o := by
  unfold canonMdctMid at h
  unfold canonMdct
  cases e : canon4Mid M planFft n with
  | error e' => rw [e] at h; cases h
  | ok inner =>
    rw [e, ok_bind] at h
    have c := canon4Mid_exact hf hE hF e
    rw [c, ok_bind]
    have l := canon4_len hf inner c
    by_cases h2 : n % 2 = 0
    · refine map_exact (MdctViaDct4.newOn_exact ?_) h
      by_cases hw : M.wraps = false
      · exact .inl hw
      · obtain ⟨a, b⟩ := hE.resolve_left hw
        refine .inr ⟨a, by omega, ?_⟩
        rw [canon4_scratch hf c]
        unfold scratch4
        rw [if_pos h2]
        split
        · omega
        next h6 =>
        split
        · omega
        have : scratch23 (fun m => (planFft m).inplaceScratchLen) (n / 2) ≤ 2 * M.maxVec := by
          refine scratch23_le (fun m hm => ?_) (by omega)
          have := ((hF m (by simp only [Kind.fftLen, if_pos h2, if_neg h6]; exact hm)).resolve_left hw).2
          unfold Target.Usable at this
          rwa [(hf m).1] at this
        omega
    · unfold MdctViaDct4.newOn at h
      rw [l] at h
      dsimp only at h
      rw [if_pos h2] at h
      cases h

theorem fresh_of_canon {α : Type} {m : PlanM T (Arc α)} {r : Except Err α} {post} (h : Yields planFft (fun _ _ => True) m r post) {v : α} (hr : r = .ok v) :
    ∃ a s', m (plannerAfter planFft []) = .ok a s' ∧ a.val = v := by
  have := h (plannerAfter planFft []) (Inv.new 0)
  cases hm : m (plannerAfter planFft []) with
  | error e s' => rw [hm] at this; rw [hr] at this; cases this.1
  | ok a s' => rw [hm, hr] at this; injection this.1 with e; exact ⟨a, s', rfl, e.symm⟩

theorem len_of_canon {α : Type} {r : Except Err α} {P : α → Prop} {len : α → ℕ} {D : Prop} (h1 : D → ∃ o, r = .ok o ∧ P o ∧ len o = n) (h2 : ¬ D → ∃ e, r = .error e ∧ e ≠ .ub)
    {v : α} (hr : r = .ok v) : len v = n := by
  by_cases hd : D
  · obtain ⟨o, e, -, l⟩ := h1 hd
    rw [e] at hr; injection hr with hr; rw [← hr]; exact l
  · obtain ⟨e, he, -⟩ := h2 hd
    rw [he] at hr; cases hr

theorem len_of_canon' {α : Type} {r : Except Err α} {P : α → Prop} {len : α → ℕ} (h1 : ∃ o, r = .ok o ∧ P o ∧ len o = n) {v : α} (hr : r = .ok v) : len v = n :=
  len_of_canon (D := True) (fun _ => h1) (fun h => absurd trivial h) hr

/-- What the planner returns on a machine that panics on overflow, or for a length that a buffer can have: exactly what it returns if
`usize` is unbounded, so that all other theorems about planned instances apply. -/
theorem C66_planned (hf : PlanFftShape planFft) {calls : List (PlanCall T)} {k : Kind} {p : Proc T} {l s : ℕ} (h : PlannedOn M planFft calls k p n l s)
    (hE : M.wraps = false ∨ M.Realistic ∧ n ≤ M.maxVec ∧ ∀ m, k.fftLen n = some m → M.Usable (planFft m)) :
    l = n ∧ ∃ q, Planned planFft [] k q n s ∧ (M.Realistic → n ≤ M.maxVec → ∀ m, (q m).Agrees M.toMachine (p m)) := by
  have hE' : M.Trusts n := hE.imp id fun ⟨a, b, _⟩ => ⟨a, b⟩
  have hF : ∀ m, k.fftLen n = some m → M.TrustsFft (planFft m) := fun m hm => hE.imp id fun ⟨a, _, c⟩ => ⟨a, c m hm⟩
  cases h with
  | @dct1 n a s' h =>
    obtain ⟨a', c0, L⟩ := (canonDct1_mid).left (Gives.canon (fun W => planDct1On_gives n) h)
    have c := canonDct1Mid_exact hE' hF c0
    obtain ⟨b, t, e, v⟩ := fresh_of_canon (planDct1_yields n) c
    refine ⟨L.1.trans (len_of_canon (fun h => canonDct1_ok hf h) (fun h => canonDct1_err h) c), a'.run, ?_, fun r hn m => (L.2.2 r).run m⟩
    rw [L.2.1]
    exact v ▸ .dct1 e
  | @dct2 n a s' h =>
    obtain ⟨a', c0, L⟩ := (canon23_mid n).left (Gives.canon (fun W => planDct2On_gives n) h)
    have c := canon23Mid_exact hf (hE'.imp id fun ⟨r, q⟩ => ⟨r, by have := r.room; omega⟩) hF c0
    obtain ⟨b, t, e, v⟩ := fresh_of_canon (planDct2_yields n) c
    refine ⟨L.1.trans (len_of_canon' (canon23_made hf n) c), a'.dct2, ?_, fun r hn m => (L.2.2 r).dct2 m⟩
    rw [L.2.1]
    exact v ▸ .dct2 e
  | @dct3 n a s' h hn =>
    obtain ⟨a', c0, L⟩ := (canon23_mid n).left (Gives.canon (fun W => planDct2On_gives n) h)
    have c := canon23Mid_exact hf (hE'.imp id fun ⟨r, q⟩ => ⟨r, by have := r.room; omega⟩) hF c0
    obtain ⟨b, t, e, v⟩ := fresh_of_canon (planDct2_yields n) c
    refine ⟨L.1.trans (len_of_canon' (canon23_made hf n) c), a'.dct3, ?_, fun r hn m => (L.2.2 r).dct3 m⟩
    rw [L.2.1]
    exact v ▸ .dct3 e hn
  | @dct4 n a s' h hn =>
    obtain ⟨a', c0, L⟩ := (canon4_mid hf).left (Gives.canon (fun W => planDct4On_gives n) h)
    have c := canon4Mid_exact hf hE' hF c0
    obtain ⟨b, t, e, v⟩ := fresh_of_canon (planDct4_yields n) c
    refine ⟨L.1.trans (len_of_canon' (canon4_made hf n) c), a'.dct4, ?_, fun r hn m => (L.2.2 ⟨r, hn⟩).dct4 m⟩
    rw [L.2.1]
    exact v ▸ .dct4 e hn
  | @dct5 n a s' h =>
    obtain ⟨a', c0, L⟩ := (canonDct5_mid).left (Gives.canon (planFft := planFft) (fun W => planDct5On_gives n) h)
    have c : canonDct5 n = .ok a' := map_exact (Dct5Naive.newOn_exact hE') c0
    obtain ⟨b, t, e, v⟩ := fresh_of_canon (planFft := planFft) (planDct5_yields n) c
    refine ⟨L.1.trans (len_of_canon (fun h => canonDct5_ok h) (fun h => canonDct5_err h) c), a'.run, ?_, fun r hn m => (L.2.2 r).run m⟩
    rw [L.2.1]
    exact v ▸ .dct5 e
  | @dct6 n a s' h =>
    obtain ⟨a', c0, L⟩ := (canonDct6_mid).left (Gives.canon (planFft := planFft) (fun W => planDct6On_gives n) h)
    have c : canonDct6 n = .ok a' := map_exact (Dct6And7Naive.newOn_exact hE') c0
    obtain ⟨b, t, e, v⟩ := fresh_of_canon (planFft := planFft) (planDct6_yields n) c
    refine ⟨L.1.trans (len_of_canon (fun h => canonDct6_ok h) (fun h => canonDct6_err h) c), a'.t6, ?_, fun r hn m => (L.2.2 r).t6 m⟩
    rw [L.2.1]
    exact v ▸ .dct6 e
  | @dct7 n a s' h =>
    obtain ⟨a', c0, L⟩ := (canonDct6_mid).left (Gives.canon (planFft := planFft) (fun W => planDct6On_gives n) h)
    have c : canonDct6 n = .ok a' := map_exact (Dct6And7Naive.newOn_exact hE') c0
    obtain ⟨b, t, e, v⟩ := fresh_of_canon (planFft := planFft) (planDct6_yields n) c
    refine ⟨L.1.trans (len_of_canon (fun h => canonDct6_ok h) (fun h => canonDct6_err h) c), a'.t7, ?_, fun r hn m => (L.2.2 r).t7 m⟩
    rw [L.2.1]
    exact v ▸ .dct7 e
  | @dct8 n a s' h =>
    obtain ⟨a', c0, L⟩ := (canonDct8_mid).left (Gives.canon (planFft := planFft) (fun W => planDct8On_gives n) h)
    have c : canonDct8 n = .ok a' := map_exact (Dct8Naive.newOn_exact hE') c0
    obtain ⟨b, t, e, v⟩ := fresh_of_canon (planFft := planFft) (planDct8_yields n) c
    refine ⟨L.1.trans (len_of_canon' (canonDct8_ok n) c), a'.run, ?_, fun r hn m => (L.2.2 r).run m⟩
    rw [L.2.1]
    exact v ▸ .dct8 e
  | @dst1 n a s' h =>
    obtain ⟨a', c0, L⟩ := (canonDst1_mid).left (Gives.canon (fun W => planDst1On_gives n) h)
    have c := canonDst1Mid_exact hf hE' hF c0
    obtain ⟨b, t, e, v⟩ := fresh_of_canon (planDst1_yields n) c
    refine ⟨L.1.trans (len_of_canon' (canonDst1_ok hf n) c), a'.run, ?_, fun r hn m => (L.2.2 r).run m⟩
    rw [L.2.1]
    exact v ▸ .dst1 e
  | @dst2 n a s' h =>
    obtain ⟨a', c0, L⟩ := (canon23_mid n).left (Gives.canon (fun W => planDct2On_gives n) h)
    have c := canon23Mid_exact hf (hE'.imp id fun ⟨r, q⟩ => ⟨r, by have := r.room; omega⟩) hF c0
    obtain ⟨b, t, e, v⟩ := fresh_of_canon (planDct2_yields n) c
    refine ⟨L.1.trans (len_of_canon' (canon23_made hf n) c), a'.dst2, ?_, fun r hn m => (L.2.2 r).dst2 m⟩
    rw [L.2.1]
    exact v ▸ .dst2 e
  | @dst3 n a s' h hn =>
    obtain ⟨a', c0, L⟩ := (canon23_mid n).left (Gives.canon (fun W => planDct2On_gives n) h)
    have c := canon23Mid_exact hf (hE'.imp id fun ⟨r, q⟩ => ⟨r, by have := r.room; omega⟩) hF c0
    obtain ⟨b, t, e, v⟩ := fresh_of_canon (planDct2_yields n) c
    refine ⟨L.1.trans (len_of_canon' (canon23_made hf n) c), a'.dst3, ?_, fun r hn m => (L.2.2 r).dst3 m⟩
    rw [L.2.1]
    exact v ▸ .dst3 e hn
  | @dst4 n a s' h hn =>
    obtain ⟨a', c0, L⟩ := (canon4_mid hf).left (Gives.canon (fun W => planDct4On_gives n) h)
    have c := canon4Mid_exact hf hE' hF c0
    obtain ⟨b, t, e, v⟩ := fresh_of_canon (planDct4_yields n) c
    refine ⟨L.1.trans (len_of_canon' (canon4_made hf n) c), a'.dst4, ?_, fun r hn m => (L.2.2 ⟨r, hn⟩).dst4 m⟩
    rw [L.2.1]
    exact v ▸ .dst4 e hn
  | @dst5 n a s' h =>
    obtain ⟨a', c0, L⟩ := (canonDst5_mid).left (Gives.canon (planFft := planFft) (fun W => planDst5On_gives n) h)
    have c : canonDst5 n = .ok a' := map_exact (Dst5Naive.newOn_exact hE') c0
    obtain ⟨b, t, e, v⟩ := fresh_of_canon (planFft := planFft) (planDst5_yields n) c
    refine ⟨L.1.trans (len_of_canon' (canonDst5_ok n) c), a'.run, ?_, fun r hn m => (L.2.2 r).run m⟩
    rw [L.2.1]
    exact v ▸ .dst5 e
  | @dst6 n a s' h =>
    obtain ⟨a', c0, L⟩ := (canonDst6_mid hf).left (Gives.canon (fun W => planDst6On_gives n) h)
    have c := canonDst6Mid_exact hE' hF c0
    obtain ⟨b, t, e, v⟩ := fresh_of_canon (planDst6_yields n) c
    refine ⟨L.1.trans (len_of_canon' (canonDst6_ok hf n) c), a'.t6, ?_, fun r hn m => (L.2.2 ⟨r, hn⟩).t6 m⟩
    rw [L.2.1]
    exact v ▸ .dst6 e
  | @dst7 n a s' h =>
    obtain ⟨a', c0, L⟩ := (canonDst6_mid hf).left (Gives.canon (fun W => planDst6On_gives n) h)
    have c := canonDst6Mid_exact hE' hF c0
    obtain ⟨b, t, e, v⟩ := fresh_of_canon (planDst6_yields n) c
    refine ⟨L.1.trans (len_of_canon' (canonDst6_ok hf n) c), a'.t7, ?_, fun r hn m => (L.2.2 ⟨r, hn⟩).t7 m⟩
    rw [L.2.1]
    exact v ▸ .dst7 e
  | @dst8 n a s' h =>
    obtain ⟨a', c0, L⟩ := (canonDst8_mid).left (Gives.canon (planFft := planFft) (fun W => planDst8On_gives n) h)
    have c : canonDst8 n = .ok a' := map_exact (Dst8Naive.newOn_exact hE') c0
    obtain ⟨b, t, e, v⟩ := fresh_of_canon (planFft := planFft) (planDst8_yields n) c
    refine ⟨L.1.trans (len_of_canon (fun h => canonDst8_ok h) (fun h => canonDst8_err h) c), a'.run, ?_, fun r hn m => (L.2.2 r).run m⟩
    rw [L.2.1]
    exact v ▸ .dst8 e

/-- The same for MDCTs; the window is that of this call or of an earlier one for the same length. -/
theorem C66_mdct (hf : PlanFftShape planFft) {calls : List (PlanCall T)} {w : ℕ → List T} {o : MdctObj T} (h : PlannedMdctOn M planFft calls n w o)
    (hE : M.wraps = false ∨ M.Realistic ∧ n ≤ M.maxVec ∧ ∀ m, Kind.dct4.fftLen n = some m → M.Usable (planFft m)) :
    o.len = n ∧ ∃ v o', (v = w ∨ PlanCall.mdct n v ∈ calls) ∧ PlannedMdct planFft [] n v o' ∧ o.scratchLen = o'.scratchLen ∧
      (M.Realistic → n ≤ M.maxVec → o'.Agrees M.toMachine o) := by
  have hE' : M.Trusts n := hE.imp id fun ⟨a, b, _⟩ => ⟨a, b⟩
  have hF : ∀ m, Kind.dct4.fftLen n = some m → M.TrustsFft (planFft m) := fun m hm => hE.imp id fun ⟨a, _, c⟩ => ⟨a, c m hm⟩
  obtain ⟨a, s', e, rfl⟩ := h
  have := planMdctOn_run n (W := fun m v => (m = n ∧ v = w) ∨ PlanCall.mdct m v ∈ calls) (.inl ⟨rfl, rfl⟩) _
    ((afterOn_inv (M := M) (planFft := planFft) calls).mono fun _ _ h => .inr h)
  rw [e] at this
  obtain ⟨⟨v, hv, c⟩, -⟩ := this
  obtain ⟨a', c0, L⟩ := (canonMdct_mid hf v).left c
  have c := canonMdctMid_exact hf hE' hF c0
  have key : PlannedMdct planFft [] n v a' := by
    have := planMdct_run n (W := fun _ _ => True) (planFft := planFft) trivial (w := v) (plannerAfter planFft []) (Inv.new 0)
    cases hm : planMdct planFft n v (plannerAfter planFft []) with
    | error e s' => rw [hm] at this; rw [c] at this; cases this.1
    | ok b t =>
      rw [hm] at this
      have hb := this.2.2.2.2 rfl
      rw [c] at hb; injection hb with hb
      exact ⟨b, t, hm, hb.symm⟩
  exact ⟨L.1.trans (key.made_window hf).1, v, a', hv.imp (fun h => h.2) id, key, L.2.1, fun r hn => L.2.2 ⟨r, hn⟩⟩

/-! ### Release builds: the length of what is returned -/

theorem of_map_ok {α β : Type} {x : Except Err α} {f : α → β} {o : β} (h : x.map f = .ok o) : ∃ a, x = .ok a ∧ f a = o := by
  cases hx : x with
  | error e => rw [hx] at h; cases h
  | ok a => rw [hx] at h; injection h with h; exact ⟨a, rfl, h⟩

theorem double_mod (hr : M.Realistic) (n : ℕ) : n * 2 % M.values = n % (M.values / 2) * 2 := by
  obtain ⟨q, hq⟩ := hr.word
  rw [show M.values / 2 = 2 * q by omega, hq, show 4 * q = 2 * q * 2 by ring, Nat.mul_mod_mul_right]

theorem fourfold_mod (hr : M.Realistic) (n : ℕ) : n * 4 % M.values = n % (M.values / 4) * 4 := by
  obtain ⟨q, hq⟩ := hr.word
  rw [show M.values / 4 = q by omega, hq, show 4 * q = q * 4 by ring, Nat.mul_mod_mul_right]

theorem fftScratchOn_ok {α : Type} {fft : Fft T} {f : ℕ → Except Err α} {o : α} (h : (fftScratchOn M fft >>= f) = .ok o) : ∃ x, f x = .ok o := by
  cases hx : fftScratchOn M fft with
  | error e => rw [hx] at h; cases h
  | ok x => rw [hx] at h; exact ⟨x, h⟩

theorem canonDct1Mid_len (hf : PlanFftShape planFft) (hr : M.Realistic) (hw : M.wraps = true) (hn : n < M.values) {o : Obj1 T} (h : canonDct1Mid M planFft n = .ok o) :
    o.len = Kind.dct1.lengthGot M.values n := by
  unfold canonDct1Mid at h
  simp only [Kind.lengthGot]
  have r1 := hr.room
  have r2 := hr.large
  split at h
  · next h1 =>
    rw [if_pos h1]
    obtain ⟨x, hx, rfl⟩ := of_map_ok h
    exact Dct1Naive.len_new (Dct1Naive.newOn_exact (.inr ⟨hr, by omega⟩) hx)
  · next h1 =>
    rw [if_neg h1]
    rcases sub_bind h with ⟨a, h⟩ | ⟨a, hw, h⟩
    · obtain ⟨x, hx, rfl⟩ := of_map_ok (arith_bind_wraps h hw)
      unfold Dct1ConvertToFft.newOn at hx
      split at hx
      · cases hx
      split at hx
      · cases hx
      rw [(hf _).1, double_mod hr] at hx
      have hlt := Nat.mod_lt (n - 1) (show 0 < M.values / 2 by omega)
      obtain ⟨y, hy⟩ := fftScratchOn_ok (arith_bind hx (.inr (by omega)))
      injection hy with hy
      subst hy
      change _ / 2 + 1 = _
      omega
    · omega

theorem canonDst1Mid_len (hf : PlanFftShape planFft) (hr : M.Realistic) (hw : M.wraps = true) (hn : n < M.values) {o : Obj1 T} (h : canonDst1Mid M planFft n = .ok o) :
    o.len = Kind.dst1.lengthGot M.values n := by
  unfold canonDst1Mid at h
  simp only [Kind.lengthGot]
  have r1 := hr.room
  have r2 := hr.large
  split at h
  · next h1 =>
    rw [if_pos h1]
    obtain ⟨x, hx, rfl⟩ := of_map_ok h
    exact Dst1Naive.len_new (Dst1Naive.newOn_exact (.inr ⟨hr, by omega⟩) hx)
  · next h1 =>
    rw [if_neg h1]
    obtain ⟨x, hx, rfl⟩ := of_map_ok (arith_bind_wraps (arith_bind_wraps h hw) hw)
    unfold Dst1ConvertToFft.newOn at hx
    split at hx
    · cases hx
    split at hx
    · cases hx
    have e : (n + 1) % M.values % (M.values / 2) = (n + 1) % (M.values / 2) := Nat.mod_mod_of_dvd _ ⟨2, by have := hr.word; omega⟩
    rw [(hf _).1, double_mod hr, e] at hx
    have hlt := Nat.mod_lt (n + 1) (show 0 < M.values / 2 by omega)
    generalize (n + 1) % (M.values / 2) = m at hx hlt ⊢
    rcases sub_bind hx with ⟨a, hx⟩ | ⟨a, hw, hx⟩
    · obtain ⟨y, hy⟩ := fftScratchOn_ok hx
      injection hy with hy
      subst hy
      change m * 2 / 2 - 1 = _
      rw [show m + M.values - 1 = (m - 1) + M.values by omega, Nat.add_mod_right, Nat.mod_eq_of_lt (by omega)]
      omega
    · obtain ⟨y, hy⟩ := fftScratchOn_ok hx
      injection hy with hy
      subst hy
      change m * 2 / 2 + M.values - 1 = _
      rw [Nat.mod_eq_of_lt (by omega)]
      omega

theorem canonDst6Mid_len (hf : PlanFftShape planFft) (hr : M.Realistic) (hw : M.wraps = true) (hn : n < M.values) {o : Obj67 T} (h : canonDst6Mid M planFft n = .ok o) :
    o.len = Kind.dst6.lengthGot M.values n := by
  unfold canonDst6Mid at h
  simp only [Kind.lengthGot]
  have r1 := hr.room
  have r2 := hr.large
  split at h
  · next h1 =>
    obtain ⟨x, hx, rfl⟩ := of_map_ok h
    rw [Nat.mod_eq_of_lt (by omega)]
    exact Dst6And7Naive.len_new (Dst6And7Naive.newOn_exact (.inr ⟨hr, by omega⟩) hx)
  · next h1 =>
    have h := arith_bind_wraps h hw
    have hlt := Nat.mod_lt n (show 0 < M.values / 2 by omega)
    rw [double_mod hr] at h
    obtain ⟨x, hx, rfl⟩ := of_map_ok (arith_bind h (.inr (by have := hr.word; omega)))
    unfold Dst6And7ConvertToFft.newOn at hx
    split at hx
    · cases hx
    split at hx
    · cases hx
    rw [(hf _).1] at hx
    rcases sub_bind hx with ⟨a, hx⟩ | ⟨a, hw, hx⟩
    · obtain ⟨y, hy⟩ := fftScratchOn_ok hx
      injection hy with hy
      subst hy
      change (_ * 2 + 1 - 1) / 2 = _
      omega
    · omega

theorem canonDct5Mid_len (hr : M.Realistic) (hw : M.wraps = true) {o : Obj1 T} (h : canonDct5Mid M n = .ok o) : o.len = n % (M.values / 2) := by
  have r1 := hr.room
  have r2 := hr.large
  obtain ⟨x, hx, rfl⟩ := of_map_ok h
  have hx := arith_bind_wraps hx hw
  rw [double_mod hr] at hx
  rcases sub_bind hx with ⟨a, hx⟩ | ⟨a, hw, hx⟩
  · have := (collect_bind hx).2
    injection this with this
    subst this
    simp only [Dct5Naive.toObj, Dct5Naive.len, List.length_map, List.length_range]
    omega
  · have := (collect_bind hx).1
    omega

theorem canonDst5Mid_len (hr : M.Realistic) (hw : M.wraps = true) {o : Obj1 T} (h : canonDst5Mid M n = .ok o) : o.len = n % (M.values / 2) := by
  have r1 := hr.room
  have r2 := hr.large
  obtain ⟨x, hx, rfl⟩ := of_map_ok h
  have hx := arith_bind_wraps hx hw
  rw [double_mod hr] at hx
  have hlt := Nat.mod_lt n (show 0 < M.values / 2 by omega)
  have := (collect_bind (arith_bind hx (.inr (by have := hr.word; omega)))).2
  injection this with this
  subst this
  simp only [Dst5Naive.toObj, Dst5Naive.len, List.length_map, List.length_range]
  omega

theorem canonDct6Mid_len (hr : M.Realistic) (hw : M.wraps = true) {o : Obj67 T} (h : canonDct6Mid M n = .ok o) : o.len = n % (M.values / 4) := by
  have r1 := hr.room
  have r2 := hr.large
  obtain ⟨x, hx, rfl⟩ := of_map_ok h
  have step : ∀ {d : ℕ}, (M.arith (n * 4) >>= fun fourfold => M.sub fourfold 2 >>= fun count =>
      M.collect 1 count (fun i => (fromF64 (F64.cos (F64.pi / F64.nat d * F64.nat i)) : T)) >>= fun t => .ok (⟨t⟩ : Dct6And7Naive T)) = .ok x → x.len = n % (M.values / 4) := by
    intro d hx
    have hx := arith_bind_wraps hx hw
    rw [fourfold_mod hr] at hx
    rcases sub_bind hx with ⟨a, hx⟩ | ⟨a, hw, hx⟩
    · have := (collect_bind hx).2
      injection this with this
      subst this
      simp only [Dct6And7Naive.len, List.length_map, List.length_range]
      omega
    · have := (collect_bind hx).1
      omega
  rcases sub_bind (arith_bind_wraps hx hw) with ⟨a, hx⟩ | ⟨a, -, hx⟩
  · exact step hx
  · exact step hx

theorem canonDst8Mid_len (hr : M.Realistic) (hw : M.wraps = true) {o : Obj1 T} (h : canonDst8Mid M n = .ok o) : o.len = n % (M.values / 4) := by
  have r1 := hr.room
  have r2 := hr.large
  obtain ⟨x, hx, rfl⟩ := of_map_ok h
  have step : ∀ {d : ℕ}, (M.arith (n * 4) >>= fun fourfold => M.sub fourfold 2 >>= fun count =>
      M.collect 1 count (fun i => (fromF64 (F64.sin (F64.pi / F64.nat d * (F64.nat i + F64.half))) : T)) >>= fun t => .ok (⟨t⟩ : Dst8Naive T)) = .ok x → x.len = n % (M.values / 4) := by
    intro d hx
    have hx := arith_bind_wraps hx hw
    rw [fourfold_mod hr] at hx
    rcases sub_bind hx with ⟨a, hx⟩ | ⟨a, hw, hx⟩
    · have := (collect_bind hx).2
      injection this with this
      subst this
      simp only [Dst8Naive.len, List.length_map, List.length_range]
      omega
    · have := (collect_bind hx).1
      omega
  rcases sub_bind (arith_bind_wraps hx hw) with ⟨a, hx⟩ | ⟨a, -, hx⟩
  · exact step hx
  · exact step hx

theorem canonDct8Mid_len (hr : M.Realistic) (hw : M.wraps = true) {o : Obj1 T} (h : canonDct8Mid M n = .ok o) : o.len = n % (M.values / 4) := by
  have r1 := hr.room
  have r2 := hr.large
  obtain ⟨x, hx, rfl⟩ := of_map_ok h
  have hx := arith_bind_wraps (arith_bind_wraps (arith_bind_wraps hx hw) hw) hw
  rw [fourfold_mod hr] at hx
  have hlt := Nat.mod_lt n (show 0 < M.values / 4 by omega)
  have := (collect_bind (arith_bind hx (.inr (by have := hr.word; omega)))).2
  injection this with this
  subst this
  simp only [Dct8Naive.toObj, Dct8Naive.len, List.length_map, List.length_range]
  omega

theorem canon23Mid_len (hf : PlanFftShape planFft) (hr : M.Realistic) : ∀ {n : ℕ} (hn : n < M.values) {o : Obj23 T} (h : canon23Mid M planFft n = .ok o), o.len = n := by
  intro n
  have r1 := hr.room
  have r2 := hr.large
  induction n using Nat.strongRecOn with
  | ind n ih =>
    intro hn o h
    rw [canon23Mid] at h
    split at h
    · next hb =>
      refine len_of_canon' (P := Made23 (FromPlan planFft)) (canon23_made hf n) ?_
      rw [canon23.eq_def planFft n, if_pos hb]; exact h
    next hb =>
    split at h
    · next hp =>
      obtain ⟨h16, h4, p2, p4⟩ := pow_parts hb hp
      cases e1 : canon23Mid M planFft (n / 2) with
      | error e => rw [e1] at h; cases h
      | ok half =>
        rw [e1, ok_bind] at h
        cases e2 : canon23Mid M planFft (n / 4) with
        | error e => rw [e2] at h; cases h
        | ok quarter =>
          rw [e2, ok_bind] at h
          have c1 := ih (n / 2) (by omega) (by omega) e1
          have c2 := ih (n / 4) (by omega) (by omega) e2
          obtain ⟨x, hx, rfl⟩ := of_map_ok h
          have hx := Type2And3SplitRadix.newOn_exact (.inr ⟨hr, by omega, by omega⟩) hx
          unfold Type2And3SplitRadix.new at hx
          dsimp only at hx
          split at hx
          · cases hx
          split at hx
          · cases hx
          injection hx with hx
          subst hx
          simp only [Type2And3SplitRadix.toObj, Type2And3SplitRadix.len, List.length_map, List.length_range]
          omega
    · next hp =>
      obtain ⟨x, hx, rfl⟩ := of_map_ok h
      unfold Type2And3ConvertToFft.newOn at hx
      split at hx
      · cases hx
      obtain ⟨c, hx⟩ := collect_bind hx
      have key : ∀ {f : ℕ}, (M.collect 2 (planFft n).len (fun i => (singleTwiddle i f : Cx T)) >>= fun t => fftScratchOn M (planFft n) >>= fun scratchLen =>
          .ok ({ fft := planFft n, twiddles := t, scratchLen } : Type2And3ConvertToFft T)) = .ok x → x.len = n := by
        intro f hx
        obtain ⟨y, hy⟩ := fftScratchOn_ok (collect_bind hx).2
        injection hy with hy
        subst hy
        simp only [Type2And3ConvertToFft.len, List.length_map, List.length_range, (hf n).1]
      by_cases hp : 0 < (planFft n).len
      · rw [if_pos hp] at hx
        exact key (arith_bind hx (.inr (by omega)))
      · rw [if_neg hp, ok_bind] at hx
        exact key hx

theorem canon4Mid_len (hf : PlanFftShape planFft) (hr : M.Realistic) (hn : n < M.values) {o : Obj4 T} (h : canon4Mid M planFft n = .ok o) : o.len = n := by
  have r1 := hr.room
  have r2 := hr.large
  have naive : n < 7 → (Type4Naive.newOn M n).map Type4Naive.toObj = .ok o → o.len = n := by
    intro h7 h
    obtain ⟨x, hx, rfl⟩ := of_map_ok h
    exact Type4Naive.len_new (Type4Naive.newOn_exact (.inr ⟨hr, by omega⟩) hx)
  unfold canon4Mid at h
  split at h
  · split at h
    · exact naive (by omega) h
    · cases e : canon23Mid M planFft (n / 2) with
      | error e' => rw [e] at h; cases h
      | ok inner =>
        rw [e, ok_bind] at h
        have l := canon23Mid_len hf hr (by omega) e
        obtain ⟨x, hx, rfl⟩ := of_map_ok h
        have hx := arith_bind hx (.inr (by omega))
        obtain ⟨c, hx⟩ := collect_bind hx
        have key : ∀ {f : ℕ}, (M.collect 2 inner.len (fun i => (Cx.conj (singleTwiddle (2 * i + 1) f) : Cx T)) >>= fun t =>
            if inner.scratchLen ≤ inner.len * 2 then (Except.ok (inner.len * 2) >>= fun scratchLen =>
              Except.ok (ε := Err) { innerDct := inner, twiddles := t, scratchLen }) else M.arith (inner.len * 2 + inner.scratchLen) >>= fun scratchLen =>
              Except.ok (ε := Err) { innerDct := inner, twiddles := t, scratchLen }) = .ok x → x.len = n := by
          intro f hx
          have hx := (collect_bind hx).2
          have hl : x.twiddles.length = inner.len := by
            split at hx
            · injection hx with hx; subst hx; simp
            · cases hq : M.arith (inner.len * 2 + inner.scratchLen) with
              | error e => rw [hq] at hx; cases hx
              | ok q => rw [hq] at hx; injection hx with hx; subst hx; simp
          simp only [Type4ConvertToType3Even.len, hl]
          omega
        by_cases hp : 0 < inner.len
        · rw [if_pos hp] at hx
          exact key (arith_bind hx (.inr (by omega)))
        · rw [if_neg hp, ok_bind] at hx
          exact key hx
  · split at h
    · next h7 => exact naive h7 h
    · obtain ⟨x, hx, rfl⟩ := of_map_ok h
      unfold Type4ConvertToFftOdd.newOn at hx
      split at hx
      · cases hx
      split at hx
      · cases hx
      obtain ⟨y, hy⟩ := fftScratchOn_ok hx
      injection hy with hy
      subst hy
      exact (hf n).1

/-- Release builds: the length of the instance returned, for every requested length `n` (a value of `usize`). -/
theorem C66_release_length (hf : PlanFftShape planFft) (hr : M.Realistic) (hw : M.wraps = true) {calls : List (PlanCall T)} {k : Kind} {p : Proc T} {l s : ℕ}
    (hn : n < M.values) (h : PlannedOn M planFft calls k p n l s) : l = k.lengthGot M.values n := by
  cases h with
  | @dct1 n a s' h =>
    obtain ⟨a', c, L⟩ := (canonDct1_mid).left (Gives.canon (fun W => planDct1On_gives n) h)
    exact L.1.trans (canonDct1Mid_len hf hr hw hn c)
  | @dct2 n a s' h =>
    obtain ⟨a', c, L⟩ := (canon23_mid n).left (Gives.canon (fun W => planDct2On_gives n) h)
    exact L.1.trans (canon23Mid_len hf hr hn c)
  | @dct3 n a s' h _ =>
    obtain ⟨a', c, L⟩ := (canon23_mid n).left (Gives.canon (fun W => planDct2On_gives n) h)
    exact L.1.trans (canon23Mid_len hf hr hn c)
  | @dct4 n a s' h _ =>
    obtain ⟨a', c, L⟩ := (canon4_mid hf).left (Gives.canon (fun W => planDct4On_gives n) h)
    exact L.1.trans (canon4Mid_len hf hr hn c)
  | @dct5 n a s' h =>
    obtain ⟨a', c, L⟩ := (canonDct5_mid).left (Gives.canon (planFft := planFft) (fun W => planDct5On_gives n) h)
    exact L.1.trans (canonDct5Mid_len hr hw c)
  | @dct6 n a s' h =>
    obtain ⟨a', c, L⟩ := (canonDct6_mid).left (Gives.canon (planFft := planFft) (fun W => planDct6On_gives n) h)
    exact L.1.trans (canonDct6Mid_len hr hw c)
  | @dct7 n a s' h =>
    obtain ⟨a', c, L⟩ := (canonDct6_mid).left (Gives.canon (planFft := planFft) (fun W => planDct6On_gives n) h)
    exact L.1.trans (canonDct6Mid_len hr hw c)
  | @dct8 n a s' h =>
    obtain ⟨a', c, L⟩ := (canonDct8_mid).left (Gives.canon (planFft := planFft) (fun W => planDct8On_gives n) h)
    exact L.1.trans (canonDct8Mid_len hr hw c)
  | @dst1 n a s' h =>
    obtain ⟨a', c, L⟩ := (canonDst1_mid).left (Gives.canon (fun W => planDst1On_gives n) h)
    exact L.1.trans (canonDst1Mid_len hf hr hw hn c)
  | @dst2 n a s' h =>
    obtain ⟨a', c, L⟩ := (canon23_mid n).left (Gives.canon (fun W => planDct2On_gives n) h)
    exact L.1.trans (canon23Mid_len hf hr hn c)
  | @dst3 n a s' h _ =>
    obtain ⟨a', c, L⟩ := (canon23_mid n).left (Gives.canon (fun W => planDct2On_gives n) h)
    exact L.1.trans (canon23Mid_len hf hr hn c)
  | @dst4 n a s' h _ =>
    obtain ⟨a', c, L⟩ := (canon4_mid hf).left (Gives.canon (fun W => planDct4On_gives n) h)
    exact L.1.trans (canon4Mid_len hf hr hn c)
  | @dst5 n a s' h =>
    obtain ⟨a', c, L⟩ := (canonDst5_mid).left (Gives.canon (planFft := planFft) (fun W => planDst5On_gives n) h)
    exact L.1.trans (canonDst5Mid_len hr hw c)
  | @dst6 n a s' h =>
    obtain ⟨a', c, L⟩ := (canonDst6_mid hf).left (Gives.canon (fun W => planDst6On_gives n) h)
    exact L.1.trans (canonDst6Mid_len hf hr hw hn c)
  | @dst7 n a s' h =>
    obtain ⟨a', c, L⟩ := (canonDst6_mid hf).left (Gives.canon (fun W => planDst6On_gives n) h)
    exact L.1.trans (canonDst6Mid_len hf hr hw hn c)
  | @dst8 n a s' h =>
    obtain ⟨a', c, L⟩ := (canonDst8_mid).left (Gives.canon (planFft := planFft) (fun W => planDst8On_gives n) h)
    exact L.1.trans (canonDst8Mid_len hr hw c)

/-! ### Ordinary lengths -/

theorem arith_ok {x : ℕ} (h : x < M.values) : M.arith x = .ok x := if_pos h

theorem sub_eq {a b : ℕ} (h : b ≤ a) : M.sub a b = csub a b := by unfold Machine.sub csub; rw [if_pos h, if_pos h]

theorem collect_ok {β : Type} {words k : ℕ} {g : ℕ → β} (h : k * words ≤ M.maxVec) : M.collect words k g = .ok ((List.range k).map g) := if_pos h

theorem fftScratchOn_eq {fft : Fft T} (hr : M.Realistic) (hu : M.Usable fft) : fftScratchOn M fft = .ok (2 * (fft.len + fft.inplaceScratchLen)) := by
  have r1 := hr.room
  obtain ⟨u1, u2⟩ := hu
  unfold fftScratchOn
  rw [arith_ok (by omega), ok_bind, arith_ok (by omega)]

/-- Lengths for which all tables can be allocated. -/
def Target.Roomy (M : Target) (n : ℕ) : Prop := M.Realistic ∧ 8 * n + 8 ≤ M.maxVec

theorem Dct1Naive.newOn_eq (h : M.Roomy n) (h1 : 1 ≤ n) : Dct1Naive.newOn M n = (Dct1Naive.new n : Except Err (Dct1Naive T)) := by
  obtain ⟨⟨r1, r2, -⟩, r3⟩ := h
  unfold Dct1Naive.newOn Dct1Naive.new
  split
  · rfl
  rw [sub_eq h1, csub_ok h1, ok_bind, ok_bind, arith_ok (by omega), ok_bind, collect_ok (by omega)]
  rfl

theorem Dst1Naive.newOn_eq (h : M.Roomy n) : Dst1Naive.newOn M n = (Dst1Naive.new n : Except Err (Dst1Naive T)) := by
  obtain ⟨⟨r1, r2, -⟩, r3⟩ := h
  unfold Dst1Naive.newOn Dst1Naive.new
  rw [arith_ok (by omega), ok_bind]
  dsimp only
  rw [arith_ok (by omega), ok_bind, collect_ok (by omega)]
  rfl

theorem Type2And3Naive.newOn_eq (h : M.Roomy n) : Type2And3Naive.newOn M n = (Type2And3Naive.new n : Except Err (Type2And3Naive T)) := by
  obtain ⟨⟨r1, r2, -⟩, r3⟩ := h
  unfold Type2And3Naive.newOn Type2And3Naive.new
  rw [arith_ok (by omega), ok_bind, collect_ok (by omega)]
  rfl

theorem Type4Naive.newOn_eq (h : M.Roomy n) : Type4Naive.newOn M n = (Type4Naive.new n : Except Err (Type4Naive T)) := by
  obtain ⟨⟨r1, r2, -⟩, r3⟩ := h
  unfold Type4Naive.newOn Type4Naive.new
  rw [arith_ok (by omega), ok_bind, collect_ok (by omega)]
  rfl

theorem Dct5Naive.newOn_eq (h : M.Roomy n) (h1 : 1 ≤ n) : Dct5Naive.newOn M n = (Dct5Naive.new n : Except Err (Dct5Naive T)) := by
  obtain ⟨⟨r1, r2, -⟩, r3⟩ := h
  unfold Dct5Naive.newOn Dct5Naive.new
  dsimp only
  rw [arith_ok (by omega), ok_bind, sub_eq (by omega), csub_ok (by omega), ok_bind, ok_bind, collect_ok (by omega)]
  rfl

theorem Dst5Naive.newOn_eq (h : M.Roomy n) : Dst5Naive.newOn M n = (Dst5Naive.new n : Except Err (Dst5Naive T)) := by
  obtain ⟨⟨r1, r2, -⟩, r3⟩ := h
  unfold Dst5Naive.newOn Dst5Naive.new
  dsimp only
  rw [arith_ok (by omega), ok_bind, arith_ok (by omega), ok_bind, collect_ok (by omega)]
  rfl

theorem Dct6And7Naive.newOn_eq (h : M.Roomy n) (h1 : 1 ≤ n) : Dct6And7Naive.newOn M n = (Dct6And7Naive.new n : Except Err (Dct6And7Naive T)) := by
  obtain ⟨⟨r1, r2, -⟩, r3⟩ := h
  unfold Dct6And7Naive.newOn Dct6And7Naive.new
  rw [arith_ok (by omega), ok_bind, sub_eq (by omega), csub_ok (by omega), ok_bind, ok_bind]
  dsimp only
  rw [arith_ok (by omega), ok_bind, sub_eq (by omega), csub_ok (by omega), ok_bind, ok_bind, collect_ok (by omega)]
  rfl

theorem Dst6And7Naive.newOn_eq (h : M.Roomy n) : Dst6And7Naive.newOn M n = (Dst6And7Naive.new n : Except Err (Dst6And7Naive T)) := by
  obtain ⟨⟨r1, r2, -⟩, r3⟩ := h
  unfold Dst6And7Naive.newOn Dst6And7Naive.new
  rw [arith_ok (by omega), ok_bind, arith_ok (by omega), ok_bind]
  dsimp only
  rw [arith_ok (by omega), ok_bind, arith_ok (by omega), ok_bind, collect_ok (by omega)]
  rfl

theorem Dct8Naive.newOn_eq (h : M.Roomy n) : Dct8Naive.newOn M n = (Dct8Naive.new n : Except Err (Dct8Naive T)) := by
  obtain ⟨⟨r1, r2, -⟩, r3⟩ := h
  unfold Dct8Naive.newOn Dct8Naive.new
  rw [arith_ok (by omega), ok_bind, arith_ok (by omega), ok_bind]
  dsimp only
  rw [arith_ok (by omega), ok_bind, arith_ok (by omega), ok_bind, collect_ok (by omega)]
  rfl

theorem Dst8Naive.newOn_eq (h : M.Roomy n) (h1 : 1 ≤ n) : Dst8Naive.newOn M n = (Dst8Naive.new n : Except Err (Dst8Naive T)) := by
  obtain ⟨⟨r1, r2, -⟩, r3⟩ := h
  unfold Dst8Naive.newOn Dst8Naive.new
  rw [arith_ok (by omega), ok_bind, sub_eq (by omega), csub_ok (by omega), ok_bind, ok_bind]
  dsimp only
  rw [arith_ok (by omega), ok_bind, sub_eq (by omega), csub_ok (by omega), ok_bind, ok_bind, collect_ok (by omega)]
  rfl

theorem MdctNaive.newOn_eq (h : M.Roomy n) (w : ℕ → List T) : MdctNaive.newOn M n w = MdctNaive.new n w := by
  obtain ⟨⟨r1, r2, -⟩, r3⟩ := h
  unfold MdctNaive.newOn MdctNaive.new
  split
  · rfl
  dsimp only
  rw [arith_ok (by omega), ok_bind, collect_ok (by omega), ok_bind, arith_ok (by omega), ok_bind]

theorem Dct1ConvertToFft.newOn_eq {fft : Fft T} (hr : M.Realistic) (hu : M.Usable fft) : Dct1ConvertToFft.newOn M fft = Dct1ConvertToFft.new fft := by
  have r1 := hr.room
  have r2 := hr.large
  unfold Dct1ConvertToFft.newOn Dct1ConvertToFft.new
  split
  · rfl
  split
  · rfl
  rw [arith_ok (by have := hu.1; omega), ok_bind, fftScratchOn_eq hr hu]
  rfl

theorem Dst1ConvertToFft.newOn_eq {fft : Fft T} (h0 : 2 ≤ fft.len) (hr : M.Realistic) (hu : M.Usable fft) : Dst1ConvertToFft.newOn M fft = Dst1ConvertToFft.new fft := by
  unfold Dst1ConvertToFft.newOn Dst1ConvertToFft.new
  split
  · rfl
  split
  · rfl
  rw [sub_eq (by omega), csub_ok (by omega), ok_bind, fftScratchOn_eq hr hu]
  rfl

theorem Type2And3ConvertToFft.newOn_eq {fft : Fft T} (hr : M.Realistic) (hu : M.Usable fft) : Type2And3ConvertToFft.newOn M fft = Type2And3ConvertToFft.new fft := by
  have r1 := hr.room
  have r2 := hr.large
  have u := hu.1
  unfold Type2And3ConvertToFft.newOn Type2And3ConvertToFft.new
  split
  · rfl
  dsimp only
  rw [collect_ok (by omega), ok_bind]
  by_cases hp : 0 < fft.len
  · rw [if_pos hp, arith_ok (by omega), ok_bind, collect_ok (by omega), ok_bind, fftScratchOn_eq hr hu]
    rfl
  · rw [if_neg hp, ok_bind, collect_ok (by omega), ok_bind, fftScratchOn_eq hr hu, show fft.len = 0 by omega]
    rfl

theorem Type4ConvertToFftOdd.newOn_eq {fft : Fft T} (hr : M.Realistic) (hu : M.Usable fft) : Type4ConvertToFftOdd.newOn M fft = Type4ConvertToFftOdd.new fft := by
  unfold Type4ConvertToFftOdd.newOn Type4ConvertToFftOdd.new
  split
  · rfl
  split
  · rfl
  rw [fftScratchOn_eq hr hu]
  rfl

theorem Dst6And7ConvertToFft.newOn_eq {fft : Fft T} (hr : M.Realistic) (hu : M.Usable fft) : Dst6And7ConvertToFft.newOn M fft = Dst6And7ConvertToFft.new fft := by
  unfold Dst6And7ConvertToFft.newOn Dst6And7ConvertToFft.new
  split
  · rfl
  next h1 =>
  split
  · rfl
  rw [sub_eq (by omega), csub_ok (by omega), ok_bind, fftScratchOn_eq hr hu]
  rfl

theorem Type2And3SplitRadix.newOn_eq {half quarter : Obj23 T} (hr : M.Realistic) (h1 : 2 * half.len ≤ M.maxVec) (h2 : 2 * quarter.len ≤ M.maxVec) :
    Type2And3SplitRadix.newOn M half quarter = Type2And3SplitRadix.new half quarter := by
  have r1 := hr.room
  have r2 := hr.large
  unfold Type2And3SplitRadix.newOn Type2And3SplitRadix.new
  dsimp only
  rw [arith_ok (by omega), ok_bind]
  split
  · rfl
  rw [arith_ok (by omega), ok_bind]
  split
  · rfl
  rw [collect_ok (by omega), ok_bind, if_pos (by omega), arith_ok (by omega), ok_bind, collect_ok (by omega)]
  rfl

theorem Type4ConvertToType3Even.newOn_eq {inner : Obj23 T} (hr : M.Realistic) (h1 : 2 * inner.len ≤ M.maxVec) (h2 : inner.scratchLen ≤ 2 * M.maxVec) :
    Type4ConvertToType3Even.newOn M inner = Type4ConvertToType3Even.new inner := by
  have r1 := hr.room
  have r2 := hr.large
  unfold Type4ConvertToType3Even.newOn Type4ConvertToType3Even.new
  dsimp only
  rw [arith_ok (by omega), ok_bind, collect_ok (by omega), ok_bind]
  have key : ∀ {α : Type} (f : ℕ → Except Err α), (if inner.scratchLen ≤ inner.len * 2 then (Except.ok (inner.len * 2) >>= f) else M.arith (inner.len * 2 + inner.scratchLen) >>= f) =
      f (if inner.scratchLen ≤ inner.len * 2 then inner.len * 2 else inner.len * 2 + inner.scratchLen) := by
    intro α f
    split
    · rfl
    · rw [arith_ok (by omega)]; rfl
  by_cases hp : 0 < inner.len
  · rw [if_pos hp, arith_ok (by omega), ok_bind, collect_ok (by omega), ok_bind, key]
  · rw [if_neg hp, ok_bind, collect_ok (by omega), ok_bind, key, show inner.len = 0 by omega]

theorem MdctViaDct4.newOn_eq {inner : Obj4 T} (hr : M.Realistic) (h1 : inner.len ≤ M.maxVec) (h2 : inner.scratchLen ≤ 3 * M.maxVec) (w : ℕ → List T) :
    MdctViaDct4.newOn M inner w = MdctViaDct4.new inner w := by
  have r1 := hr.room
  have r2 := hr.large
  unfold MdctViaDct4.newOn MdctViaDct4.new
  dsimp only
  split
  · rfl
  rw [arith_ok (by omega), ok_bind]
  split
  · rfl
  rw [arith_ok (by omega), ok_bind]

theorem canonDct1Mid_eq (h : M.Roomy n) (hn : 1 ≤ n) (hF : ∀ m, Kind.dct1.fftLen n = some m → M.Usable (planFft m)) : canonDct1Mid M planFft n = canonDct1 planFft n := by
  unfold canonDct1Mid canonDct1
  split
  · rw [Dct1Naive.newOn_eq h hn]
  next h1 =>
  obtain ⟨hr, r3⟩ := h
  have r1 := hr.room
  rw [sub_eq (by omega), csub_ok (by omega), ok_bind, arith_ok (by omega), ok_bind, Dct1ConvertToFft.newOn_eq hr (hF _ _)]
  simp only [Kind.fftLen, if_neg h1]
  congr 1; omega

theorem canonDst1Mid_eq (hf : PlanFftShape planFft) (h : M.Roomy n) (hF : ∀ m, Kind.dst1.fftLen n = some m → M.Usable (planFft m)) : canonDst1Mid M planFft n = canonDst1 planFft n := by
  unfold canonDst1Mid canonDst1
  split
  · rw [Dst1Naive.newOn_eq h]
  next h1 =>
  obtain ⟨hr, r3⟩ := h
  have r1 := hr.room
  rw [arith_ok (by omega), ok_bind, arith_ok (by omega), ok_bind, Dst1ConvertToFft.newOn_eq (by rw [(hf _).1]; omega) hr (hF _ _)]
  simp only [Kind.fftLen, if_neg h1]
  congr 1; omega

theorem canonDst6Mid_eq (h : M.Roomy n) (hF : ∀ m, Kind.dst6.fftLen n = some m → M.Usable (planFft m)) : canonDst6Mid M planFft n = canonDst6 planFft n := by
  unfold canonDst6Mid canonDst6
  split
  · rw [Dst6And7Naive.newOn_eq h]
  next h1 =>
  obtain ⟨hr, r3⟩ := h
  have r1 := hr.room
  rw [arith_ok (by omega), ok_bind, arith_ok (by omega), ok_bind, Dst6And7ConvertToFft.newOn_eq hr (hF _ _)]
  simp only [Kind.fftLen, if_neg h1]
  congr 1; omega

theorem canon23Mid_eq (hf : PlanFftShape planFft) (hr : M.Realistic) : ∀ {n : ℕ} (hn : 2 * n ≤ M.maxVec)
    (hF : ∀ m, fftLen23 n = some m → M.Usable (planFft m)), canon23Mid M planFft n = canon23 planFft n := by
  intro n
  induction n using Nat.strongRecOn with
  | ind n ih =>
    intro hn hF
    rw [canon23Mid, canon23.eq_def planFft n]
    split
    · rfl
    next hb =>
    split
    · next hp =>
      obtain ⟨h16, h4, p2, p4⟩ := pow_parts hb hp
      rw [ih (n / 2) (by omega) (by omega) (by rw [fftLen23_pow p2 (by omega)]; intro m hm; cases hm),
        ih (n / 4) (by omega) (by omega) (by rw [fftLen23_pow p4 (by omega)]; intro m hm; cases hm)]
      obtain ⟨o1, d1, -, l1⟩ := canon23_made hf (n / 2)
      obtain ⟨o2, d2, -, l2⟩ := canon23_made hf (n / 4)
      rw [d1, d2, ok_bind, ok_bind, ok_bind, ok_bind, Type2And3SplitRadix.newOn_eq hr (by omega) (by omega)]
    · next hp => rw [Type2And3ConvertToFft.newOn_eq hr (hF n (fftLen23_other hb hp))]

theorem canon4Mid_eq (hf : PlanFftShape planFft) (h : M.Roomy n) (hF : ∀ m, Kind.dct4.fftLen n = some m → M.Usable (planFft m)) : canon4Mid M planFft n = canon4 planFft n := by
  unfold canon4Mid canon4
  split
  · next h2 =>
    split
    · rw [Type4Naive.newOn_eq h]
    · next h6 =>
      obtain ⟨hr, r3⟩ := h
      have hF' : ∀ m, fftLen23 (n / 2) = some m → M.Usable (planFft m) := fun m hm => hF m (by simp only [Kind.fftLen, if_pos h2, if_neg h6]; exact hm)
      rw [canon23Mid_eq hf hr (by omega) hF']
      obtain ⟨i, d, -, l⟩ := canon23_made hf (n / 2)
      rw [d, ok_bind, ok_bind, Type4ConvertToType3Even.newOn_eq hr (by omega)]
      rw [canon23_scratch hf d]
      refine scratch23_le (fun m hm => ?_) (by omega)
      have := hF' m hm
      unfold Target.Usable at this
      rwa [(hf m).1] at this
  · next h2 =>
    split
    · rw [Type4Naive.newOn_eq h]
    · next h7 => rw [Type4ConvertToFftOdd.newOn_eq h.1 (hF n (by simp only [Kind.fftLen, if_neg h2, if_neg h7]))]

theorem canonMdctMid_eq (hf : PlanFftShape planFft) (h : M.Roomy n) (hF : ∀ m, Kind.dct4.fftLen n = some m → M.Usable (planFft m)) (w : ℕ → List T) (h2 : n % 2 = 0) :
    canonMdctMid M planFft n w = canonMdct planFft n w := by
  unfold canonMdctMid canonMdct
  rw [canon4Mid_eq hf h hF]
  obtain ⟨i, d, -, l⟩ := canon4_made hf n
  obtain ⟨hr, r3⟩ := h
  rw [d, ok_bind, ok_bind, MdctViaDct4.newOn_eq hr (by omega)]
  rw [canon4_scratch hf d]
  unfold scratch4
  rw [if_pos h2]
  split
  · omega
  next h6 =>
  split
  · omega
  have : scratch23 (fun m => (planFft m).inplaceScratchLen) (n / 2) ≤ 2 * M.maxVec := by
    refine scratch23_le (fun m hm => ?_) (by omega)
    have := hF m (by simp only [Kind.fftLen, if_pos h2, if_neg h6]; exact hm)
    unfold Target.Usable at this
    rwa [(hf m).1] at this
  omega

theorem returnsOn_of_canon {α : Type} {m : PlanM T (Arc α)} {r : Except Err α} (h : ∀ W, Gives M planFft W m r) {v : α} (hr : r = .ok v) (calls : List (PlanCall T)) :
    ∃ a s', m (plannerAfterOn M planFft calls) = .ok a s' ∧ a.val = v := by
  have := h _ _ (afterOn_inv calls)
  cases hm : m (plannerAfterOn M planFft calls) with
  | error e s' => rw [hm, hr] at this; cases this.1
  | ok a s' => rw [hm, hr] at this; injection this.1 with e; exact ⟨a, s', rfl, e.symm⟩

theorem one_le_of_planned {calls : List (PlanCall T)} {k : Kind} {p : Proc T} {s : ℕ} (h : Planned planFft calls k p n s) (hk : k = .dct1 ∨ k = .dct5 ∨ k = .dct6 ∨ k = .dct7 ∨ k = .dst8) : 1 ≤ n := by
  by_contra hn
  obtain rfl : n = 0 := by omega
  have key : ∀ {α : Type} {r : Except Err α} {v : α}, (∃ e, r = .error e ∧ e ≠ .ub) → r = .ok v → False := by
    rintro α r v ⟨e, h1, -⟩ h2; rw [h1] at h2; cases h2
  cases h with
  | @dct1 _ a s' h => exact key (canonDct1_err (by omega)) (Yields.canon (fun W => planDct1_yields 0) h)
  | @dct5 _ a s' h => exact key (canonDct5_err (by omega)) (Yields.canon (planFft := planFft) (fun W => planDct5_yields 0) h)
  | @dct6 _ a s' h => exact key (canonDct6_err (by omega)) (Yields.canon (planFft := planFft) (fun W => planDct6_yields 0) h)
  | @dct7 _ a s' h => exact key (canonDct6_err (by omega)) (Yields.canon (planFft := planFft) (fun W => planDct6_yields 0) h)
  | @dst8 _ a s' h => exact key (canonDst8_err (by omega)) (Yields.canon (planFft := planFft) (fun W => planDst8_yields 0) h)
  | _ => simp at hk

/-- Conversely: for every length for which the tables can be allocated, whatever the unbounded model returns is returned, in both builds and after every
history. -/
theorem C66_returns (hf : PlanFftShape planFft) {calls : List (PlanCall T)} {k : Kind} {p : Proc T} {s : ℕ} (h : Planned planFft calls k p n s)
    (hr : M.Realistic) (hn : 8 * n + 8 ≤ M.maxVec) (hF : ∀ m, k.fftLen n = some m → M.Usable (planFft m)) (calls' : List (PlanCall T)) :
    ∃ q, PlannedOn M planFft calls' k q n n s ∧ ∀ m, (p m).Agrees M.toMachine (q m) := by
  have hR : M.Roomy n := ⟨hr, hn⟩
  have h1 := one_le_of_planned h
  have hm : n ≤ M.maxVec := by omega
  suffices hs : ∃ q l, PlannedOn M planFft calls' k q n l s ∧ ∀ m, (p m).Agrees M.toMachine (q m) by
    obtain ⟨q, l, hl, ha⟩ := hs
    obtain ⟨rfl, -⟩ := C66_planned hf hl (.inr ⟨hr, by omega, hF⟩)
    exact ⟨q, hl, ha⟩
  cases h with
  | @dct1 n a s' h =>
    obtain ⟨a', c, L⟩ := (canonDct1_mid (M := M) (planFft := planFft) (n := n)).right ((canonDct1Mid_eq hR (h1 (by simp)) hF).trans (Yields.canon (fun W => planDct1_yields n) h))
    obtain ⟨b, t, e, v⟩ := returnsOn_of_canon (fun W => planDct1On_gives n) c calls'
    refine ⟨a'.run, a'.len, ?_, (L.2.2 hr).run⟩
    rw [← L.2.1]
    exact v ▸ .dct1 e
  | @dct2 n a s' h =>
    obtain ⟨a', c, L⟩ := (canon23_mid (M := M) (planFft := planFft) n).right ((canon23Mid_eq hf hr (by omega) hF).trans (Yields.canon (fun W => planDct2_yields n) h))
    obtain ⟨b, t, e, v⟩ := returnsOn_of_canon (fun W => planDct2On_gives n) c calls'
    refine ⟨a'.dct2, a'.len, ?_, (L.2.2 hr).dct2⟩
    rw [← L.2.1]
    exact v ▸ .dct2 e
  | @dct3 n a s' h h0 =>
    obtain ⟨a', c, L⟩ := (canon23_mid (M := M) (planFft := planFft) n).right ((canon23Mid_eq hf hr (by omega) hF).trans (Yields.canon (fun W => planDct2_yields n) h))
    obtain ⟨b, t, e, v⟩ := returnsOn_of_canon (fun W => planDct2On_gives n) c calls'
    refine ⟨a'.dct3, a'.len, ?_, (L.2.2 hr).dct3⟩
    rw [← L.2.1]
    exact v ▸ .dct3 e h0
  | @dct4 n a s' h h0 =>
    obtain ⟨a', c, L⟩ := (canon4_mid (M := M) hf).right ((canon4Mid_eq hf hR hF).trans (Yields.canon (fun W => planDct4_yields n) h))
    obtain ⟨b, t, e, v⟩ := returnsOn_of_canon (fun W => planDct4On_gives n) c calls'
    refine ⟨a'.dct4, a'.len, ?_, (L.2.2 ⟨hr, hm⟩).dct4⟩
    rw [← L.2.1]
    exact v ▸ .dct4 e h0
  | @dct5 n a s' h =>
    have c0 : canonDct5Mid M n = .ok a.val := (congrArg _ (Dct5Naive.newOn_eq hR (h1 (by simp)))).trans (Yields.canon (planFft := planFft) (fun W => planDct5_yields n) h)
    obtain ⟨a', c, L⟩ := (canonDct5_mid (M := M) (n := n)).right c0
    obtain ⟨b, t, e, v⟩ := returnsOn_of_canon (planFft := planFft) (fun W => planDct5On_gives n) c calls'
    refine ⟨a'.run, a'.len, ?_, (L.2.2 hr).run⟩
    rw [← L.2.1]
    exact v ▸ .dct5 e
  | @dct6 n a s' h =>
    have c0 : canonDct6Mid M n = .ok a.val := (congrArg _ (Dct6And7Naive.newOn_eq hR (h1 (by simp)))).trans (Yields.canon (planFft := planFft) (fun W => planDct6_yields n) h)
    obtain ⟨a', c, L⟩ := (canonDct6_mid (M := M) (n := n)).right c0
    obtain ⟨b, t, e, v⟩ := returnsOn_of_canon (planFft := planFft) (fun W => planDct6On_gives n) c calls'
    refine ⟨a'.t6, a'.len, ?_, (L.2.2 hr).t6⟩
    rw [← L.2.1]
    exact v ▸ .dct6 e
  | @dct7 n a s' h =>
    have c0 : canonDct6Mid M n = .ok a.val := (congrArg _ (Dct6And7Naive.newOn_eq hR (h1 (by simp)))).trans (Yields.canon (planFft := planFft) (fun W => planDct6_yields n) h)
    obtain ⟨a', c, L⟩ := (canonDct6_mid (M := M) (n := n)).right c0
    obtain ⟨b, t, e, v⟩ := returnsOn_of_canon (planFft := planFft) (fun W => planDct6On_gives n) c calls'
    refine ⟨a'.t7, a'.len, ?_, (L.2.2 hr).t7⟩
    rw [← L.2.1]
    exact v ▸ .dct7 e
  | @dct8 n a s' h =>
    have c0 : canonDct8Mid M n = .ok a.val := (congrArg _ (Dct8Naive.newOn_eq hR)).trans (Yields.canon (planFft := planFft) (fun W => planDct8_yields n) h)
    obtain ⟨a', c, L⟩ := (canonDct8_mid (M := M) (n := n)).right c0
    obtain ⟨b, t, e, v⟩ := returnsOn_of_canon (planFft := planFft) (fun W => planDct8On_gives n) c calls'
    refine ⟨a'.run, a'.len, ?_, (L.2.2 hr).run⟩
    rw [← L.2.1]
    exact v ▸ .dct8 e
  | @dst1 n a s' h =>
    obtain ⟨a', c, L⟩ := (canonDst1_mid (M := M) (planFft := planFft) (n := n)).right ((canonDst1Mid_eq hf hR hF).trans (Yields.canon (fun W => planDst1_yields n) h))
    obtain ⟨b, t, e, v⟩ := returnsOn_of_canon (fun W => planDst1On_gives n) c calls'
    refine ⟨a'.run, a'.len, ?_, (L.2.2 hr).run⟩
    rw [← L.2.1]
    exact v ▸ .dst1 e
  | @dst2 n a s' h =>
    obtain ⟨a', c, L⟩ := (canon23_mid (M := M) (planFft := planFft) n).right ((canon23Mid_eq hf hr (by omega) hF).trans (Yields.canon (fun W => planDct2_yields n) h))
    obtain ⟨b, t, e, v⟩ := returnsOn_of_canon (fun W => planDct2On_gives n) c calls'
    refine ⟨a'.dst2, a'.len, ?_, (L.2.2 hr).dst2⟩
    rw [← L.2.1]
    exact v ▸ .dst2 e
  | @dst3 n a s' h h0 =>
    obtain ⟨a', c, L⟩ := (canon23_mid (M := M) (planFft := planFft) n).right ((canon23Mid_eq hf hr (by omega) hF).trans (Yields.canon (fun W => planDct2_yields n) h))
    obtain ⟨b, t, e, v⟩ := returnsOn_of_canon (fun W => planDct2On_gives n) c calls'
    refine ⟨a'.dst3, a'.len, ?_, (L.2.2 hr).dst3⟩
    rw [← L.2.1]
    exact v ▸ .dst3 e h0
  | @dst4 n a s' h h0 =>
    obtain ⟨a', c, L⟩ := (canon4_mid (M := M) hf).right ((canon4Mid_eq hf hR hF).trans (Yields.canon (fun W => planDct4_yields n) h))
    obtain ⟨b, t, e, v⟩ := returnsOn_of_canon (fun W => planDct4On_gives n) c calls'
    refine ⟨a'.dst4, a'.len, ?_, (L.2.2 ⟨hr, hm⟩).dst4⟩
    rw [← L.2.1]
    exact v ▸ .dst4 e h0
  | @dst5 n a s' h =>
    have c0 : canonDst5Mid M n = .ok a.val := (congrArg _ (Dst5Naive.newOn_eq hR)).trans (Yields.canon (planFft := planFft) (fun W => planDst5_yields n) h)
    obtain ⟨a', c, L⟩ := (canonDst5_mid (M := M) (n := n)).right c0
    obtain ⟨b, t, e, v⟩ := returnsOn_of_canon (planFft := planFft) (fun W => planDst5On_gives n) c calls'
    refine ⟨a'.run, a'.len, ?_, (L.2.2 hr).run⟩
    rw [← L.2.1]
    exact v ▸ .dst5 e
  | @dst6 n a s' h =>
    obtain ⟨a', c, L⟩ := (canonDst6_mid (M := M) hf).right ((canonDst6Mid_eq hR hF).trans (Yields.canon (fun W => planDst6_yields n) h))
    obtain ⟨b, t, e, v⟩ := returnsOn_of_canon (fun W => planDst6On_gives n) c calls'
    refine ⟨a'.t6, a'.len, ?_, (L.2.2 ⟨hr, hm⟩).t6⟩
    rw [← L.2.1]
    exact v ▸ .dst6 e
  | @dst7 n a s' h =>
    obtain ⟨a', c, L⟩ := (canonDst6_mid (M := M) hf).right ((canonDst6Mid_eq hR hF).trans (Yields.canon (fun W => planDst6_yields n) h))
    obtain ⟨b, t, e, v⟩ := returnsOn_of_canon (fun W => planDst6On_gives n) c calls'
    refine ⟨a'.t7, a'.len, ?_, (L.2.2 ⟨hr, hm⟩).t7⟩
    rw [← L.2.1]
    exact v ▸ .dst7 e
  | @dst8 n a s' h =>
    have c0 : canonDst8Mid M n = .ok a.val := (congrArg _ (Dst8Naive.newOn_eq hR (h1 (by simp)))).trans (Yields.canon (planFft := planFft) (fun W => planDst8_yields n) h)
    obtain ⟨a', c, L⟩ := (canonDst8_mid (M := M) (n := n)).right c0
    obtain ⟨b, t, e, v⟩ := returnsOn_of_canon (planFft := planFft) (fun W => planDst8On_gives n) c calls'
    refine ⟨a'.run, a'.len, ?_, (L.2.2 hr).run⟩
    rw [← L.2.1]
    exact v ▸ .dst8 e

/-- The same for a first `plan_mdct` call. -/
theorem C66_mdct_returns (hf : PlanFftShape planFft) {w : ℕ → List T} {o : MdctObj T} (h : PlannedMdct planFft [] n w o)
    (hr : M.Realistic) (hn : 8 * n + 8 ≤ M.maxVec) (hF : ∀ m, Kind.dct4.fftLen n = some m → M.Usable (planFft m)) :
    ∃ o', PlannedMdctOn M planFft [] n w o' ∧ o.Agrees M.toMachine o' := by
  have c : canonMdct planFft n w = .ok o := h.canon hf
  obtain ⟨a, s', e, rfl⟩ := h
  have h2 : n % 2 = 0 := ((C33_mdct_domain hf [] n w).1 ⟨a, s', e⟩).1
  rw [← canonMdctMid_eq hf ⟨hr, hn⟩ hF w h2] at c
  obtain ⟨a', c, L⟩ := (canonMdct_mid hf w).right c
  have := planMdctOn_run (M := M) (planFft := planFft) n (W := fun m v => m = n ∧ v = w) ⟨rfl, rfl⟩ (plannerAfterOn M planFft []) (InvOn.new 0)
  cases hm : planMdctOn M planFft n w (plannerAfterOn M planFft []) with
  | error e s' => rw [hm, c] at this; cases this.1
  | ok b t =>
    rw [hm] at this
    obtain ⟨⟨v, ⟨-, rfl⟩, hb⟩, -⟩ := this
    rw [c] at hb; injection hb with hb
    exact ⟨a', ⟨b, t, hm, hb.symm⟩, L.2.2 ⟨hr, by omega⟩⟩

/-! ### Release builds do return instances of the wrong length -/

theorem arith_wraps (hw : M.wraps = true) (x : ℕ) : M.arith x = .ok (x % M.values) := by
  unfold Machine.arith
  by_cases h : x < M.values
  · rw [if_pos h, Nat.mod_eq_of_lt h]
  · rw [if_neg h, if_pos hw]

/-- The transforms whose planned instances can have the wrong length. -/
def Kind.wrapping : Kind → Bool
  | .dct2 | .dct3 | .dct4 | .dst2 | .dst3 | .dst4 => false
  | _ => true

/-- In a release build, a planner asked for a DCT of type 1, 5, 6, 7 or 8 or a DST of type 1, 5, 6, 7 or 8 of length `W / 2 + j`, where `W` is the number of
values of `usize`, returns an instance of length `j`, for every `j` for which tables of `4 j + 2` entries can be allocated and after every history.  It should panic. -/
theorem C66_wrong (hf : PlanFftShape planFft) (hr : M.Realistic) (hw : M.wraps = true) {j : ℕ} (hj : 1 ≤ j) (hm : 4 * j + 2 ≤ M.maxVec) {k : Kind} (hk : k.wrapping = true)
    (calls : List (PlanCall T)) : ∃ p s, PlannedOn M planFft calls k p (M.values / 2 + j) j s ∧ j ≠ M.values / 2 + j ∧ M.values / 2 + j < M.values := by
  have r1 := hr.room
  have r2 := hr.large
  have r3 := hr.word
  have hlt : M.values / 2 + j < M.values := by omega
  suffices hs : ∃ p l s, PlannedOn M planFft calls k p (M.values / 2 + j) l s by
    obtain ⟨p, l, s, h⟩ := hs
    have e := C66_release_length hf hr hw hlt h
    have : l = j := by
      have e2 : (M.values / 2 + j) % (M.values / 2) = j := by rw [Nat.add_mod_left, Nat.mod_eq_of_lt (by omega)]
      have e4 : (M.values / 2 + j) % (M.values / 4) = j := by
        rw [show M.values / 2 + j = j + M.values / 4 * 2 by omega, Nat.add_mul_mod_self_left, Nat.mod_eq_of_lt (by omega)]
      cases k <;> first | cases hk | skip
      · simp only [Kind.lengthGot] at e
        rw [e, if_neg (by omega), show M.values / 2 + j - 1 = M.values / 2 + (j - 1) by omega, Nat.add_mod_left, Nat.mod_eq_of_lt (by omega)]
        omega
      · exact e.trans e2
      · exact e.trans e4
      · exact e.trans e4
      · exact e.trans e4
      · simp only [Kind.lengthGot] at e
        rw [e, if_neg (by omega), show M.values / 2 + j + 1 = M.values / 2 + (j + 1) by omega, Nat.add_mod_left, Nat.mod_eq_of_lt (show j + 1 < M.values / 2 by omega),
          show j + 1 + M.values - 1 = j + M.values by omega, Nat.add_mod_right, Nat.mod_eq_of_lt (by omega)]
      · exact e.trans e2
      · exact e.trans e2
      · exact e.trans e2
      · exact e.trans e4
    subst this
    exact ⟨p, s, h, by omega, hlt⟩
  have d2 : ∀ i, i ≤ j + 1 → (M.values / 2 + i) * 2 % M.values = i * 2 := by
    intro i hi
    rw [show (M.values / 2 + i) * 2 = i * 2 + M.values by omega, Nat.add_mod_right, Nat.mod_eq_of_lt (by omega)]
  have d4 : (M.values / 2 + j) * 4 % M.values = j * 4 := by
    rw [show (M.values / 2 + j) * 4 = j * 4 + M.values * 2 by omega, Nat.add_mul_mod_self_left, Nat.mod_eq_of_lt (by omega)]
  have scr : ∀ fft : Fft T, ∃ x, fftScratchOn M fft = .ok x := fun fft => ⟨_, by unfold fftScratchOn; rw [arith_wraps hw, ok_bind, arith_wraps hw]⟩
  have c1 : ∃ o, canonDct1On M planFft (M.values / 2 + j) = .ok o := by
    unfold canonDct1On
    rw [if_neg (by omega), sub_eq (by omega), csub_ok (by omega), ok_bind, arith_wraps hw, ok_bind,
      show M.values / 2 + j - 1 = M.values / 2 + (j - 1) by omega, d2 _ (by omega)]
    obtain ⟨x, hx⟩ := scr (planFft ((j - 1) * 2))
    unfold Dct1ConvertToFft.newOn
    rw [if_neg (by rw [(hf _).1]; omega), if_neg (by rw [(hf _).2]; simp), arith_wraps hw, ok_bind, hx]
    exact ⟨_, rfl⟩
  have s1 : ∃ o, canonDst1On M planFft (M.values / 2 + j) = .ok o := by
    unfold canonDst1On
    rw [if_neg (by omega), arith_ok (by omega), ok_bind, arith_wraps hw, ok_bind, show M.values / 2 + j + 1 = M.values / 2 + (j + 1) by omega, d2 _ (by omega)]
    obtain ⟨x, hx⟩ := scr (planFft ((j + 1) * 2))
    unfold Dst1ConvertToFft.newOn
    rw [if_neg (by rw [(hf _).1]; omega), if_neg (by rw [(hf _).2]; simp), sub_eq (by rw [(hf _).1]; omega), csub_ok (by rw [(hf _).1]; omega), ok_bind, hx]
    exact ⟨_, rfl⟩
  have s6 : ∃ o, canonDst6On M planFft (M.values / 2 + j) = .ok o := by
    unfold canonDst6On
    rw [if_neg (by omega), arith_wraps hw, ok_bind, d2 _ (by omega), arith_ok (by omega), ok_bind]
    obtain ⟨x, hx⟩ := scr (planFft (j * 2 + 1))
    unfold Dst6And7ConvertToFft.newOn
    rw [if_neg (by rw [(hf _).1]; omega), if_neg (by rw [(hf _).2]; simp), sub_eq (by rw [(hf _).1]; omega), csub_ok (by rw [(hf _).1]; omega), ok_bind, hx]
    exact ⟨_, rfl⟩
  have c5 : ∃ o : Obj1 T, canonDct5On M (M.values / 2 + j) = .ok o := by
    unfold canonDct5On Dct5Naive.newOn
    dsimp only
    rw [arith_wraps hw, ok_bind, d2 _ (by omega), sub_eq (by omega), csub_ok (by omega), ok_bind, collect_ok (by omega)]
    exact ⟨_, rfl⟩
  have s5 : ∃ o : Obj1 T, canonDst5On M (M.values / 2 + j) = .ok o := by
    unfold canonDst5On Dst5Naive.newOn
    dsimp only
    rw [arith_wraps hw, ok_bind, d2 _ (by omega), arith_ok (by omega), ok_bind, collect_ok (by omega)]
    exact ⟨_, rfl⟩
  have c6 : ∃ o : Obj67 T, canonDct6On M (M.values / 2 + j) = .ok o := by
    unfold canonDct6On Dct6And7Naive.newOn
    rw [arith_wraps hw, ok_bind, d2 _ (by omega), sub_eq (by omega), csub_ok (by omega), ok_bind]
    dsimp only
    rw [arith_wraps hw, ok_bind, d4, sub_eq (by omega), csub_ok (by omega), ok_bind, collect_ok (by omega)]
    exact ⟨_, rfl⟩
  have s8 : ∃ o : Obj1 T, canonDst8On M (M.values / 2 + j) = .ok o := by
    unfold canonDst8On Dst8Naive.newOn
    rw [arith_wraps hw, ok_bind, d2 _ (by omega), sub_eq (by omega), csub_ok (by omega), ok_bind]
    dsimp only
    rw [arith_wraps hw, ok_bind, d4, sub_eq (by omega), csub_ok (by omega), ok_bind, collect_ok (by omega)]
    exact ⟨_, rfl⟩
  have c8 : ∃ o : Obj1 T, canonDct8On M (M.values / 2 + j) = .ok o := by
    unfold canonDct8On Dct8Naive.newOn
    rw [arith_wraps hw, ok_bind, d2 _ (by omega), arith_ok (by omega), ok_bind]
    dsimp only
    rw [arith_wraps hw, ok_bind, d4, arith_ok (by omega), ok_bind, collect_ok (by omega)]
    exact ⟨_, rfl⟩
  cases k <;> first | cases hk | skip
  · obtain ⟨o, ho⟩ := c1
    obtain ⟨a, t, e, -⟩ := returnsOn_of_canon (fun W => planDct1On_gives _) ho calls
    exact ⟨_, _, _, .dct1 e⟩
  · obtain ⟨o, ho⟩ := c5
    obtain ⟨a, t, e, -⟩ := returnsOn_of_canon (planFft := planFft) (fun W => planDct5On_gives _) ho calls
    exact ⟨_, _, _, .dct5 e⟩
  · obtain ⟨o, ho⟩ := c6
    obtain ⟨a, t, e, -⟩ := returnsOn_of_canon (planFft := planFft) (fun W => planDct6On_gives _) ho calls
    exact ⟨_, _, _, .dct6 e⟩
  · obtain ⟨o, ho⟩ := c6
    obtain ⟨a, t, e, -⟩ := returnsOn_of_canon (planFft := planFft) (fun W => planDct6On_gives _) ho calls
    exact ⟨_, _, _, .dct7 e⟩
  · obtain ⟨o, ho⟩ := c8
    obtain ⟨a, t, e, -⟩ := returnsOn_of_canon (planFft := planFft) (fun W => planDct8On_gives _) ho calls
    exact ⟨_, _, _, .dct8 e⟩
  · obtain ⟨o, ho⟩ := s1
    obtain ⟨a, t, e, -⟩ := returnsOn_of_canon (fun W => planDst1On_gives _) ho calls
    exact ⟨_, _, _, .dst1 e⟩
  · obtain ⟨o, ho⟩ := s5
    obtain ⟨a, t, e, -⟩ := returnsOn_of_canon (planFft := planFft) (fun W => planDst5On_gives _) ho calls
    exact ⟨_, _, _, .dst5 e⟩
  · obtain ⟨o, ho⟩ := s6
    obtain ⟨a, t, e, -⟩ := returnsOn_of_canon (fun W => planDst6On_gives _) ho calls
    exact ⟨_, _, _, .dst6 e⟩
  · obtain ⟨o, ho⟩ := s6
    obtain ⟨a, t, e, -⟩ := returnsOn_of_canon (fun W => planDst6On_gives _) ho calls
    exact ⟨_, _, _, .dst7 e⟩
  · obtain ⟨o, ho⟩ := s8
    obtain ⟨a, t, e, -⟩ := returnsOn_of_canon (planFft := planFft) (fun W => planDst8On_gives _) ho calls
    exact ⟨_, _, _, .dst8 e⟩

/-- Only those ten, and only from `W / 4` on: below, and for types 2 to 4, the length is the requested one. -/
theorem C66_right (hf : PlanFftShape planFft) (hr : M.Realistic) {calls : List (PlanCall T)} {k : Kind} {p : Proc T} {l s : ℕ} (hn : n < M.values)
    (h : PlannedOn M planFft calls k p n l s) (hk : k.wrapping = false ∨ n < M.values / 4) : l = n := by
  have r1 := hr.room
  have r2 := hr.large
  by_cases hw : M.wraps = true
  · have e := C66_release_length hf hr hw hn h
    rw [e]
    rcases hk with hk | hk
    · cases k <;> simp [Kind.wrapping] at hk <;> rfl
    · have m4 : n % (M.values / 4) = n := Nat.mod_eq_of_lt hk
      have m2 : n % (M.values / 2) = n := Nat.mod_eq_of_lt (by omega)
      cases k <;> simp only [Kind.lengthGot, m4, m2]
      · split
        · rfl
        · rw [Nat.mod_eq_of_lt (by omega)]; omega
      · split
        · rfl
        · rw [Nat.mod_eq_of_lt (show n + 1 < M.values / 2 by omega), show n + 1 + M.values - 1 = n + M.values by omega, Nat.add_mod_right, Nat.mod_eq_of_lt hn]
  · exact (C66_planned hf h (.inl (by simpa using hw))).1

/-! ### Constructors -/

/-- The constructors that take a length: on a machine that panics on overflow, or for a length that a buffer can have, what they return is what they
return if `usize` is unbounded. -/
theorem C66_constructors (hE : M.wraps = false ∨ M.Realistic ∧ n ≤ M.maxVec) :
    (∀ o : Dct1Naive T, Dct1Naive.newOn M n = .ok o → Dct1Naive.new n = .ok o) ∧
    (∀ o : Dst1Naive T, Dst1Naive.newOn M n = .ok o → Dst1Naive.new n = .ok o) ∧
    (∀ o : Type2And3Naive T, Type2And3Naive.newOn M n = .ok o → Type2And3Naive.new n = .ok o) ∧
    (∀ o : Type4Naive T, Type4Naive.newOn M n = .ok o → Type4Naive.new n = .ok o) ∧
    (∀ o : Dct5Naive T, Dct5Naive.newOn M n = .ok o → Dct5Naive.new n = .ok o) ∧
    (∀ o : Dst5Naive T, Dst5Naive.newOn M n = .ok o → Dst5Naive.new n = .ok o) ∧
    (∀ o : Dct6And7Naive T, Dct6And7Naive.newOn M n = .ok o → Dct6And7Naive.new n = .ok o) ∧
    (∀ o : Dst6And7Naive T, Dst6And7Naive.newOn M n = .ok o → Dst6And7Naive.new n = .ok o) ∧
    (∀ o : Dct8Naive T, Dct8Naive.newOn M n = .ok o → Dct8Naive.new n = .ok o) ∧
    (∀ o : Dst8Naive T, Dst8Naive.newOn M n = .ok o → Dst8Naive.new n = .ok o) ∧
    (∀ (w : ℕ → List T) (o : MdctNaive T), MdctNaive.newOn M n w = .ok o → MdctNaive.new n w = .ok o) :=
  ⟨fun _ => Dct1Naive.newOn_exact hE, fun _ => Dst1Naive.newOn_exact hE, fun _ => Type2And3Naive.newOn_exact hE, fun _ => Type4Naive.newOn_exact hE,
    fun _ => Dct5Naive.newOn_exact hE, fun _ => Dst5Naive.newOn_exact hE, fun _ => Dct6And7Naive.newOn_exact hE, fun _ => Dst6And7Naive.newOn_exact hE,
    fun _ => Dct8Naive.newOn_exact hE, fun _ => Dst8Naive.newOn_exact hE, fun _ _ => MdctNaive.newOn_exact hE⟩

/-- In a release build `Type2And3Naive::new(W / 4 + j)` and `Type4Naive::new(W / 4 + j)` return instances of length `j`, and so does `MdctNaive::new(W / 2 + j, f)`, for
even `j`, calling `f` with `2 j`. -/
theorem C66_constructors_wrong (hr : M.Realistic) (hw : M.wraps = true) {j : ℕ} (hm : 8 * j ≤ M.maxVec) :
    (∃ o : Type2And3Naive T, Type2And3Naive.newOn M (M.values / 4 + j) = .ok o ∧ o.len = j) ∧
    (∃ o : Type4Naive T, Type4Naive.newOn M (M.values / 4 + j) = .ok o ∧ o.len = j) ∧
    ∀ w : ℕ → List T, j % 2 = 0 → (w (2 * j)).length = 2 * j → ∃ o : MdctNaive T, MdctNaive.newOn M (M.values / 2 + j) w = .ok o ∧ o.len = j ∧ o.window = w (2 * j) := by
  have r1 := hr.room
  have r2 := hr.large
  have r3 := hr.word
  have d4 : (M.values / 4 + j) * 4 % M.values = j * 4 := by
    rw [show (M.values / 4 + j) * 4 = j * 4 + M.values by omega, Nat.add_mod_right, Nat.mod_eq_of_lt (by omega)]
  have d24 : (M.values / 2 + j) * 4 % M.values = j * 4 := by
    rw [show (M.values / 2 + j) * 4 = j * 4 + M.values * 2 by omega, Nat.add_mul_mod_self_left, Nat.mod_eq_of_lt (by omega)]
  have d22 : (M.values / 2 + j) * 2 % M.values = 2 * j := by
    rw [show (M.values / 2 + j) * 2 = 2 * j + M.values by omega, Nat.add_mod_right, Nat.mod_eq_of_lt (by omega)]
  refine ⟨?_, ?_, ?_⟩
  · unfold Type2And3Naive.newOn
    rw [arith_wraps hw, ok_bind, d4, collect_ok (by omega)]
    exact ⟨_, rfl, by simp [Type2And3Naive.len]⟩
  · unfold Type4Naive.newOn
    rw [arith_wraps hw, ok_bind, d4, collect_ok (by omega)]
    exact ⟨_, rfl, by simp [Type4Naive.len]⟩
  · intro w h2 hl
    unfold MdctNaive.newOn
    rw [if_neg (by omega)]
    dsimp only
    rw [arith_wraps hw, ok_bind, d24, collect_ok (by omega), ok_bind, arith_wraps hw, ok_bind, d22, if_neg (by simpa using hl)]
    exact ⟨_, rfl, by simp [MdctNaive.len], rfl⟩

end

/-! ### The hypotheses are met -/

theorem release64_realistic : release64.Realistic := ⟨by norm_num [release64], by norm_num [release64], by norm_num [release64]⟩
theorem debug64_realistic : debug64.Realistic := ⟨by norm_num [debug64], by norm_num [debug64], by norm_num [debug64]⟩

/-- On a 64-bit machine, release build: `plan_dct1(2^63 + 6)` returns an instance of length 6. -/
theorem C66_finding : ∃ p s, PlannedOn release64 (fun n => (sumFft n : Fft ℝ)) [.dct2 64] .dct1 p 9223372036854775814 6 s := by
  obtain ⟨p, s, h, -, -⟩ := C66_wrong (T := ℝ) (planFft := fun n => sumFft n) sumFft_sane.shape release64_realistic rfl (j := 6) (by norm_num) (by norm_num [release64]) (k := .dct1) rfl [.dct2 64]
  exact ⟨p, s, h⟩

/-- Length 100 is fine in both builds. -/
example : ∃ p q r s, PlannedOn release64 (fun n => (sumFft n : Fft ℝ)) [.dct2 64] .dst1 p 100 100 s ∧ PlannedOn debug64 (fun n => (sumFft n : Fft ℝ)) [.dct1 5] .dst1 q 100 100 s ∧
    Planned (fun n => (sumFft n : Fft ℝ)) [] .dst1 r 100 s ∧ (∀ m, (r m).Agrees release64.toMachine (p m)) ∧ ∀ m, (r m).Agrees debug64.toMachine (q m) := by
  obtain ⟨p, s, hp⟩ := planned_exists (T := ℝ) (planFft := fun n => sumFft n) sumFft_sane.shape [] .dst1 (n := 100) (by simp)
  have hu : ∀ M : Target, M.maxVec = 2 ^ 61 - 1 → ∀ m, Kind.dst1.fftLen 100 = some m → M.Usable (sumFft m : Fft ℝ) := by
    intro M hM m hm
    simp only [Kind.fftLen] at hm
    norm_num at hm
    subst hm
    constructor <;> simp only [sumFft] <;> rw [hM] <;> norm_num
  obtain ⟨q, h1, h2⟩ := C66_returns sumFft_sane.shape hp release64_realistic (by norm_num [release64]) (hu _ rfl) [.dct2 64]
  obtain ⟨r, h3, h4⟩ := C66_returns sumFft_sane.shape hp debug64_realistic (by norm_num [debug64]) (hu _ rfl) [.dct1 5]
  exact ⟨q, r, p, s, h1, h3, hp, h2, h4⟩

end RustDct
