import Verif.Float.Kernels
import Verif.Proofs.PlannerMade
/-!
# Accuracy of the planned type 2 and 3 transforms whose length is a power of two
-/

set_option linter.all false

namespace RustDct
open Finset Real

variable {T F : Type} [F64 F] [DctNum T F]

/-- The method `p` of an instance of length `n` and scratch length `s` performs the transform `k` with relative error at most `ε`,
whatever scratch contained. -/
def PAcc (R : Rounding T F) (k : Kind) (p : Proc T) (n s : ℕ) (ε : ℝ) : Prop := ∃ C, RunsV p n s C ∧ TransAcc R k n C ε

theorem PAcc.mono {R : Rounding T F} {k : Kind} {p : Proc T} {n s : ℕ} {ε ε' : ℝ} (h : PAcc R k p n s ε) (he : ε ≤ ε') : PAcc R k p n s ε' := by
  obtain ⟨C, h1, h2⟩ := h
  exact ⟨C, h1, h2.mono he⟩

/-- As `PAcc`, of an implementation that may also write to the scratch it did not ask for. -/
def PAccW (R : Rounding T F) (k : Kind) (p : Proc T) (n s : ℕ) (ε : ℝ) : Prop := ∃ C, RunsW p n s C ∧ TransAcc R k n C ε

theorem PAcc.weak {R : Rounding T F} {k : Kind} {p : Proc T} {n s : ℕ} {ε : ℝ} (h : PAcc R k p n s ε) : PAccW R k p n s ε := by
  obtain ⟨C, h1, h2⟩ := h
  exact ⟨C, h1.weak, h2⟩

theorem PAcc.of_body {R : Rounding T F} {k : Kind} {n : ℕ} {body : List T → Except Err (List T)} {ε : ℝ} (h : KAcc R k n body ε) :
    PAcc R k (fun m => validateBuffer m n body) n 0 ε := by
  obtain ⟨C, h1, h2⟩ := h
  exact ⟨C, runsV_of_buffer h1, h2⟩

/-- All four methods of an instance are accurate. -/
structure Acc23 (R : Rounding T F) (n : ℕ) (o : Obj23 T) (ε : ℝ) : Prop where
  dct2 : PAcc R .dct2 o.dct2 n o.scratchLen ε
  dct3 : PAcc R .dct3 o.dct3 n o.scratchLen ε
  dst2 : PAcc R .dst2 o.dst2 n o.scratchLen ε
  dst3 : PAcc R .dst3 o.dst3 n o.scratchLen ε

theorem Acc23.mono {R : Rounding T F} {n : ℕ} {o : Obj23 T} {ε ε' : ℝ} (h : Acc23 R n o ε) (he : ε ≤ ε') : Acc23 R n o ε' :=
  ⟨h.dct2.mono he, h.dct3.mono he, h.dst2.mono he, h.dst3.mono he⟩

variable (R : Rounding T F)

theorem Type2And3Butterfly2.acc : Acc23 R 2 (Type2And3Butterfly2.new : Type2And3Butterfly2 T).toObj (R.step - 1) where
  dct2 := by
    show PAcc R .dct2 (Type2And3Butterfly2.new : Type2And3Butterfly2 T).dct2 2 0 _
    rw [Type2And3Butterfly2.dct2_body]; exact .of_body (Type2And3Butterfly2.acc_dct2 R _)
  dct3 := by
    show PAcc R .dct3 (Type2And3Butterfly2.new : Type2And3Butterfly2 T).dct3 2 0 _
    rw [Type2And3Butterfly2.dct3_body]; exact .of_body (Type2And3Butterfly2.acc_dct3 R _)
  dst2 := by
    show PAcc R .dst2 (Type2And3Butterfly2.new : Type2And3Butterfly2 T).dst2 2 0 _
    rw [Type2And3Butterfly2.dst2_body]; exact .of_body (Type2And3Butterfly2.acc_dst2 R _)
  dst3 := by
    show PAcc R .dst3 (Type2And3Butterfly2.new : Type2And3Butterfly2 T).dst3 2 0 _
    rw [Type2And3Butterfly2.dst3_body]; exact .of_body (Type2And3Butterfly2.acc_dst3 R _)

theorem Type2And3Butterfly4.acc : Acc23 R 4 (Type2And3Butterfly4.new : Type2And3Butterfly4 T).toObj (R.step ^ 2 - 1) :=
  ⟨.of_body (Type2And3Butterfly4.acc_dct2 R), .of_body (Type2And3Butterfly4.acc_dct3 R), .of_body (Type2And3Butterfly4.acc_dst2 R), .of_body (Type2And3Butterfly4.acc_dst3 R)⟩

theorem Type2And3Butterfly8.acc : Acc23 R 8 (Type2And3Butterfly8.new : Type2And3Butterfly8 T).toObj (R.step ^ 3 - 1) :=
  ⟨.of_body (Type2And3Butterfly8.acc_dct2 R), .of_body (Type2And3Butterfly8.acc_dct3 R), .of_body (Type2And3Butterfly8.acc_dst2 R), .of_body (Type2And3Butterfly8.acc_dst3 R)⟩

theorem Type2And3Butterfly16.acc : Acc23 R 16 (Type2And3Butterfly16.new : Type2And3Butterfly16 T).toObj (R.step ^ 4 - 1) :=
  ⟨.of_body (Type2And3Butterfly16.acc_dct2 R), .of_body (Type2And3Butterfly16.acc_dct3 R), .of_body (Type2And3Butterfly16.acc_dst2 R), .of_body (Type2And3Butterfly16.acc_dst3 R)⟩

variable {R}

/-- One split radix stage on top of two accurate inner instances. -/
theorem Type2And3SplitRadix.acc {q : ℕ} (hq : 1 ≤ q) {half quarter : Obj23 T} {ε : ℝ} (hε : 0 ≤ ε)
    (hh2 : PAccW R .dct2 half.dct2 (2 * q) half.scratchLen ε) (hh3 : PAccW R .dct3 half.dct3 (2 * q) half.scratchLen ε)
    (hq2 : PAccW R .dct2 quarter.dct2 q quarter.scratchLen ε) (hq3 : PAccW R .dct3 quarter.dct3 q quarter.scratchLen ε)
    (sh : half.scratchLen ≤ 4 * q) (sq : quarter.scratchLen ≤ 4 * q) :
    Acc23 R (4 * q) (Type2And3SplitRadix.inst q half quarter).toObj ((1 + ε) * R.step - 1) := by
  have hs : (Type2And3SplitRadix.inst q half quarter).toObj.scratchLen = 4 * q := Type2And3SplitRadix.inst_len q half quarter
  obtain ⟨A2, ra2, ta2⟩ := hh2
  obtain ⟨A3, ra3, ta3⟩ := hh3
  obtain ⟨B2, rb2, tb2⟩ := hq2
  obtain ⟨B3, rb3, tb3⟩ := hq3
  have e2 : PAcc R .dct2 (Type2And3SplitRadix.inst q half quarter).dct2 (4 * q) (4 * q) ((1 + ε) * R.step - 1) :=
    ⟨_, Type2And3SplitRadix.dct2_inst hq sh sq ra2 rb2, sr2_acc R hq hε ta2 tb2⟩
  have e3 : PAcc R .dct3 (Type2And3SplitRadix.inst q half quarter).dct3 (4 * q) (4 * q) ((1 + ε) * R.step - 1) :=
    ⟨_, Type2And3SplitRadix.dct3_inst hq sh sq ra3 rb3, sr3_acc R hq hε ta3 tb3⟩
  obtain ⟨C2, r2, t2⟩ := id e2
  obtain ⟨C3, r3, t3⟩ := id e3
  constructor
  · rw [hs]; exact e2
  · rw [hs]; exact e3
  · rw [hs]; exact ⟨_, Type2And3SplitRadix.dst2_inst r2, dst2_of_dct2 R t2⟩
  · rw [hs]; exact ⟨_, Type2And3SplitRadix.dst3_inst r3, dst3_of_dct3 R t3⟩

theorem Acc23.splitRadix {q : ℕ} (hq : 1 ≤ q) {half quarter : Obj23 T} {ε : ℝ} (hε : 0 ≤ ε) (hh : Acc23 R (2 * q) half ε) (hqq : Acc23 R q quarter ε)
    (sh : half.scratchLen ≤ 4 * q) (sq : quarter.scratchLen ≤ 4 * q) :
    Acc23 R (4 * q) (Type2And3SplitRadix.inst q half quarter).toObj ((1 + ε) * R.step - 1) :=
  Type2And3SplitRadix.acc hq hε hh.dct2.weak hh.dct3.weak hqq.dct2.weak hqq.dct3.weak sh sq

/-- The instance planned for a power of two. -/
theorem canon23_pow2_acc (R : Rounding T F) {planFft : ℕ → Fft T} (hf : PlanFftShape planFft) (j : ℕ) :
    ∃ o, canon23 planFft (2 ^ (j + 1)) = .ok o ∧ Acc23 R (2 ^ (j + 1)) o (R.step ^ (j + 1) - 1) := by
  have h := canon23_induct' (planFft := planFft) hf (P := fun n o => ∀ j, n = 2 ^ (j + 1) → Acc23 R n o (R.step ^ (j + 1) - 1))
    (fun j h => by
      obtain rfl : j = 0 := by
        have := Nat.pow_right_injective (le_refl 2) (show 2 ^ 1 = 2 ^ (j + 1) from h); omega
      simpa using Type2And3Butterfly2.acc R)
    (fun j h => by rw [pow_succ] at h; omega)
    (fun j h => by
      obtain rfl : j = 1 := by
        have := Nat.pow_right_injective (le_refl 2) (show 2 ^ 2 = 2 ^ (j + 1) from h); omega
      exact Type2And3Butterfly4.acc R)
    (fun j h => by
      obtain rfl : j = 2 := by
        have := Nat.pow_right_injective (le_refl 2) (show 2 ^ 3 = 2 ^ (j + 1) from h); omega
      exact Type2And3Butterfly8.acc R)
    (fun j h => by
      obtain rfl : j = 3 := by
        have := Nat.pow_right_injective (le_refl 2) (show 2 ^ 4 = 2 ^ (j + 1) from h); omega
      exact Type2And3Butterfly16.acc R)
    (fun q half quarter hq hp lh lq sh sq Ph Pq j h => by
      obtain ⟨i, rfl⟩ : ∃ i, j = i + 2 := by
        rcases j with _ | _ | i
        · simp at h; omega
        · simp at h; omega
        · exact ⟨i, rfl⟩
      have hq' : q = 2 ^ (i + 1) := by
        have : 2 ^ (i + 2 + 1) = 4 * 2 ^ (i + 1) := by ring
        omega
      have h1 := Ph (i + 1) (by rw [hq']; ring)
      have h2 := (Pq i hq').mono R.step_sub
      have := Acc23.splitRadix (by omega) R.step_nonneg h1 h2 (by omega) (by omega)
      exact this.mono (le_of_eq (by ring)))
    (fun n hb hp j h => by
      exfalso
      have h1 := hp ((isPowerOfTwo_iff n).2 ⟨_, h⟩)
      have h2 : 1 ≤ 2 ^ j := Nat.one_le_two_pow
      have h3 : n = 2 := by rw [pow_succ] at h; omega
      subst h3
      exact absurd hb (by decide))
    (2 ^ (j + 1))
  obtain ⟨o, h1, h2, -⟩ := h
  exact ⟨o, h1, h2 j rfl⟩

end RustDct
