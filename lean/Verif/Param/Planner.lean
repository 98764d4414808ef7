import Verif.Param.Mdct
import Verif.Param.Butterflies
import Verif.Param.Naive
import Verif.Param.SplitRadix
import Verif.Param.ConvertFft
import Verif.Proofs.Methods
import Verif.Props.Planner
import Verif.Formula
/-!
# Planned instances over two number types are related
-/

set_option linter.all false

namespace RustDct
namespace Param

variable {T T' F F' : Type} [F64 F] [DctNum T F] [F64 F'] [DctNum T' F'] (P : Param T T' (F := F) (F' := F'))
  {planFft : Nat → Fft T} {planFft' : Nat → Fft T'}

omit [F64 F] [DctNum T F] [F64 F'] [DctNum T' F'] in
theorem mapRel {α β α' β' : Type} {r : α → β → Prop} {s : α' → β' → Prop} {g : α → α'} {g' : β → β'} {x : Except Err α} {y : Except Err β}
    (h : ERel r x y) (hg : ∀ a b, r a b → s (g a) (g' b)) : ERel s (x.map g) (y.map g') := by
  cases h with
  | ok h => exact .ok (hg _ _ h)
  | error => exact .error

theorem canonDct1_rel {n : ℕ} (hf : ∀ m, Kind.dct1.fftLen n = some m → FftRel P.d (planFft m) (planFft' m)) : ERel (Obj1Rel P.d) (canonDct1 planFft n) (canonDct1 planFft' n) := by
  unfold canonDct1
  split
  · exact mapRel (P.dct1_new n) fun _ _ h => P.dct1_obj h
  · rename_i h
    exact mapRel (P.d1fft_new (hf _ (by simp only [Kind.fftLen]; rw [if_neg h, Nat.mul_comm]))) fun _ _ h => P.d1fft_obj h

theorem canonDst1_rel {n : ℕ} (hf : ∀ m, Kind.dst1.fftLen n = some m → FftRel P.d (planFft m) (planFft' m)) : ERel (Obj1Rel P.d) (canonDst1 planFft n) (canonDst1 planFft' n) := by
  unfold canonDst1
  split
  · exact mapRel (P.dst1_new n) fun _ _ h => P.dst1_obj h
  · rename_i h
    exact mapRel (P.s1fft_new (hf _ (by simp only [Kind.fftLen]; rw [if_neg h, Nat.mul_comm]))) fun _ _ h => P.s1fft_obj h

theorem canonDst6_rel {n : ℕ} (hf : ∀ m, Kind.dst6.fftLen n = some m → FftRel P.d (planFft m) (planFft' m)) : ERel (Obj67Rel P.d) (canonDst6 planFft n) (canonDst6 planFft' n) := by
  unfold canonDst6
  split
  · exact mapRel (P.dst67_new n) fun _ _ h => P.dst67_obj h
  · rename_i h
    exact mapRel (P.fft67_new (hf _ (by simp only [Kind.fftLen]; rw [if_neg h, Nat.mul_comm]))) fun _ _ h => P.fft67_obj h

theorem canonBfly_rel {n : ℕ} : ERel (Obj23Rel P.d) (canonBfly n) (canonBfly n) := by
  unfold canonBfly
  repeat' split
  · exact .ok P.b2_obj
  · exact .ok (P.b3_obj P.b3_new)
  · exact .ok (P.b4_obj P.b4_new)
  · exact .ok (P.b8_obj P.b8_new)
  · exact .ok (P.b16_obj P.b16_new)
  · exact .error

theorem fftLen23_of {n : ℕ} (h1 : ¬ dct2Butterflies.contains n = true) (h2 : ¬ (isPowerOfTwo n = true ∧ n > 2)) : fftLen23 n = some n := by
  unfold fftLen23
  refine if_neg ?_
  rintro (h | ⟨h3, h4⟩)
  · exact h1 (by rcases h with rfl | rfl | rfl | rfl | rfl <;> rfl)
  · exact h2 ⟨(isPowerOfTwo_iff n).2 ⟨_, h4⟩, h3⟩

theorem fftLen23_pow2 {n : ℕ} (h1 : isPowerOfTwo n = true) (h2 : 2 < n) : fftLen23 n = none := by
  obtain ⟨k, rfl⟩ := (isPowerOfTwo_iff n).1 h1
  exact if_pos (.inr ⟨h2, by rw [Nat.log_pow (by norm_num)]⟩)

theorem canon23_rel {n : ℕ} : (∀ m, fftLen23 n = some m → FftRel P.d (planFft m) (planFft' m)) →
    ERel (Obj23Rel P.d) (canon23 planFft n) (canon23 planFft' n) := by
  refine Nat.strongRecOn (motive := fun n => (∀ m, fftLen23 n = some m → FftRel P.d (planFft m) (planFft' m)) → ERel (Obj23Rel P.d) (canon23 planFft n) (canon23 planFft' n)) n ?_
  intro n ih hf
  rw [canon23.eq_def planFft n, canon23.eq_def planFft' n]
  by_cases h1 : dct2Butterflies.contains n = true
  · rw [if_pos h1, if_pos h1]; exact P.canonBfly_rel
  · rw [if_neg h1, if_neg h1]
    by_cases h2 : isPowerOfTwo n = true ∧ n > 2
    · rw [dif_pos h2, dif_pos h2]
      obtain ⟨q, rfl, h8, hq1, hq2⟩ := pow2_shape (by simpa using h1) h2.1 h2.2
      have e1 : 4 * q / 2 = 2 * q := by omega
      have e2 : 4 * q / 4 = q := by omega
      rw [e1, e2]
      refine ERel.bind (ih (2 * q) (by omega) fun m h => ?_) fun a a' ha => ?_
      · rw [fftLen23_pow2 hq2 (by omega)] at h; cases h
      refine ERel.bind (ih q (by omega) fun m h => ?_) fun b b' hb => ?_
      · rw [fftLen23_pow2 hq1 (by omega)] at h; cases h
      exact mapRel (P.split_new ha hb) fun _ _ h => P.split_obj h
    · rw [dif_neg h2, dif_neg h2]
      exact mapRel (P.fft23_new (hf _ (fftLen23_of h1 h2))) fun _ _ h => P.fft23_obj h

theorem canon4_rel {n : ℕ} (hf : ∀ m, Kind.dct4.fftLen n = some m → FftRel P.d (planFft m) (planFft' m)) : ERel (Obj4Rel P.d) (canon4 planFft n) (canon4 planFft' n) := by
  simp only [Kind.fftLen] at hf
  unfold canon4
  by_cases h : n % 2 = 0
  · rw [if_pos h, if_pos h]
    rw [if_pos h] at hf
    by_cases h6 : n < 6
    · rw [if_pos h6, if_pos h6]
      exact mapRel (P.t4_new n) fun _ _ h => P.t4_obj h
    · rw [if_neg h6, if_neg h6]
      rw [if_neg h6] at hf
      exact ERel.bind (P.canon23_rel hf) fun a a' ha => mapRel (P.even4_new ha) fun _ _ h => P.even4_obj h
  · rw [if_neg h, if_neg h]
    rw [if_neg h] at hf
    by_cases h7 : n < 7
    · rw [if_pos h7, if_pos h7]
      exact mapRel (P.t4_new n) fun _ _ h => P.t4_obj h
    · rw [if_neg h7, if_neg h7]
      rw [if_neg h7] at hf
      exact mapRel (P.odd4_new (hf _ rfl)) fun _ _ h => P.odd4_obj h

theorem canonDct5_rel {n : ℕ} : ERel (Obj1Rel P.d) (canonDct5 n) (canonDct5 n) := mapRel (P.dct5_new n) fun _ _ h => P.dct5_obj h
theorem canonDct6_rel {n : ℕ} : ERel (Obj67Rel P.d) (canonDct6 n) (canonDct6 n) := mapRel (P.dct67_new n) fun _ _ h => P.dct67_obj h
theorem canonDct8_rel {n : ℕ} : ERel (Obj1Rel P.d) (canonDct8 n) (canonDct8 n) := mapRel (P.dct8_new n) fun _ _ h => P.dct8_obj h
theorem canonDst5_rel {n : ℕ} : ERel (Obj1Rel P.d) (canonDst5 n) (canonDst5 n) := mapRel (P.dst5_new n) fun _ _ h => P.dst5_obj h
theorem canonDst8_rel {n : ℕ} : ERel (Obj1Rel P.d) (canonDst8 n) (canonDst8 n) := mapRel (P.dst8_new n) fun _ _ h => P.dst8_obj h

theorem canonMdct_rel {n : ℕ} {w : ℕ → List T} {w' : ℕ → List T'} (hf : ∀ m, Kind.dct4.fftLen n = some m → FftRel P.d (planFft m) (planFft' m))
    (hl : ∀ a, canon4 planFft n = .ok a → a.len = n) (hw : LRel P.c (w (n * 2)) (w' (n * 2))) :
    ERel (MdctObjRel P.d) (canonMdct planFft n w) (canonMdct planFft' n w') := by
  unfold canonMdct
  have h := P.canon4_rel hf
  cases ha : canon4 planFft n with
  | error e =>
    rw [ha] at h
    cases ha' : canon4 planFft' n with
    | error e' => rw [ha'] at h; cases h; exact .error
    | ok a' => rw [ha'] at h; cases h
  | ok a =>
    rw [ha] at h
    cases ha' : canon4 planFft' n with
    | error e' => rw [ha'] at h; cases h
    | ok a' =>
      rw [ha'] at h
      cases h with
      | ok h => exact mapRel (P.mvia_new h (by rw [hl a ha]; exact hw)) fun _ _ h => P.mvia_obj h

omit [F64 F] [DctNum T F] [F64 F'] [DctNum T' F'] in
theorem of_ok {α β : Type} {r : α → β → Prop} {x : Except Err α} {y : Except Err β} {a : α} {b : β} (h : ERel r x y) (hx : x = .ok a) (hy : y = .ok b) : r a b := by
  subst hx; subst hy
  cases h with
  | ok h => exact h

/-- Two planned instances, whatever was planned before. -/
theorem planned {calls : List (PlanCall T)} {calls' : List (PlanCall T')} {k : Kind} {p : Proc T} {p' : Proc T'} {n s s' : ℕ}
    (hf : ∀ m, k.fftLen n = some m → FftRel P.d (planFft m) (planFft' m)) (h : Planned planFft calls k p n s) (h' : Planned planFft' calls' k p' n s') : s = s' ∧ ProcRel P.d p p' := by
  cases h with
  | @dct1 n a s h =>
    cases h' with
    | @dct1 _ a' s' h' =>
      have := of_ok (P.canonDct1_rel hf) (Yields.canon (fun W => planDct1_yields n) h) (Yields.canon (fun W => planDct1_yields n) h')
      exact ⟨this.scratchLen, this.run⟩
  | @dct2 n a s h =>
    cases h' with
    | @dct2 _ a' s' h' =>
      have := of_ok (P.canon23_rel hf) (Yields.canon (fun W => planDct2_yields n) h) (Yields.canon (fun W => planDct2_yields n) h')
      exact ⟨this.scratchLen, this.dct2⟩
  | @dct3 n a s h _ =>
    cases h' with
    | @dct3 _ a' s' h' _ =>
      have := of_ok (P.canon23_rel hf) (Yields.canon (fun W => planDct2_yields n) h) (Yields.canon (fun W => planDct2_yields n) h')
      exact ⟨this.scratchLen, this.dct3⟩
  | @dct4 n a s h _ =>
    cases h' with
    | @dct4 _ a' s' h' _ =>
      have := of_ok (P.canon4_rel hf) (Yields.canon (fun W => planDct4_yields n) h) (Yields.canon (fun W => planDct4_yields n) h')
      exact ⟨this.scratchLen, this.dct4⟩
  | @dct5 n a s h =>
    cases h' with
    | @dct5 _ a' s' h' =>
      have := of_ok (P.canonDct5_rel) (Yields.canon (fun W => planDct5_yields n) h) (Yields.canon (fun W => planDct5_yields n) h')
      exact ⟨this.scratchLen, this.run⟩
  | @dct6 n a s h =>
    cases h' with
    | @dct6 _ a' s' h' =>
      have := of_ok (P.canonDct6_rel) (Yields.canon (fun W => planDct6_yields n) h) (Yields.canon (fun W => planDct6_yields n) h')
      exact ⟨this.scratchLen, this.t6⟩
  | @dct7 n a s h =>
    cases h' with
    | @dct7 _ a' s' h' =>
      have := of_ok (P.canonDct6_rel) (Yields.canon (fun W => planDct6_yields n) h) (Yields.canon (fun W => planDct6_yields n) h')
      exact ⟨this.scratchLen, this.t7⟩
  | @dct8 n a s h =>
    cases h' with
    | @dct8 _ a' s' h' =>
      have := of_ok (P.canonDct8_rel) (Yields.canon (fun W => planDct8_yields n) h) (Yields.canon (fun W => planDct8_yields n) h')
      exact ⟨this.scratchLen, this.run⟩
  | @dst1 n a s h =>
    cases h' with
    | @dst1 _ a' s' h' =>
      have := of_ok (P.canonDst1_rel hf) (Yields.canon (fun W => planDst1_yields n) h) (Yields.canon (fun W => planDst1_yields n) h')
      exact ⟨this.scratchLen, this.run⟩
  | @dst2 n a s h =>
    cases h' with
    | @dst2 _ a' s' h' =>
      have := of_ok (P.canon23_rel hf) (Yields.canon (fun W => planDct2_yields n) h) (Yields.canon (fun W => planDct2_yields n) h')
      exact ⟨this.scratchLen, this.dst2⟩
  | @dst3 n a s h _ =>
    cases h' with
    | @dst3 _ a' s' h' _ =>
      have := of_ok (P.canon23_rel hf) (Yields.canon (fun W => planDct2_yields n) h) (Yields.canon (fun W => planDct2_yields n) h')
      exact ⟨this.scratchLen, this.dst3⟩
  | @dst4 n a s h _ =>
    cases h' with
    | @dst4 _ a' s' h' _ =>
      have := of_ok (P.canon4_rel hf) (Yields.canon (fun W => planDct4_yields n) h) (Yields.canon (fun W => planDct4_yields n) h')
      exact ⟨this.scratchLen, this.dst4⟩
  | @dst5 n a s h =>
    cases h' with
    | @dst5 _ a' s' h' =>
      have := of_ok (P.canonDst5_rel) (Yields.canon (fun W => planDst5_yields n) h) (Yields.canon (fun W => planDst5_yields n) h')
      exact ⟨this.scratchLen, this.run⟩
  | @dst6 n a s h =>
    cases h' with
    | @dst6 _ a' s' h' =>
      have := of_ok (P.canonDst6_rel hf) (Yields.canon (fun W => planDst6_yields n) h) (Yields.canon (fun W => planDst6_yields n) h')
      exact ⟨this.scratchLen, this.t6⟩
  | @dst7 n a s h =>
    cases h' with
    | @dst7 _ a' s' h' =>
      have := of_ok (P.canonDst6_rel hf) (Yields.canon (fun W => planDst6_yields n) h) (Yields.canon (fun W => planDst6_yields n) h')
      exact ⟨this.scratchLen, this.t7⟩
  | @dst8 n a s h =>
    cases h' with
    | @dst8 _ a' s' h' =>
      have := of_ok (P.canonDst8_rel) (Yields.canon (fun W => planDst8_yields n) h) (Yields.canon (fun W => planDst8_yields n) h')
      exact ⟨this.scratchLen, this.run⟩

omit [F64 F] [DctNum T F] [F64 F'] [DctNum T' F'] in
theorem ok_of {α β : Type} {r : α → β → Prop} {x : Except Err α} {y : Except Err β} {a : α} (h : ERel r x y) (hx : x = .ok a) : ∃ b, y = .ok b := by
  subst hx
  cases h with
  | ok h => exact ⟨_, rfl⟩

/-- What can be planned over one number type can be planned over the other. -/
theorem planned_other {calls : List (PlanCall T)} {k : Kind} {p : Proc T} {n s : ℕ} (hf : ∀ m, k.fftLen n = some m → FftRel P.d (planFft m) (planFft' m))
    (h : Planned planFft calls k p n s) (calls' : List (PlanCall T')) : ∃ p' s', Planned planFft' calls' k p' n s' := by
  cases h with
  | @dct1 n a s h =>
    obtain ⟨a', s', e⟩ := (returns_iff (fun W => planDct1_yields n) calls').2 (ok_of (P.canonDct1_rel hf) (Yields.canon (fun W => planDct1_yields n) h))
    exact ⟨_, _, .dct1 e⟩
  | @dct2 n a s h =>
    obtain ⟨a', s', e⟩ := (returns_iff (fun W => planDct2_yields n) calls').2 (ok_of (P.canon23_rel hf) (Yields.canon (fun W => planDct2_yields n) h))
    exact ⟨_, _, .dct2 e⟩
  | @dct3 n a s h h1 =>
    obtain ⟨a', s', e⟩ := (returns_iff (fun W => planDct2_yields n) calls').2 (ok_of (P.canon23_rel hf) (Yields.canon (fun W => planDct2_yields n) h))
    exact ⟨_, _, .dct3 e h1⟩
  | @dct4 n a s h h1 =>
    obtain ⟨a', s', e⟩ := (returns_iff (fun W => planDct4_yields n) calls').2 (ok_of (P.canon4_rel hf) (Yields.canon (fun W => planDct4_yields n) h))
    exact ⟨_, _, .dct4 e h1⟩
  | @dct5 n a s h =>
    obtain ⟨a', s', e⟩ := (returns_iff (fun W => planDct5_yields n) calls').2 (ok_of (P.canonDct5_rel) (Yields.canon (fun W => planDct5_yields n) h))
    exact ⟨_, _, .dct5 e⟩
  | @dct6 n a s h =>
    obtain ⟨a', s', e⟩ := (returns_iff (fun W => planDct6_yields n) calls').2 (ok_of (P.canonDct6_rel) (Yields.canon (fun W => planDct6_yields n) h))
    exact ⟨_, _, .dct6 e⟩
  | @dct7 n a s h =>
    obtain ⟨a', s', e⟩ := (returns_iff (fun W => planDct6_yields n) calls').2 (ok_of (P.canonDct6_rel) (Yields.canon (fun W => planDct6_yields n) h))
    exact ⟨_, _, .dct7 e⟩
  | @dct8 n a s h =>
    obtain ⟨a', s', e⟩ := (returns_iff (fun W => planDct8_yields n) calls').2 (ok_of (P.canonDct8_rel) (Yields.canon (fun W => planDct8_yields n) h))
    exact ⟨_, _, .dct8 e⟩
  | @dst1 n a s h =>
    obtain ⟨a', s', e⟩ := (returns_iff (fun W => planDst1_yields n) calls').2 (ok_of (P.canonDst1_rel hf) (Yields.canon (fun W => planDst1_yields n) h))
    exact ⟨_, _, .dst1 e⟩
  | @dst2 n a s h =>
    obtain ⟨a', s', e⟩ := (returns_iff (fun W => planDct2_yields n) calls').2 (ok_of (P.canon23_rel hf) (Yields.canon (fun W => planDct2_yields n) h))
    exact ⟨_, _, .dst2 e⟩
  | @dst3 n a s h h1 =>
    obtain ⟨a', s', e⟩ := (returns_iff (fun W => planDct2_yields n) calls').2 (ok_of (P.canon23_rel hf) (Yields.canon (fun W => planDct2_yields n) h))
    exact ⟨_, _, .dst3 e h1⟩
  | @dst4 n a s h h1 =>
    obtain ⟨a', s', e⟩ := (returns_iff (fun W => planDct4_yields n) calls').2 (ok_of (P.canon4_rel hf) (Yields.canon (fun W => planDct4_yields n) h))
    exact ⟨_, _, .dst4 e h1⟩
  | @dst5 n a s h =>
    obtain ⟨a', s', e⟩ := (returns_iff (fun W => planDst5_yields n) calls').2 (ok_of (P.canonDst5_rel) (Yields.canon (fun W => planDst5_yields n) h))
    exact ⟨_, _, .dst5 e⟩
  | @dst6 n a s h =>
    obtain ⟨a', s', e⟩ := (returns_iff (fun W => planDst6_yields n) calls').2 (ok_of (P.canonDst6_rel hf) (Yields.canon (fun W => planDst6_yields n) h))
    exact ⟨_, _, .dst6 e⟩
  | @dst7 n a s h =>
    obtain ⟨a', s', e⟩ := (returns_iff (fun W => planDst6_yields n) calls').2 (ok_of (P.canonDst6_rel hf) (Yields.canon (fun W => planDst6_yields n) h))
    exact ⟨_, _, .dst7 e⟩
  | @dst8 n a s h =>
    obtain ⟨a', s', e⟩ := (returns_iff (fun W => planDst8_yields n) calls').2 (ok_of (P.canonDst8_rel) (Yields.canon (fun W => planDst8_yields n) h))
    exact ⟨_, _, .dst8 e⟩

end Param
end RustDct
