import Verif.Model.CountedMethods
import Verif.Cost.Logic
import Verif.Statements
/-!
# The naive algorithms do take quadratic time
-/

set_option linter.all false

namespace RustDct.Counted

/-- If the run ends normally then its value has `P` and it took at least `k` steps. -/
def Costs {α : Type} (k : Nat) (P : α → Prop) (x : Run α) : Prop := ∀ a, x.1 = .ok a → P a ∧ k ≤ x.2

section
variable {α β γ δ σ : Type} {P : α → Prop} {Q : β → Prop} {k l : Nat}

theorem Costs.pure {a : α} (h : P a) : Costs 0 P (Pure.pure a) := by
  intro b hb
  injection hb with hb
  exact ⟨hb ▸ h, Nat.zero_le _⟩

theorem Costs.bind {x : Run α} {f : α → Run β} (hx : Costs k P x) (hf : ∀ a, P a → Costs l Q (f a)) : Costs (k + l) Q (x >>= f) := by
  obtain ⟨c, j⟩ := x
  intro b hb
  cases c with
  | error e => cases hb
  | ok a =>
    obtain ⟨h1, h2⟩ := hx a rfl
    obtain ⟨h3, h4⟩ := hf a h1 b hb
    exact ⟨h3, Nat.add_le_add h2 h4⟩

/-- A first part that is not looked at. -/
theorem Costs.bind0 {x : Run α} {f : α → Run β} (hx : Costs 0 P x) (hf : ∀ a, P a → Costs l Q (f a)) : Costs l Q (x >>= f) := by
  simpa using hx.bind hf

/-- A last part that is not looked at. -/
theorem Costs.bindL {x : Run α} {f : α → Run β} (hx : Costs k P x) (hf : ∀ a, P a → Costs 0 Q (f a)) : Costs k Q (x >>= f) := hx.bind hf

theorem Costs.mono {x : Run α} (hx : Costs k P x) (h : l ≤ k) : Costs l P x := fun a e => ⟨(hx a e).1, h.trans (hx a e).2⟩

theorem Costs.any (x : Run α) : Costs 0 (fun _ => True) x := fun _ _ => ⟨trivial, Nat.zero_le _⟩

theorem Costs.rd [Cell α β] (m : List α) (i : Nat) : Costs 1 (fun _ : β => True) (Counted.rd m i) := fun _ _ => ⟨trivial, le_rfl⟩

theorem Costs.wr [Cell α β] (m : List α) (i : Nat) (v : β) : Costs 0 (fun m' => m'.length = m.length) (Counted.wr m i v) := by
  intro m' h
  refine ⟨?_, Nat.zero_le _⟩
  change RustDct.wr m i (Cell.store v) = _ at h
  unfold RustDct.wr at h
  split at h
  · injection h with h
    rw [← h, List.length_set]
  · cases h

theorem Costs.copy (m m' : List α) : Costs (2 * m'.length) (fun l => l.length = m'.length) (Counted.copyFromSlice m m') := by
  intro l h
  refine ⟨?_, le_rfl⟩
  change RustDct.copyFromSlice m m' = _ at h
  unfold RustDct.copyFromSlice at h
  split at h
  · injection h with h
    rw [← h]
  · cases h

theorem Costs.fold (f : σ → Nat → Run σ) {P : σ → Prop} (h : ∀ s i, P s → Costs k P (f s i)) : ∀ (l : List Nat) (s : σ), P s → Costs (l.length * k) P (l.foldlM f s)
  | [], s, hs => by rw [List.length_nil, Nat.zero_mul]; exact Costs.pure hs
  | i :: l, s, hs => by
    rw [List.length_cons, Nat.succ_mul, Nat.add_comm]
    exact (h s i hs).bind fun a ha => Costs.fold f h l a ha

theorem Costs.forRange {lo hi : Nat} {s : σ} {f : Nat → σ → Run σ} {P : σ → Prop} (h : ∀ i s, P s → Costs k P (f i s)) (hs : P s) :
    Costs ((hi - lo) * k) P (Counted.forRange lo hi s f) := by
  have := Costs.fold (k := k) (fun s i => f i s) (fun s i hs => h i s hs) (List.range' lo (hi - lo)) s hs
  rwa [List.length_range'] at this

theorem Costs.forRangeN {lo hi n : Nat} {s : σ} {f : Nat → σ → Run σ} {P : σ → Prop} (h : ∀ i s, P s → Costs k P (f i s)) (hs : P s) (hn : hi - lo = n) :
    Costs (n * k) P (Counted.forRange lo hi s f) := hn ▸ Costs.forRange h hs

theorem Costs.stride {T W V : Type} [Cell W V] (twiddles : List W) (scratch : List T) (st : Nat) (f : Cn T → Cn T → V → Cn T) (lo : Nat) (c : Cn T) (i : Nat) :
    Costs ((scratch.length - lo) * 2) (fun _ => True) (strideLoop twiddles scratch st f lo c i) := by
  unfold strideLoop
  refine Costs.forRange (fun i s _ => ?_) trivial
  refine (Costs.rd _ _).bind (l := 1) fun _ _ => ?_
  refine (Costs.rd _ _).bindL fun _ _ => ?_
  exact Costs.any _

theorem Costs.mdct {T : Type} {F : Type} [F64 F] [DctNum T F] (twiddles : List T) (cnt st : Nat) (term : Nat → Cn T → Run (Cn T)) (c : Cn T) (i : Nat) :
    Costs (cnt * 1) (fun _ => True) (mdctLoop twiddles cnt st term c i) := by
  unfold mdctLoop
  refine Costs.forRange (lo := 0) (fun i s _ => ?_) trivial
  refine (Costs.rd _ _).bindL fun _ _ => ?_
  exact Costs.any _

end

section
variable {T : Type} {F : Type} [F64 F] [DctNum T F]

theorem Costs.buffers {m : Mem T} {n s k : Nat} {f : List T → List T → Run (List T × List T)} (h : ∀ b t, b.length = n → Costs k (fun _ => True) (f b t))
    (h1 : m.buf.length = n) (h2 : s ≤ m.scr.length) {m' : Mem T} (e : (Counted.validateBuffers m n s f).1 = .ok m') : k ≤ (Counted.validateBuffers m n s f).2 := by
  unfold Counted.validateBuffers at *
  dsimp only at *
  unfold RustDct.validateBuffers at e
  rw [if_neg (by simpa using h1), if_pos h2] at e
  rw [if_pos ⟨h1, h2⟩]
  dsimp only at e
  split at e
  · rename_i h3
    exact (h _ _ h1 _ h3).2
  · cases e

theorem Costs.mdcts {a b : List T} {m : Mem T} {n s k : Nat} {f : List T → List T → Run (List T × List T)} (h : ∀ b t, b.length = n → Costs k (fun _ => True) (f b t))
    (ha : a.length = n) (hb : b.length = n) (h1 : m.buf.length = n) (h2 : s ≤ m.scr.length) {m' : Mem T}
    (e : (Counted.validateMdct a b m n s f).1 = .ok m') : k ≤ (Counted.validateMdct a b m n s f).2 := by
  unfold Counted.validateMdct at *
  dsimp only at *
  unfold RustDct.validateMdct at e
  rw [if_neg (by simp [ha, hb, h1]), if_pos h2] at e
  rw [if_pos ⟨ha, hb, h1, h2⟩]
  dsimp only at e
  split at e
  · rename_i h3
    exact (h _ _ h1 _ h3).2
  · cases e

theorem Costs.imdcts {a : List T} {m : IMem T} {n s k : Nat} {f : List T → List T → List T → Run (List T × List T × List T)} (h : ∀ b c t, Costs k (fun _ => True) (f b c t))
    (ha : a.length = n) (hb : m.outA.length = n) (h1 : m.outB.length = n) (h2 : s ≤ m.scr.length) {m' : IMem T}
    (e : (Counted.validateImdct a m n s f).1 = .ok m') : k ≤ (Counted.validateImdct a m n s f).2 := by
  unfold Counted.validateImdct at *
  dsimp only at *
  unfold RustDct.validateImdct at e
  rw [if_neg (by simp [ha, hb, h1]), if_pos h2] at e
  rw [if_pos ⟨ha, hb, h1, h2⟩]
  dsimp only at e
  split at e
  · rename_i h3
    exact (h _ _ _ _ h3).2
  · cases e

theorem quad (n : Nat) {lo hi : Nat} (h : lo ≤ 1 := by omega) (h' : hi ≤ 1 := by omega) : n * n ≤ 2 * n + (n - lo) * ((n - hi) * 2) := by
  have h1 : (n - 1) * ((n - 1) * 2) ≤ (n - lo) * ((n - hi) * 2) := Nat.mul_le_mul (by omega) (by omega)
  rcases n with _ | n
  · simp
  · simp only [Nat.add_sub_cancel] at h1
    nlinarith

/-- The methods of all naive instances of types 1 to 8. -/
macro "costs" lo:term:max hi:term:max : tactic => `(tactic| (
  intro m m' h1 h2 e
  refine Costs.buffers (fun b t hb => ?_) h1 h2 e
  refine Costs.mono (k := 2 * b.length + (b.length - $lo) * ((b.length - $hi) * 2)) ?_ ?_
  · refine (Costs.copy _ _).bind fun sc hsc => ?_
    repeat' first
      | (refine Costs.bindL (Costs.mono (Costs.stride _ _ _ _ _ _ _) (le_of_eq (by simp only [*]))) fun _ _ => Costs.any _)
      | (refine Costs.bind0 (Costs.wr _ _ _) fun _ h => ?_)
      | (refine Costs.bindL (P := fun _ => True) (Costs.forRangeN (P := fun _ => True) (fun i s _ => ?_) trivial (by simp only [*])) fun _ _ => Costs.any _)
      | (refine Costs.bind0 (Costs.any _) fun _ _ => ?_)
  · rw [hb]
    exact quad _))

theorem Dct1Naive.dct1_costs (x : RustDct.Dct1Naive T) : ∀ m m' : Mem T, m.buf.length = x.len → x.toObj.scratchLen ≤ m.scr.length → (Dct1Naive.dct1 x m).1 = .ok m' → x.len * x.len ≤ (Dct1Naive.dct1 x m).2 := by
  costs 0 1

theorem Dst1Naive.dst1_costs (x : RustDct.Dst1Naive T) : ∀ m m' : Mem T, m.buf.length = x.len → x.toObj.scratchLen ≤ m.scr.length → (Dst1Naive.dst1 x m).1 = .ok m' → x.len * x.len ≤ (Dst1Naive.dst1 x m).2 := by
  costs 0 0

theorem Type2And3Naive.dct2_costs (x : RustDct.Type2And3Naive T) : ∀ m m' : Mem T, m.buf.length = x.len → x.toObj.scratchLen ≤ m.scr.length → (Type2And3Naive.dct2 x m).1 = .ok m' → x.len * x.len ≤ (Type2And3Naive.dct2 x m).2 := by
  costs 0 0

theorem Type2And3Naive.dct3_costs (x : RustDct.Type2And3Naive T) : ∀ m m' : Mem T, m.buf.length = x.len → x.toObj.scratchLen ≤ m.scr.length → (Type2And3Naive.dct3 x m).1 = .ok m' → x.len * x.len ≤ (Type2And3Naive.dct3 x m).2 := by
  costs 0 1

theorem Type2And3Naive.dst2_costs (x : RustDct.Type2And3Naive T) : ∀ m m' : Mem T, m.buf.length = x.len → x.toObj.scratchLen ≤ m.scr.length → (Type2And3Naive.dst2 x m).1 = .ok m' → x.len * x.len ≤ (Type2And3Naive.dst2 x m).2 := by
  costs 0 0

theorem Type2And3Naive.dst3_costs (x : RustDct.Type2And3Naive T) : ∀ m m' : Mem T, m.buf.length = x.len → x.toObj.scratchLen ≤ m.scr.length → (Type2And3Naive.dst3 x m).1 = .ok m' → x.len * x.len ≤ (Type2And3Naive.dst3 x m).2 := by
  costs 0 0

theorem Type4Naive.dct4_costs (x : RustDct.Type4Naive T) : ∀ m m' : Mem T, m.buf.length = x.len → x.toObj.scratchLen ≤ m.scr.length → (Type4Naive.dct4 x m).1 = .ok m' → x.len * x.len ≤ (Type4Naive.dct4 x m).2 := by
  costs 0 0

theorem Type4Naive.dst4_costs (x : RustDct.Type4Naive T) : ∀ m m' : Mem T, m.buf.length = x.len → x.toObj.scratchLen ≤ m.scr.length → (Type4Naive.dst4 x m).1 = .ok m' → x.len * x.len ≤ (Type4Naive.dst4 x m).2 := by
  costs 0 0

theorem Dct5Naive.dct5_costs (x : RustDct.Dct5Naive T) : ∀ m m' : Mem T, m.buf.length = x.len → x.toObj.scratchLen ≤ m.scr.length → (Dct5Naive.dct5 x m).1 = .ok m' → x.len * x.len ≤ (Dct5Naive.dct5 x m).2 := by
  costs 1 1

theorem Dst5Naive.dst5_costs (x : RustDct.Dst5Naive T) : ∀ m m' : Mem T, m.buf.length = x.len → x.toObj.scratchLen ≤ m.scr.length → (Dst5Naive.dst5 x m).1 = .ok m' → x.len * x.len ≤ (Dst5Naive.dst5 x m).2 := by
  costs 0 0

theorem Dct6And7Naive.dct6_costs (x : RustDct.Dct6And7Naive T) : ∀ m m' : Mem T, m.buf.length = x.len → x.toObj.scratchLen ≤ m.scr.length → (Dct6And7Naive.dct6 x m).1 = .ok m' → x.len * x.len ≤ (Dct6And7Naive.dct6 x m).2 := by
  costs 1 0

theorem Dct6And7Naive.dct7_costs (x : RustDct.Dct6And7Naive T) : ∀ m m' : Mem T, m.buf.length = x.len → x.toObj.scratchLen ≤ m.scr.length → (Dct6And7Naive.dct7 x m).1 = .ok m' → x.len * x.len ≤ (Dct6And7Naive.dct7 x m).2 := by
  costs 0 1

theorem Dst6And7Naive.dst6_costs (x : RustDct.Dst6And7Naive T) : ∀ m m' : Mem T, m.buf.length = x.len → x.toObj.scratchLen ≤ m.scr.length → (Dst6And7Naive.dst6 x m).1 = .ok m' → x.len * x.len ≤ (Dst6And7Naive.dst6 x m).2 := by
  costs 0 0

theorem Dst6And7Naive.dst7_costs (x : RustDct.Dst6And7Naive T) : ∀ m m' : Mem T, m.buf.length = x.len → x.toObj.scratchLen ≤ m.scr.length → (Dst6And7Naive.dst7 x m).1 = .ok m' → x.len * x.len ≤ (Dst6And7Naive.dst7 x m).2 := by
  costs 0 0

theorem Dct8Naive.dct8_costs (x : RustDct.Dct8Naive T) : ∀ m m' : Mem T, m.buf.length = x.len → x.toObj.scratchLen ≤ m.scr.length → (Dct8Naive.dct8 x m).1 = .ok m' → x.len * x.len ≤ (Dct8Naive.dct8 x m).2 := by
  costs 0 0

theorem Dst8Naive.dst8_costs (x : RustDct.Dst8Naive T) : ∀ m m' : Mem T, m.buf.length = x.len → x.toObj.scratchLen ≤ m.scr.length → (Dst8Naive.dst8 x m).1 = .ok m' → x.len * x.len ≤ (Dst8Naive.dst8 x m).2 := by
  costs 0 0


theorem MdctNaive.mdct_costs (x : RustDct.MdctNaive T) (a b : List T) (m m' : Mem T) (hv : ValidMdct x.len 0 a b m) (e : (MdctNaive.mdct x a b m).1 = .ok m') :
    x.len * x.len ≤ (MdctNaive.mdct x a b m).2 := by
  refine Costs.mdcts (fun out t ho => ?_) hv.1 hv.2.1 hv.2.2.1 (Nat.zero_le _) e
  refine Costs.mono (k := (out.length - 0) * (a.length * 1)) ?_ (by simp only [hv.1, ho, Nat.sub_zero, Nat.mul_one]; exact le_rfl)
  refine Costs.bindL (P := fun _ => True) (Costs.forRange (P := fun _ => True) (fun i s _ => ?_) trivial) fun _ _ => Costs.any _
  exact Costs.bindL (Costs.mdct _ _ _ _ _ _) fun _ _ => Costs.any _

theorem MdctNaive.imdct_costs (x : RustDct.MdctNaive T) (a : List T) (m m' : IMem T) (hv : ValidImdct x.len 0 a m) (e : (MdctNaive.imdct x a m).1 = .ok m') :
    x.len * x.len ≤ (MdctNaive.imdct x a m).2 := by
  refine Costs.imdcts (fun b c t => ?_) hv.1 hv.2.1 hv.2.2.1 (Nat.zero_le _) e
  refine Costs.mono (k := (a.length - 0) * (a.length * 1)) ?_ (by simp only [hv.1, Nat.sub_zero, Nat.mul_one]; exact le_rfl)
  refine Costs.bindL (P := fun _ => True) (Costs.forRange (P := fun _ => True) (fun i s _ => ?_) trivial) fun _ _ => Costs.any _
  exact Costs.bindL (Costs.mdct _ _ _ _ _ _) fun _ _ => Costs.any _

end
end RustDct.Counted
