import Verif.Model.WordProcess
/-!
# Methods on a machine with bounded `usize` agree with the methods with unbounded `usize`
-/

set_option linter.all false

namespace RustDct

/-- `b`, computed with the arithmetic of the machine, is the unbounded `a`, except that on a machine that wraps around nothing is said where the
unbounded computation stops with a subtraction below zero. -/
def Agrees (M : Machine) {α : Type} (a b : Except Err α) : Prop := b = a ∨ (M.wraps = true ∧ a = .error .overflow)

/-- The same for methods. -/
def Outcome.Agrees {α : Type} (M : Machine) (a b : Outcome α) : Prop :=
  b = a ∨ (M.wraps = true ∧ ∃ x, a = .panic .overflow x)

namespace Agrees

variable {M : Machine} {α β γ : Type}

theorem refl (a : Except Err α) : Agrees M a a := .inl rfl

theorem of_eq {a b : Except Err α} (h : b = a) : Agrees M a b := .inl h

theorem bind {a b : Except Err α} {f g : α → Except Err β} (h : Agrees M a b) (k : ∀ x, a = .ok x → Agrees M (f x) (g x)) :
    Agrees M (a >>= f) (b >>= g) := by
  rcases h with rfl | ⟨w, rfl⟩
  · cases b with
    | error e => exact .inl rfl
    | ok x => exact k x rfl
  · exact .inr ⟨w, rfl⟩

theorem same {a : Except Err α} {f g : α → Except Err β} (k : ∀ x, a = .ok x → Agrees M (f x) (g x)) :
    Agrees M (a >>= f) (a >>= g) := bind (refl a) k

theorem arith {x : Nat} {a : Except Err α} {g : Nat → Except Err α} (hx : x < M.values) (k : Agrees M a (g x)) :
    Agrees M a (M.arith x >>= g) := by
  have : M.arith x = .ok x := if_pos hx
  rw [this]; exact k

theorem sub (a b : Nat) : Agrees M (csub a b) (M.sub a b) := by
  unfold csub Machine.sub
  split
  · exact .inl rfl
  · by_cases w : M.wraps
    · exact .inr ⟨w, rfl⟩
    · rw [if_neg w]; exact .inl rfl

theorem sub_bind {a b : Nat} {f g : Nat → Except Err α} (k : b ≤ a → Agrees M (f (a - b)) (g (a - b))) :
    Agrees M (csub a b >>= f) (M.sub a b >>= g) := by
  refine bind (sub a b) fun x hx => ?_
  unfold csub at hx
  split at hx
  · cases hx; exact k ‹_›
  · cases hx

theorem rd_bind {l : List γ} {i : Nat} {f g : γ → Except Err α} (k : ∀ x, i < l.length → Agrees M (f x) (g x)) :
    Agrees M (rd l i >>= f) (rd l i >>= g) := by
  refine same fun x hx => ?_
  unfold rd at hx
  split at hx
  · exact k x (by rename_i h; exact (List.getElem?_eq_some_iff.1 h).1)
  · cases hx

theorem rdU_bind {l : List γ} {i : Nat} {f g : γ → Except Err α} (k : ∀ x, i < l.length → Agrees M (f x) (g x)) :
    Agrees M (rdU l i >>= f) (rdU l i >>= g) := by
  refine same fun x hx => ?_
  unfold rdU at hx
  split at hx
  · exact k x (by rename_i h; exact (List.getElem?_eq_some_iff.1 h).1)
  · cases hx

theorem wr_bind {l : List γ} {i : Nat} {v : γ} {f g : List γ → Except Err α}
    (k : ∀ x : List γ, x.length = l.length → i < l.length → Agrees M (f x) (g x)) :
    Agrees M (wr l i v >>= f) (wr l i v >>= g) := by
  refine same fun x hx => ?_
  unfold wr at hx
  split at hx
  · cases hx; exact k _ (by simp) ‹_›
  · cases hx

theorem wrU_bind {l : List γ} {i : Nat} {v : γ} {f g : List γ → Except Err α}
    (k : ∀ x : List γ, x.length = l.length → i < l.length → Agrees M (f x) (g x)) :
    Agrees M (wrU l i v >>= f) (wrU l i v >>= g) := by
  refine same fun x hx => ?_
  unfold wrU at hx
  split at hx
  · cases hx; exact k _ (by simp) ‹_›
  · cases hx

theorem split_bind {l : List γ} {n : Nat} {f g : List γ × List γ → Except Err α}
    (k : ∀ x y : List γ, x.length = n → y.length = l.length - n → n ≤ l.length → Agrees M (f (x, y)) (g (x, y))) :
    Agrees M (splitAtMut l n >>= f) (splitAtMut l n >>= g) := by
  refine same fun x hx => ?_
  unfold splitAtMut at hx
  split at hx
  · cases hx; exact k _ _ (by simp; omega) (by simp) ‹_›
  · cases hx

theorem copy_bind {l s : List γ} {f g : List γ → Except Err α} (k : l.length = s.length → Agrees M (f s) (g s)) :
    Agrees M (copyFromSlice l s >>= f) (copyFromSlice l s >>= g) := by
  refine same fun x hx => ?_
  unfold copyFromSlice at hx
  split at hx
  · cases hx; exact k ‹_›
  · cases hx

theorem forRange_agrees {lo hi : Nat} {s : β} {f g : Nat → β → Except Err β}
    (h : ∀ i s, lo ≤ i → i < hi → Agrees M (f i s) (g i s)) : Agrees M (forRange lo hi s f) (forRange lo hi s g) := by
  unfold forRange
  have : ∀ (l : List Nat) (s : β), (∀ i ∈ l, lo ≤ i ∧ i < hi) →
      Agrees M (l.foldlM (fun s i => f i s) s) (l.foldlM (fun s i => g i s) s) := by
    intro l
    induction l with
    | nil => intro s _; exact refl _
    | cons i l ih =>
      intro s hl
      simp only [List.foldlM_cons]
      have hi := hl i (by simp)
      exact bind (h i s hi.1 hi.2) fun x _ => ih x fun j hj => hl j (by simp [hj])
  exact this _ _ fun i hi => by
    have := List.mem_range'_1.1 hi
    omega

theorem forRange_bind {lo hi : Nat} {s : β} {f g : Nat → β → Except Err β} {p q : β → Except Err α}
    (h : ∀ i s, lo ≤ i → i < hi → Agrees M (f i s) (g i s)) (k : ∀ x, Agrees M (p x) (q x)) :
    Agrees M (forRange lo hi s f >>= p) (forRange lo hi s g >>= q) := bind (forRange_agrees h) fun x _ => k x

theorem ite {c : Prop} {d d' : Decidable c} {a b a' b' : Except Err α} (h : c → Agrees M a a') (k : ¬c → Agrees M b b') :
    Agrees M (@_root_.ite _ c d a b) (@_root_.ite _ c d' a' b') := by
  by_cases hc : c
  · rw [if_pos hc, if_pos hc]; exact h hc
  · rw [if_neg hc, if_neg hc]; exact k hc

theorem validate {T : Type} {m : Mem T} {n s : Nat} {f g : List T → List T → Except Err (List T × List T)}
    (h : ∀ b c : List T, b.length = n → c.length = s → Agrees M (f b c) (g b c)) :
    (validateBuffers m n s f).Agrees M (validateBuffers m n s g) := by
  unfold validateBuffers
  split
  · exact .inl rfl
  · split
    · rcases h m.buf (m.scr.take s) (by omega) (by simp; omega) with e | ⟨w, e⟩
      · rw [e]; exact .inl rfl
      · rw [e]; exact .inr ⟨w, _, rfl⟩
    · exact .inl rfl

end Agrees

variable {M : Machine} {T : Type} {F : Type} [F64 F] [DctNum T F]

theorem strideLoopOn_agrees {T W : Type} {twiddles : List W} {scratch : List T} {stride : Nat} {f : T → T → W → T} {lo : Nat} {c : T} {i : Nat}
    (h : twiddles.length + stride < M.values) :
    Agrees M (strideLoop twiddles scratch stride f lo c i) (strideLoopOn M twiddles scratch stride f lo c i) := by
  unfold strideLoop strideLoopOn
  refine Agrees.forRange_agrees fun i st _ _ => Agrees.rd_bind fun x hx => Agrees.rd_bind fun y _ => Agrees.arith (by omega) ?_
  exact Agrees.refl _

theorem Agrees.stride_bind {T W : Type} {twiddles : List W} {scratch : List T} {stride : Nat} {f : T → T → W → T} {lo : Nat} {c : T} {i : Nat}
    {p q : T × Nat → Except Err α}
    (h : twiddles.length + stride < M.values) (k : ∀ x, Agrees M (p x) (q x)) :
    Agrees M (strideLoop twiddles scratch stride f lo c i >>= p) (strideLoopOn M twiddles scratch stride f lo c i >>= q) :=
  Agrees.bind (strideLoopOn_agrees h) fun x _ => k x

theorem prodForall {α β : Type} {p : α × β → Prop} (h : ∀ a b, p (a, b)) : ∀ x, p x := fun x => h x.1 x.2

theorem fillWhileInputOn_agrees {len : Nat} {v w : Nat → Except Err (Cx T)} (hv : ∀ i, i < len → Agrees M (v i) (w i))
    (hl : len + 4 < M.values) (fuel : Nat) : ∀ {ii fi : Nat} {l : List (Cx T)}, 0 < fuel → l.length < fuel + fi → l.length < M.values →
      Agrees M (fillWhileInput len v ii fi l) (fillWhileInputOn M len w fuel ii fi l) := by
  induction fuel with
  | zero => intro ii fi l h; omega
  | succ fuel ih =>
    intro ii fi l h0 hf hL
    rw [fillWhileInput, fillWhileInputOn]
    refine Agrees.ite (fun hi => ?_) fun _ => Agrees.refl _
    refine Agrees.bind (hv ii hi) fun x _ => Agrees.wr_bind fun l' hl' hfi => ?_
    exact Agrees.arith (by omega) (Agrees.arith (by omega) (ih (by omega) (by omega) (by omega)))

theorem wr_ok_length {α : Type} {l l' : List α} {i : Nat} {v : α} (h : wr l i v = .ok l') : l'.length = l.length := by
  unfold wr at h
  split at h
  · cases h; simp
  · cases h

theorem fillWhileInput_ok {len : Nat} {v : Nat → Except Err (Cx T)} (d : Nat) : ∀ {ii fi : Nat} {l : List (Cx T)} {r}, len - ii ≤ d →
    fillWhileInput len v ii fi l = .ok r → r.2.2.length = l.length ∧ fi ≤ r.2.1 ∧ (r.1 ≤ ii ∨ r.1 ≤ len + 3) := by
  induction d with
  | zero =>
    intro ii fi l r hd h
    rw [fillWhileInput, if_neg (by omega)] at h
    cases h
    exact ⟨rfl, Nat.le_refl _, .inl (Nat.le_refl _)⟩
  | succ d ih =>
    intro ii fi l r hd h
    rw [fillWhileInput] at h
    split at h
    · cases hv : v ii with
      | error e => rw [hv] at h; cases h
      | ok x =>
        cases hw : wr l fi x with
        | error e => rw [hv] at h; simp only [bind, Except.bind, hw] at h; cases h
        | ok l' =>
          rw [hv] at h
          simp only [bind, Except.bind, hw] at h
          obtain ⟨h1, h2, h3⟩ := ih (by omega) h
          have := wr_ok_length hw
          exact ⟨by omega, by omega, by omega⟩
    · cases h
      exact ⟨rfl, Nat.le_refl _, .inl (Nat.le_refl _)⟩

theorem Agrees.fill_bind {α : Type} {len : Nat} {v w : Nat → Except Err (Cx T)} (hv : ∀ i, i < len → Agrees M (v i) (w i))
    (hl : len + 4 < M.values) (fuel : Nat) {ii fi : Nat} {l : List (Cx T)} (hf : 0 < fuel ∧ l.length < fuel + fi) (hL : l.length < M.values)
    {p q : Nat × Nat × List (Cx T) → Except Err α}
    (k : ∀ i j (l' : List (Cx T)), l'.length = l.length → fi ≤ j → (i ≤ ii ∨ i ≤ len + 3) → Agrees M (p (i, j, l')) (q (i, j, l'))) :
    Agrees M (fillWhileInput len v ii fi l >>= p) (fillWhileInputOn M len w fuel ii fi l >>= q) :=
  Agrees.bind (fillWhileInputOn_agrees hv hl fuel hf.1 hf.2 hL) fun r hr =>
    have h := fillWhileInput_ok (len - ii) (Nat.le_refl _) hr
    k r.1 r.2.1 r.2.2 h.1 h.2.1 h.2.2

theorem fillWhileFftOn_agrees {len : Nat} {v w : Nat → Except Err (Cx T)} (hv : ∀ i, Agrees M (v i) (w i))
    (fuel : Nat) : ∀ {ii fi : Nat} {l : List (Cx T)}, 0 < fuel → l.length < fuel + fi → l.length < M.values →
      ii + 4 * (len - fi) < M.values → Agrees M (fillWhileFft len v ii fi l) (fillWhileFftOn M len w fuel ii fi l) := by
  induction fuel with
  | zero => intro ii fi l h; omega
  | succ fuel ih =>
    intro ii fi l h0 hf hL hb
    rw [fillWhileFft, fillWhileFftOn]
    refine Agrees.ite (fun hi => ?_) fun _ => Agrees.refl _
    refine Agrees.bind (hv ii) fun x _ => Agrees.wr_bind fun l' hl' hfi => ?_
    exact Agrees.arith (by omega) (Agrees.arith (by omega) (ih (by omega) (by omega) (by omega) (by omega)))

theorem Agrees.fillFft_bind {α : Type} {len : Nat} {v w : Nat → Except Err (Cx T)} (hv : ∀ i, Agrees M (v i) (w i))
    (fuel : Nat) {ii fi : Nat} {l : List (Cx T)} (hf : 0 < fuel ∧ l.length < fuel + fi ∧ l.length < M.values)
    (hb : ii + 4 * (len - fi) < M.values) {p q : List (Cx T) → Except Err α} (k : ∀ l', Agrees M (p l') (q l')) :
    Agrees M (fillWhileFft len v ii fi l >>= p) (fillWhileFftOn M len w fuel ii fi l >>= q) :=
  Agrees.bind (fillWhileFftOn_agrees hv fuel hf.1 hf.2.1 hf.2.2 hb) fun l' _ => k l'

theorem Agrees.mirror_bind {α : Type} {b : List T} {n i : Nat} {p q : T → Except Err α} (k : ∀ x, Agrees M (p x) (q x)) :
    Agrees M (rdMirror b n i >>= p) (rdMirrorOn M b n i >>= q) := by
  refine Agrees.bind ?_ fun x _ => k x
  unfold rdMirror rdMirrorOn
  exact Agrees.sub_bind fun _ => Agrees.sub_bind fun _ => Agrees.refl _

/-- The methods of two objects agree. -/
structure Obj23.Agrees (M : Machine) (p q : Obj23 T) : Prop where
  len : q.len = p.len
  scratchLen : q.scratchLen = p.scratchLen
  dct2 : ∀ m, (p.dct2 m).Agrees M (q.dct2 m)
  dct3 : ∀ m, (p.dct3 m).Agrees M (q.dct3 m)
  dst2 : ∀ m, (p.dst2 m).Agrees M (q.dst2 m)
  dst3 : ∀ m, (p.dst3 m).Agrees M (q.dst3 m)

/-- Likewise. -/
structure Obj4.Agrees (M : Machine) (p q : Obj4 T) : Prop where
  len : q.len = p.len
  scratchLen : q.scratchLen = p.scratchLen
  dct4 : ∀ m, (p.dct4 m).Agrees M (q.dct4 m)
  dst4 : ∀ m, (p.dst4 m).Agrees M (q.dst4 m)

/-- Likewise. -/
structure Obj67.Agrees (M : Machine) (p q : Obj67 T) : Prop where
  len : q.len = p.len
  scratchLen : q.scratchLen = p.scratchLen
  t6 : ∀ m, (p.t6 m).Agrees M (q.t6 m)
  t7 : ∀ m, (p.t7 m).Agrees M (q.t7 m)

/-- Likewise. -/
structure Obj1.Agrees (M : Machine) (p q : Obj1 T) : Prop where
  len : q.len = p.len
  scratchLen : q.scratchLen = p.scratchLen
  run : ∀ m, (p.run m).Agrees M (q.run m)

theorem callProc_agrees {p q : Proc T} (h : ∀ m, (p m).Agrees M (q m)) (b s : List T) : Agrees M (callProc p b s) (callProc q b s) := by
  unfold callProc
  rcases h ⟨b, s⟩ with e | ⟨w, x, e⟩
  · rw [e]; exact .inl rfl
  · rw [e]; exact .inr ⟨w, rfl⟩

theorem Agrees.call_bind {α : Type} {p q : Proc T} (h : ∀ m, (p m).Agrees M (q m)) {b s : List T} {f g : List T × List T → Except Err α}
    (k : ∀ x, Agrees M (f x) (g x)) : Agrees M (callProc p b s >>= f) (callProc q b s >>= g) :=
  Agrees.bind (callProc_agrees h b s) fun x _ => k x

theorem Agrees.pair_bind {α : Type} {p q p' q' : Proc T} (h : ∀ m, (p m).Agrees M (q m)) (h' : ∀ m, (p' m).Agrees M (q' m)) {a b c d : List T}
    {f g : List T × List T × List T × List T → Except Err α}
    (k : ∀ x, Agrees M (f x) (g x)) : Agrees M (runInnerPair p p' a b c d >>= f) (runInnerPair q q' a b c d >>= g) := by
  refine Agrees.bind ?_ fun x _ => k x
  unfold runInnerPair
  exact Agrees.ite (fun _ => Agrees.call_bind h fun x => Agrees.call_bind h' fun y => Agrees.refl _)
    fun _ => Agrees.call_bind h fun x => Agrees.call_bind h' fun y => Agrees.refl _

theorem mdctLoopOn_agrees {twiddles : List T} {cnt stride : Nat} {u v : Nat → T → Except Err T} {a : T} {i : Nat}
    (h : twiddles.length + stride < M.values) (huv : ∀ i x, i < cnt → Agrees M (u i x) (v i x)) :
    Agrees M (mdctLoop twiddles cnt stride u a i) (mdctLoopOn M twiddles cnt stride v a i) := by
  unfold mdctLoop mdctLoopOn
  refine Agrees.forRange_agrees fun i st _ hi => Agrees.rd_bind fun x hx => Agrees.bind (huv i x hi) fun y _ => Agrees.arith (by omega) ?_
  exact Agrees.refl _

theorem Agrees.mdctLoop_bind {α : Type} {twiddles : List T} {cnt stride : Nat} {u v : Nat → T → Except Err T} {a : T} {i : Nat}
    {p q : T × Nat → Except Err α} (h : twiddles.length + stride < M.values) (huv : ∀ i x, i < cnt → Agrees M (u i x) (v i x))
    (k : ∀ x, Agrees M (p x) (q x)) :
    Agrees M (mdctLoop twiddles cnt stride u a i >>= p) (mdctLoopOn M twiddles cnt stride v a i >>= q) :=
  Agrees.bind (mdctLoopOn_agrees h huv) fun x _ => k x

macro "agree" : tactic => `(tactic| repeat' first
  | with_reducible exact Agrees.refl _
  | with_reducible refine prodForall ?_
  | intro _
  | with_reducible refine Agrees.arith (by omega) ?_
  | with_reducible apply Agrees.sub_bind
  | with_reducible apply Agrees.rd_bind
  | with_reducible apply Agrees.wr_bind
  | with_reducible apply Agrees.rdU_bind
  | with_reducible apply Agrees.wrU_bind
  | with_reducible apply Agrees.split_bind
  | with_reducible apply Agrees.copy_bind
  | with_reducible refine Agrees.stride_bind (by omega) ?_
  | with_reducible apply Agrees.forRange_bind
  | with_reducible apply Agrees.forRange_agrees
  | with_reducible apply Agrees.ite
  | with_reducible refine Agrees.fill_bind ?_ (by omega) _ (by omega) (by omega) ?_
  | with_reducible refine Agrees.fillFft_bind ?_ _ (by omega) (by omega) ?_
  | with_reducible apply Agrees.mirror_bind
  | with_reducible apply Agrees.call_bind (Obj23.Agrees.dct2 (by assumption))
  | with_reducible apply Agrees.call_bind (Obj23.Agrees.dct3 (by assumption))
  | with_reducible apply Agrees.pair_bind (Obj23.Agrees.dct3 (by assumption)) (Obj23.Agrees.dst3 (by assumption))
  | with_reducible apply Agrees.pair_bind (Obj23.Agrees.dst3 (by assumption)) (Obj23.Agrees.dct3 (by assumption))
  | with_reducible refine Agrees.mdctLoop_bind (by omega) ?_ ?_
  | with_reducible apply Agrees.call_bind (Obj4.Agrees.dct4 (by assumption))
  | with_reducible apply callProc_agrees (Obj4.Agrees.dct4 (by assumption))
  | with_reducible apply Agrees.same
  | dsimp only)

/-! ### Naive algorithms -/

theorem Dct1Naive.dct1On_agrees {B : Nat} {t : Dct1Naive T} (hB : 64 ≤ B) (hM : 8 * B < M.values) (h : t.twiddles.length ≤ B)
    (m : Mem T) : (t.dct1 m).Agrees M (t.dct1On M m) := by
  unfold Dct1Naive.dct1 Dct1Naive.dct1On
  refine Agrees.validate fun b c hb hc => ?_
  simp only [Dct1Naive.len, Dct1Naive.scratchLen] at hb hc
  agree

theorem Dst1Naive.dst1On_agrees {B : Nat} {t : Dst1Naive T} (hB : 64 ≤ B) (hM : 8 * B < M.values) (h : t.twiddles.length ≤ B)
    (m : Mem T) : (t.dst1 m).Agrees M (t.dst1On M m) := by
  unfold Dst1Naive.dst1 Dst1Naive.dst1On
  refine Agrees.validate fun b c hb hc => ?_
  simp only [Dst1Naive.len, Dst1Naive.scratchLen] at hb hc
  agree

theorem Type2And3Naive.dct2On_agrees {B : Nat} {t : Type2And3Naive T} (hB : 64 ≤ B) (hM : 8 * B < M.values) (h : t.twiddles.length ≤ B)
    (m : Mem T) : (t.dct2 m).Agrees M (t.dct2On M m) := by
  unfold Type2And3Naive.dct2 Type2And3Naive.dct2On
  refine Agrees.validate fun b c hb hc => ?_
  simp only [Type2And3Naive.len, Type2And3Naive.scratchLen] at hb hc
  agree

theorem Type2And3Naive.dst2On_agrees {B : Nat} {t : Type2And3Naive T} (hB : 64 ≤ B) (hM : 8 * B < M.values) (h : t.twiddles.length ≤ B)
    (m : Mem T) : (t.dst2 m).Agrees M (t.dst2On M m) := by
  unfold Type2And3Naive.dst2 Type2And3Naive.dst2On
  refine Agrees.validate fun b c hb hc => ?_
  simp only [Type2And3Naive.len, Type2And3Naive.scratchLen] at hb hc
  agree

theorem Type2And3Naive.dct3On_agrees {B : Nat} {t : Type2And3Naive T} (hB : 64 ≤ B) (hM : 8 * B < M.values) (h : t.twiddles.length ≤ B)
    (m : Mem T) : (t.dct3 m).Agrees M (t.dct3On M m) := by
  unfold Type2And3Naive.dct3 Type2And3Naive.dct3On
  refine Agrees.validate fun b c hb hc => ?_
  simp only [Type2And3Naive.len, Type2And3Naive.scratchLen] at hb hc
  agree

theorem Type2And3Naive.dst3On_agrees {B : Nat} {t : Type2And3Naive T} (hB : 64 ≤ B) (hM : 8 * B < M.values) (h : t.twiddles.length ≤ B)
    (m : Mem T) : (t.dst3 m).Agrees M (t.dst3On M m) := by
  unfold Type2And3Naive.dst3 Type2And3Naive.dst3On
  refine Agrees.validate fun b c hb hc => ?_
  simp only [Type2And3Naive.len, Type2And3Naive.scratchLen] at hb hc
  agree

theorem Type4Naive.dct4On_agrees {B : Nat} {t : Type4Naive T} (hB : 64 ≤ B) (hM : 8 * B < M.values) (h : t.twiddles.length ≤ B)
    (m : Mem T) : (t.dct4 m).Agrees M (t.dct4On M m) := by
  unfold Type4Naive.dct4 Type4Naive.dct4On
  refine Agrees.validate fun b c hb hc => ?_
  simp only [Type4Naive.len, Type4Naive.scratchLen] at hb hc
  agree

theorem Type4Naive.dst4On_agrees {B : Nat} {t : Type4Naive T} (hB : 64 ≤ B) (hM : 8 * B < M.values) (h : t.twiddles.length ≤ B)
    (m : Mem T) : (t.dst4 m).Agrees M (t.dst4On M m) := by
  unfold Type4Naive.dst4 Type4Naive.dst4On
  refine Agrees.validate fun b c hb hc => ?_
  simp only [Type4Naive.len, Type4Naive.scratchLen] at hb hc
  agree

theorem Dct5Naive.dct5On_agrees {B : Nat} {t : Dct5Naive T} (hB : 64 ≤ B) (hM : 8 * B < M.values) (h : t.twiddles.length ≤ B)
    (m : Mem T) : (t.dct5 m).Agrees M (t.dct5On M m) := by
  unfold Dct5Naive.dct5 Dct5Naive.dct5On
  refine Agrees.validate fun b c hb hc => ?_
  simp only [Dct5Naive.len, Dct5Naive.scratchLen] at hb hc
  agree

theorem Dst5Naive.dst5On_agrees {B : Nat} {t : Dst5Naive T} (hB : 64 ≤ B) (hM : 8 * B < M.values) (h : t.twiddles.length ≤ B)
    (m : Mem T) : (t.dst5 m).Agrees M (t.dst5On M m) := by
  unfold Dst5Naive.dst5 Dst5Naive.dst5On
  refine Agrees.validate fun b c hb hc => ?_
  simp only [Dst5Naive.len, Dst5Naive.scratchLen] at hb hc
  agree

theorem Dct6And7Naive.dct6On_agrees {B : Nat} {t : Dct6And7Naive T} (hB : 64 ≤ B) (hM : 8 * B < M.values) (h : t.twiddles.length ≤ B)
    (m : Mem T) : (t.dct6 m).Agrees M (t.dct6On M m) := by
  unfold Dct6And7Naive.dct6 Dct6And7Naive.dct6On
  refine Agrees.validate fun b c hb hc => ?_
  simp only [Dct6And7Naive.len, Dct6And7Naive.scratchLen] at hb hc
  agree

theorem Dct6And7Naive.dct7On_agrees {B : Nat} {t : Dct6And7Naive T} (hB : 64 ≤ B) (hM : 8 * B < M.values) (h : t.twiddles.length ≤ B)
    (m : Mem T) : (t.dct7 m).Agrees M (t.dct7On M m) := by
  unfold Dct6And7Naive.dct7 Dct6And7Naive.dct7On
  refine Agrees.validate fun b c hb hc => ?_
  simp only [Dct6And7Naive.len, Dct6And7Naive.scratchLen] at hb hc
  agree

theorem Dst6And7Naive.dst6On_agrees {B : Nat} {t : Dst6And7Naive T} (hB : 64 ≤ B) (hM : 8 * B < M.values) (h : t.twiddles.length ≤ B)
    (m : Mem T) : (t.dst6 m).Agrees M (t.dst6On M m) := by
  unfold Dst6And7Naive.dst6 Dst6And7Naive.dst6On
  refine Agrees.validate fun b c hb hc => ?_
  simp only [Dst6And7Naive.len, Dst6And7Naive.scratchLen] at hb hc
  agree

theorem Dst6And7Naive.dst7On_agrees {B : Nat} {t : Dst6And7Naive T} (hB : 64 ≤ B) (hM : 8 * B < M.values) (h : t.twiddles.length ≤ B)
    (m : Mem T) : (t.dst7 m).Agrees M (t.dst7On M m) := by
  unfold Dst6And7Naive.dst7 Dst6And7Naive.dst7On
  refine Agrees.validate fun b c hb hc => ?_
  simp only [Dst6And7Naive.len, Dst6And7Naive.scratchLen] at hb hc
  agree

theorem Dct8Naive.dct8On_agrees {B : Nat} {t : Dct8Naive T} (hB : 64 ≤ B) (hM : 8 * B < M.values) (h : t.twiddles.length ≤ B)
    (m : Mem T) : (t.dct8 m).Agrees M (t.dct8On M m) := by
  unfold Dct8Naive.dct8 Dct8Naive.dct8On
  refine Agrees.validate fun b c hb hc => ?_
  simp only [Dct8Naive.len, Dct8Naive.scratchLen] at hb hc
  agree

theorem Dst8Naive.dst8On_agrees {B : Nat} {t : Dst8Naive T} (hB : 64 ≤ B) (hM : 8 * B < M.values) (h : t.twiddles.length ≤ B)
    (m : Mem T) : (t.dst8 m).Agrees M (t.dst8On M m) := by
  unfold Dst8Naive.dst8 Dst8Naive.dst8On
  refine Agrees.validate fun b c hb hc => ?_
  simp only [Dst8Naive.len, Dst8Naive.scratchLen] at hb hc
  agree

/-! ### Conversions to an FFT -/

theorem Type2And3ConvertToFft.dct2On_agrees {B : Nat} {t : Type2And3ConvertToFft T} (hB : 64 ≤ B) (hM : 8 * B < M.values) (h : t.twiddles.length ≤ B)
    (m : Mem T) : (t.dct2 m).Agrees M (t.dct2On M m) := by
  unfold Type2And3ConvertToFft.dct2 Type2And3ConvertToFft.dct2On
  refine Agrees.validate fun b c hb hc => ?_
  have hl : t.len = t.twiddles.length := rfl
  agree

theorem Type2And3ConvertToFft.dst2On_agrees {B : Nat} {t : Type2And3ConvertToFft T} (hB : 64 ≤ B) (hM : 8 * B < M.values) (h : t.twiddles.length ≤ B)
    (m : Mem T) : (t.dst2 m).Agrees M (t.dst2On M m) := by
  unfold Type2And3ConvertToFft.dst2 Type2And3ConvertToFft.dst2On
  refine Agrees.validate fun b c hb hc => ?_
  have hl : t.len = t.twiddles.length := rfl
  agree

theorem Type2And3ConvertToFft.dct3On_agrees {B : Nat} {t : Type2And3ConvertToFft T} (hB : 64 ≤ B) (hM : 8 * B < M.values) (h : t.twiddles.length ≤ B)
    (m : Mem T) : (t.dct3 m).Agrees M (t.dct3On M m) := by
  unfold Type2And3ConvertToFft.dct3 Type2And3ConvertToFft.dct3On
  refine Agrees.validate fun b c hb hc => ?_
  have hl : t.len = t.twiddles.length := rfl
  agree

theorem Type2And3ConvertToFft.dst3On_agrees {B : Nat} {t : Type2And3ConvertToFft T} (hB : 64 ≤ B) (hM : 8 * B < M.values) (h : t.twiddles.length ≤ B)
    (m : Mem T) : (t.dst3 m).Agrees M (t.dst3On M m) := by
  unfold Type2And3ConvertToFft.dst3 Type2And3ConvertToFft.dst3On
  refine Agrees.validate fun b c hb hc => ?_
  have hl : t.len = t.twiddles.length := rfl
  agree


theorem Type4ConvertToFftOdd.dct4On_agrees {B : Nat} {t : Type4ConvertToFftOdd T} (hB : 64 ≤ B) (hM : 8 * B < M.values) (h : t.len ≤ B)
    (m : Mem T) : (t.dct4 m).Agrees M (t.dct4On M m) := by
  unfold Type4ConvertToFftOdd.dct4 Type4ConvertToFftOdd.dct4On
  refine Agrees.validate fun b c hb hc => ?_
  agree

theorem Type4ConvertToFftOdd.dst4On_agrees {B : Nat} {t : Type4ConvertToFftOdd T} (hB : 64 ≤ B) (hM : 8 * B < M.values) (h : t.len ≤ B)
    (m : Mem T) : (t.dst4 m).Agrees M (t.dst4On M m) := by
  unfold Type4ConvertToFftOdd.dst4 Type4ConvertToFftOdd.dst4On
  refine Agrees.validate fun b c hb hc => ?_
  agree

theorem Dst6And7ConvertToFft.dst6On_agrees {B : Nat} {t : Dst6And7ConvertToFft T} (hB : 64 ≤ B) (hM : 8 * B < M.values) (h : t.len ≤ B)
    (m : Mem T) : (t.dst6 m).Agrees M (t.dst6On M m) := by
  unfold Dst6And7ConvertToFft.dst6 Dst6And7ConvertToFft.dst6On
  refine Agrees.validate fun b c hb hc => ?_
  agree

theorem Dst6And7ConvertToFft.dst7On_agrees {B : Nat} {t : Dst6And7ConvertToFft T} (hB : 64 ≤ B) (hM : 8 * B < M.values) (h : t.len ≤ B)
    (m : Mem T) : (t.dst7 m).Agrees M (t.dst7On M m) := by
  unfold Dst6And7ConvertToFft.dst7 Dst6And7ConvertToFft.dst7On
  refine Agrees.validate fun b c hb hc => ?_
  agree


/-! ### Split radix and type 4 of even length -/

theorem Type2And3SplitRadix.dct2On_agrees {B : Nat} {t u : Type2And3SplitRadix T} (hB : 64 ≤ B) (hM : 8 * B < M.values) (h : t.twiddles.length ≤ B)
    (ht : u.twiddles = t.twiddles) (hh : t.halfDct.Agrees M u.halfDct) (hq : t.quarterDct.Agrees M u.quarterDct)
    (m : Mem T) : (t.dct2 m).Agrees M (u.dct2On M m) := by
  obtain ⟨uh, uq, ut⟩ := u
  cases ht
  unfold Type2And3SplitRadix.dct2 Type2And3SplitRadix.dct2On
  have hl : t.len = t.twiddles.length * 4 := rfl
  have hl' : (Type2And3SplitRadix.len ⟨uh, uq, t.twiddles⟩) = t.len := rfl
  have hs' : (Type2And3SplitRadix.scratchLen ⟨uh, uq, t.twiddles⟩) = t.scratchLen := rfl
  rw [hl', hs']
  refine Agrees.validate fun b c hb hc => ?_
  agree

theorem Type2And3SplitRadix.dct3On_agrees {B : Nat} {t u : Type2And3SplitRadix T} (hB : 64 ≤ B) (hM : 8 * B < M.values) (h : t.twiddles.length ≤ B)
    (ht : u.twiddles = t.twiddles) (hh : t.halfDct.Agrees M u.halfDct) (hq : t.quarterDct.Agrees M u.quarterDct)
    (m : Mem T) : (t.dct3 m).Agrees M (u.dct3On M m) := by
  obtain ⟨uh, uq, ut⟩ := u
  cases ht
  unfold Type2And3SplitRadix.dct3 Type2And3SplitRadix.dct3On
  have hl : t.len = t.twiddles.length * 4 := rfl
  have hl' : (Type2And3SplitRadix.len ⟨uh, uq, t.twiddles⟩) = t.len := rfl
  have hs' : (Type2And3SplitRadix.scratchLen ⟨uh, uq, t.twiddles⟩) = t.scratchLen := rfl
  rw [hl', hs']
  refine Agrees.validate fun b c hb hc => ?_
  agree

theorem negOddsOn_eq {cnt : Nat} (h : 2 * cnt < M.values) (b : List T) : negOddsOn M cnt b = negOdds cnt b := by
  unfold negOddsOn negOdds
  have : ∀ (l : List Nat) (b : List T), (∀ i ∈ l, i < cnt) →
      l.foldlM (m := Except (Err × List T)) (fun b i =>
        match (do let d ← M.arith (2 * i); M.arith (d + 1)) with
        | .error e => .error (e, b)
        | .ok j =>
          match b[j]? with
          | some v => .ok (b.set j (-v))
          | none => .error (.index, b)) b =
      l.foldlM (fun b i =>
        match b[2 * i + 1]? with
        | some v => .ok (b.set (2 * i + 1) (-v))
        | none => .error (.index, b)) b := by
    intro l
    induction l with
    | nil => intro b _; rfl
    | cons i l ih =>
      intro b hl
      have hi := hl i (by simp)
      have e1 : M.arith (2 * i) = .ok (2 * i) := if_pos (by omega)
      have e2 : M.arith (2 * i + 1) = .ok (2 * i + 1) := if_pos (by omega)
      simp only [List.foldlM_cons, e1, bind, Except.bind, e2]
      cases hb : b[2 * i + 1]? with
      | none => rfl
      | some v => exact ih _ fun j hj => hl j (by simp [hj])
  exact this _ b fun i hi => List.mem_range.1 hi

theorem Type2And3SplitRadix.dst2On_agrees {B : Nat} {t u : Type2And3SplitRadix T} (hB : 64 ≤ B) (hM : 8 * B < M.values)
    (h : t.twiddles.length ≤ B) (ht : u.twiddles = t.twiddles) (hh : t.halfDct.Agrees M u.halfDct)
    (hq : t.quarterDct.Agrees M u.quarterDct) (m : Mem T) : (t.dst2 m).Agrees M (u.dst2On M m) := by
  unfold Type2And3SplitRadix.dst2 Type2And3SplitRadix.dst2On
  have hl : u.len = t.len := by simp only [Type2And3SplitRadix.len, ht]
  rw [hl, negOddsOn_eq (by simp only [Type2And3SplitRadix.len]; omega)]
  cases negOdds (t.len / 2) m.buf with
  | error e => exact .inl rfl
  | ok b =>
    simp only
    rcases Type2And3SplitRadix.dct2On_agrees hB hM h ht hh hq ⟨b, m.scr⟩ with e | ⟨w, x, e⟩
    · rw [e]; exact .inl rfl
    · rw [e]; exact .inr ⟨w, x, rfl⟩

theorem Type2And3SplitRadix.dst3On_agrees {B : Nat} {t u : Type2And3SplitRadix T} (hB : 64 ≤ B) (hM : 8 * B < M.values)
    (h : t.twiddles.length ≤ B) (ht : u.twiddles = t.twiddles) (hh : t.halfDct.Agrees M u.halfDct)
    (hq : t.quarterDct.Agrees M u.quarterDct) (m : Mem T) : (t.dst3 m).Agrees M (u.dst3On M m) := by
  unfold Type2And3SplitRadix.dst3 Type2And3SplitRadix.dst3On
  have hl : u.len = t.len := by simp only [Type2And3SplitRadix.len, ht]
  rcases Type2And3SplitRadix.dct3On_agrees hB hM h ht hh hq ⟨m.buf.reverse, m.scr⟩ with e | ⟨w, x, e⟩
  · rw [e]
    cases t.dct3 ⟨m.buf.reverse, m.scr⟩ with
    | panic e x => exact .inl rfl
    | ok m' => 
      simp only
      rw [hl, negOddsOn_eq (by simp only [Type2And3SplitRadix.len]; omega)]
      exact .inl rfl
  · rw [e]; exact .inr ⟨w, x, rfl⟩

theorem Type4ConvertToType3Even.dct4On_agrees {B : Nat} {t u : Type4ConvertToType3Even T} (hB : 64 ≤ B) (hM : 8 * B < M.values) (h : t.twiddles.length ≤ B)
    (ht : u.twiddles = t.twiddles) (hs : u.scratchLen = t.scratchLen) (hi : t.innerDct.Agrees M u.innerDct)
    (m : Mem T) : (t.dct4 m).Agrees M (u.dct4On M m) := by
  obtain ⟨ui, ut, us⟩ := u
  cases ht
  cases hs
  unfold Type4ConvertToType3Even.dct4 Type4ConvertToType3Even.dct4On
  have hl : t.len = t.twiddles.length * 2 := rfl
  have hl' : (Type4ConvertToType3Even.len ⟨ui, t.twiddles, t.scratchLen⟩) = t.len := rfl
  rw [hl']
  refine Agrees.validate fun b c hb hc => ?_
  agree

theorem Type4ConvertToType3Even.dst4On_agrees {B : Nat} {t u : Type4ConvertToType3Even T} (hB : 64 ≤ B) (hM : 8 * B < M.values) (h : t.twiddles.length ≤ B)
    (ht : u.twiddles = t.twiddles) (hs : u.scratchLen = t.scratchLen) (hi : t.innerDct.Agrees M u.innerDct)
    (m : Mem T) : (t.dst4 m).Agrees M (u.dst4On M m) := by
  obtain ⟨ui, ut, us⟩ := u
  cases ht
  cases hs
  unfold Type4ConvertToType3Even.dst4 Type4ConvertToType3Even.dst4On
  have hl : t.len = t.twiddles.length * 2 := rfl
  have hl' : (Type4ConvertToType3Even.len ⟨ui, t.twiddles, t.scratchLen⟩) = t.len := rfl
  rw [hl']
  refine Agrees.validate fun b c hb hc => ?_
  agree

/-! ### MDCT -/

theorem validateImdct_agrees {input : List T} {m : IMem T} {n s : Nat} {f g : List T → List T → List T → Except Err (List T × List T × List T)}
    (h : input.length = n → ∀ a b c, Agrees M (f a b c) (g a b c)) :
    (validateImdct input m n s f).Agrees M (validateImdct input m n s g) := by
  unfold validateImdct
  split
  · exact .inl rfl
  · split
    · rcases h (by omega) m.outA m.outB (m.scr.take s) with e | ⟨w, e⟩
      · rw [e]; exact .inl rfl
      · rw [e]; exact .inr ⟨w, _, rfl⟩
    · exact .inl rfl

theorem validateMdct_agrees {inputA inputB : List T} {m : Mem T} {n s : Nat} {f g : List T → List T → Except Err (List T × List T)}
    (h : inputA.length = n → inputB.length = n → ∀ b c, b.length = n → c.length = s → Agrees M (f b c) (g b c)) :
    (validateMdct inputA inputB m n s f).Agrees M (validateMdct inputA inputB m n s g) := by
  unfold validateMdct
  split
  · exact .inl rfl
  · split
    · rcases h (by omega) (by omega) m.buf (m.scr.take s) (by omega) (by simp; omega) with e | ⟨w, e⟩
      · rw [e]; exact .inl rfl
      · rw [e]; exact .inr ⟨w, _, rfl⟩
    · exact .inl rfl

theorem MdctNaive.imdctOn_agrees {B : Nat} {t : MdctNaive T} (hB : 64 ≤ B) (hM : 8 * B < M.values) (h : t.twiddles.length ≤ B)
    (input : List T) (m : IMem T) : (t.imdct input m).Agrees M (t.imdctOn M input m) := by
  unfold MdctNaive.imdct MdctNaive.imdctOn
  refine validateImdct_agrees fun hi a b c => ?_
  have hl : t.len = t.twiddles.length / 4 := rfl
  agree

theorem MdctNaive.mdctOn_agrees {B : Nat} {t : MdctNaive T} (hB : 64 ≤ B) (hM : 8 * B < M.values) (h : t.twiddles.length ≤ B)
    (hq : t.len * (t.len + 1) + t.len < M.values) (inputA inputB : List T) (m : Mem T) :
    (t.mdct inputA inputB m).Agrees M (t.mdctOn M inputA inputB m) := by
  unfold MdctNaive.mdct MdctNaive.mdctOn
  refine validateMdct_agrees fun hA hI b c hb hc => ?_
  have hl : t.len = t.twiddles.length / 4 := rfl
  dsimp only
  refine Agrees.forRange_bind (fun k s _ hk => ?_) fun _ => Agrees.refl _
  have hk' : k * (b.length + 1) ≤ t.len * (t.len + 1) := by
    rw [hb]; exact Nat.mul_le_mul_right _ (by omega)
  agree

/-- The methods of two objects agree. -/
structure MdctObj.Agrees (M : Machine) (p q : MdctObj T) : Prop where
  len : q.len = p.len
  scratchLen : q.scratchLen = p.scratchLen
  mdct : ∀ a b m, (p.mdct a b m).Agrees M (q.mdct a b m)
  imdct : ∀ a m, (p.imdct a m).Agrees M (q.imdct a m)

theorem MdctViaDct4.agrees {t u : MdctViaDct4 T} (hw : u.window = t.window) (hs : u.scratchLen = t.scratchLen) (hi : t.dct.Agrees M u.dct) :
    t.toObj.Agrees M u.toObj := by
  obtain ⟨ud, us, uw⟩ := u
  cases hw
  cases hs
  refine ⟨hi.len, rfl, fun a b m => ?_, fun a m => ?_⟩
  · show (t.mdct a b m).Agrees M (MdctViaDct4.mdct _ a b m)
    unfold MdctViaDct4.mdct
    rw [show MdctViaDct4.len _ = t.len from hi.len]
    refine validateMdct_agrees fun hA hI b c hb hc => ?_
    agree
  · show (t.imdct a m).Agrees M (MdctViaDct4.imdct _ a m)
    unfold MdctViaDct4.imdct
    rw [show MdctViaDct4.len _ = t.len from hi.len]
    refine validateImdct_agrees fun hA a b c => ?_
    agree

end RustDct
