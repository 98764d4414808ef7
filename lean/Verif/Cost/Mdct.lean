import Verif.Cost.Logic
/-!
# Steps of the MDCT
-/

set_option linter.all false
set_option maxHeartbeats 4000000
set_option maxRecDepth 8000

namespace RustDct.Counted

variable {T F : Type} [F64 F] [DctNum T F] {inner : CObj4 T}

theorem CRel.mdctLoop {twiddles : List T} {cnt stride n c k idx : Nat} {term : Nat → Cn T → Run (Cn T)} {term' : Nat → T → Except Err T} {a : Cn T} {a' : T}
    (hn : cnt ≤ n) (ht : ∀ i w w', Num 0 w w' → CRel (Num k) c (term i w) (term' i w')) (ha : Num 0 a a') :
    CRel St (n * (c + k + 2)) (Counted.mdctLoop twiddles cnt stride term a idx) (RustDct.mdctLoop twiddles cnt stride term' a' idx) := by
  unfold Counted.mdctLoop RustDct.mdctLoop
  refine CRel.forRange (by omega) (⟨ha, rfl⟩ : St _ _) ?_
  intro i a a' ha
  obtain ⟨a, b⟩ := a
  obtain ⟨a', b'⟩ := a'
  obtain ⟨ha, rfl⟩ := ha
  dsimp -zeta only at ha ⊢
  refine CRel.mono (k := 1 + (c + (0 + k + 1 + 0))) ?_ (by omega)
  refine CRel.bind CRel.rd fun w w' hw => ?_
  refine CRel.bind (ht i w w' hw) fun x x' hx => ?_
  crel_let
  refine CRel.bind (CRel.arith (Num.add ha hx)) fun v v' hv => ?_
  dsimp only
  split
  · exact CRel.pure ⟨hv, rfl⟩
  · exact CRel.pure ⟨hv, rfl⟩

theorem CRel.bindMdct {ρ ρ' : Type} {r : ρ → ρ' → Prop} {twiddles : List T} {cnt stride n c k l idx : Nat} {term : Nat → Cn T → Run (Cn T)}
    {term' : Nat → T → Except Err T} {a : Cn T} {a' : T} {g : Cn T × Nat → Run ρ} {g' : T × Nat → Except Err ρ'}
    (hn : cnt ≤ n) (ht : ∀ i w w', Num 0 w w' → CRel (Num k) c (term i w) (term' i w')) (ha : Num 0 a a')
    (hg : ∀ a a' b, Num 0 a a' → CRel r l (g (a, b)) (g' (a', b))) :
    CRel r (n * (c + k + 2) + l) (Counted.mdctLoop twiddles cnt stride term a idx >>= g) (RustDct.mdctLoop twiddles cnt stride term' a' idx >>= g') :=
  (CRel.mdctLoop hn ht ha).bind fun a a' h => by
    obtain ⟨a, b⟩ := a
    obtain ⟨a', b'⟩ := a'
    obtain ⟨h, rfl⟩ := h
    exact hg _ _ _ h

theorem CRel.bindZipUpdate {ρ ρ' : Type} {r : ρ → ρ' → Prop} {f : Cn T → Cn T → Cn T → Cn T} {f' : T → T → T → T} {j n k l : Nat} {out window vals : List T}
    {g : List T → Run ρ} {g' : List T → Except Err ρ'} (hn : out.length = n) (hf : ∀ o o' w w' v v', Num 0 o o' → Num 0 w w' → Num 0 v v' → Num k (f o w v) (f' o' w' v'))
    (hg : ∀ b : List T, b.length = n → CRel r l (g b) (g' b)) :
    CRel r (n * (k + 3) + l) (Counted.zipUpdate f j out window vals >>= g) (Except.ok (RustDct.zipUpdate f' j out window vals) >>= g') := by
  refine CRel.bindL ?_ hg
  have h := CRel.updZip (f := fun o (p : Cn T × Cn T) => f o p.1 p.2) (f' := fun o (p : T × T) => f' o p.1 p.2) (dst := out.drop j) (srcs := (window.drop j).zip vals) (n := n)
    (k := k) ((Nat.min_le_left _ _).trans (by simp [hn])) fun b a d c hb hd => hf _ _ _ _ _ _ hb hd.fst hd.snd
  obtain ⟨h1, h2⟩ := h
  unfold Counted.zipUpdate RustDct.zipUpdate
  generalize Counted.updZip (fun o (p : Cn T × Cn T) => f o p.1 p.2) (out.drop j) ((window.drop j).zip vals) = x at h1 h2 ⊢
  obtain ⟨x, m⟩ := x
  dsimp only at h1 h2
  cases h1 with
  | ok h =>
    obtain ⟨rfl, h⟩ := h
    refine ⟨.ok ⟨rfl, ?_⟩, h2⟩
    rw [List.length_append, h, List.length_take, List.length_drop]
    omega

macro_rules
  | `(tactic| capp) => `(tactic| first
    | (guard_bind mdctLoop; exact CRel.bindMdct (by simp only [*]; exact le_rfl) (by intro _ _ _ _; crel) (by vrel) (by intro _ _ _ _; dsimp -zeta only; crel))
    | (guard_bind zipUpdate; exact CRel.bindZipUpdate (by assumption) (by intro _ _ _ _ _ _ _ _ _; vrel) (by intro _ _; crel)))

theorem MdctNaive.mdct_takes (s : RustDct.MdctNaive T) : TakesM s.mdct (12 * s.len * s.len + 10 * s.len) (MdctNaive.mdct s) := by
  refine TakesM.mono (k := _) (by exact TakesM.intro (by intro a b o c ha hb ho hc; crel)) ?_
  simp only [Nat.zero_add, max_self]
  nlinarith

theorem MdctNaive.imdct_takes (s : RustDct.MdctNaive T) : TakesI s.imdct (12 * s.len * s.len + 10 * s.len) (MdctNaive.imdct s) := by
  refine TakesI.mono (k := _) (by exact TakesI.intro (by intro a o o' c ha ho ho' hc; crel)) ?_
  simp only [Nat.zero_add, max_self]
  nlinarith

theorem MdctViaDct4.mdct_takes {k : Nat} (s : RustDct.MdctViaDct4 T) (h : Takes s.dct.dct4 k inner.dct4) :
    TakesM s.mdct (k + 22 * s.len) (MdctViaDct4.mdct inner s) := by
  refine TakesM.mono (k := _) (by exact TakesM.intro (by intro a b o c ha hb ho hc; crel)) ?_
  omega

theorem MdctViaDct4.imdct_takes {k : Nat} (s : RustDct.MdctViaDct4 T) (h : Takes s.dct.dct4 k inner.dct4) :
    TakesI s.imdct (k + 22 * s.len) (MdctViaDct4.imdct inner s) := by
  refine TakesI.mono (k := _) (by exact TakesI.intro (by intro a o o' c ha ho ho' hc; crel)) ?_
  omega

end RustDct.Counted
