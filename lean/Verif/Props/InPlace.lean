import Verif.Proofs.InPlace
import Verif.Props.Transforms
/-!
# C76: the public unsafe methods of the butterflies

`process_inplace_dct2` and its relatives (src/algorithm/type2and3_butterflies.rs) are public, `unsafe`, take one slice and check nothing.
-/

set_option linter.all false

namespace RustDct

section
variable {T : Type}

/-- What a caller of an unchecked in-place method `p` of size `n` can rely on, and what it must guarantee: with at least `n` elements, the
first `n` become what the safe method `q` makes of them, and those behind are left alone; with fewer elements there is undefined behaviour. -/
def InPlace (n : Nat) (p : List T → Except Err (List T)) (q : Proc T) : Prop :=
  (∀ l rest scr, l.length = n → ∃ l', l'.length = n ∧ p (l ++ rest) = .ok (l' ++ rest) ∧ q ⟨l, scr⟩ = .ok ⟨l', scr⟩) ∧
  ∀ l, l.length < n → p l = .error .ub

theorem InPlace.of {n : Nat} {p : List T → Except Err (List T)} {q : Proc T} (hq : q = fun m => validateBuffer m n p)
    (ex : ∀ l, l.length = n → ∃ r, p l = .ok r ∧ r.length = n) (fr : ∀ l r : List T, l.length = n → Framed n r (p l) (p (l ++ r)))
    (hit : ∀ l, l.length < n → Hits (p l)) : InPlace n p q := by
  refine ⟨fun l rest scr hl => ?_, hit⟩
  obtain ⟨l', e, h⟩ := ex l hl
  refine ⟨l', h, ?_, ?_⟩
  · rw [(fr l rest hl).1, e]; rfl
  · rw [hq]
    unfold validateBuffer
    beta_reduce
    rw [if_neg (not_not.2 hl)]
    dsimp only
    rw [e]

end

section
variable {T : Type} {F : Type} [F64 F] [DctNum T F]

theorem C76_butterfly2 : InPlace 2 (Type2And3Butterfly2.new : Type2And3Butterfly2 T).inplaceDct2 (Type2And3Butterfly2.new : Type2And3Butterfly2 T).dct2 ∧ InPlace 2 (Type2And3Butterfly2.new : Type2And3Butterfly2 T).inplaceDct3 (Type2And3Butterfly2.new : Type2And3Butterfly2 T).dct3 ∧
    InPlace 2 (Type2And3Butterfly2.new : Type2And3Butterfly2 T).inplaceDst2 (Type2And3Butterfly2.new : Type2And3Butterfly2 T).dst2 ∧ InPlace 2 (Type2And3Butterfly2.new : Type2And3Butterfly2 T).inplaceDst3 (Type2And3Butterfly2.new : Type2And3Butterfly2 T).dst3 :=
  ⟨.of (Type2And3Butterfly2.dct2_body _) Type2And3Butterfly2.inplace_ex_dct2 (fun l r h => Type2And3Butterfly2.framed_Dct2 _ h) (fun l h => Type2And3Butterfly2.hits_Dct2 _ h),
   .of (Type2And3Butterfly2.dct3_body _) Type2And3Butterfly2.inplace_ex_dct3 (fun l r h => Type2And3Butterfly2.framed_Dct3 _ h) (fun l h => Type2And3Butterfly2.hits_Dct3 _ h),
   .of (Type2And3Butterfly2.dst2_body _) Type2And3Butterfly2.inplace_ex_dst2 (fun l r h => Type2And3Butterfly2.framed_Dst2 _ h) (fun l h => Type2And3Butterfly2.hits_Dst2 _ h),
   .of (Type2And3Butterfly2.dst3_body _) Type2And3Butterfly2.inplace_ex_dst3 (fun l r h => Type2And3Butterfly2.framed_Dst3 _ h) (fun l h => Type2And3Butterfly2.hits_Dst3 _ h)⟩

theorem C76_butterfly3 : InPlace 3 (Type2And3Butterfly3.new : Type2And3Butterfly3 T).inplaceDct2 (Type2And3Butterfly3.new : Type2And3Butterfly3 T).dct2 ∧ InPlace 3 (Type2And3Butterfly3.new : Type2And3Butterfly3 T).inplaceDct3 (Type2And3Butterfly3.new : Type2And3Butterfly3 T).dct3 ∧
    InPlace 3 (Type2And3Butterfly3.new : Type2And3Butterfly3 T).inplaceDst2 (Type2And3Butterfly3.new : Type2And3Butterfly3 T).dst2 ∧ InPlace 3 (Type2And3Butterfly3.new : Type2And3Butterfly3 T).inplaceDst3 (Type2And3Butterfly3.new : Type2And3Butterfly3 T).dst3 :=
  ⟨.of rfl Type2And3Butterfly3.inplace_ex_dct2 (fun l r h => Type2And3Butterfly3.framed_Dct2 _ h) (fun l h => Type2And3Butterfly3.hits_Dct2 _ h),
   .of rfl Type2And3Butterfly3.inplace_ex_dct3 (fun l r h => Type2And3Butterfly3.framed_Dct3 _ h) (fun l h => Type2And3Butterfly3.hits_Dct3 _ h),
   .of rfl Type2And3Butterfly3.inplace_ex_dst2 (fun l r h => Type2And3Butterfly3.framed_Dst2 _ h) (fun l h => Type2And3Butterfly3.hits_Dst2 _ h),
   .of rfl Type2And3Butterfly3.inplace_ex_dst3 (fun l r h => Type2And3Butterfly3.framed_Dst3 _ h) (fun l h => Type2And3Butterfly3.hits_Dst3 _ h)⟩

theorem C76_butterfly4 : InPlace 4 (Type2And3Butterfly4.new : Type2And3Butterfly4 T).inplaceDct2 (Type2And3Butterfly4.new : Type2And3Butterfly4 T).dct2 ∧ InPlace 4 (Type2And3Butterfly4.new : Type2And3Butterfly4 T).inplaceDct3 (Type2And3Butterfly4.new : Type2And3Butterfly4 T).dct3 ∧
    InPlace 4 (Type2And3Butterfly4.new : Type2And3Butterfly4 T).inplaceDst2 (Type2And3Butterfly4.new : Type2And3Butterfly4 T).dst2 ∧ InPlace 4 (Type2And3Butterfly4.new : Type2And3Butterfly4 T).inplaceDst3 (Type2And3Butterfly4.new : Type2And3Butterfly4 T).dst3 :=
  ⟨.of rfl Type2And3Butterfly4.inplace_ex_dct2 (fun l r h => Type2And3Butterfly4.framed_Dct2 _ h) (fun l h => Type2And3Butterfly4.hits_Dct2 _ h),
   .of rfl Type2And3Butterfly4.inplace_ex_dct3 (fun l r h => Type2And3Butterfly4.framed_Dct3 _ h) (fun l h => Type2And3Butterfly4.hits_Dct3 _ h),
   .of rfl Type2And3Butterfly4.inplace_ex_dst2 (fun l r h => Type2And3Butterfly4.framed_Dst2 _ h) (fun l h => Type2And3Butterfly4.hits_Dst2 _ h),
   .of rfl Type2And3Butterfly4.inplace_ex_dst3 (fun l r h => Type2And3Butterfly4.framed_Dst3 _ h) (fun l h => Type2And3Butterfly4.hits_Dst3 _ h)⟩

theorem C76_butterfly8 : InPlace 8 (Type2And3Butterfly8.new : Type2And3Butterfly8 T).inplaceDct2 (Type2And3Butterfly8.new : Type2And3Butterfly8 T).dct2 ∧ InPlace 8 (Type2And3Butterfly8.new : Type2And3Butterfly8 T).inplaceDct3 (Type2And3Butterfly8.new : Type2And3Butterfly8 T).dct3 ∧
    InPlace 8 (Type2And3Butterfly8.new : Type2And3Butterfly8 T).inplaceDst2 (Type2And3Butterfly8.new : Type2And3Butterfly8 T).dst2 ∧ InPlace 8 (Type2And3Butterfly8.new : Type2And3Butterfly8 T).inplaceDst3 (Type2And3Butterfly8.new : Type2And3Butterfly8 T).dst3 :=
  ⟨.of rfl Type2And3Butterfly8.inplace_ex_dct2 (fun l r h => Type2And3Butterfly8.framed_Dct2 _ h) (fun l h => Type2And3Butterfly8.hits_Dct2 _ h),
   .of rfl Type2And3Butterfly8.inplace_ex_dct3 (fun l r h => Type2And3Butterfly8.framed_Dct3 _ h) (fun l h => Type2And3Butterfly8.hits_Dct3 _ h),
   .of rfl Type2And3Butterfly8.inplace_ex_dst2 (fun l r h => Type2And3Butterfly8.framed_Dst2 _ h) (fun l h => Type2And3Butterfly8.hits_Dst2 _ h),
   .of rfl Type2And3Butterfly8.inplace_ex_dst3 (fun l r h => Type2And3Butterfly8.framed_Dst3 _ h) (fun l h => Type2And3Butterfly8.hits_Dst3 _ h)⟩

theorem C76_butterfly16 : InPlace 16 (Type2And3Butterfly16.new : Type2And3Butterfly16 T).inplaceDct2 (Type2And3Butterfly16.new : Type2And3Butterfly16 T).dct2 ∧ InPlace 16 (Type2And3Butterfly16.new : Type2And3Butterfly16 T).inplaceDct3 (Type2And3Butterfly16.new : Type2And3Butterfly16 T).dct3 ∧
    InPlace 16 (Type2And3Butterfly16.new : Type2And3Butterfly16 T).inplaceDst2 (Type2And3Butterfly16.new : Type2And3Butterfly16 T).dst2 ∧ InPlace 16 (Type2And3Butterfly16.new : Type2And3Butterfly16 T).inplaceDst3 (Type2And3Butterfly16.new : Type2And3Butterfly16 T).dst3 :=
  ⟨.of rfl Type2And3Butterfly16.inplace_ex_dct2 (fun l r h => Type2And3Butterfly16.framed_Dct2 _ h) (fun l h => Type2And3Butterfly16.hits_Dct2 _ ⟨_, _, rfl⟩ h),
   .of rfl Type2And3Butterfly16.inplace_ex_dct3 (fun l r h => Type2And3Butterfly16.framed_Dct3 _ h) (fun l h => Type2And3Butterfly16.hits_Dct3 _ ⟨_, _, rfl⟩ h),
   .of rfl Type2And3Butterfly16.inplace_ex_dst2 (fun l r h => Type2And3Butterfly16.framed_Dst2 _ h) (fun l h => Type2And3Butterfly16.hits_Dst2 _ ⟨_, _, rfl⟩ h),
   .of rfl Type2And3Butterfly16.inplace_ex_dst3 (fun l r h => Type2And3Butterfly16.framed_Dst3 _ h) (fun l h => Type2And3Butterfly16.hits_Dst3 _ ⟨_, _, rfl⟩ h)⟩

end

/-- Over the real numbers: the first `n` samples are replaced by the textbook transform of them. -/
theorem InPlace.real {n : Nat} {p : List ℝ → Except Err (List ℝ)} {q : Proc ℝ} {G : List ℝ → List ℝ} (h : InPlace n p q) (hq : Performs q n 0 G) (l rest : List ℝ)
    (hl : l.length = n) : p (l ++ rest) = .ok (G l ++ rest) := by
  obtain ⟨l', -, e, e'⟩ := h.1 l rest [] hl
  obtain ⟨scr, e''⟩ := hq.1 ⟨l, []⟩ ⟨hl, Nat.le_refl _⟩
  rw [e'] at e''
  injection e'' with e''
  injection e'' with e''
  rw [e, e'']

/-- C76 over the real numbers. -/
theorem C76_real (l rest : List ℝ) :
    (l.length = 2 → (Type2And3Butterfly2.new : Type2And3Butterfly2 ℝ).inplaceDct2 (l ++ rest) = .ok (Spec.dct2 l ++ rest) ∧ (Type2And3Butterfly2.new : Type2And3Butterfly2 ℝ).inplaceDct3 (l ++ rest) = .ok (Spec.dct3 l ++ rest) ∧ (Type2And3Butterfly2.new : Type2And3Butterfly2 ℝ).inplaceDst2 (l ++ rest) = .ok (Spec.dst2 l ++ rest) ∧ (Type2And3Butterfly2.new : Type2And3Butterfly2 ℝ).inplaceDst3 (l ++ rest) = .ok (Spec.dst3 l ++ rest)) ∧
    (l.length = 3 → (Type2And3Butterfly3.new : Type2And3Butterfly3 ℝ).inplaceDct2 (l ++ rest) = .ok (Spec.dct2 l ++ rest) ∧ (Type2And3Butterfly3.new : Type2And3Butterfly3 ℝ).inplaceDct3 (l ++ rest) = .ok (Spec.dct3 l ++ rest) ∧ (Type2And3Butterfly3.new : Type2And3Butterfly3 ℝ).inplaceDst2 (l ++ rest) = .ok (Spec.dst2 l ++ rest) ∧ (Type2And3Butterfly3.new : Type2And3Butterfly3 ℝ).inplaceDst3 (l ++ rest) = .ok (Spec.dst3 l ++ rest)) ∧
    (l.length = 4 → (Type2And3Butterfly4.new : Type2And3Butterfly4 ℝ).inplaceDct2 (l ++ rest) = .ok (Spec.dct2 l ++ rest) ∧ (Type2And3Butterfly4.new : Type2And3Butterfly4 ℝ).inplaceDct3 (l ++ rest) = .ok (Spec.dct3 l ++ rest) ∧ (Type2And3Butterfly4.new : Type2And3Butterfly4 ℝ).inplaceDst2 (l ++ rest) = .ok (Spec.dst2 l ++ rest) ∧ (Type2And3Butterfly4.new : Type2And3Butterfly4 ℝ).inplaceDst3 (l ++ rest) = .ok (Spec.dst3 l ++ rest)) ∧
    (l.length = 8 → (Type2And3Butterfly8.new : Type2And3Butterfly8 ℝ).inplaceDct2 (l ++ rest) = .ok (Spec.dct2 l ++ rest) ∧ (Type2And3Butterfly8.new : Type2And3Butterfly8 ℝ).inplaceDct3 (l ++ rest) = .ok (Spec.dct3 l ++ rest) ∧ (Type2And3Butterfly8.new : Type2And3Butterfly8 ℝ).inplaceDst2 (l ++ rest) = .ok (Spec.dst2 l ++ rest) ∧ (Type2And3Butterfly8.new : Type2And3Butterfly8 ℝ).inplaceDst3 (l ++ rest) = .ok (Spec.dst3 l ++ rest)) ∧
    (l.length = 16 → (Type2And3Butterfly16.new : Type2And3Butterfly16 ℝ).inplaceDct2 (l ++ rest) = .ok (Spec.dct2 l ++ rest) ∧ (Type2And3Butterfly16.new : Type2And3Butterfly16 ℝ).inplaceDct3 (l ++ rest) = .ok (Spec.dct3 l ++ rest) ∧ (Type2And3Butterfly16.new : Type2And3Butterfly16 ℝ).inplaceDst2 (l ++ rest) = .ok (Spec.dst2 l ++ rest) ∧ (Type2And3Butterfly16.new : Type2And3Butterfly16 ℝ).inplaceDst3 (l ++ rest) = .ok (Spec.dst3 l ++ rest)) :=
  ⟨fun h => ⟨InPlace.real C76_butterfly2.1 (C02_made .butterfly2 ) l rest h, InPlace.real C76_butterfly2.2.1 (C03_made .butterfly2 (show 1 ≤ _ by decide)) l rest h, InPlace.real C76_butterfly2.2.2.1 (C10_made .butterfly2 ) l rest h, InPlace.real C76_butterfly2.2.2.2 (C11_made .butterfly2 (show 1 ≤ _ by decide)) l rest h⟩,
   fun h => ⟨InPlace.real C76_butterfly3.1 (C02_made .butterfly3 ) l rest h, InPlace.real C76_butterfly3.2.1 (C03_made .butterfly3 (show 1 ≤ _ by decide)) l rest h, InPlace.real C76_butterfly3.2.2.1 (C10_made .butterfly3 ) l rest h, InPlace.real C76_butterfly3.2.2.2 (C11_made .butterfly3 (show 1 ≤ _ by decide)) l rest h⟩,
   fun h => ⟨InPlace.real C76_butterfly4.1 (C02_made .butterfly4 ) l rest h, InPlace.real C76_butterfly4.2.1 (C03_made .butterfly4 (show 1 ≤ _ by decide)) l rest h, InPlace.real C76_butterfly4.2.2.1 (C10_made .butterfly4 ) l rest h, InPlace.real C76_butterfly4.2.2.2 (C11_made .butterfly4 (show 1 ≤ _ by decide)) l rest h⟩,
   fun h => ⟨InPlace.real C76_butterfly8.1 (C02_made .butterfly8 ) l rest h, InPlace.real C76_butterfly8.2.1 (C03_made .butterfly8 (show 1 ≤ _ by decide)) l rest h, InPlace.real C76_butterfly8.2.2.1 (C10_made .butterfly8 ) l rest h, InPlace.real C76_butterfly8.2.2.2 (C11_made .butterfly8 (show 1 ≤ _ by decide)) l rest h⟩,
   fun h => ⟨InPlace.real C76_butterfly16.1 (C02_made .butterfly16 ) l rest h, InPlace.real C76_butterfly16.2.1 (C03_made .butterfly16 (show 1 ≤ _ by decide)) l rest h, InPlace.real C76_butterfly16.2.2.1 (C10_made .butterfly16 ) l rest h, InPlace.real C76_butterfly16.2.2.2 (C11_made .butterfly16 (show 1 ≤ _ by decide)) l rest h⟩⟩

/-! ### Instances of the hypotheses -/

/-- The DCT2 of size 4, on a slice of 6 elements. -/
example (a b c d e f : ℝ) : (Type2And3Butterfly4.new : Type2And3Butterfly4 ℝ).inplaceDct2 [a, b, c, d, e, f] = .ok (Spec.dct2 [a, b, c, d] ++ [e, f]) :=
  ((C76_real [a, b, c, d] [e, f]).2.2.1 rfl).1

/-- On a slice of 15 elements the butterfly of size 16 is undefined behaviour. -/
example (x : ℝ) : (Type2And3Butterfly16.new : Type2And3Butterfly16 ℝ).inplaceDct3 (List.replicate 15 x) = .error .ub :=
  C76_butterfly16.2.1.2 _ (by simp)

end RustDct
