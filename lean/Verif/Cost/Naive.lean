import Verif.Cost.Logic
/-!
# Steps of the naive algorithms
-/

set_option linter.all false
set_option maxHeartbeats 4000000

namespace RustDct.Counted

variable {T F : Type} [F64 F] [DctNum T F]

theorem CRel.strideLoop {W V : Type} [Cell W V] {twiddles : List W} {scratch : List T} {stride : Nat} {f : Cn T → Cn T → V → Cn T} {f' : T → T → W → T}
    {lo idx k n : Nat} {c : Cn T} {c' : T} (hn : scratch.length = n)
    (hf : ∀ c c' x x' w w', Num 0 c c' → Num 0 x x' → Num 0 w w' → Num k (f c x w) (f' c' x' w')) (hc : Num 0 c c') :
    CRel St (n * (k + 2)) (strideLoop twiddles scratch stride f lo c idx) (RustDct.strideLoop twiddles scratch stride f' lo c' idx) := by
  unfold Counted.strideLoop RustDct.strideLoop
  refine CRel.forRange (by omega) (⟨hc, rfl⟩ : St _ _) ?_
  intro i a a' ha
  obtain ⟨a, b⟩ := a
  obtain ⟨a', b'⟩ := a'
  obtain ⟨ha, rfl⟩ := ha
  dsimp -zeta only at ha ⊢
  refine CRel.mono (k := 1 + (1 + (k + 0))) ?_ (by omega)
  refine CRel.bind CRel.rd fun w w' hw => ?_
  refine CRel.bind CRel.rd fun x x' hx => ?_
  crel_let
  refine CRel.bind (CRel.arith (hf _ _ _ _ _ _ ha hx hw)) fun v v' hv => ?_
  dsimp only
  split
  · exact CRel.pure ⟨hv, rfl⟩
  · exact CRel.pure ⟨hv, rfl⟩

theorem CRel.bindStride {W V ρ ρ' : Type} [Cell W V] {r : ρ → ρ' → Prop} {twiddles : List W} {scratch : List T} {stride : Nat} {f : Cn T → Cn T → V → Cn T} {f' : T → T → W → T}
    {lo idx k n l : Nat} {c : Cn T} {c' : T} {g : Cn T × Nat → Run ρ} {g' : T × Nat → Except Err ρ'} (hn : scratch.length = n)
    (hf : ∀ c c' x x' w w', Num 0 c c' → Num 0 x x' → Num 0 w w' → Num k (f c x w) (f' c' x' w')) (hc : Num 0 c c')
    (hg : ∀ a a' b, Num 0 a a' → CRel r l (g (a, b)) (g' (a', b))) :
    CRel r (n * (k + 2) + l) (Counted.strideLoop twiddles scratch stride f lo c idx >>= g) (RustDct.strideLoop twiddles scratch stride f' lo c' idx >>= g') :=
  (CRel.strideLoop hn hf hc).bind fun a a' h => by
    obtain ⟨a, b⟩ := a
    obtain ⟨a', b'⟩ := a'
    obtain ⟨h, rfl⟩ := h
    exact hg _ _ _ h

macro_rules
  | `(tactic| capp) => `(tactic| exact CRel.bindStride (by assumption) (by intro _ _ _ _ _ _ _ _ _; vrel) (by vrel) (by intro _ _ _ _; dsimp -zeta only; crel))

theorem Dct1Naive.dct1_takes (s : RustDct.Dct1Naive T) : Takes s.dct1 (4 * s.len * s.len + 6 * s.len + 6) (Dct1Naive.dct1 s) := by
  takes
  nlinarith

theorem Dst1Naive.dst1_takes (s : RustDct.Dst1Naive T) : Takes s.dst1 (4 * s.len * s.len + 6 * s.len + 6) (Dst1Naive.dst1 s) := by
  takes
  nlinarith

theorem Type2And3Naive.dct2_takes (s : RustDct.Type2And3Naive T) : Takes s.dct2 (4 * s.len * s.len + 6 * s.len + 6) (Type2And3Naive.dct2 s) := by
  takes
  nlinarith

theorem Type2And3Naive.dst2_takes (s : RustDct.Type2And3Naive T) : Takes s.dst2 (4 * s.len * s.len + 6 * s.len + 6) (Type2And3Naive.dst2 s) := by
  takes
  nlinarith

theorem Type2And3Naive.dct3_takes (s : RustDct.Type2And3Naive T) : Takes s.dct3 (4 * s.len * s.len + 6 * s.len + 6) (Type2And3Naive.dct3 s) := by
  takes
  nlinarith

theorem Type2And3Naive.dst3_takes (s : RustDct.Type2And3Naive T) : Takes s.dst3 (4 * s.len * s.len + 6 * s.len + 6) (Type2And3Naive.dst3 s) := by
  takes
  nlinarith

theorem Type4Naive.dct4_takes (s : RustDct.Type4Naive T) : Takes s.dct4 (4 * s.len * s.len + 6 * s.len + 6) (Type4Naive.dct4 s) := by
  takes
  nlinarith

theorem Type4Naive.dst4_takes (s : RustDct.Type4Naive T) : Takes s.dst4 (4 * s.len * s.len + 6 * s.len + 6) (Type4Naive.dst4 s) := by
  takes
  nlinarith

theorem Dct5Naive.dct5_takes (s : RustDct.Dct5Naive T) : Takes s.dct5 (4 * s.len * s.len + 6 * s.len + 6) (Dct5Naive.dct5 s) := by
  takes
  nlinarith

theorem Dst5Naive.dst5_takes (s : RustDct.Dst5Naive T) : Takes s.dst5 (4 * s.len * s.len + 6 * s.len + 6) (Dst5Naive.dst5 s) := by
  takes
  nlinarith

theorem Dct6And7Naive.dct6_takes (s : RustDct.Dct6And7Naive T) : Takes s.dct6 (4 * s.len * s.len + 6 * s.len + 6) (Dct6And7Naive.dct6 s) := by
  takes
  nlinarith

theorem Dct6And7Naive.dct7_takes (s : RustDct.Dct6And7Naive T) : Takes s.dct7 (4 * s.len * s.len + 6 * s.len + 6) (Dct6And7Naive.dct7 s) := by
  takes
  nlinarith

theorem Dst6And7Naive.dst6_takes (s : RustDct.Dst6And7Naive T) : Takes s.dst6 (4 * s.len * s.len + 6 * s.len + 6) (Dst6And7Naive.dst6 s) := by
  takes
  nlinarith

theorem Dst6And7Naive.dst7_takes (s : RustDct.Dst6And7Naive T) : Takes s.dst7 (4 * s.len * s.len + 6 * s.len + 6) (Dst6And7Naive.dst7 s) := by
  takes
  nlinarith

theorem Dct8Naive.dct8_takes (s : RustDct.Dct8Naive T) : Takes s.dct8 (4 * s.len * s.len + 6 * s.len + 6) (Dct8Naive.dct8 s) := by
  takes
  nlinarith

theorem Dst8Naive.dst8_takes (s : RustDct.Dst8Naive T) : Takes s.dst8 (4 * s.len * s.len + 6 * s.len + 6) (Dst8Naive.dst8 s) := by
  takes
  nlinarith

end RustDct.Counted
