import Verif.Cost.Logic
/-!
# Steps of the algorithms that use an FFT
-/

set_option linter.all false
set_option maxHeartbeats 4000000
set_option maxRecDepth 8000

namespace RustDct.Counted

variable {T F : Type} [F64 F] [DctNum T F]

theorem CRel.bindMirror {ρ ρ' : Type} {r : ρ → ρ' → Prop} {buffer : List T} {len i l : Nat} {f : Cn T → Run ρ} {f' : T → Except Err ρ'}
    (hf : ∀ x x', Num 0 x x' → CRel r l (f x) (f' x')) : CRel r (1 + l) (Counted.rdMirror buffer len i >>= f) (RustDct.rdMirror buffer len i >>= f') := by
  refine CRel.bind ?_ hf
  unfold Counted.rdMirror RustDct.rdMirror
  exact CRel.bindCsub (CRel.bindCsub CRel.rd)

theorem fillWhileInput_aux {len k c : Nat} {value : Nat → Run (Cx (Cn T))} {value' : Nat → Except Err (Cx T)}
    (hv : ∀ i, CRel (Num k) c (value i) (value' i)) (d : Nat) : ∀ (ii fi : Nat) (b : List (Cx T)), len - ii = d →
    CRel Eq (d * (c + (k + 1))) (fillWhileInput len value ii fi b) (RustDct.fillWhileInput len value' ii fi b) := by
  induction d using Nat.strong_induction_on with
  | _ d ih =>
    intro ii fi b hd
    unfold fillWhileInput RustDct.fillWhileInput
    split
    · rename_i hlt
      have h1 := ih (len - (ii + 4)) (by omega) (ii + 4)
      have h2 : len - (ii + 4) + 1 ≤ d := by omega
      refine CRel.mono (k := c + (k + 1 + (len - (ii + 4)) * (c + (k + 1)))) ?_ ?_
      · exact CRel.bind (hv ii) fun v v' hv => CRel.bindWr rfl hv fun b' _ => h1 _ _ rfl
      · have := Nat.mul_le_mul_right (c + (k + 1)) h2
        rw [Nat.add_mul, Nat.one_mul] at this
        omega
    · exact (CRel.pure rfl).mono (Nat.zero_le _)

theorem CRel.fillWhileInput {len k c ii fi : Nat} {b : List (Cx T)} {value : Nat → Run (Cx (Cn T))} {value' : Nat → Except Err (Cx T)}
    (hv : ∀ i, CRel (Num k) c (value i) (value' i)) :
    CRel Eq (len * (c + (k + 1))) (Counted.fillWhileInput len value ii fi b) (RustDct.fillWhileInput len value' ii fi b) :=
  (fillWhileInput_aux hv _ ii fi b rfl).mono (Nat.mul_le_mul_right _ (Nat.sub_le _ _))

theorem fillWhileFft_aux {len k c : Nat} {value : Nat → Run (Cx (Cn T))} {value' : Nat → Except Err (Cx T)}
    (hv : ∀ i, CRel (Num k) c (value i) (value' i)) (d : Nat) : ∀ (ii fi : Nat) (b : List (Cx T)), len - fi = d →
    CRel Eq (d * (c + (k + 1))) (fillWhileFft len value ii fi b) (RustDct.fillWhileFft len value' ii fi b) := by
  induction d using Nat.strong_induction_on with
  | _ d ih =>
    intro ii fi b hd
    unfold fillWhileFft RustDct.fillWhileFft
    split
    · rename_i hlt
      have h1 := ih (len - (fi + 1)) (by omega) (ii + 4) (fi + 1)
      have h2 : len - (fi + 1) + 1 ≤ d := by omega
      refine CRel.mono (k := c + (k + 1 + (len - (fi + 1)) * (c + (k + 1)))) ?_ ?_
      · exact CRel.bind (hv ii) fun v v' hv => CRel.bindWr rfl hv fun b' _ => h1 _ rfl
      · have := Nat.mul_le_mul_right (c + (k + 1)) h2
        rw [Nat.add_mul, Nat.one_mul] at this
        omega
    · exact (CRel.pure rfl).mono (Nat.zero_le _)

theorem CRel.fillWhileFft {len k c ii fi : Nat} {b : List (Cx T)} {value : Nat → Run (Cx (Cn T))} {value' : Nat → Except Err (Cx T)}
    (hv : ∀ i, CRel (Num k) c (value i) (value' i)) :
    CRel Eq (len * (c + (k + 1))) (Counted.fillWhileFft len value ii fi b) (RustDct.fillWhileFft len value' ii fi b) :=
  (fillWhileFft_aux hv _ ii fi b rfl).mono (Nat.mul_le_mul_right _ (Nat.sub_le _ _))

macro_rules
  | `(tactic| capp) => `(tactic| first
    | (guard_bind rdMirror; exact CRel.bindMirror (by intro _ _ _; crel))
    | (guard_head fillWhileInput; exact CRel.fillWhileInput (by intro _; crel))
    | (guard_head fillWhileFft; exact CRel.fillWhileFft (by intro _; crel)))

variable (cost : Fft T → Nat)

theorem Dct1ConvertToFft.dct1_takes (s : RustDct.Dct1ConvertToFft T) : Takes s.dct1 (cost s.fft + 30 * s.len + 30) (Dct1ConvertToFft.dct1 cost s) := by
  takes
  omega

theorem Dst1ConvertToFft.dst1_takes (s : RustDct.Dst1ConvertToFft T) : Takes s.dst1 (cost s.fft + 30 * s.len + 30) (Dst1ConvertToFft.dst1 cost s) := by
  takes
  omega

theorem Type2And3ConvertToFft.dct2_takes (s : RustDct.Type2And3ConvertToFft T) : Takes s.dct2 (cost s.fft + 30 * s.len + 30) (Type2And3ConvertToFft.dct2 cost s) := by
  takes
  omega

theorem Type2And3ConvertToFft.dst2_takes (s : RustDct.Type2And3ConvertToFft T) : Takes s.dst2 (cost s.fft + 30 * s.len + 30) (Type2And3ConvertToFft.dst2 cost s) := by
  takes
  omega

theorem Type2And3ConvertToFft.dct3_takes (s : RustDct.Type2And3ConvertToFft T) : Takes s.dct3 (cost s.fft + 30 * s.len + 30) (Type2And3ConvertToFft.dct3 cost s) := by
  takes
  omega

theorem Type2And3ConvertToFft.dst3_takes (s : RustDct.Type2And3ConvertToFft T) : Takes s.dst3 (cost s.fft + 30 * s.len + 30) (Type2And3ConvertToFft.dst3 cost s) := by
  takes
  omega

theorem Type4ConvertToFftOdd.dct4_takes (s : RustDct.Type4ConvertToFftOdd T) : Takes s.dct4 (cost s.fft + 30 * s.len + 30) (Type4ConvertToFftOdd.dct4 cost s) := by
  takes
  omega

theorem Type4ConvertToFftOdd.dst4_takes (s : RustDct.Type4ConvertToFftOdd T) : Takes s.dst4 (cost s.fft + 30 * s.len + 30) (Type4ConvertToFftOdd.dst4 cost s) := by
  takes
  omega

theorem Dst6And7ConvertToFft.dst6_takes (s : RustDct.Dst6And7ConvertToFft T) : Takes s.dst6 (cost s.fft + 30 * s.len + 30) (Dst6And7ConvertToFft.dst6 cost s) := by
  takes
  omega

theorem Dst6And7ConvertToFft.dst7_takes (s : RustDct.Dst6And7ConvertToFft T) : Takes s.dst7 (cost s.fft + 30 * s.len + 30) (Dst6And7ConvertToFft.dst7 cost s) := by
  takes
  omega

end RustDct.Counted
