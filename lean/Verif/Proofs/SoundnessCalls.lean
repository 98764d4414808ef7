import Verif.Proofs.Soundness
import Verif.Model.SplitRadixCalls
/-!
# Memory safety of split radix over changing inner instances
-/

set_option linter.all false

namespace RustDct

section
variable {T : Type} {F : Type} [F64 F] [DctNum T F] {z : Bool}

theorem Type2And3SplitRadix.mSafe_dct2With {half quarter1 quarter2 : Proc T} (x : Type2And3SplitRadix T) (h1 : 1 ≤ x.twiddles.length) (hh : MSafe z half)
    (hq : MSafe z quarter1) (hq2 : MSafe z quarter2) : MSafe z (x.dct2With half quarter1 quarter2) := by
  unfold Type2And3SplitRadix.dct2With Type2And3SplitRadix.scratchLen Type2And3SplitRadix.len
  refine mSafe_validateBuffers fun _ _ _ _ => ?_
  repeat' gstep
  all_goals first | exact trivial | omega | glen

theorem Type2And3SplitRadix.mSafe_dct3With {half quarter1 quarter2 : Proc T} (x : Type2And3SplitRadix T) (h1 : 1 ≤ x.twiddles.length) (hh : MSafe z half)
    (hq : MSafe z quarter1) (hq2 : MSafe z quarter2) : MSafe z (x.dct3With half quarter1 quarter2) := by
  unfold Type2And3SplitRadix.dct3With Type2And3SplitRadix.scratchLen Type2And3SplitRadix.len
  refine mSafe_validateBuffers fun _ _ _ _ => ?_
  repeat' gstep
  all_goals first | exact trivial | omega | glen

theorem Type2And3SplitRadix.mSafe_dst2With {half quarter1 quarter2 : Proc T} (x : Type2And3SplitRadix T) (h : MSafe z (x.dct2With half quarter1 quarter2)) : MSafe z (x.dst2With half quarter1 quarter2) := by
  intro m
  unfold Type2And3SplitRadix.dst2With
  have hn := length_negOdds (x.len / 2) m.buf
  cases e : negOdds (x.len / 2) m.buf with
  | error p =>
    rw [e] at hn
    obtain ⟨e', b⟩ := p
    obtain rfl : e' = .index := hn
    exact id
  | ok b =>
    rw [e] at hn
    dsimp only at hn ⊢
    have := h ⟨b, m.scr⟩
    cases e2 : x.dct2With half quarter1 quarter2 ⟨b, m.scr⟩ with
    | panic e m' => rw [e2] at this; exact this
    | ok m' =>
      rw [e2] at this
      exact ⟨by simpa using this.1.trans hn, this.2⟩

theorem Type2And3SplitRadix.mSafe_dst3With {half quarter1 quarter2 : Proc T} (x : Type2And3SplitRadix T) (h : MSafe z (x.dct3With half quarter1 quarter2)) : MSafe z (x.dst3With half quarter1 quarter2) := by
  intro m
  unfold Type2And3SplitRadix.dst3With
  have := h ⟨m.buf.reverse, m.scr⟩
  cases e2 : x.dct3With half quarter1 quarter2 ⟨m.buf.reverse, m.scr⟩ with
  | panic e m' => rw [e2] at this; exact this
  | ok m' =>
    rw [e2] at this
    dsimp only at this ⊢
    have hn := length_negOdds (x.len / 2) m'.buf
    cases e : negOdds (x.len / 2) m'.buf with
    | error p =>
      rw [e] at hn
      obtain ⟨e', b⟩ := p
      obtain rfl : e' = .index := hn
      exact id
    | ok b =>
      rw [e] at hn
      dsimp only at hn ⊢
      exact ⟨by simpa using hn.trans this.1, this.2⟩

end
end RustDct
