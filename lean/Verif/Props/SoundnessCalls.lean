import Verif.Proofs.SoundnessCalls
import Verif.Props.Soundness
/-!
# C59 for inner instances that change from call to call
-/

set_option linter.all false

namespace RustDct

section
variable {T : Type} {F : Type} [F64 F] [DctNum T F]

/-- If the inner instances do not change, the methods with a parameter for each inner call are the methods. -/
theorem C59_calls (x : Type2And3SplitRadix T) :
    x.dct2 = x.dct2With x.halfDct.dct2 x.quarterDct.dct2 x.quarterDct.dct2 ∧ x.dct3 = x.dct3With x.halfDct.dct3 x.quarterDct.dct3 x.quarterDct.dct3 ∧
    x.dst2 = x.dst2With x.halfDct.dct2 x.quarterDct.dct2 x.quarterDct.dct2 ∧ x.dst3 = x.dst3With x.halfDct.dct3 x.quarterDct.dct3 x.quarterDct.dct3 :=
  ⟨rfl, rfl, rfl, rfl⟩

/-- C59 for inner instances with interior mutability: each inner call may be another function `a`, `b`, `c`, as long as it is memory safe. -/
theorem C59_changing {half quarter : Obj23 T} {x : Type2And3SplitRadix T} (h : Type2And3SplitRadix.new half quarter = .ok x) {a b c : Proc T}
    (ha : MemorySafe a) (hb : MemorySafe b) (hc : MemorySafe c) :
    MemorySafe (x.dct2With a b c) ∧ MemorySafe (x.dct3With a b c) ∧ MemorySafe (x.dst2With a b c) ∧ MemorySafe (x.dst3With a b c) := by
  obtain ⟨h1, -, -⟩ := Type2And3SplitRadix.one_le_of_new h
  have d2 := x.mSafe_dct2With (z := false) h1 (mSafe_false.2 ha) (mSafe_false.2 hb) (mSafe_false.2 hc)
  have d3 := x.mSafe_dct3With (z := false) h1 (mSafe_false.2 ha) (mSafe_false.2 hb) (mSafe_false.2 hc)
  exact ⟨d2.memorySafe, d3.memorySafe, (x.mSafe_dst2With d2).memorySafe, (x.mSafe_dst3With d3).memorySafe⟩

/-- The quarter-size instance reverses its buffer when it is called first, and panics when it is called again. -/
example : ∃ x : Type2And3SplitRadix T, Type2And3SplitRadix.new (liar 8) (liar 4) = .ok x ∧
    MemorySafe (x.dct2With (liar 8).dct2 (liar 4).dct2 (fun _ => .panic .assertion none)) := by
  obtain ⟨x, hx⟩ : ∃ x : Type2And3SplitRadix T, Type2And3SplitRadix.new (liar 8) (liar 4) = .ok x :=
    ⟨_, Type2And3SplitRadix.new_eq (q := 4) rfl rfl (by decide)⟩
  exact ⟨x, hx, (C59_changing hx (liar_memorySafe 8).1 (liar_memorySafe 4).1 (fun m => fun h => nomatch h)).1⟩

end
end RustDct
