import Verif.Model.WordLen
import Verif.Props.WordPlan
/-!
# C80: asking an instance for its length

`len()` is computed from the length of a table.  The theorems say that this gives, for every instance a constructor returned on the machine, the length
of the unbounded model, without overflow; the length asked for may be any value of `usize`.
-/

set_option linter.all false

namespace RustDct

section
variable {T : Type} {F : Type} [F64 F] [DctNum T F] {M : Target} {n : ℕ}

theorem add_div_ok {x a b : ℕ} (h : x + a < M.values) : (do let s ← M.arith (x + a); .ok (s / b)) = (.ok ((x + a) / b) : Except Err ℕ) := by
  rw [arith_ok h]; rfl

theorem sub_div_ok {x a b : ℕ} (h : a ≤ x) : (do let s ← M.sub x a; .ok (s / b)) = (.ok ((x - a) / b) : Except Err ℕ) := by
  unfold Machine.sub; rw [if_pos h]; rfl

/-- The table of an instance that could be made is not longer than a `Vec` can be. -/
theorem C80_dct1 (hr : M.Realistic) {x : Dct1Naive T} (h : Dct1Naive.newOn M n = .ok x) : x.lenOn M.toMachine = .ok x.len := by
  have r := hr.room
  have r' := hr.large
  unfold Dct1Naive.newOn at h
  split at h
  · cases h
  obtain ⟨a, -, h⟩ := of_bind_ok h
  obtain ⟨b, -, h⟩ := of_bind_ok h
  obtain ⟨t, ht, h⟩ := of_bind_ok h
  cases h
  obtain ⟨h1, h2⟩ := collect_length ht
  exact arith_ok (by show t.length / 2 + 1 < _; rw [h2]; omega)

/-- For the DST1 the length has to be one a buffer can have, or the build must check for overflow, see `C80_dst1_wraps`. -/
theorem C80_dst1 (hr : M.Realistic) (hn : M.wraps = false ∨ n ≤ M.maxVec) {x : Dst1Naive T} (h : Dst1Naive.newOn M n = .ok x) : x.lenOn M.toMachine = .ok x.len := by
  have r := hr.room
  have r' := hr.large
  unfold Dst1Naive.newOn at h
  have h := arith_bind h (hn.imp_right fun h => by omega)
  have h := arith_bind h (hn.imp_right fun h => by omega)
  obtain ⟨t, ht, h⟩ := of_bind_ok h
  cases h
  obtain ⟨h1, h2⟩ := collect_length ht
  show M.sub (t.length / 2) 1 = .ok (t.length / 2 - 1)
  unfold Machine.sub
  rw [if_pos (by omega)]

theorem C80_dct5 (hr : M.Realistic) {x : Dct5Naive T} (h : Dct5Naive.newOn M n = .ok x) : x.lenOn M.toMachine = .ok x.len := by
  have r := hr.room
  have r' := hr.large
  unfold Dct5Naive.newOn at h
  obtain ⟨a, -, h⟩ := of_bind_ok h
  obtain ⟨b, -, h⟩ := of_bind_ok h
  obtain ⟨t, ht, h⟩ := of_bind_ok h
  cases h
  obtain ⟨h1, h2⟩ := collect_length ht
  exact add_div_ok (by show t.length + 1 < _; omega)

theorem C80_dct67 (hr : M.Realistic) {x : Dct6And7Naive T} (h : Dct6And7Naive.newOn M n = .ok x) : x.lenOn M.toMachine = .ok x.len := by
  have r := hr.room
  have r' := hr.large
  unfold Dct6And7Naive.newOn at h
  obtain ⟨a, -, h⟩ := of_bind_ok h
  obtain ⟨b, -, h⟩ := of_bind_ok h
  obtain ⟨c, -, h⟩ := of_bind_ok h
  obtain ⟨d, -, h⟩ := of_bind_ok h
  obtain ⟨t, ht, h⟩ := of_bind_ok h
  cases h
  obtain ⟨h1, h2⟩ := collect_length ht
  exact add_div_ok (by show t.length + 2 < _; omega)

theorem C80_dst8 (hr : M.Realistic) {x : Dst8Naive T} (h : Dst8Naive.newOn M n = .ok x) : x.lenOn M.toMachine = .ok x.len := by
  have r := hr.room
  have r' := hr.large
  unfold Dst8Naive.newOn at h
  obtain ⟨a, -, h⟩ := of_bind_ok h
  obtain ⟨b, -, h⟩ := of_bind_ok h
  obtain ⟨c, -, h⟩ := of_bind_ok h
  obtain ⟨d, -, h⟩ := of_bind_ok h
  obtain ⟨t, ht, h⟩ := of_bind_ok h
  cases h
  obtain ⟨h1, h2⟩ := collect_length ht
  exact add_div_ok (by show t.length + 2 < _; omega)

/-- The value of an addition modulo an even number of values has the parity of the sum. -/
theorem arith_mod {d x y : ℕ} (hd : d ∣ M.values) (h : M.arith x = .ok y) : y % d = x % d := by
  unfold Machine.arith at h
  split at h
  · cases h; rfl
  · split at h
    · cases h; exact Nat.mod_mod_of_dvd _ hd
    · cases h

theorem C80_dst5 (hr : M.Realistic) {x : Dst5Naive T} (h : Dst5Naive.newOn M n = .ok x) : x.lenOn M.toMachine = .ok x.len := by
  have r := hr.word
  unfold Dst5Naive.newOn at h
  obtain ⟨a, ha, h⟩ := of_bind_ok h
  obtain ⟨b, hb, h⟩ := of_bind_ok h
  obtain ⟨t, ht, h⟩ := of_bind_ok h
  cases h
  obtain ⟨h1, h2⟩ := collect_length ht
  have d2 : 2 ∣ M.values := (by norm_num : 2 ∣ 4).trans r
  have e1 := arith_mod d2 ha
  have e2 := arith_mod d2 hb
  exact sub_div_ok (by show 1 ≤ t.length; omega)

theorem C80_dst67 (hr : M.Realistic) {x : Dst6And7Naive T} (h : Dst6And7Naive.newOn M n = .ok x) : x.lenOn M.toMachine = .ok x.len := by
  have r := hr.word
  unfold Dst6And7Naive.newOn at h
  obtain ⟨a, -, h⟩ := of_bind_ok h
  obtain ⟨b, -, h⟩ := of_bind_ok h
  obtain ⟨c, hc, h⟩ := of_bind_ok h
  obtain ⟨d, hd, h⟩ := of_bind_ok h
  obtain ⟨t, ht, h⟩ := of_bind_ok h
  cases h
  obtain ⟨h1, h2⟩ := collect_length ht
  have e1 := arith_mod r hc
  have e2 := arith_mod r hd
  exact sub_div_ok (by show 2 ≤ t.length; omega)

theorem C80_dct8 (hr : M.Realistic) {x : Dct8Naive T} (h : Dct8Naive.newOn M n = .ok x) : x.lenOn M.toMachine = .ok x.len := by
  have r := hr.word
  unfold Dct8Naive.newOn at h
  obtain ⟨a, -, h⟩ := of_bind_ok h
  obtain ⟨b, -, h⟩ := of_bind_ok h
  obtain ⟨c, hc, h⟩ := of_bind_ok h
  obtain ⟨d, hd, h⟩ := of_bind_ok h
  obtain ⟨t, ht, h⟩ := of_bind_ok h
  cases h
  obtain ⟨h1, h2⟩ := collect_length ht
  have e1 := arith_mod r hc
  have e2 := arith_mod r hd
  exact sub_div_ok (by show 2 ≤ t.length; omega)

/-- Whatever the two inner instances are. -/
theorem C80_splitRadix (hr : M.Realistic) {half quarter : Obj23 T} {x : Type2And3SplitRadix T} (h : Type2And3SplitRadix.newOn M half quarter = .ok x) :
    x.lenOn M.toMachine = .ok x.len := by
  have r := hr.room
  unfold Type2And3SplitRadix.newOn at h
  obtain ⟨a, -, h⟩ := of_bind_ok h
  split at h
  · cases h
  obtain ⟨b, -, h⟩ := of_bind_ok h
  split at h
  · cases h
  obtain ⟨-, -, h⟩ := of_bind_ok h
  dsimp only at h
  split at h <;>
  · obtain ⟨c, -, h⟩ := of_bind_ok h
    obtain ⟨t, ht, h⟩ := of_bind_ok h
    cases h
    obtain ⟨h1, h2⟩ := collect_length ht
    exact arith_ok (by show t.length * 4 < _; omega)

theorem C80_type4Even (hr : M.Realistic) {inner : Obj23 T} {x : Type4ConvertToType3Even T} (h : Type4ConvertToType3Even.newOn M inner = .ok x) :
    x.lenOn M.toMachine = .ok x.len := by
  have r := hr.room
  unfold Type4ConvertToType3Even.newOn at h
  obtain ⟨a, -, h⟩ := of_bind_ok h
  obtain ⟨-, -, h⟩ := of_bind_ok h
  dsimp only at h
  split at h <;>
  · obtain ⟨c, -, h⟩ := of_bind_ok h
    obtain ⟨t, ht, h⟩ := of_bind_ok h
    split at h <;>
    · obtain ⟨d, -, h⟩ := of_bind_ok h
      cases h
      obtain ⟨h1, h2⟩ := collect_length ht
      exact arith_ok (by show t.length * 2 < _; omega)

/-- A finding: in a release build `Dst1Naive::new(usize::MAX / 2)` does not panic but returns an instance with an empty table, and its `len()` is
`usize::MAX`. -/
theorem C80_dst1_wraps (hr : M.Realistic) (hw : M.wraps = true) :
    ∃ x : Dst1Naive T, Dst1Naive.newOn M ((M.values - 1) / 2) = .ok x ∧ x.twiddles = [] ∧ x.lenOn M.toMachine = .ok (M.values - 1) := by
  have r := hr.room
  have r' := hr.large
  obtain ⟨k, hk⟩ := hr.word
  refine ⟨⟨[]⟩, ?_, rfl, ?_⟩
  · unfold Dst1Naive.newOn
    rw [arith_ok (by omega)]
    have e : M.arith (((M.values - 1) / 2 + 1) * 2) = .ok 0 := by
      have : ((M.values - 1) / 2 + 1) * 2 = M.values := by omega
      rw [this]
      unfold Machine.arith
      rw [if_neg (by omega), if_pos hw, Nat.mod_self]
    rw [ok_bind, e, ok_bind]
    rfl
  · unfold Dst1Naive.lenOn Machine.sub
    rw [List.length_nil, if_neg (by omega), if_pos hw]
    congr 1
    omega

/-! ### Non-vacuity -/

example : ∃ x : Dct6And7Naive T, Dct6And7Naive.newOn ⟨⟨2 ^ 64, true⟩, 2 ^ 60⟩ 1000 = .ok x := by
  unfold Dct6And7Naive.newOn
  exact ⟨_, rfl⟩

end
end RustDct
