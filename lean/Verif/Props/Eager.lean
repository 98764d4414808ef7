import Verif.Props.Findings
/-!
# C50: the state in which planned DST2 and DST3 instances reject a call, for every wrong size
-/

set_option linter.all false

namespace RustDct

variable {T : Type} {F : Type} [F64 F] [DctNum T F]
variable {planFft : Nat → Fft T} {calls : List (PlanCall T)} {p : Proc T} {n s : Nat}

/-- A buffer that is too short for the loop: the elements it has are negated before the first access out of bounds. -/
theorem negOdds_short {L : Nat} (cnt : Nat) (h : L < 2 * cnt) (f : Nat → T) :
    negOdds cnt (vec L f) = .error (.index, vec L fun j => if j % 2 = 1 then -(f j) else f j) := by
  obtain ⟨d, rfl⟩ : ∃ d, cnt = L / 2 + (1 + d) := ⟨cnt - L / 2 - 1, by omega⟩
  have h0 : negOdds (L / 2) (vec L f) = .ok (vec L fun j => if j % 2 = 1 then -(f j) else f j) := by
    rw [negOdds_vec (L / 2) (by omega)]
    refine congrArg _ (vec_congr fun j hj => ?_)
    by_cases h1 : j % 2 = 1
    · rw [if_pos ⟨by omega, h1⟩, if_pos h1]
    · rw [if_neg (fun h => h1 h.2), if_neg h1]
  unfold negOdds at h0 ⊢
  rw [List.range_add, List.foldlM_append, h0, List.range_add, List.map_append]
  simp only [ok_bind, List.foldlM_append]
  simp only [List.range_one, List.map_cons, List.map_nil, List.foldlM_cons]
  rw [List.getElem?_eq_none (by rw [length_vec]; omega)]
  rfl

/-- A planned DST2 of length `2^(j+5)`, called with a buffer of another length or with too little scratch, panics after negating every odd-indexed element
(of the first `2^(j+5)`) in the caller's buffer.  Scratch is not touched. -/
theorem C50_dst2 (hf : PlanFftShape planFft) {j : Nat} (h : Planned planFft calls .dst2 p (2 ^ (j + 5)) s) (L : Nat) (f : Nat → T) (scr : List T)
    (hv : ¬ ValidCall (2 ^ (j + 5)) s ⟨vec L f, scr⟩) :
    ∃ e, p ⟨vec L f, scr⟩ = .panic e (some ⟨vec L fun i => if i % 2 = 1 ∧ i < 2 ^ (j + 5) then -(f i) else f i, scr⟩) ∧ e ≠ .ub := by
  generalize hn : 2 ^ (j + 5) = n at h hv ⊢
  cases h with
  | @dst2 n a s' h =>
    have e := Yields.canon (fun W => planDct2_yields n) h
    subst hn
    obtain ⟨q, half, quarter, e4, ho⟩ := canon23_pow hf j
    rw [ho] at e; injection e with e
    rw [← e] at hv ⊢
    have hl := Type2And3SplitRadix.inst_len q half quarter
    change ¬ (_ = _ ∧ (Type2And3SplitRadix.inst q half quarter).len ≤ scr.length) at hv
    rw [hl, ← e4, length_vec] at hv
    change ∃ e, Type2And3SplitRadix.dst2 _ _ = _ ∧ _
    unfold Type2And3SplitRadix.dst2
    rw [hl, show 4 * q / 2 = 2 * q by omega, ← e4]
    by_cases hL : 2 * (2 * q) ≤ L
    · rw [negOdds_vec (2 * q) hL]
      dsimp only
      rw [Type2And3SplitRadix.rejects_dct2 q half quarter _ (by
        rintro ⟨h1, h2⟩; rw [length_vec] at h1; exact hv ⟨h1, h2⟩)]
      have hx : (vec L fun i => if i < 2 * (2 * q) ∧ i % 2 = 1 then -(f i) else f i) = vec L fun i => if i % 2 = 1 ∧ i < 4 * q then -(f i) else f i :=
        vec_congr fun i hi => by rw [show 2 * (2 * q) = 4 * q by omega]; simp only [and_comm]
      rw [hx]
      exact ⟨_, rfl, by split <;> (intro h; cases h)⟩
    · rw [negOdds_short (2 * q) (by omega)]
      dsimp only
      have hx : (vec L fun i => if i % 2 = 1 then -(f i) else f i) = vec L fun i => if i % 2 = 1 ∧ i < 4 * q then -(f i) else f i :=
        vec_congr fun i hi => by simp only [show i < 4 * q by omega, and_true]
      rw [hx]
      exact ⟨_, rfl, fun h => (by cases h)⟩

/-- A planned DST3 of length `2^(j+5)`, called with a buffer of another length or with too little scratch, panics with the caller's buffer reversed. -/
theorem C50_dst3 (hf : PlanFftShape planFft) {j : Nat} (h : Planned planFft calls .dst3 p (2 ^ (j + 5)) s) (buf scr : List T)
    (hv : ¬ ValidCall (2 ^ (j + 5)) s ⟨buf, scr⟩) : ∃ e, p ⟨buf, scr⟩ = .panic e (some ⟨buf.reverse, scr⟩) ∧ e ≠ .ub := by
  generalize hn : 2 ^ (j + 5) = n at h hv ⊢
  cases h with
  | @dst3 n a s' h =>
    have e := Yields.canon (fun W => planDct2_yields n) h
    subst hn
    obtain ⟨q, half, quarter, e4, ho⟩ := canon23_pow hf j
    rw [ho] at e; injection e with e
    rw [← e] at hv ⊢
    have hl := Type2And3SplitRadix.inst_len q half quarter
    change ¬ (_ = _ ∧ (Type2And3SplitRadix.inst q half quarter).len ≤ scr.length) at hv
    rw [hl, ← e4] at hv
    change ∃ e, Type2And3SplitRadix.dst3 _ _ = _ ∧ _
    unfold Type2And3SplitRadix.dst3
    dsimp only
    rw [Type2And3SplitRadix.rejects_dct3 q half quarter _ (by
      rintro ⟨h1, h2⟩; change buf.reverse.length = _ at h1; rw [List.length_reverse] at h1; exact hv ⟨h1, h2⟩)]
    exact ⟨_, rfl, by split <;> (intro h; cases h)⟩

/-- The hypotheses are met: a planned DST2 of length 64 exists, and a buffer of 63 elements is a wrong size. -/
example (hf : PlanFftShape planFft) (scr : List T) (f : Nat → T) :
    ∃ p s, Planned planFft [] .dst2 p (2 ^ (1 + 5)) s ∧ ¬ ValidCall (2 ^ (1 + 5)) s ⟨vec 63 f, scr⟩ := by
  obtain ⟨p, s, h⟩ := planned_exists hf [] .dst2 (n := 2 ^ (1 + 5)) (by norm_num)
  refine ⟨p, s, h, ?_⟩
  rintro ⟨h1, -⟩
  rw [length_vec] at h1
  norm_num at h1

end RustDct
