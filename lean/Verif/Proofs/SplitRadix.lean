import Verif.Lib.FftLib
import Verif.Model.SplitRadix
/-!
# What `Type2And3SplitRadix` and `Type4ConvertToType3Even` compute, for every element type
-/

set_option linter.all false

namespace RustDct

section
variable {α : Type}

/-- Writing the value of `A` into a vector that already agrees with `A` where `P` holds. -/
theorem wrU_target {n x : Nat} {P : Nat → Prop} [DecidablePred P] {A g : Nat → α} {v : α} (hx : x < n) (hv : v = A x) :
    wrU (vec n (fun j => if P j then A j else g j)) x v = .ok (vec n (fun j => if P j ∨ j = x then A j else g j)) := by
  rw [wrU_vec hx]
  congr 1
  apply vec_congr
  intro j hj
  by_cases h : j = x
  · subst h; simp [hv]
  · simp [h]

theorem wr_target {n x : Nat} {P : Nat → Prop} [DecidablePred P] {A g : Nat → α} {v : α} (hx : x < n) (hv : v = A x) :
    wr (vec n (fun j => if P j then A j else g j)) x v = .ok (vec n (fun j => if P j ∨ j = x then A j else g j)) := by
  rw [wr_vec hx]
  congr 1
  apply vec_congr
  intro j hj
  by_cases h : j = x
  · subst h; simp [hv]
  · simp [h]

theorem target_congr {n : Nat} {P Q : Nat → Prop} [DecidablePred P] [DecidablePred Q] {A g : Nat → α}
    (h : ∀ j, j < n → (P j ↔ Q j)) :
    vec n (fun j => if P j then A j else g j) = vec n (fun j => if Q j then A j else g j) :=
  vec_congr fun j hj => by simp only [h j hj]

theorem target_start {n : Nat} {P : Nat → Prop} [DecidablePred P] {A g : Nat → α} (h : ∀ j, j < n → ¬ P j) :
    vec n g = vec n (fun j => if P j then A j else g j) :=
  vec_congr fun j hj => by rw [if_neg (h j hj)]

theorem target_done {n : Nat} {P : Nat → Prop} [DecidablePred P] {A g : Nat → α} (h : ∀ j, j < n → P j) :
    vec n (fun j => if P j then A j else g j) = vec n A :=
  vec_congr fun j hj => by rw [if_pos (h j hj)]

end

variable {T : Type} {F : Type} [F64 F] [DctNum T F]

/-- The object built by `Type2And3SplitRadix::new`. -/
def Type2And3SplitRadix.inst (q : Nat) (half quarter : Obj23 T) : Type2And3SplitRadix T :=
  { halfDct := half, quarterDct := quarter
    twiddles := vec q fun i => Cx.conj (singleTwiddle (2 * i + 1) (4 * q * 4)) }

theorem Type2And3SplitRadix.inst_len (q : Nat) (half quarter : Obj23 T) :
    (Type2And3SplitRadix.inst q half quarter).len = 4 * q := by
  simp [Type2And3SplitRadix.inst, Type2And3SplitRadix.len, Nat.mul_comm]

theorem Type2And3SplitRadix.new_eq {half quarter : Obj23 T} {q : Nat} (h1 : half.len = 2 * q) (h2 : quarter.len = q)
    (hp : isPowerOfTwo (4 * q) = true) :
    Type2And3SplitRadix.new half quarter = .ok (Type2And3SplitRadix.inst q half quarter) := by
  have hq : 1 ≤ q := by
    rcases Nat.eq_zero_or_pos q with h | h
    · subst h; simp [isPowerOfTwo] at hp
    · exact h
  unfold Type2And3SplitRadix.new Type2And3SplitRadix.inst
  have e : half.len * 2 = 4 * q := by omega
  simp only [e]
  rw [if_neg (by simp [hp]; omega), if_neg (by omega)]
  rw [show 4 * q / 4 = q by omega]
  simp [map_range_eq_vec]

section dct2
variable (tw : Nat → Cx T) (q : Nat) (f : Nat → T)

/-- Input of the inner DCT2 of half length. -/
def sr2Half : Nat → T := fun j => if j < q then f (4 * q - j - 1) + f j else f j + f (4 * q - j - 1)
/-- Input of the first inner DCT2 of quarter length. -/
def sr2Cos : Nat → T := fun i =>
  (f i - f (4 * q - i - 1)) * (tw i).re + (f (2 * q - i - 1) - f (2 * q + i)) * (tw i).im
def sr2SinRaw : Nat → T := fun i =>
  (f (2 * q - i - 1) - f (2 * q + i)) * (tw i).re - (f i - f (4 * q - i - 1)) * (tw i).im
/-- Input of the second inner DCT2 of quarter length. -/
def sr2Sin : Nat → T := fun j =>
  if (q - 1 - j) % 2 = 0 then sr2SinRaw tw q f (q - 1 - j) else -(sr2SinRaw tw q f (q - 1 - j))

/-- Recombination of the three inner results. -/
def sr2Out (a e o : Nat → T) : Nat → T := fun k =>
  if k % 2 = 0 then a (k / 2)
  else if k = 1 then e 0
  else if k = 4 * q - 1 then -(o 0)
  else if k % 4 = 1 then e (k / 4) - (if (k / 4 + q) % 2 = 0 then -(o (q - k / 4)) else o (q - k / 4))
  else e (k / 4 + 1) + (if (k / 4 + 1 + q) % 2 = 0 then -(o (q - (k / 4 + 1))) else o (q - (k / 4 + 1)))
end dct2

theorem Type2And3SplitRadix.dct2_inst {q : Nat} (hq : 1 ≤ q) {half quarter : Obj23 T} {sh sq : Nat} (hsh : sh ≤ 4 * q) (hsq : sq ≤ 4 * q)
    {Dh Dq : (Nat → T) → Nat → T} (hh : RunsW half.dct2 (2 * q) sh Dh) (hqq : RunsW quarter.dct2 q sq Dq) :
    RunsV (Type2And3SplitRadix.inst q half quarter).dct2 (4 * q) (4 * q)
      (fun f => let tw := fun i => Cx.conj (singleTwiddle (2 * i + 1) (4 * q * 4))
        sr2Out q (Dh (sr2Half q f)) (Dq (sr2Cos tw q f)) (Dq (sr2Sin tw q f))) := by
  unfold Type2And3SplitRadix.dct2 Type2And3SplitRadix.scratchLen
  rw [Type2And3SplitRadix.inst_len]
  apply runsV_of_body
  intro f sc hsc
  obtain ⟨g, rfl⟩ := exists_vec hsc
  simp only [Type2And3SplitRadix.inst]
  generalize htw : (fun i => Cx.conj (singleTwiddle (2 * i + 1) (4 * q * 4)) : Nat → Cx T) = tw
  rw [show 4 * q / 2 = 2 * q by omega, show 4 * q / 4 = q by omega]
  rw [splitAtMut_vec (by omega), ok_bind, show 4 * q - 2 * q = 2 * q by omega]
  simp only []
  rw [splitAtMut_vec (by omega), ok_bind, show 2 * q - q = q by omega]
  simp only []
  rw [forRange_eq (fun i => (vec (2 * q) (fun j => if j < i ∨ 2 * q - 1 - j < i then sr2Half q f j else g j),
      vec q (fun j => if j < i then sr2Cos tw q f j else g (2 * q + j)),
      vec q (fun j => if q - 1 - j < i then sr2Sin tw q f j else g (2 * q + (q + j))))) ?h1 ?h2 (by omega)]
  case h1 =>
    rw [← target_start (by omega), ← target_start (by omega), ← target_start (by omega)]
  case h2 =>
    intro i hi0 hi
    simp (disch := omega) only [rdU_vec, ok_bind, csub_ok]
    rw [wrU_target (by omega) (by unfold sr2Half; rw [if_pos hi]), ok_bind]
    rw [wrU_target (by omega) (by
      unfold sr2Half
      rw [if_neg (by omega)]
      congr 2; omega), ok_bind]
    rw [wrU_target (by omega) (by unfold sr2Cos; rfl), ok_bind]
    rw [wrU_target (by omega) (by
      unfold sr2Sin
      rw [show q - 1 - (q - i - 1) = i by omega]
      unfold sr2SinRaw; rfl), ok_bind]
    congr 1
    refine Prod.ext ?_ (Prod.ext ?_ ?_)
    · exact target_congr (by omega)
    · exact target_congr (by omega)
    · exact target_congr (by omega)
  rw [ok_bind, target_done (by omega), target_done (by omega), target_done (by omega)]
  simp only []
  obtain ⟨b1, hb1⟩ := hh.callProc (sr2Half q f) (m := 4 * q) f hsh
  rw [hb1, ok_bind]
  simp only []
  obtain ⟨b2, hb2⟩ := hqq.callProc (sr2Cos tw q f) (m := 4 * q) b1 hsq
  rw [hb2, ok_bind]
  simp only []
  obtain ⟨b3, hb3⟩ := hqq.callProc (sr2Sin tw q f) (m := 4 * q) b2 hsq
  rw [hb3, ok_bind]
  simp only []
  generalize Dh (sr2Half q f) = a
  generalize Dq (sr2Cos tw q f) = e
  generalize Dq (sr2Sin tw q f) = o
  rw [target_start (n := 4 * q) (g := b3) (A := sr2Out q a e o) (P := fun _ => False) (by simp)]
  rw [rdU_vec (by omega), ok_bind, wrU_target (by omega) (by simp [sr2Out]), ok_bind,
    rdU_vec (by omega), ok_bind, wrU_target (by omega) (by simp [sr2Out]), ok_bind,
    rdU_vec (by omega), ok_bind, wrU_target (by omega) (by simp [sr2Out]), ok_bind]
  rw [forRange_eq (fun i => vec (4 * q) (fun j => if j + 1 < 4 * i then sr2Out q a e o j else b3 j)) ?h3 ?h4 (by omega)]
  case h3 => exact target_congr (by intro j hj; simp only [false_or]; omega)
  case h4 =>
    intro i hi0 hi
    simp (disch := omega) only [rdU_vec, ok_bind, csub_ok]
    rw [wrU_target (by omega) (by
      unfold sr2Out
      rw [if_neg (c := (i * 4 - 1) % 2 = 0) (by omega), if_neg (c := i * 4 - 1 = 1) (by omega),
        if_neg (c := i * 4 - 1 = 4 * q - 1) (by omega), if_neg (c := (i * 4 - 1) % 4 = 1) (by omega)]
      rw [show (i * 4 - 1) / 4 + 1 = i by omega]), ok_bind]
    rw [wrU_target (by omega) (by
      unfold sr2Out
      rw [if_pos (by omega), show i * 4 / 2 = i * 2 by omega]), ok_bind]
    rw [wrU_target (by omega) (by
      unfold sr2Out
      rw [if_neg (c := (i * 4 + 1) % 2 = 0) (by omega), if_neg (c := i * 4 + 1 = 1) (by omega),
        if_neg (c := i * 4 + 1 = 4 * q - 1) (by omega), if_pos (c := (i * 4 + 1) % 4 = 1) (by omega)]
      rw [show (i * 4 + 1) / 4 = i by omega]), ok_bind]
    rw [wrU_target (by omega) (by
      unfold sr2Out
      rw [if_pos (by omega), show (i * 4 + 2) / 2 = i * 2 + 1 by omega])]
    congr 1
    exact target_congr (by omega)
  rw [ok_bind, csub_ok (by omega), ok_bind, rdU_vec (by omega), ok_bind, wrU_target (by omega) (by
    unfold sr2Out
    rw [if_neg (by omega), if_neg (by omega), if_pos rfl]), ok_bind]
  exact ex_ok (target_done (by omega)) (by simp; omega)

section dct3
variable (tw : Nat → Cx T) (q : Nat) (f : Nat → T)
def sr3Even : Nat → T := fun j => f (2 * j)
def sr3N1 : Nat → T := fun j => if j = 0 then f 1 * ttwo T else f (4 * j - 1) + f (4 * j + 1)
def sr3N3 : Nat → T := fun j => if j = 0 then f (4 * q - 1) * ttwo T else f (4 * (q - j) - 1) - f (4 * (q - j) + 1)
def sr3Low (c s : Nat → T) : Nat → T := fun i => c i * (tw i).re + (if i % 2 = 0 then s i else -(s i)) * (tw i).im
def sr3High (c s : Nat → T) : Nat → T := fun i => c i * (tw i).im - (if i % 2 = 0 then s i else -(s i)) * (tw i).re
/-- Recombination of the three inner results. -/
def sr3Out (a c s : Nat → T) : Nat → T := fun k =>
  if k < q then a k + sr3Low tw c s k
  else if k < 2 * q then a k + sr3High tw c s (2 * q - k - 1)
  else if k < 3 * q then a (4 * q - k - 1) - sr3High tw c s (k - 2 * q)
  else a (4 * q - k - 1) - sr3Low tw c s (4 * q - k - 1)
end dct3

theorem Type2And3SplitRadix.dct3_inst {q : Nat} (hq : 1 ≤ q) {half quarter : Obj23 T} {sh sq : Nat} (hsh : sh ≤ 4 * q) (hsq : sq ≤ 4 * q)
    {Dh Dq : (Nat → T) → Nat → T} (hh : RunsW half.dct3 (2 * q) sh Dh) (hqq : RunsW quarter.dct3 q sq Dq) :
    RunsV (Type2And3SplitRadix.inst q half quarter).dct3 (4 * q) (4 * q)
      (fun f => let tw := fun i => Cx.conj (singleTwiddle (2 * i + 1) (4 * q * 4))
        sr3Out tw q (Dh (sr3Even f)) (Dq (sr3N1 f)) (Dq (sr3N3 q f))) := by
  unfold Type2And3SplitRadix.dct3 Type2And3SplitRadix.scratchLen
  rw [Type2And3SplitRadix.inst_len]
  apply runsV_of_body
  intro f sc hsc
  obtain ⟨g, rfl⟩ := exists_vec hsc
  simp only [Type2And3SplitRadix.inst, length_vec]
  generalize htw : (fun i => Cx.conj (singleTwiddle (2 * i + 1) (4 * q * 4)) : Nat → Cx T) = tw
  rw [show 4 * q / 2 = 2 * q by omega, show 4 * q / 4 = q by omega]
  rw [splitAtMut_vec (by omega), ok_bind, show 4 * q - 2 * q = 2 * q by omega]
  simp only []
  rw [splitAtMut_vec (by omega), ok_bind, show 2 * q - q = q by omega]
  simp only []
  rw [target_start (n := 2 * q) (A := sr3Even f) (P := fun _ => False) (by simp),
    target_start (n := q) (g := fun i => g (2 * q + i)) (A := sr3N1 f) (P := fun _ => False) (by simp),
    target_start (n := q) (g := fun i => g (2 * q + (q + i))) (A := sr3N3 q f) (P := fun _ => False) (by simp)]
  rw [rd_vec (by omega), ok_bind, wr_target (by omega) (by simp [sr3Even]), ok_bind,
    rd_vec (by omega), ok_bind, wr_target (by omega) (by simp [sr3Even]), ok_bind,
    rd_vec (by omega), ok_bind, wr_target (by omega) (by simp [sr3N1]), ok_bind,
    csub_ok (by omega), ok_bind, rd_vec (by omega), ok_bind, wr_target (by omega) (by simp [sr3N3]), ok_bind]
  rw [forRange_eq (fun i => (vec (2 * q) (fun j => if j < 2 * i then sr3Even f j else g j),
      vec q (fun j => if j < i then sr3N1 f j else g (2 * q + j)),
      vec q (fun j => if j = 0 ∨ q - j < i then sr3N3 q f j else g (2 * q + (q + j))))) ?h1 ?h2 (by omega)]
  case h1 =>
    refine Prod.ext ?_ (Prod.ext ?_ ?_)
    · exact target_congr (by intro j hj; simp only [false_or]; omega)
    · exact target_congr (by intro j hj; simp only [false_or]; omega)
    · exact target_congr (by intro j hj; simp only [false_or]; omega)
  case h2 =>
    intro i hi0 hi
    simp (disch := omega) only [rdU_vec, ok_bind, csub_ok]
    rw [wrU_target (by omega) (by unfold sr3Even; congr 1; omega), ok_bind]
    rw [wrU_target (by omega) (by unfold sr3Even; congr 1; omega), ok_bind]
    rw [wrU_target (by omega) (by unfold sr3N1; rw [if_neg (by omega)]), ok_bind]
    rw [wrU_target (by omega) (by
      unfold sr3N3
      rw [if_neg (by omega), show q - (q - i) = i by omega]), ok_bind]
    congr 1
    refine Prod.ext ?_ (Prod.ext ?_ ?_)
    · exact target_congr (by omega)
    · exact target_congr (by omega)
    · exact target_congr (by omega)
  rw [ok_bind, target_done (by omega), target_done (by omega), target_done (by omega)]
  simp only []
  obtain ⟨b1, hb1⟩ := hh.callProc (sr3Even f) (m := 4 * q) f hsh
  rw [hb1, ok_bind]
  simp only []
  obtain ⟨b2, hb2⟩ := hqq.callProc (sr3N1 f) (m := 4 * q) b1 hsq
  rw [hb2, ok_bind]
  simp only []
  obtain ⟨b3, hb3⟩ := hqq.callProc (sr3N3 q f) (m := 4 * q) b2 hsq
  rw [hb3, ok_bind]
  simp only []
  generalize Dh (sr3Even f) = a
  generalize Dq (sr3N1 f) = c
  generalize Dq (sr3N3 q f) = s
  rw [forRange_eq (fun i => vec (4 * q) (fun j =>
      if j < i ∨ (j < 2 * q ∧ 2 * q - 1 - j < i) ∨ (2 * q ≤ j ∧ j - 2 * q < i) ∨ 4 * q - 1 - j < i then sr3Out tw q a c s j else b3 j)) ?h3 ?h4 (by omega)]
  case h3 => exact target_start (by omega)
  case h4 =>
    intro i hi0 hi
    simp (disch := omega) only [rd_vec, rdU_vec, ok_bind, csub_ok]
    rw [wrU_target (by omega) (by unfold sr3Out; rw [if_pos hi]; rfl), ok_bind]
    rw [wrU_target (by omega) (by
      unfold sr3Out
      rw [if_neg (c := 4 * q - i - 1 < q) (by omega), if_neg (c := 4 * q - i - 1 < 2 * q) (by omega), if_neg (c := 4 * q - i - 1 < 3 * q) (by omega),
        show 4 * q - (4 * q - i - 1) - 1 = i by omega]; rfl), ok_bind]
    rw [wrU_target (by omega) (by
      unfold sr3Out
      rw [if_neg (c := 2 * q - i - 1 < q) (by omega), if_pos (c := 2 * q - i - 1 < 2 * q) (by omega),
        show 2 * q - (2 * q - i - 1) - 1 = i by omega]; rfl), ok_bind]
    rw [wrU_target (by omega) (by
      unfold sr3Out
      rw [if_neg (c := 2 * q + i < q) (by omega), if_neg (c := 2 * q + i < 2 * q) (by omega), if_pos (c := 2 * q + i < 3 * q) (by omega),
        show 4 * q - (2 * q + i) - 1 = 2 * q - i - 1 by omega, show 2 * q + i - 2 * q = i by omega]; rfl)]
    congr 1
    exact target_congr (by omega)
  rw [ok_bind]
  exact ex_ok (target_done (by omega)) (by simp; omega)

/-! ### DST2 and DST3 by sign changes and reversal -/

theorem negOdds_vec {n : Nat} (cnt : Nat) (h : 2 * cnt ≤ n) (f : Nat → T) :
    negOdds cnt (vec n f) = .ok (vec n fun j => if j < 2 * cnt ∧ j % 2 = 1 then -(f j) else f j) := by
  unfold negOdds
  induction cnt with
  | zero =>
    simp only [List.range_zero, List.foldlM_nil]
    exact congrArg _ (vec_congr fun j hj => by rw [if_neg (by omega)])
  | succ c ih =>
    rw [List.range_succ, List.foldlM_append, ih (by omega)]
    simp only [ok_bind, List.foldlM_cons, List.foldlM_nil]
    rw [getElem?_vec_lt (by omega)]
    simp only []
    rw [ok_bind, set_vec]
    refine congrArg _ (vec_congr fun j hj => ?_)
    by_cases h1 : j = 2 * c + 1
    · subst h1
      rw [if_pos rfl, if_neg (by omega), if_pos (by omega)]
    · rw [if_neg h1]
      exact if_congr (by omega) rfl rfl

theorem Type2And3SplitRadix.dst2_inst {q : Nat} {half quarter : Obj23 T} {C : (Nat → T) → Nat → T}
    (h : RunsV (Type2And3SplitRadix.inst q half quarter).dct2 (4 * q) (4 * q) C) :
    RunsV (Type2And3SplitRadix.inst q half quarter).dst2 (4 * q) (4 * q)
      (fun f k => C (fun j => if j < 4 * q ∧ j % 2 = 1 then -(f j) else f j) (4 * q - 1 - k)) := by
  intro f scr hs
  unfold Type2And3SplitRadix.dst2
  obtain ⟨scr', h1, h2, h3⟩ := h (fun j => if j < 4 * q ∧ j % 2 = 1 then -(f j) else f j) scr hs
  rw [Type2And3SplitRadix.inst_len, show 4 * q / 2 = 2 * q by omega]
  simp only [negOdds_vec (2 * q) (show 2 * (2 * q) ≤ 4 * q by omega), show 2 * (2 * q) = 4 * q by omega, h1]
  exact ⟨scr', by rw [reverse_vec], h2, h3⟩

theorem Type2And3SplitRadix.dst3_inst {q : Nat} {half quarter : Obj23 T} {C : (Nat → T) → Nat → T}
    (h : RunsV (Type2And3SplitRadix.inst q half quarter).dct3 (4 * q) (4 * q) C) :
    RunsV (Type2And3SplitRadix.inst q half quarter).dst3 (4 * q) (4 * q)
      (fun f j => if j < 4 * q ∧ j % 2 = 1 then -(C (fun i => f (4 * q - 1 - i)) j) else C (fun i => f (4 * q - 1 - i)) j) := by
  intro f scr hs
  unfold Type2And3SplitRadix.dst3
  obtain ⟨scr', h1, h2, h3⟩ := h (fun i => f (4 * q - 1 - i)) scr hs
  rw [Type2And3SplitRadix.inst_len, show 4 * q / 2 = 2 * q by omega]
  simp only [reverse_vec, h1, negOdds_vec (2 * q) (show 2 * (2 * q) ≤ 4 * q by omega), show 2 * (2 * q) = 4 * q by omega]
  exact ⟨scr', rfl, h2, h3⟩

/-! ### Type 4, even length -/

/-- The object built by `Type4ConvertToType3Even::new`. -/
def Type4ConvertToType3Even.inst (h : Nat) (inner : Obj23 T) : Type4ConvertToType3Even T :=
  { innerDct := inner
    twiddles := vec h fun i => Cx.conj (singleTwiddle (2 * i + 1) (2 * h * 8))
    scratchLen := if inner.scratchLen ≤ 2 * h then 2 * h else 2 * h + inner.scratchLen }

theorem Type4ConvertToType3Even.inst_len (h : Nat) (inner : Obj23 T) :
    (Type4ConvertToType3Even.inst h inner).len = 2 * h := by
  simp [Type4ConvertToType3Even.inst, Type4ConvertToType3Even.len, Nat.mul_comm]

theorem Type4ConvertToType3Even.new_eq {inner : Obj23 T} {h : Nat} (h1 : inner.len = h) :
    Type4ConvertToType3Even.new inner = .ok (Type4ConvertToType3Even.inst h inner) := by
  subst h1
  unfold Type4ConvertToType3Even.new Type4ConvertToType3Even.inst
  simp [map_range_eq_vec, Nat.mul_comm]

theorem runInnerPair_eq [Zero T] {p1 p2 : Proc T} {h s e : Nat} {C1 C2 : (Nat → T) → Nat → T}
    (h1 : RunsW p1 h s C1) (h2 : RunsW p2 h s C2) (he : (e = 0 ∧ s ≤ 2 * h) ∨ s ≤ e) (f1 f2 b x : Nat → T) :
    ∃ b' x', runInnerPair p1 p2 (vec h f1) (vec h f2) (vec (2 * h) b) (vec e x) =
      .ok (vec h (C1 f1), vec h (C2 f2), vec (2 * h) b', vec e x') := by
  unfold runInnerPair
  by_cases h0 : e > 0
  · rw [if_pos (by simpa using h0)]
    obtain ⟨x1, e1⟩ := h1.callProc f1 (m := e) x (by omega)
    obtain ⟨x2, e2⟩ := h2.callProc f2 (m := e) x1 (by omega)
    exact ⟨b, x2, by simp [e1, e2]⟩
  · rw [if_neg (by simpa using h0)]
    obtain ⟨x1, e1⟩ := h1.callProc f1 (m := 2 * h) b (by omega)
    obtain ⟨x2, e2⟩ := h2.callProc f2 (m := 2 * h) x1 (by omega)
    exact ⟨x2, x, by simp [e1, e2]⟩

section dct4
variable (tw : Nat → Cx T) (h : Nat) (f : Nat → T)
def t4L : Nat → T := fun k => if k = 0 then f 0 * ttwo T else f (2 * k - 1) + f (2 * k)
def t4R : Nat → T := fun k => if k = h - 1 then f (2 * h - 1) * ttwo T else f (2 * k + 1) - f (2 * k + 2)
def t4Out (c s : Nat → T) : Nat → T := fun k =>
  if k < h then c k * (tw k).re + s k * (tw k).im
  else c (2 * h - 1 - k) * (tw (2 * h - 1 - k)).im - s (2 * h - 1 - k) * (tw (2 * h - 1 - k)).re
def t4L' : Nat → T := fun k => if k = h - 1 then f (2 * h - 1) * ttwo T else f (2 * k + 1) + f (2 * k + 2)
def t4R' : Nat → T := fun k => if k = 0 then f 0 * ttwo T else f (2 * k) - f (2 * k - 1)
def t4Out' (c s : Nat → T) : Nat → T := fun k =>
  if k < h then c k * (tw k).re + s k * (tw k).im
  else s (2 * h - 1 - k) * (tw (2 * h - 1 - k)).re - c (2 * h - 1 - k) * (tw (2 * h - 1 - k)).im
end dct4

theorem Type4ConvertToType3Even.dct4_inst {h : Nat} (hh : 1 ≤ h) {inner : Obj23 T} 
    {C S : (Nat → T) → Nat → T} (hc : RunsW inner.dct3 h inner.scratchLen C) (hs : RunsW inner.dst3 h inner.scratchLen S) :
    RunsV (Type4ConvertToType3Even.inst h inner).dct4 (2 * h) (Type4ConvertToType3Even.inst h inner).scratchLen
      (fun f => let tw := fun i => Cx.conj (singleTwiddle (2 * i + 1) (2 * h * 8))
        t4Out tw h (C (t4L f)) (S (t4R h f))) := by
  unfold Type4ConvertToType3Even.dct4
  rw [Type4ConvertToType3Even.inst_len]
  apply runsV_of_body
  intro f sc hsc
  obtain ⟨g, rfl⟩ := exists_vec hsc
  simp only [Type4ConvertToType3Even.inst] at hsc ⊢
  generalize htw : (fun i => Cx.conj (singleTwiddle (2 * i + 1) (2 * h * 8)) : Nat → Cx T) = tw
  obtain ⟨e, hsl, he⟩ : ∃ e, (if inner.scratchLen ≤ 2 * h then 2 * h else 2 * h + inner.scratchLen) = 2 * h + e ∧
      ((e = 0 ∧ inner.scratchLen ≤ 2 * h) ∨ inner.scratchLen ≤ e) := by
    split_ifs with h1
    · exact ⟨0, rfl, Or.inl ⟨rfl, h1⟩⟩
    · exact ⟨_, rfl, Or.inr (Nat.le_refl _)⟩
  rw [hsl] at hsc ⊢
  rw [splitAtMut_vec (by omega), ok_bind, show 2 * h + e - 2 * h = e by omega]
  simp only []
  rw [show 2 * h / 2 = h by omega]
  rw [splitAtMut_vec (by omega), ok_bind, show 2 * h - h = h by omega]
  simp only []
  rw [target_start (n := h) (g := g) (A := t4L f) (P := fun _ => False) (by simp)]
  rw [rd_vec (by omega), ok_bind, wr_target (by omega) (by simp [t4L]), ok_bind]
  rw [forRange_eq (fun i => (vec h (fun j => if j < i then t4L f j else g j),
      vec h (fun j => if j + 1 < i then t4R h f j else g (h + j)))) ?h1 ?h2 (by omega)]
  case h1 =>
    refine Prod.ext ?_ ?_
    · exact target_congr (by intro j hj; simp only [false_or]; omega)
    · exact target_start (by omega)
  case h2 =>
    intro i hi0 hi
    simp (disch := omega) only [rd_vec, ok_bind, csub_ok]
    rw [wr_target (by omega) (by unfold t4L; rw [if_neg (by omega)]), ok_bind]
    rw [wr_target (by omega) (by
      unfold t4R; rw [if_neg (by omega), show 2 * (i - 1) + 1 = 2 * i - 1 by omega, show 2 * (i - 1) + 2 = 2 * i by omega]), ok_bind]
    congr 1
    refine Prod.ext ?_ ?_
    · exact target_congr (by omega)
    · exact target_congr (by omega)
  rw [ok_bind]
  simp only []
  rw [csub_ok (by omega), ok_bind, csub_ok (by omega), ok_bind, rd_vec (by omega), ok_bind,
    wr_target (by omega) (by unfold t4R; rw [if_pos rfl]), ok_bind, target_done (by omega), target_done (by omega)]
  obtain ⟨b', x', hp⟩ := runInnerPair_eq hc hs he (t4L f) (t4R h f) f (fun i => g (2 * h + i))
  rw [hp, ok_bind]
  simp only []
  generalize C (t4L f) = c
  generalize S (t4R h f) = s
  rw [forRange_eq (fun i => vec (2 * h) (fun j => if j < i ∨ 2 * h - 1 - j < i then t4Out tw h c s j else b' j)) ?h3 ?h4 (by omega)]
  case h3 => exact target_start (by omega)
  case h4 =>
    intro i hi0 hi
    simp (disch := omega) only [rd_vec, ok_bind, csub_ok]
    rw [wr_target (by omega) (by unfold t4Out; rw [if_pos hi]), ok_bind]
    rw [wr_target (by omega) (by
      unfold t4Out
      rw [if_neg (c := 2 * h - 1 - i < h) (by omega), show 2 * h - 1 - (2 * h - 1 - i) = i by omega])]
    congr 1
    exact target_congr (by omega)
  rw [ok_bind]
  exact ex_ok (target_done (by omega)) (by simp; omega)

theorem Type4ConvertToType3Even.dst4_inst {h : Nat} (hh : 1 ≤ h) {inner : Obj23 T} 
    {C S : (Nat → T) → Nat → T} (hc : RunsW inner.dct3 h inner.scratchLen C) (hs : RunsW inner.dst3 h inner.scratchLen S) :
    RunsV (Type4ConvertToType3Even.inst h inner).dst4 (2 * h) (Type4ConvertToType3Even.inst h inner).scratchLen
      (fun f => let tw := fun i => Cx.conj (singleTwiddle (2 * i + 1) (2 * h * 8))
        t4Out' tw h (S (t4L' h f)) (C (t4R' f))) := by
  unfold Type4ConvertToType3Even.dst4
  rw [Type4ConvertToType3Even.inst_len]
  apply runsV_of_body
  intro f sc hsc
  obtain ⟨g, rfl⟩ := exists_vec hsc
  simp only [Type4ConvertToType3Even.inst] at hsc ⊢
  generalize htw : (fun i => Cx.conj (singleTwiddle (2 * i + 1) (2 * h * 8)) : Nat → Cx T) = tw
  obtain ⟨e, hsl, he⟩ : ∃ e, (if inner.scratchLen ≤ 2 * h then 2 * h else 2 * h + inner.scratchLen) = 2 * h + e ∧
      ((e = 0 ∧ inner.scratchLen ≤ 2 * h) ∨ inner.scratchLen ≤ e) := by
    split_ifs with h1
    · exact ⟨0, rfl, Or.inl ⟨rfl, h1⟩⟩
    · exact ⟨_, rfl, Or.inr (Nat.le_refl _)⟩
  rw [hsl] at hsc ⊢
  rw [splitAtMut_vec (by omega), ok_bind, show 2 * h + e - 2 * h = e by omega]
  simp only []
  rw [show 2 * h / 2 = h by omega]
  rw [splitAtMut_vec (by omega), ok_bind, show 2 * h - h = h by omega]
  simp only []
  rw [target_start (n := h) (g := fun i => g (h + i)) (A := t4R' f) (P := fun _ => False) (by simp)]
  rw [rd_vec (by omega), ok_bind, wr_target (by omega) (by simp [t4R']), ok_bind]
  rw [forRange_eq (fun i => (vec h (fun j => if j + 1 < i then t4L' h f j else g j),
      vec h (fun j => if j < i then t4R' f j else g (h + j)))) ?h1 ?h2 (by omega)]
  case h1 =>
    refine Prod.ext ?_ ?_
    · exact target_start (by omega)
    · exact target_congr (by intro j hj; simp only [false_or]; omega)
  case h2 =>
    intro i hi0 hi
    simp (disch := omega) only [rd_vec, ok_bind, csub_ok]
    rw [wr_target (by omega) (by
      unfold t4L'; rw [if_neg (by omega), show 2 * (i - 1) + 1 = 2 * i - 1 by omega, show 2 * (i - 1) + 2 = 2 * i by omega]), ok_bind]
    rw [wr_target (by omega) (by unfold t4R'; rw [if_neg (by omega)]), ok_bind]
    congr 1
    refine Prod.ext ?_ ?_
    · exact target_congr (by omega)
    · exact target_congr (by omega)
  rw [ok_bind]
  simp only []
  rw [csub_ok (by omega), ok_bind, csub_ok (by omega), ok_bind, rd_vec (by omega), ok_bind,
    wr_target (by omega) (by unfold t4L'; rw [if_pos rfl]), ok_bind, target_done (by omega), target_done (by omega)]
  obtain ⟨b', x', hp⟩ := runInnerPair_eq hs hc he (t4L' h f) (t4R' f) f (fun i => g (2 * h + i))
  rw [hp, ok_bind]
  simp only []
  generalize S (t4L' h f) = c
  generalize C (t4R' f) = s
  rw [forRange_eq (fun i => vec (2 * h) (fun j => if j < i ∨ 2 * h - 1 - j < i then t4Out' tw h c s j else b' j)) ?h3 ?h4 (by omega)]
  case h3 => exact target_start (by omega)
  case h4 =>
    intro i hi0 hi
    simp (disch := omega) only [rd_vec, ok_bind, csub_ok]
    rw [wr_target (by omega) (by unfold t4Out'; rw [if_pos hi]), ok_bind]
    rw [wr_target (by omega) (by
      unfold t4Out'
      rw [if_neg (c := 2 * h - 1 - i < h) (by omega), show 2 * h - 1 - (2 * h - 1 - i) = i by omega])]
    congr 1
    exact target_congr (by omega)
  rw [ok_bind]
  exact ex_ok (target_done (by omega)) (by simp; omega)

end RustDct
