import Verif.Lib.Vec
import Verif.Model.Naive
/-!
# What the naive algorithms compute, for every element type (no laws about `+`, `*`)
-/

set_option linter.all false

namespace RustDct

/-- Value accumulated by the inner loop of the naive algorithms: `i` runs over `lo..n`, the twiddle index
advances by `stride` modulo `L`. -/
def naiveSum {T W : Type} (op : T → T → W → T) (L : Nat) (w : Nat → W) (n : Nat) (x : Nat → T)
    (lo stride t0 : Nat) (c0 : T) : T :=
  (List.range' lo (n - lo)).foldl (fun c i => op c (x i) (w ((t0 + stride * (i - lo)) % L))) c0

theorem strideLoop_eq {T W : Type} (op : T → T → W → T) {L : Nat} (w : Nat → W) {n : Nat} (x : Nat → T)
    {lo stride t0 : Nat} (c0 : T) (ht : t0 < L) (hst : stride ≤ L) (hlo : lo ≤ n) :
    strideLoop (vec L w) (vec n x) stride op lo c0 t0 =
      .ok (naiveSum op L w n x lo stride t0 c0, (t0 + stride * (n - lo)) % L) := by
  unfold strideLoop
  rw [length_vec, forRange_eq (fun m => (naiveSum op L w m x lo stride t0 c0, (t0 + stride * (m - lo)) % L))]
  · simp [naiveSum, Nat.mod_eq_of_lt ht]
  · intro i h1 h2
    have hL : 0 < L := by omega
    have hlt := Nat.mod_lt (t0 + stride * (i - lo)) hL
    simp only [rd_vec hlt, rd_vec h2, ok_bind, length_vec]
    have e1 : naiveSum op L w (i + 1) x lo stride t0 c0 =
        op (naiveSum op L w i x lo stride t0 c0) (x i) (w ((t0 + stride * (i - lo)) % L)) := by
      unfold naiveSum
      rw [show i + 1 - lo = (i - lo) + 1 by omega, List.range'_concat, List.foldl_append, List.foldl_cons, List.foldl_nil]
      simp only [Nat.one_mul]
      rw [show lo + (i - lo) = i by omega]
    have e2 : (t0 + stride * (i + 1 - lo)) % L = ((t0 + stride * (i - lo)) % L + stride) % L := by
      rw [Nat.mod_add_mod, show i + 1 - lo = (i - lo) + 1 by omega, Nat.mul_add, Nat.mul_one, Nat.add_assoc]
    rw [e1, e2]
    generalize (t0 + stride * (i - lo)) % L = r at hlt ⊢
    by_cases h : r + stride ≥ L
    · rw [if_pos h]
      rw [Nat.mod_eq_sub_mod h, Nat.mod_eq_of_lt (by omega)]
    · rw [if_neg h, Nat.mod_eq_of_lt (by omega)]
  · exact hlo

theorem naiveLoop_eq {T W : Type} (op : T → T → W → T) {L : Nat} (w : Nat → W) {n : Nat} (x f : Nat → T)
    {lo lo' : Nat} (stride t0 : Nat → Nat) (c0 : T) (hlo : lo ≤ n) (hlo' : lo' ≤ n)
    (ht : ∀ k, lo ≤ k → k < n → t0 k < L) (hst : ∀ k, lo ≤ k → k < n → stride k ≤ L) :
    forRange lo n (vec n f) (fun k buffer => do
      let r ← strideLoop (vec L w) (vec n x) (stride k) op lo' c0 (t0 k)
      wr buffer k r.1) =
    .ok (vec n (fun k => if k < lo then f k else naiveSum op L w n x lo' (stride k) (t0 k) c0)) := by
  rw [forRange_eq (fun m => vec n (fun k => if k < lo then f k else if k < m then
    naiveSum op L w n x lo' (stride k) (t0 k) c0 else f k))]
  · congr 1
    apply vec_congr
    intro i hi
    by_cases h : i < lo
    · simp [h]
    · simp [h, hi]
  · apply vec_congr
    intro i hi
    by_cases h : i < lo <;> simp [h]
  · intro i h1 h2
    simp only [strideLoop_eq op w x c0 (ht i h1 h2) (hst i h1 h2) hlo', ok_bind, wr_vec h2]
    congr 1
    apply vec_congr
    intro j hj
    by_cases e : j = i
    · subst e; simp [Nat.not_lt.mpr h1]
    · simp only [if_neg e]
      by_cases h3 : j < lo
      · simp [h3]
      · simp only [if_neg h3]
        by_cases h4 : j < i
        · rw [if_pos h4, if_pos (by omega)]
        · rw [if_neg h4, if_neg (by omega)]
  · exact hlo

theorem naiveLoop0_eq {T W : Type} (op : T → T → W → T) {L : Nat} (w : Nat → W) {n : Nat} (x f : Nat → T)
    {lo' : Nat} (stride t0 : Nat → Nat) (c0 : T) (hlo' : lo' ≤ n)
    (ht : ∀ k, k < n → t0 k < L) (hst : ∀ k, k < n → stride k ≤ L) :
    forRange 0 n (vec n f) (fun k buffer => do
      let r ← strideLoop (vec L w) (vec n x) (stride k) op lo' c0 (t0 k)
      wr buffer k r.1) =
    .ok (vec n (fun k => naiveSum op L w n x lo' (stride k) (t0 k) c0)) := by
  rw [naiveLoop_eq op w x f stride t0 c0 (Nat.zero_le _) hlo' (fun k _ => ht k) (fun k _ => hst k)]
  congr 1

section
variable {T : Type} {F : Type} [F64 F] [DctNum T F]

/-- The accumulation `c + x * w`. -/
abbrev opAdd (c x w : T) : T := c + x * w
abbrev opAddRe (c x : T) (w : Cx T) : T := c + x * w.re
abbrev opSubIm (c x : T) (w : Cx T) : T := c - x * w.im

/-- `x` with its first element halved. -/
def halfFirst (x : Nat → T) : Nat → T := fun j => if j = 0 then x 0 * thalf T else x j
/-- `x` with its last element halved. -/
def halfLast (n : Nat) (x : Nat → T) : Nat → T := fun j => if j = n - 1 then x (n - 1) * thalf T else x j

/-- Closed form of the method on an instance with (n - 1) * 2 twiddles. -/
theorem Dct1Naive.runs_dct1 {n : Nat} (hn : 2 ≤ n) (w : Nat → T) :
    RunsV (Dct1Naive.dct1 ⟨vec ((n - 1) * 2) w⟩) n n (fun f k =>
      let x := halfLast n (halfFirst f)
      naiveSum opAdd ((n - 1) * 2) w n x 1 (k) (k) (x 0)) := by
  have hl : Dct1Naive.len ⟨vec ((n - 1) * 2) w⟩ = n := by simp only [Dct1Naive.len, length_vec]; omega
  unfold Dct1Naive.dct1 Dct1Naive.scratchLen
  rw [hl]
  apply runsV_of_body
  intro f sc hsc
  obtain ⟨g, rfl⟩ := exists_vec hsc
  simp (disch := omega) only [copyFromSlice_vec, ok_bind, rd_vec, wr_vec, csub_ok, length_vec]
  rw [naiveLoop0_eq opAdd w _ _ (fun k => k) (fun k => k) _ (by omega) (by intros; omega)
    (by intros; omega)]
  simp only [ok_bind]
  exact ⟨_, rfl, length_vec _ _⟩

/-- Closed form of the method on an instance with (n + 1) * 2 twiddles. -/
theorem Dst1Naive.runs_dst1 {n : Nat} (w : Nat → T) :
    RunsV (Dst1Naive.dst1 ⟨vec ((n + 1) * 2) w⟩) n n (fun f k =>
      let x := f
      naiveSum opAdd ((n + 1) * 2) w n x 0 (k + 1) (k + 1) 0) := by
  have hl : Dst1Naive.len ⟨vec ((n + 1) * 2) w⟩ = n := by simp only [Dst1Naive.len, length_vec]; omega
  unfold Dst1Naive.dst1 Dst1Naive.scratchLen
  rw [hl]
  apply runsV_of_body
  intro f sc hsc
  obtain ⟨g, rfl⟩ := exists_vec hsc
  simp (disch := omega) only [copyFromSlice_vec, ok_bind, rd_vec, wr_vec, csub_ok, length_vec]
  rw [naiveLoop0_eq opAdd w _ _ (fun k => k + 1) (fun k => k + 1) _ (Nat.zero_le _) (by intros; omega)
    (by intros; omega)]
  simp only [ok_bind]
  exact ⟨_, rfl, length_vec _ _⟩

/-- Closed form of the method on an instance with n * 4 twiddles. -/
theorem Type2And3Naive.runs_dct2 {n : Nat} (w : Nat → Cx T) :
    RunsV (Type2And3Naive.dct2 ⟨vec (n * 4) w⟩) n n (fun f k =>
      let x := f
      naiveSum opAddRe (n * 4) w n x 0 (k * 2) (k) 0) := by
  have hl : Type2And3Naive.len ⟨vec (n * 4) w⟩ = n := by simp only [Type2And3Naive.len, length_vec]; omega
  unfold Type2And3Naive.dct2 Type2And3Naive.scratchLen
  rw [hl]
  apply runsV_of_body
  intro f sc hsc
  obtain ⟨g, rfl⟩ := exists_vec hsc
  simp (disch := omega) only [copyFromSlice_vec, ok_bind, rd_vec, wr_vec, csub_ok, length_vec]
  rw [naiveLoop0_eq opAddRe w _ _ (fun k => k * 2) (fun k => k) _ (Nat.zero_le _) (by intros; omega)
    (by intros; omega)]
  simp only [ok_bind]
  exact ⟨_, rfl, length_vec _ _⟩

/-- Closed form of the method on an instance with n * 4 twiddles. -/
theorem Type2And3Naive.runs_dst2 {n : Nat} (w : Nat → Cx T) :
    RunsV (Type2And3Naive.dst2 ⟨vec (n * 4) w⟩) n n (fun f k =>
      let x := f
      naiveSum opSubIm (n * 4) w n x 0 ((k + 1) * 2) (k + 1) 0) := by
  have hl : Type2And3Naive.len ⟨vec (n * 4) w⟩ = n := by simp only [Type2And3Naive.len, length_vec]; omega
  unfold Type2And3Naive.dst2 Type2And3Naive.scratchLen
  rw [hl]
  apply runsV_of_body
  intro f sc hsc
  obtain ⟨g, rfl⟩ := exists_vec hsc
  simp (disch := omega) only [copyFromSlice_vec, ok_bind, rd_vec, wr_vec, csub_ok, length_vec]
  rw [naiveLoop0_eq opSubIm w _ _ (fun k => (k + 1) * 2) (fun k => k + 1) _ (Nat.zero_le _) (by intros; omega)
    (by intros; omega)]
  simp only [ok_bind]
  exact ⟨_, rfl, length_vec _ _⟩

/-- Closed form of the method on an instance with n * 4 twiddles. -/
theorem Type2And3Naive.runs_dct3 {n : Nat} (hn : 1 ≤ n) (w : Nat → Cx T) :
    RunsV (Type2And3Naive.dct3 ⟨vec (n * 4) w⟩) n n (fun f k =>
      let x := f
      naiveSum opAddRe (n * 4) w n x 1 (k * 2 + 1) (k * 2 + 1) (thalf T * x 0)) := by
  have hl : Type2And3Naive.len ⟨vec (n * 4) w⟩ = n := by simp only [Type2And3Naive.len, length_vec]; omega
  unfold Type2And3Naive.dct3 Type2And3Naive.scratchLen
  rw [hl]
  apply runsV_of_body
  intro f sc hsc
  obtain ⟨g, rfl⟩ := exists_vec hsc
  simp (disch := omega) only [copyFromSlice_vec, ok_bind, rd_vec, wr_vec, csub_ok, length_vec]
  rw [naiveLoop0_eq opAddRe w _ _ (fun k => k * 2 + 1) (fun k => k * 2 + 1) _ (by omega) (by intros; omega)
    (by intros; omega)]
  simp only [ok_bind]
  exact ⟨_, rfl, length_vec _ _⟩

/-- Closed form of the method on an instance with n * 4 twiddles. -/
theorem Type2And3Naive.runs_dst3 {n : Nat} (hn : 1 ≤ n) (w : Nat → Cx T) :
    RunsV (Type2And3Naive.dst3 ⟨vec (n * 4) w⟩) n n (fun f k =>
      let x := halfLast n f
      naiveSum opSubIm (n * 4) w n x 0 (k * 2 + 1) (k * 2 + 1) 0) := by
  have hl : Type2And3Naive.len ⟨vec (n * 4) w⟩ = n := by simp only [Type2And3Naive.len, length_vec]; omega
  unfold Type2And3Naive.dst3 Type2And3Naive.scratchLen
  rw [hl]
  apply runsV_of_body
  intro f sc hsc
  obtain ⟨g, rfl⟩ := exists_vec hsc
  simp (disch := omega) only [copyFromSlice_vec, ok_bind, rd_vec, wr_vec, csub_ok, length_vec]
  rw [naiveLoop0_eq opSubIm w _ _ (fun k => k * 2 + 1) (fun k => k * 2 + 1) _ (Nat.zero_le _) (by intros; omega)
    (by intros; omega)]
  simp only [ok_bind]
  exact ⟨_, rfl, length_vec _ _⟩

/-- Closed form of the method on an instance with n * 4 twiddles. -/
theorem Type4Naive.runs_dct4 {n : Nat} (w : Nat → Cx T) :
    RunsV (Type4Naive.dct4 ⟨vec (n * 4) w⟩) n n (fun f k =>
      let x := f
      naiveSum opAddRe (n * 4) w n x 0 (k * 2 + 1) (k) 0) := by
  have hl : Type4Naive.len ⟨vec (n * 4) w⟩ = n := by simp only [Type4Naive.len, length_vec]; omega
  unfold Type4Naive.dct4 Type4Naive.scratchLen
  rw [hl]
  apply runsV_of_body
  intro f sc hsc
  obtain ⟨g, rfl⟩ := exists_vec hsc
  simp (disch := omega) only [copyFromSlice_vec, ok_bind, rd_vec, wr_vec, csub_ok, length_vec]
  rw [naiveLoop0_eq opAddRe w _ _ (fun k => k * 2 + 1) (fun k => k) _ (Nat.zero_le _) (by intros; omega)
    (by intros; omega)]
  simp only [ok_bind]
  exact ⟨_, rfl, length_vec _ _⟩

/-- Closed form of the method on an instance with n * 4 twiddles. -/
theorem Type4Naive.runs_dst4 {n : Nat} (w : Nat → Cx T) :
    RunsV (Type4Naive.dst4 ⟨vec (n * 4) w⟩) n n (fun f k =>
      let x := f
      naiveSum opSubIm (n * 4) w n x 0 (k * 2 + 1) (k) 0) := by
  have hl : Type4Naive.len ⟨vec (n * 4) w⟩ = n := by simp only [Type4Naive.len, length_vec]; omega
  unfold Type4Naive.dst4 Type4Naive.scratchLen
  rw [hl]
  apply runsV_of_body
  intro f sc hsc
  obtain ⟨g, rfl⟩ := exists_vec hsc
  simp (disch := omega) only [copyFromSlice_vec, ok_bind, rd_vec, wr_vec, csub_ok, length_vec]
  rw [naiveLoop0_eq opSubIm w _ _ (fun k => k * 2 + 1) (fun k => k) _ (Nat.zero_le _) (by intros; omega)
    (by intros; omega)]
  simp only [ok_bind]
  exact ⟨_, rfl, length_vec _ _⟩

/-- Closed form of the method on an instance with n * 2 - 1 twiddles. -/
theorem Dct5Naive.runs_dct5 {n : Nat} (hn : 1 ≤ n) (w : Nat → T) :
    RunsV (Dct5Naive.dct5 ⟨vec (n * 2 - 1) w⟩) n n (fun f k =>
      let x := halfFirst f
      if k < 1 then (vec n x).foldl (fun acc e => acc + e) 0 else naiveSum opAdd (n * 2 - 1) w n x 1 (k) (k) (x 0)) := by
  have hl : Dct5Naive.len ⟨vec (n * 2 - 1) w⟩ = n := by simp only [Dct5Naive.len, length_vec]; omega
  unfold Dct5Naive.dct5 Dct5Naive.scratchLen
  rw [hl]
  apply runsV_of_body
  intro f sc hsc
  obtain ⟨g, rfl⟩ := exists_vec hsc
  simp (disch := omega) only [copyFromSlice_vec, ok_bind, rd_vec, wr_vec, csub_ok, length_vec]
  rw [naiveLoop_eq opAdd w _ _ (fun k => k) (fun k => k) _ (by omega) (by omega) (by intros; omega)
    (by intros; omega)]
  simp only [ok_bind]
  refine ⟨vec n (halfFirst f), ?_, length_vec _ _⟩
  refine congrArg (fun b => Except.ok (b, vec n (halfFirst f))) (vec_congr fun k hk => ?_)
  by_cases h : k < 1
  · obtain rfl : k = 0 := by omega
    rfl
  · rw [if_neg h, if_neg h]
    rfl

/-- Closed form of the method on an instance with n * 2 + 1 twiddles. -/
theorem Dst5Naive.runs_dst5 {n : Nat} (w : Nat → T) :
    RunsV (Dst5Naive.dst5 ⟨vec (n * 2 + 1) w⟩) n n (fun f k =>
      let x := f
      naiveSum opAdd (n * 2 + 1) w n x 0 (k + 1) (k + 1) 0) := by
  have hl : Dst5Naive.len ⟨vec (n * 2 + 1) w⟩ = n := by simp only [Dst5Naive.len, length_vec]; omega
  unfold Dst5Naive.dst5 Dst5Naive.scratchLen
  rw [hl]
  apply runsV_of_body
  intro f sc hsc
  obtain ⟨g, rfl⟩ := exists_vec hsc
  simp (disch := omega) only [copyFromSlice_vec, ok_bind, rd_vec, wr_vec, csub_ok, length_vec]
  rw [naiveLoop0_eq opAdd w _ _ (fun k => k + 1) (fun k => k + 1) _ (Nat.zero_le _) (by intros; omega)
    (by intros; omega)]
  simp only [ok_bind]
  exact ⟨_, rfl, length_vec _ _⟩

/-- Closed form of the method on an instance with n * 4 - 2 twiddles. -/
theorem Dct6And7Naive.runs_dct6 {n : Nat} (hn : 1 ≤ n) (w : Nat → T) :
    RunsV (Dct6And7Naive.dct6 ⟨vec (n * 4 - 2) w⟩) n n (fun f k =>
      let x := halfLast n f
      if k < 1 then (vec n x).foldl (fun acc e => acc + e) 0 else naiveSum opAdd (n * 4 - 2) w n x 0 (k * 2) (k) 0) := by
  have hl : Dct6And7Naive.len ⟨vec (n * 4 - 2) w⟩ = n := by simp only [Dct6And7Naive.len, length_vec]; omega
  unfold Dct6And7Naive.dct6 Dct6And7Naive.scratchLen
  rw [hl]
  apply runsV_of_body
  intro f sc hsc
  obtain ⟨g, rfl⟩ := exists_vec hsc
  simp (disch := omega) only [copyFromSlice_vec, ok_bind, rd_vec, wr_vec, csub_ok, length_vec]
  rw [naiveLoop_eq opAdd w _ _ (fun k => k * 2) (fun k => k) _ (by omega) (Nat.zero_le _) (by intros; omega)
    (by intros; omega)]
  simp only [ok_bind]
  refine ⟨vec n (halfLast n f), ?_, length_vec _ _⟩
  refine congrArg (fun b => Except.ok (b, vec n (halfLast n f))) (vec_congr fun k hk => ?_)
  by_cases h : k < 1
  · obtain rfl : k = 0 := by omega
    rfl
  · rw [if_neg h, if_neg h]
    rfl

/-- Closed form of the method on an instance with n * 4 - 2 twiddles. -/
theorem Dct6And7Naive.runs_dct7 {n : Nat} (hn : 1 ≤ n) (w : Nat → T) :
    RunsV (Dct6And7Naive.dct7 ⟨vec (n * 4 - 2) w⟩) n n (fun f k =>
      let x := halfFirst f
      naiveSum opAdd (n * 4 - 2) w n x 1 (k * 2 + 1) (k * 2 + 1) (x 0)) := by
  have hl : Dct6And7Naive.len ⟨vec (n * 4 - 2) w⟩ = n := by simp only [Dct6And7Naive.len, length_vec]; omega
  unfold Dct6And7Naive.dct7 Dct6And7Naive.scratchLen
  rw [hl]
  apply runsV_of_body
  intro f sc hsc
  obtain ⟨g, rfl⟩ := exists_vec hsc
  simp (disch := omega) only [copyFromSlice_vec, ok_bind, rd_vec, wr_vec, csub_ok, length_vec]
  rw [naiveLoop0_eq opAdd w _ _ (fun k => k * 2 + 1) (fun k => k * 2 + 1) _ (by omega) (by intros; omega)
    (by intros; omega)]
  simp only [ok_bind]
  exact ⟨_, rfl, length_vec _ _⟩

/-- Closed form of the method on an instance with n * 4 + 2 twiddles. -/
theorem Dst6And7Naive.runs_dst6 {n : Nat} (w : Nat → T) :
    RunsV (Dst6And7Naive.dst6 ⟨vec (n * 4 + 2) w⟩) n n (fun f k =>
      let x := f
      naiveSum opAdd (n * 4 + 2) w n x 0 ((k + 1) * 2) (k + 1) 0) := by
  have hl : Dst6And7Naive.len ⟨vec (n * 4 + 2) w⟩ = n := by simp only [Dst6And7Naive.len, length_vec]; omega
  unfold Dst6And7Naive.dst6 Dst6And7Naive.scratchLen
  rw [hl]
  apply runsV_of_body
  intro f sc hsc
  obtain ⟨g, rfl⟩ := exists_vec hsc
  simp (disch := omega) only [copyFromSlice_vec, ok_bind, rd_vec, wr_vec, csub_ok, length_vec]
  rw [naiveLoop0_eq opAdd w _ _ (fun k => (k + 1) * 2) (fun k => k + 1) _ (Nat.zero_le _) (by intros; omega)
    (by intros; omega)]
  simp only [ok_bind]
  exact ⟨_, rfl, length_vec _ _⟩

/-- Closed form of the method on an instance with n * 4 + 2 twiddles. -/
theorem Dst6And7Naive.runs_dst7 {n : Nat} (w : Nat → T) :
    RunsV (Dst6And7Naive.dst7 ⟨vec (n * 4 + 2) w⟩) n n (fun f k =>
      let x := f
      naiveSum opAdd (n * 4 + 2) w n x 0 (k * 2 + 1) (k * 2 + 1) 0) := by
  have hl : Dst6And7Naive.len ⟨vec (n * 4 + 2) w⟩ = n := by simp only [Dst6And7Naive.len, length_vec]; omega
  unfold Dst6And7Naive.dst7 Dst6And7Naive.scratchLen
  rw [hl]
  apply runsV_of_body
  intro f sc hsc
  obtain ⟨g, rfl⟩ := exists_vec hsc
  simp (disch := omega) only [copyFromSlice_vec, ok_bind, rd_vec, wr_vec, csub_ok, length_vec]
  rw [naiveLoop0_eq opAdd w _ _ (fun k => k * 2 + 1) (fun k => k * 2 + 1) _ (Nat.zero_le _) (by intros; omega)
    (by intros; omega)]
  simp only [ok_bind]
  exact ⟨_, rfl, length_vec _ _⟩

/-- Closed form of the method on an instance with n * 4 + 2 twiddles. -/
theorem Dct8Naive.runs_dct8 {n : Nat} (w : Nat → T) :
    RunsV (Dct8Naive.dct8 ⟨vec (n * 4 + 2) w⟩) n n (fun f k =>
      let x := f
      naiveSum opAdd (n * 4 + 2) w n x 0 (k * 2 + 1) (k) 0) := by
  have hl : Dct8Naive.len ⟨vec (n * 4 + 2) w⟩ = n := by simp only [Dct8Naive.len, length_vec]; omega
  unfold Dct8Naive.dct8 Dct8Naive.scratchLen
  rw [hl]
  apply runsV_of_body
  intro f sc hsc
  obtain ⟨g, rfl⟩ := exists_vec hsc
  simp (disch := omega) only [copyFromSlice_vec, ok_bind, rd_vec, wr_vec, csub_ok, length_vec]
  rw [naiveLoop0_eq opAdd w _ _ (fun k => k * 2 + 1) (fun k => k) _ (Nat.zero_le _) (by intros; omega)
    (by intros; omega)]
  simp only [ok_bind]
  exact ⟨_, rfl, length_vec _ _⟩

/-- Closed form of the method on an instance with n * 4 - 2 twiddles. -/
theorem Dst8Naive.runs_dst8 {n : Nat} (hn : 1 ≤ n) (w : Nat → T) :
    RunsV (Dst8Naive.dst8 ⟨vec (n * 4 - 2) w⟩) n n (fun f k =>
      let x := halfLast n f
      naiveSum opAdd (n * 4 - 2) w n x 0 (k * 2 + 1) (k) 0) := by
  have hl : Dst8Naive.len ⟨vec (n * 4 - 2) w⟩ = n := by simp only [Dst8Naive.len, length_vec]; omega
  unfold Dst8Naive.dst8 Dst8Naive.scratchLen
  rw [hl]
  apply runsV_of_body
  intro f sc hsc
  obtain ⟨g, rfl⟩ := exists_vec hsc
  simp (disch := omega) only [copyFromSlice_vec, ok_bind, rd_vec, wr_vec, csub_ok, length_vec]
  rw [naiveLoop0_eq opAdd w _ _ (fun k => k * 2 + 1) (fun k => k) _ (Nat.zero_le _) (by intros; omega)
    (by intros; omega)]
  simp only [ok_bind]
  exact ⟨_, rfl, length_vec _ _⟩

end

end RustDct
