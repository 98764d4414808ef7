import Verif.Lib.FftLib
import Verif.Proofs.SplitRadix
import Verif.Model.Mdct
/-!
# What the MDCT algorithms compute, for every element type
-/

set_option linter.all false

namespace RustDct

section
variable {T : Type}

/-- On three buffers of length `n` and enough scratch an MDCT call returns; its output is `C a b` whatever `output`
and scratch contained; scratch beyond the first `s` elements is untouched. -/
def RunsM (p : List T → List T → Mem T → Outcome (Mem T)) (n s : Nat) (C : (Nat → T) → (Nat → T) → Nat → T) : Prop :=
  ∀ (a b o : Nat → T) (scr : List T), s ≤ scr.length →
    ∃ scr', p (vec n a) (vec n b) ⟨vec n o, scr⟩ = .ok ⟨vec n (C a b), scr'⟩ ∧ scr'.length = scr.length ∧ scr'.drop s = scr.drop s

/-- On three buffers of length `n` and enough scratch an IMDCT call returns; the two outputs become `A x oa`, `B x ob`. -/
def RunsI (p : List T → IMem T → Outcome (IMem T)) (n s : Nat) (A B : (Nat → T) → (Nat → T) → Nat → T) : Prop :=
  ∀ (x oa ob : Nat → T) (scr : List T), s ≤ scr.length →
    ∃ scr', p (vec n x) ⟨vec n oa, vec n ob, scr⟩ = .ok ⟨vec n (A x oa), vec n (B x ob), scr'⟩ ∧
      scr'.length = scr.length ∧ scr'.drop s = scr.drop s

theorem RunsM.congr {p : List T → List T → Mem T → Outcome (Mem T)} {n s : Nat} {C D : (Nat → T) → (Nat → T) → Nat → T}
    (h : RunsM p n s C) (hcd : ∀ a b k, k < n → C a b k = D a b k) : RunsM p n s D := by
  intro a b o scr hs
  obtain ⟨scr', h1, h2⟩ := h a b o scr hs
  exact ⟨scr', by rw [h1, vec_congr (fun k hk => hcd a b k hk)], h2⟩

theorem RunsI.congr {p : List T → IMem T → Outcome (IMem T)} {n s : Nat} {A B A' B' : (Nat → T) → (Nat → T) → Nat → T}
    (h : RunsI p n s A B) (ha : ∀ x o k, k < n → A x o k = A' x o k) (hb : ∀ x o k, k < n → B x o k = B' x o k) :
    RunsI p n s A' B' := by
  intro x oa ob scr hs
  obtain ⟨scr', h1, h2⟩ := h x oa ob scr hs
  exact ⟨scr', by rw [h1, vec_congr (fun k hk => ha x oa k hk), vec_congr (fun k hk => hb x ob k hk)], h2⟩

theorem runsM_of_body {n s : Nat} {body : List T → List T → List T → List T → Except Err (List T × List T)}
    {C : (Nat → T) → (Nat → T) → Nat → T}
    (h : ∀ a b o sc, sc.length = s → ∃ sc', body (vec n a) (vec n b) (vec n o) sc = .ok (vec n (C a b), sc') ∧ sc'.length = s) :
    RunsM (fun ia ib m => validateMdct ia ib m n s (body ia ib)) n s C := by
  intro a b o scr hs
  obtain ⟨sc', h1, h2⟩ := h a b o (scr.take s) (by simp; omega)
  refine ⟨sc' ++ scr.drop s, ?_, by simp; omega, by simp [h2]⟩
  simp [validateMdct, hs, h1]

theorem runsI_of_body {n s : Nat} {body : List T → List T → List T → List T → Except Err (List T × List T × List T)}
    {A B : (Nat → T) → (Nat → T) → Nat → T}
    (h : ∀ x oa ob sc, sc.length = s →
      ∃ sc', body (vec n x) (vec n oa) (vec n ob) sc = .ok (vec n (A x oa), vec n (B x ob), sc') ∧ sc'.length = s) :
    RunsI (fun i m => validateImdct i m n s (body i)) n s A B := by
  intro x oa ob scr hs
  obtain ⟨sc', h1, h2⟩ := h x oa ob (scr.take s) (by simp; omega)
  refine ⟨sc' ++ scr.drop s, ?_, by simp; omega, by simp [h2]⟩
  simp [validateImdct, hs, h1]

end

variable {T : Type} {F : Type} [F64 F] [DctNum T F]

/-! ### MdctNaive -/

/-- The accumulated value of one loop of `MdctNaive`. -/
def mdctSum (L : Nat) (t : Nat → T) (v : Nat → T → T) (stride : Nat) (acc : T) (idx cnt : Nat) : T :=
  (List.range cnt).foldl (fun a i => a + v i (t ((idx + stride * i) % L))) acc

theorem mdctLoop_eq {L cnt stride idx : Nat} (t : Nat → T) {term : Nat → T → Except Err T} (v : Nat → T → T)
    (hv : ∀ i tw, i < cnt → term i tw = .ok (v i tw)) (acc : T) (hi : idx < L) (hst : stride ≤ L) :
    mdctLoop (vec L t) cnt stride term acc idx =
      .ok (mdctSum L t v stride acc idx cnt, (idx + stride * cnt) % L) := by
  unfold mdctLoop
  rw [forRange_eq (fun m => (mdctSum L t v stride acc idx m, (idx + stride * m) % L))]
  · simp [mdctSum, Nat.mod_eq_of_lt hi]
  · intro i h1 h2
    have hL : 0 < L := by omega
    have hlt := Nat.mod_lt (idx + stride * i) hL
    simp only [rd_vec hlt, ok_bind, length_vec, hv i _ h2]
    have e1 : mdctSum L t v stride acc idx (i + 1) = mdctSum L t v stride acc idx i + v i (t ((idx + stride * i) % L)) := by
      unfold mdctSum
      rw [List.range_succ, List.foldl_append, List.foldl_cons, List.foldl_nil]
    have e2 : (idx + stride * (i + 1)) % L = ((idx + stride * i) % L + stride) % L := by
      rw [Nat.mod_add_mod, Nat.mul_add, Nat.mul_one, Nat.add_assoc]
    rw [e1, e2]
    generalize (idx + stride * i) % L = r at hlt ⊢
    by_cases h : r + stride ≥ L
    · rw [if_pos h, Nat.mod_eq_sub_mod h, Nat.mod_eq_of_lt (by omega)]
    · rw [if_neg h, Nat.mod_eq_of_lt (by omega)]
  · exact Nat.zero_le _

theorem MdctNaive.mdct_vec {n : Nat} (hn : n % 2 = 0) (t w : Nat → T) :
    RunsM (MdctNaive.mdct ⟨vec (4 * n) t, vec (2 * n) w⟩) n 0 (fun a b k =>
      let i0 := (n / 2 + k * (n + 1)) % (4 * n)
      mdctSum (4 * n) t (fun i tw => b i * w (i + n) * tw) (k * 2 + 1)
        (mdctSum (4 * n) t (fun i tw => a i * w i * tw) (k * 2 + 1) 0 i0 n)
        ((i0 + (k * 2 + 1) * n) % (4 * n)) n) := by
  unfold MdctNaive.mdct
  have hl : MdctNaive.len (⟨vec (4 * n) t, vec (2 * n) w⟩ : MdctNaive T) = n := by simp [MdctNaive.len]
  simp only [hl, MdctNaive.scratchLen]
  apply runsM_of_body (body := fun inputA inputB output scratch => _)
  intro a b o sc hsc
  simp only [length_vec]
  generalize hC : (fun k => mdctSum (4 * n) t (fun i tw => b i * w (i + n) * tw) (k * 2 + 1)
        (mdctSum (4 * n) t (fun i tw => a i * w i * tw) (k * 2 + 1) 0 ((n / 2 + k * (n + 1)) % (4 * n)) n)
        (((n / 2 + k * (n + 1)) % (4 * n) + (k * 2 + 1) * n) % (4 * n)) n) = C
  rw [forRange_eq (fun m => vec n (fun j => if j < m then C j else o j)) ?h1 ?h2 (by omega)]
  case h1 => exact target_start (by omega)
  case h2 =>
    intro k hk0 hk
    rw [mdctLoop_eq t (fun i tw => a i * w i * tw) (by
      intro i tw hi
      rw [rd_vec hi, ok_bind, rd_vec (by omega), ok_bind]) _ (Nat.mod_lt _ (by omega)) (by omega), ok_bind]
    rw [mdctLoop_eq t (fun i tw => b i * w (i + n) * tw) (by
      intro i tw hi
      rw [rd_vec hi, ok_bind, rd_vec (by omega), ok_bind]) _ (Nat.mod_lt _ (by omega)) (by omega), ok_bind]
    rw [wr_target hk (by rw [← hC])]
    congr 1
    exact target_congr (by omega)
  rw [ok_bind]
  exact ex_ok (target_done (by simp)) hsc

/-- Twiddle index of the second half of the naive IMDCT. -/
def imdctTw (n k : Nat) : Nat := if k < n / 2 then k else n - k - 1

theorem MdctNaive.imdct_vec {n : Nat} (hn : n % 2 = 0) (t w : Nat → T) :
    RunsI (MdctNaive.imdct ⟨vec (4 * n) t, vec (2 * n) w⟩) n 0
      (fun x o k => o k + mdctSum (4 * n) t (fun i tw => x i * tw) (n + k * 2 + 1) 0 (n / 2 + k) n * w k)
      (fun x o k => o k + mdctSum (4 * n) t (fun i tw => x i * tw) (n - 1 - imdctTw n k * 2) 0
        (4 * n - n * 2 + n / 2 - imdctTw n k - 1) n * w (k + n)) := by
  unfold MdctNaive.imdct
  have hl : MdctNaive.len (⟨vec (4 * n) t, vec (2 * n) w⟩ : MdctNaive T) = n := by simp [MdctNaive.len]
  simp only [hl, MdctNaive.scratchLen]
  apply runsI_of_body (body := fun input outputA outputB scratch => _)
  intro x oa ob sc hsc
  simp only [length_vec]
  generalize hA : (fun k => oa k + mdctSum (4 * n) t (fun i tw => x i * tw) (n + k * 2 + 1) 0 (n / 2 + k) n * w k) = A
  generalize hB : (fun k => ob k + mdctSum (4 * n) t (fun i tw => x i * tw) (n - 1 - imdctTw n k * 2) 0
        (4 * n - n * 2 + n / 2 - imdctTw n k - 1) n * w (k + n)) = B
  rw [forRange_eq (fun m => vec n (fun j => if j < m then A j else oa j)) ?h1 ?h2 (by omega)]
  case h1 => exact target_start (by omega)
  case h2 =>
    intro k hk0 hk
    rw [mdctLoop_eq t (fun i tw => x i * tw) (by
      intro i tw hi
      rw [rd_vec hi, ok_bind]) _ (by omega) (by omega), ok_bind]
    rw [rd_vec hk, ok_bind, rd_vec (by omega), ok_bind]
    rw [wr_target hk (by rw [← hA, if_neg (by omega)])]
    congr 1
    exact target_congr (by omega)
  rw [ok_bind]
  rw [forRange_eq (fun m => vec n (fun j => if j < m then B j else ob j)) ?h3 ?h4 (by omega)]
  case h3 => exact target_start (by omega)
  case h4 =>
    intro k hk0 hk
    have tail : ∀ m, m * 2 + 1 < n → (do
        let a ← csub (4 * n) (n * 2)
        let b ← csub (a + n / 2) m
        let twiddleIndex ← csub b 1
        let c ← csub n 1
        let twiddleStride ← csub c (m * 2)
        mdctLoop (vec (4 * n) t) n twiddleStride (fun i twiddle => do
          let x ← rd (vec n x) i
          Except.ok (x * twiddle)) 0 twiddleIndex) =
        .ok (mdctSum (4 * n) t (fun i tw => x i * tw) (n - 1 - m * 2) 0 (4 * n - n * 2 + n / 2 - m - 1) n,
          ((4 * n - n * 2 + n / 2 - m - 1) + (n - 1 - m * 2) * n) % (4 * n)) := by
      intro m hm
      rw [csub_ok (by omega), ok_bind, csub_ok (by omega), ok_bind, csub_ok (by omega), ok_bind, csub_ok (by omega), ok_bind,
        csub_ok (by omega), ok_bind]
      exact mdctLoop_eq t (fun i tw => x i * tw) (by
        intro i tw hi
        rw [rd_vec hi, ok_bind]) _ (by omega) (by omega)
    by_cases h : k < n / 2
    · have e : imdctTw n k = k := if_pos h
      have ht := tail k (by omega)
      rw [csub_ok (by omega), ok_bind, csub_ok (by omega), ok_bind, csub_ok (by omega), ok_bind, csub_ok (by omega), ok_bind,
        csub_ok (by omega), ok_bind] at ht
      rw [if_pos h, ok_bind, csub_ok (by omega), ok_bind, csub_ok (by omega), ok_bind, csub_ok (by omega), ok_bind, csub_ok (by omega), ok_bind,
        csub_ok (by omega), ok_bind, ht, ok_bind, rd_vec hk, ok_bind, rd_vec (by omega), ok_bind]
      rw [wr_target hk (by rw [← hB, if_neg (by omega)]; beta_reduce; rw [e])]
      congr 1
      exact target_congr (by omega)
    · have e : imdctTw n k = n - k - 1 := if_neg h
      have ht := tail (n - k - 1) (by omega)
      rw [csub_ok (by omega), ok_bind, csub_ok (by omega), ok_bind, csub_ok (by omega), ok_bind, csub_ok (by omega), ok_bind,
        csub_ok (by omega), ok_bind] at ht
      rw [if_neg h, csub_ok (by omega), ok_bind, csub_ok (by omega), ok_bind, csub_ok (by omega), ok_bind, csub_ok (by omega), ok_bind, csub_ok (by omega), ok_bind, csub_ok (by omega), ok_bind,
        csub_ok (by omega), ok_bind, ht, ok_bind, rd_vec hk, ok_bind, rd_vec (by omega), ok_bind]
      rw [wr_target hk (by rw [← hB, if_neg (by omega)]; beta_reduce; rw [e])]
      congr 1
      exact target_congr (by omega)
  rw [ok_bind]
  exact ⟨sc, by rw [target_done (by simp), target_done (by simp)], hsc⟩

/-! ### MdctViaDct4 -/

/-- The folded samples handed to the DCT4 (`n = 2 g`). -/
def mdctFold (g : Nat) (w a b : Nat → T) : Nat → T := fun i =>
  if i < g then -(b (g - 1 - i) * w (2 * g + (g - 1 - i))) - b (g + i) * w (2 * g + (g + i))
  else a (i - g) * w (i - g) - a (2 * g - 1 - (i - g)) * w (2 * g - 1 - (i - g))

theorem MdctViaDct4.mdct_vec {g s : Nat} (w : Nat → T) {dct : Obj4 T} (hl : dct.len = 2 * g) {D : (Nat → T) → Nat → T}
    (hD : RunsW dct.dct4 (2 * g) dct.scratchLen D) (hs : s = 2 * g + dct.scratchLen) :
    RunsM (MdctViaDct4.mdct ⟨dct, vec (4 * g) w, s⟩) (2 * g) s (fun a b => D (mdctFold g w a b)) := by
  unfold MdctViaDct4.mdct
  have hl' : MdctViaDct4.len (⟨dct, vec (4 * g) w, s⟩ : MdctViaDct4 T) = 2 * g := hl
  simp only [hl']
  apply runsM_of_body (body := fun inputA inputB output scratch => _)
  intro a b o sc hsc
  obtain ⟨x, rfl⟩ := exists_vec hsc
  rw [show 2 * g / 2 = g by omega]
  rw [splitAtMut_vec (by omega), ok_bind]
  simp only [zipWith_vec, reverse_vec, show min (2 * g) (4 * g) = 2 * g by omega, show min (2 * g) (4 * g - 2 * g) = 2 * g by omega]
  rw [take_vec _ _ _ (by omega), take_vec _ _ _ (by omega), drop_vec, drop_vec, zip_vec, zip_vec, assignZip_vec,
    splitAtMut_vec (by omega), ok_bind]
  simp only []
  rw [assignZip_vec, append_vec]
  have e : vec (g + (2 * g - g)) (fun i => if i < g then
        if i < min (2 * g - g) (2 * g - g) then
          -(b (2 * g - 1 - (g + i)) * w (2 * g + (2 * g - 1 - (g + i)))) - b (g + i) * w (2 * g + (g + i)) else o i
      else if i - g < min g g then a (i - g) * w (i - g) - a (2 * g - 1 - (i - g)) * w (2 * g - 1 - (i - g))
        else if g + (i - g) < min (2 * g - g) (2 * g - g) then
          -(b (2 * g - 1 - (g + (g + (i - g)))) * w (2 * g + (2 * g - 1 - (g + (g + (i - g)))))) - b (g + (g + (i - g))) * w (2 * g + (g + (g + (i - g))))
          else o (g + (i - g))) = vec (2 * g) (mdctFold g w a b) := by
    refine vec_congr' (by omega) fun i hi => ?_
    unfold mdctFold
    by_cases h : i < g
    · rw [if_pos h, if_pos h, if_pos (by omega), show 2 * g - 1 - (g + i) = g - 1 - i by omega]
    · rw [if_neg h, if_neg h, if_pos (by omega)]
  rw [e]
  obtain ⟨x', h1⟩ := hD.callProc (mdctFold g w a b) (m := s) x (by omega)
  exact ⟨_, h1, by simp⟩

theorem zipUpdate_vec (f : T → T → T → T) {n k m p : Nat} (hk : k ≤ n) (hm : n ≤ m) (o w v : Nat → T) :
    zipUpdate f k (vec n o) (vec m w) (vec p v) =
      vec n (fun i => if k ≤ i ∧ i < k + p then f (o i) (w i) (v (i - k)) else o i) := by
  unfold zipUpdate
  rw [take_vec _ _ _ hk, drop_vec, drop_vec, zip_vec, updZip_vec, append_vec]
  refine vec_congr' (by omega) fun i hi => ?_
  by_cases h : i < k
  · rw [if_pos h, if_neg (by omega)]
  · rw [if_neg h, show k + (i - k) = i by omega]
    exact if_congr (by omega) rfl rfl

theorem MdctViaDct4.imdct_vec {g s : Nat} (w : Nat → T) {dct : Obj4 T} (hl : dct.len = 2 * g) {D : (Nat → T) → Nat → T}
    (hD : RunsW dct.dct4 (2 * g) dct.scratchLen D) (hs : s = 2 * g + dct.scratchLen) :
    RunsI (MdctViaDct4.imdct ⟨dct, vec (4 * g) w, s⟩) (2 * g) s
      (fun x o i => if i < g then o i + D x (g + i) * w i else o i - D x (3 * g - 1 - i) * w i)
      (fun x o i => if i < g then o i - D x (g - 1 - i) * w (2 * g + i) else o i - D x (i - g) * w (2 * g + i)) := by
  unfold MdctViaDct4.imdct
  have hl' : MdctViaDct4.len (⟨dct, vec (4 * g) w, s⟩ : MdctViaDct4 T) = 2 * g := hl
  simp only [hl']
  apply runsI_of_body (body := fun input outputA outputB scratch => _)
  intro x oa ob sc hsc
  obtain ⟨y, rfl⟩ := exists_vec hsc
  rw [splitAtMut_vec (by omega), ok_bind]
  simp only []
  rw [copyFromSlice_vec, ok_bind]
  obtain ⟨y', h1⟩ := hD.callProc x (m := s - 2 * g) (fun i => y (2 * g + i)) (by omega)
  rw [h1, ok_bind]
  simp only []
  rw [show 2 * g / 2 = g by omega, splitAtMut_vec (by omega), ok_bind, splitAtMut_vec (by omega), ok_bind]
  simp only []
  rw [reverse_vec, reverse_vec, zipUpdate_vec _ (by omega) (by omega), zipUpdate_vec _ (by omega) (by omega),
    zipUpdate_vec _ (by omega) (by omega), zipUpdate_vec _ (by omega) (by omega)]
  refine ⟨_, congrArg Except.ok (Prod.ext ?_ (Prod.ext ?_ rfl)), by simp; omega⟩
  · refine vec_congr fun i hi => ?_
    by_cases h : i < g
    · rw [if_neg (by omega), if_pos (by omega), if_pos h, Nat.sub_zero]
    · rw [if_pos (by omega), if_neg (by omega), if_neg h, show g + (2 * g - g - 1 - (i - g)) = 3 * g - 1 - i by omega]
  · refine vec_congr fun i hi => ?_
    by_cases h : i < g
    · rw [if_neg (by omega), if_pos (by omega), if_pos h, Nat.sub_zero]
    · rw [if_pos (by omega), if_neg (by omega), if_neg h]

end RustDct
