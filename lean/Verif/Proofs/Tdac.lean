import Verif.Proofs.Inverse
import Verif.Proofs.MdctReal
import Verif.Client
/-!
# Time domain alias cancellation
-/

set_option linter.all false

namespace RustDct
open Real Finset

/-- Inner product of two rows of the MDCT matrix. -/
theorem mdct_rows {n : ℕ} (hn : 1 ≤ n) {i j : ℕ} (hi : i < 2 * n) (hj : j < 2 * n) :
    ∑ k ∈ range n, cos (π / n * (i + 1 / 2 + n / 2) * (k + 1 / 2)) * cos (π / n * (j + 1 / 2 + n / 2) * (k + 1 / 2)) =
      (n : ℝ) / 2 * ((if i = j then 1 else 0) - (if i + j = n - 1 then 1 else 0) + (if i + j = 3 * n - 1 then 1 else 0)) := by
  have hz : (n : ℝ) ≠ 0 := Nat.cast_ne_zero.2 (by omega)
  rw [orth_of_sums (w := 1) (u := fun k => cos ((2 * k + 1) * (((i - j : ℤ) : ℝ) * π / (2 * n)))) (v := fun k => cos ((2 * k + 1) * (((i + j + 1 + n : ℤ) : ℝ) * π / (2 * n))))
    (fun k _ => by
      rw [one_mul]
      apply cos_mul_cos'
      · push_cast; field_simp; ring
      · push_cast; field_simp; ring) rfl rfl]
  have hS : ∑ k ∈ range n, cos ((2 * (k : ℝ) + 1) * (((i - j : ℤ) : ℝ) * π / (2 * n))) = if i = j then (n : ℝ) else 0 := by
    by_cases h : i = j
    · subst h; rw [if_pos rfl, show (i : ℤ) - i = 0 by ring, sumS_self]
    · rw [if_neg h, sumS_zero (by omega) (not_dvd_of (by omega) (by omega) (by omega))]
  have hT : ∑ k ∈ range n, cos ((2 * (k : ℝ) + 1) * (((i + j + 1 + n : ℤ) : ℝ) * π / (2 * n))) =
      -(if i + j = n - 1 then (n : ℝ) else 0) + if i + j = 3 * n - 1 then (n : ℝ) else 0 := by
    by_cases h1 : i + j = n - 1
    · rw [if_pos h1, if_neg (by omega), show (i : ℤ) + j + 1 + n = 2 * n by omega, sumS_period (by omega), add_zero]
    · rw [if_neg h1]
      by_cases h2 : i + j = 3 * n - 1
      · rw [if_pos h2, show (i : ℤ) + j + 1 + n = 2 * n + 2 * n by omega]
        have : ∀ k ∈ range n, cos ((2 * (k : ℝ) + 1) * (((2 * n + 2 * n : ℤ) : ℝ) * π / (2 * n))) = 1 := by
          intro k _
          rw [show (2 * (k : ℝ) + 1) * (((2 * n + 2 * n : ℤ) : ℝ) * π / (2 * n)) = 0 + ((2 * k + 1 : ℕ) : ℝ) * (2 * π) by
            push_cast; field_simp; ring, cos_add_nat_mul_two_pi, cos_zero]
        rw [sum_congr rfl this]; simp
      · rw [if_neg h2, sumS_zero (by omega)]
        · ring
        · intro hd
          have hd' : (2 * n : ℤ) ∣ (i + j + 1 + n) - 2 * n := dvd_sub_self_right.2 hd
          by_cases h3 : (i : ℤ) + j + 1 + n < 4 * n
          · exact not_dvd_of (by omega) (by omega) (by omega) hd'
          · have hd'' : (2 * n : ℤ) ∣ (i + j + 1 + n) - 2 * n - 2 * n := dvd_sub_self_right.2 hd'
            exact not_dvd_of (by omega) (by omega) (by omega) hd''
  rw [hS, hT]
  split <;> split <;> split <;> ring

/-- IMDCT after MDCT, before overlapping: the sample plus its mirror image within its half (the alias). -/
theorem imdct_mdct {n : ℕ} (hn : 1 ≤ n) (w x : ℕ → ℝ) {j : ℕ} (hj : j < 2 * n) :
    Spec.imdctAt n w (Spec.mdctAt n w x) j = (n : ℝ) / 2 * w j *
      (w j * x j + if j < n then -(w (n - 1 - j) * x (n - 1 - j)) else w (3 * n - 1 - j) * x (3 * n - 1 - j)) := by
  unfold Spec.imdctAt Spec.mdctAt
  have e : ∑ k ∈ range n, (∑ i ∈ range (2 * n), w i * x i * cos (π / n * (i + 1 / 2 + n / 2) * (k + 1 / 2))) * cos (π / n * (j + 1 / 2 + n / 2) * (k + 1 / 2)) =
      ∑ i ∈ range (2 * n), w i * x i * ((n : ℝ) / 2 * ((if i = j then 1 else 0) - (if i + j = n - 1 then 1 else 0) + (if i + j = 3 * n - 1 then 1 else 0))) := by
    simp only [sum_mul]
    rw [sum_comm]
    refine sum_congr rfl fun i hi => ?_
    rw [← mdct_rows hn (mem_range.1 hi) hj, mul_sum]
    exact sum_congr rfl fun k _ => by ring
  rw [e]
  have e2 : ∀ i, w i * x i * ((n : ℝ) / 2 * ((if i = j then 1 else 0) - (if i + j = n - 1 then 1 else 0) + (if i + j = 3 * n - 1 then 1 else 0))) =
      (if i = j then n / 2 * (w i * x i) else 0) + -(if i + j = n - 1 then n / 2 * (w i * x i) else 0) + (if i + j = 3 * n - 1 then n / 2 * (w i * x i) else 0) := by
    intro i
    split <;> split <;> split <;> ring
  rw [sum_congr rfl fun i _ => e2 i, sum_add_distrib, sum_add_distrib, sum_neg_distrib, sum_ite_eq' (range (2 * n)) j, if_pos (mem_range.2 hj)]
  by_cases h : j < n
  · rw [if_pos h, sum_eq_zero (f := fun i => if i + j = 3 * n - 1 then (n : ℝ) / 2 * (w i * x i) else 0) (fun i hi => if_neg (by have := mem_range.1 hi; omega))]
    rw [sum_congr rfl (g := fun i => if i = n - 1 - j then (n : ℝ) / 2 * (w i * x i) else 0) (fun i _ => by
      by_cases h' : i + j = n - 1
      · rw [if_pos h', if_pos (by omega)]
      · rw [if_neg h', if_neg (by omega)]), sum_ite_eq' (range (2 * n)) (n - 1 - j), if_pos (mem_range.2 (by omega))]
    ring
  · rw [if_neg h, sum_eq_zero (f := fun i => if i + j = n - 1 then (n : ℝ) / 2 * (w i * x i) else 0) (fun i hi => if_neg (by have := mem_range.1 hi; omega))]
    rw [sum_congr rfl (g := fun i => if i = 3 * n - 1 - j then (n : ℝ) / 2 * (w i * x i) else 0) (fun i _ => by
      by_cases h' : i + j = 3 * n - 1
      · rw [if_pos h', if_pos (by omega)]
      · rw [if_neg h', if_neg (by omega)]), sum_ite_eq' (range (2 * n)) (3 * n - 1 - j), if_pos (mem_range.2 (by omega))]
    ring

/-- Overlap-add cancels the alias. -/
theorem tdac {n : ℕ} (hn : 1 ≤ n) {w : ℕ → ℝ} {c : ℝ} (hs : ∀ i, i < n → w (2 * n - 1 - i) = w i) (hc : ∀ i, i < n → w i ^ 2 + w (i + n) ^ 2 = c)
    (f g h : ℕ → ℝ) {i : ℕ} (hi : i < n) :
    Spec.imdctAt n w (Spec.mdctAt n w (cat n f g)) (n + i) + Spec.imdctAt n w (Spec.mdctAt n w (cat n g h)) i = c * n / 2 * g i := by
  rw [imdct_mdct hn _ _ (by omega), imdct_mdct hn _ _ (by omega), if_neg (by omega), if_pos hi]
  unfold cat
  rw [if_neg (by omega), if_neg (by omega), if_pos hi, if_pos (by omega), show n + i - n = i by omega, show 3 * n - 1 - (n + i) - n = n - 1 - i by omega,
    show 3 * n - 1 - (n + i) = 2 * n - 1 - i by omega, hs i hi, ← hc i hi, show n + i = i + n by omega]
  have := hs (n - 1 - i) (by omega)
  rw [show 2 * n - 1 - (n - 1 - i) = i + n by omega] at this
  rw [← this]; ring

theorem mdctAt_congr {n : ℕ} {w w' x x' : ℕ → ℝ} (hw : ∀ i, i < 2 * n → w i = w' i) (hx : ∀ i, i < 2 * n → x i = x' i) (k : ℕ) :
    Spec.mdctAt n w x k = Spec.mdctAt n w' x' k :=
  sum_congr rfl fun i hi => by rw [hw i (mem_range.1 hi), hx i (mem_range.1 hi)]

theorem imdctAt_congr {n : ℕ} {w w' X X' : ℕ → ℝ} {i : ℕ} (hw : w i = w' i) (hx : ∀ k, k < n → X k = X' k) :
    Spec.imdctAt n w X i = Spec.imdctAt n w' X' i := by
  unfold Spec.imdctAt
  rw [hw, sum_congr rfl fun k hk => by rw [hx k (mem_range.1 hk)]]

theorem getD_vec {α : Type} {n : ℕ} {f : ℕ → α} {i : ℕ} {d : α} (h : i < n) : (vec n f).getD i d = f i := by
  rw [List.getD_eq_getElem?_getD, getElem?_vec_lt h, Option.getD_some]

theorem spec_mdct_vec {n : ℕ} {w f g : ℕ → ℝ} : Spec.mdct n (vec (2 * n) w) (vec n f ++ vec n g) = vec n (Spec.mdctAt n w (cat n f g)) := by
  unfold Spec.mdct
  rw [map_range_eq_vec]
  refine vec_congr fun k _ => mdctAt_congr (fun i hi => getD_vec hi) (fun i hi => ?_) k
  rw [List.getD_eq_getElem?_getD]
  unfold cat
  split
  · rw [List.getElem?_append_left (by simpa), getElem?_vec_lt ‹_›, Option.getD_some]
  · rename_i h'
    rw [List.getElem?_append_right (by simpa using h'), length_vec, getElem?_vec_lt (by omega), Option.getD_some]

theorem spec_imdct_vec {n : ℕ} {w X : ℕ → ℝ} : Spec.imdct n (vec (2 * n) w) (vec n X) = vec n (Spec.imdctAt n w X) ++ vec n (fun i => Spec.imdctAt n w X (n + i)) := by
  unfold Spec.imdct
  rw [map_range_eq_vec]
  apply List.ext_getElem
  · simp; omega
  · intro i h1 h2
    rw [length_vec] at h1
    rw [getElem_vec, List.getElem_append]
    split
    · rw [getElem_vec]
      exact imdctAt_congr (getD_vec h1) fun k hk => getD_vec hk
    · rename_i h'
      rw [length_vec] at h'
      rw [getElem_vec, length_vec, show n + (i - n) = i by omega]
      exact imdctAt_congr (getD_vec h1) fun k hk => getD_vec hk

theorem RunsM.computes {p : List ℝ → List ℝ → Mem ℝ → Outcome (Mem ℝ)} {n s : ℕ} {w : ℕ → ℝ}
    (h : RunsM p n s (fun a b => Spec.mdctAt n w (cat n a b))) : ComputesMdct p n s (fun a b => Spec.mdct n (vec (2 * n) w) (a ++ b)) := by
  rintro a b ⟨o, scr⟩ ⟨ha, hb, ho, hs⟩
  obtain ⟨f, rfl⟩ := exists_vec ha
  obtain ⟨g, rfl⟩ := exists_vec hb
  obtain ⟨y, hy⟩ := exists_vec ho
  change o = vec n y at hy
  subst hy
  obtain ⟨scr', e, -⟩ := h f g y scr hs
  refine ⟨scr', ?_⟩
  beta_reduce
  rw [e, spec_mdct_vec]

theorem RunsI.accumulates {p : List ℝ → IMem ℝ → Outcome (IMem ℝ)} {n s : ℕ} {w : ℕ → ℝ}
    (h : RunsI p n s (fun X o' k => o' k + Spec.imdctAt n w X k) (fun X o' k => o' k + Spec.imdctAt n w X (n + k))) :
    AccumulatesImdct p n s (Spec.imdct n (vec (2 * n) w)) := by
  rintro x ⟨oa, ob, scr⟩ ⟨hx, ha, hb, hs⟩
  obtain ⟨X, rfl⟩ := exists_vec hx
  obtain ⟨f, hf⟩ := exists_vec ha
  obtain ⟨g, hg⟩ := exists_vec hb
  change oa = vec n f at hf
  change ob = vec n g at hg
  subst hf hg
  obtain ⟨scr', e, -⟩ := h X f g scr hs
  refine ⟨scr', ?_⟩
  rw [e, spec_imdct_vec]
  dsimp only
  rw [List.take_left' (by simp), List.drop_left' (by simp), zipWith_vec, zipWith_vec, Nat.min_self]

/-- Interior of the overlapped chain, for any instance with the two closed forms. -/
theorem lapped_run {o : MdctObj ℝ} {w : ℕ → ℝ} {c : ℝ} (hn : 1 ≤ o.len)
    (hM : RunsM o.mdct o.len o.scratchLen (fun a b => Spec.mdctAt o.len w (cat o.len a b)))
    (hI : RunsI o.imdct o.len o.scratchLen (fun X o' k => o' k + Spec.imdctAt o.len w X k) (fun X o' k => o' k + Spec.imdctAt o.len w X (o.len + k)))
    (hs : ∀ i, i < o.len → w (2 * o.len - 1 - i) = w i) (hc : ∀ i, i < o.len → w i ^ 2 + w (i + o.len) ^ 2 = c) (rest : List (List ℝ)) :
    ∀ (f acc y : ℕ → ℝ) (scr : List ℝ), (∀ b ∈ rest, b.length = o.len) → o.scratchLen ≤ scr.length →
      ∃ outs, lapped o (vec o.len f) rest (vec o.len acc) ⟨vec o.len y, scr⟩ = .ok outs ∧ outs.length = rest.length + 1 ∧
        (∀ g, rest.head? = some (vec o.len g) →
          outs.head? = some (vec o.len fun i => acc i + Spec.imdctAt o.len w (Spec.mdctAt o.len w (cat o.len f g)) i)) ∧
        ∀ t, t + 1 < rest.length → outs[t + 1]? = (rest[t]?).map fun b => b.map (c * o.len / 2 * ·) := by
  induction rest with
  | nil =>
    intro f acc y scr _ _
    exact ⟨_, rfl, rfl, fun g hg => by simp at hg, fun t ht => by simp at ht⟩
  | cons b rest ih =>
    intro f acc y scr hb hscr
    obtain ⟨g, rfl⟩ := exists_vec (hb b (by simp))
    obtain ⟨scr1, e1, l1, -⟩ := hM f g y scr hscr
    obtain ⟨scr2, e2, l2, -⟩ := hI (Spec.mdctAt o.len w (cat o.len f g)) acc (fun _ => 0) scr1 (by omega)
    obtain ⟨outs, e3, l3, h3, t3⟩ := ih g (fun k => 0 + Spec.imdctAt o.len w (Spec.mdctAt o.len w (cat o.len f g)) (o.len + k))
      (Spec.mdctAt o.len w (cat o.len f g)) scr2 (fun b hb' => hb b (by simp [hb'])) (by omega)
    refine ⟨_, by rw [lapped, e1]; dsimp only; rw [replicate_eq_vec, e2]; dsimp only; rw [e3], by simp [l3], ?_, ?_⟩
    · intro g' hg'
      rw [List.head?_cons, Option.some.injEq] at hg' ⊢
      refine vec_congr fun i hi => ?_
      congr 1
      refine imdctAt_congr rfl fun k _ => mdctAt_congr (fun _ _ => rfl) (fun j hj => ?_) k
      unfold cat
      split
      · rfl
      · exact vec_inj hg' _ (by omega)
    · intro t ht
      rw [List.getElem?_cons_succ]
      cases t with
      | succ t =>
        rw [List.getElem?_cons_succ]
        exact t3 t (by simpa using ht)
      | zero =>
        cases rest with
        | nil => simp at ht
        | cons b' rest =>
          obtain ⟨g', rfl⟩ := exists_vec (hb b' (by simp))
          rw [← List.head?_eq_getElem?, h3 g' rfl]
          simp only [List.getElem?_cons_zero, Option.map_some, Option.some.injEq]
          rw [show (vec o.len g).map (c * o.len / 2 * ·) = vec o.len fun i => c * o.len / 2 * g i by simp [vec, Function.comp_def]]
          refine vec_congr fun i hi => ?_
          rw [zero_add, tdac hn hs hc f g g' hi]

end RustDct
