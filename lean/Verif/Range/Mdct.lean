import Verif.Range.Planned
import Verif.Float.Mdct
/-!
# MDCT, IMDCT and overlapping in arithmetic of bounded range
-/

set_option linter.all false

namespace RustDct
open Finset Real

variable {T F : Type} [F64 F] [DctNum T F] {R : Ieee T F}

/-- An MDCT instance of length `n` runs; `G` and `d` are gain and roundings of the DCT4, `k` is the accuracy of the window. -/
structure MdctRel (R : Ieee T F) (o : MdctObj T) (n : ℕ) (v : ℕ → ℝ) (G d k : ℕ) where
  C : (ℕ → T) → (ℕ → T) → ℕ → T
  A : (ℕ → T) → (ℕ → T) → ℕ → T
  B : (ℕ → T) → (ℕ → T) → ℕ → T
  runM : RunsM o.mdct n o.scratchLen C
  runI : RunsI o.imdct n o.scratchLen A B
  relM : ∀ (b : ℝ) (c m : ℕ) (x y : ℕ → T) (x' y' : ℕ → ℝ), R.L ≤ b → 1 ≤ c → (∀ i < n, Bd R b c m (x i) (x' i)) → (∀ i < n, Bd R b c m (y i) (y' i)) →
    ∀ i < n, Bd R b (2 * G * c) (m + d + k + 2) (C x y i) (Spec.mdctAt n v (cat n x' y') i)
  relA : ∀ (b : ℝ) (c m c0 m0 : ℕ) (x o : ℕ → T) (x' o' : ℕ → ℝ), R.L ≤ b → 1 ≤ c → (∀ i < n, Bd R b c m (x i) (x' i)) → (∀ i < n, Bd R b c0 m0 (o i) (o' i)) →
    ∀ i < n, Bd R b (c0 + G * c) (max m0 (m + d + k + 1) + 1) (A x o i) (o' i + Spec.imdctAt n v x' i)
  relB : ∀ (b : ℝ) (c m c0 m0 : ℕ) (x o : ℕ → T) (x' o' : ℕ → ℝ), R.L ≤ b → 1 ≤ c → (∀ i < n, Bd R b c m (x i) (x' i)) → (∀ i < n, Bd R b c0 m0 (o i) (o' i)) →
    ∀ i < n, Bd R b (c0 + G * c) (max m0 (m + d + k + 1) + 1) (B x o i) (o' i + Spec.imdctAt n v x' (n + i))

theorem MdctViaDct4.rel {g : ℕ} (hg : 1 ≤ g) {w : ℕ → T} {v : ℕ → ℝ} {G d k : ℕ} (hw : ∀ i, i < 4 * g → Tw R 1 k (w i) (v i)) {dct : Obj4 T} (hl : dct.len = 2 * g)
    (hD : PRelW R .dct4 dct.dct4 (2 * g) dct.scratchLen G d) :
    Nonempty (MdctRel R (MdctViaDct4.toObj ⟨dct, vec (4 * g) w, 2 * g + dct.scratchLen⟩) (2 * g) v G d k) := by
  obtain ⟨D, hR, hA⟩ := hD
  have hA' : ∀ (b : ℝ) (c m : ℕ) (f : ℕ → T) (f' : ℕ → ℝ), R.L ≤ b → 1 ≤ c → (∀ i < 2 * g, Bd R b c m (f i) (f' i)) → ∀ i < 2 * g, Bd R b (G * c) (m + d) (D f i) (Spec.dct4At (2 * g) f' i) := hA
  refine ⟨_, _, _, MdctViaDct4.mdct_vec w hl hR rfl, MdctViaDct4.imdct_vec w hl hR rfl, ?_, ?_, ?_⟩
  · intro b c m x y x' y' hb hc hx hy i hi
    rw [mdctAt_fold]
    refine (hA' b (c + c) (m + k + 2) _ _ hb (by omega) (fun j hj => ?_) i hi).mono hb (le_of_eq (by ring)) (by omega)
    unfold mdctFold
    split_ifs with h
    · exact (Bd.sub hb (Bd.mul1 hb (hy _ (by omega)) (hw _ (by omega))).neg (Bd.mul1 hb (hy _ (by omega)) (hw _ (by omega)))).mono hb (le_refl _) (by omega)
    · exact (Bd.sub hb (Bd.mul1 hb (hx _ (by omega)) (hw _ (by omega))) (Bd.mul1 hb (hx _ (by omega)) (hw _ (by omega)))).mono hb (le_refl _) (by omega)
  · intro b c m c0 m0 x o x' o' hb hc hx ho i hi
    have h := hA' b c m x x' hb hc hx
    have e := imdctAt_unfold hg v x' (i := i) (by omega)
    rw [e]
    unfold unfoldIx
    split_ifs with h1 h2
    · rw [one_mul]
      exact (Bd.add hb (ho i hi) (Bd.mul1 hb (h _ (by omega)) (hw _ (by omega)))).mono hb (le_refl _) (by omega)
    · rw [neg_one_mul, ← sub_eq_add_neg]
      exact (Bd.sub hb (ho i hi) (Bd.mul1 hb (h _ (by omega)) (hw _ (by omega)))).mono hb (le_refl _) (by omega)
    · omega
  · intro b c m c0 m0 x o x' o' hb hc hx ho i hi
    have h := hA' b c m x x' hb hc hx
    have e := imdctAt_unfold hg v x' (i := 2 * g + i) (by omega)
    rw [e, if_neg (show ¬ 2 * g + i < g by omega), neg_one_mul, ← sub_eq_add_neg]
    unfold unfoldIx
    rw [if_neg (show ¬ 2 * g + i < g by omega)]
    split_ifs with h1 h2 h2
    · rw [show 3 * g - 1 - (2 * g + i) = g - 1 - i by omega]
      exact (Bd.sub hb (ho i hi) (Bd.mul1 hb (h _ (by omega)) (hw _ (by omega)))).mono hb (le_refl _) (by omega)
    · omega
    · omega
    · rw [show 2 * g + i - 3 * g = i - g by omega]
      exact (Bd.sub hb (ho i hi) (Bd.mul1 hb (h _ (by omega)) (hw _ (by omega)))).mono hb (le_refl _) (by omega)

/-! ### From sequences to lists -/

variable {o : MdctObj T} {n G d k : ℕ} {v : ℕ → ℝ}

theorem Ieee.Bounded.bd {B : ℝ} {f : ℕ → T} (h : R.Bounded B (vec n f)) : ∀ i < n, Bd R B 1 0 (f i) (R.val (f i)) := fun i hi => by
  have := h (f i) (by simp only [vec, List.mem_map, List.mem_range]; exact ⟨i, hi, rfl⟩)
  exact Bd.in this.1 this.2

theorem near_vec {B : ℝ} {c m : ℕ} {f : ℕ → T} {f' : ℕ → ℝ} (hM : c * B * (1 + R.u) ^ m ≤ R.M) (h : ∀ i < n, Bd R B c m (f i) (f' i)) :
    R.Near (((1 + R.u) ^ m - 1) * (c * B)) (vec n f) (vec n f') := by
  refine ⟨by simp, fun p hp => ?_⟩
  rw [List.zip, zipWith_vec_same] at hp
  simp only [vec, List.mem_map, List.mem_range] at hp
  obtain ⟨i, hi, rfl⟩ := hp
  have := (h i hi).2 hM
  exact ⟨this.1, this.2.2⟩

theorem MdctRel.mdct (h : MdctRel R o n v G d k) : StaysFiniteMdct R o.mdct n o.scratchLen (fun a b => Spec.mdct n (vec (2 * n) v) (a ++ b)) (2 * G) (d + k + 2) := by
  rintro B hB hM a b ⟨y, scr⟩ ⟨ha, hb, hy, hs⟩ ba bb
  obtain ⟨f, rfl⟩ := exists_vec ha
  obtain ⟨g, rfl⟩ := exists_vec hb
  obtain ⟨y', hy'⟩ := exists_vec hy
  change y = vec n y' at hy'
  subst hy'
  obtain ⟨scr', e, -⟩ := h.runM f g y' scr hs
  refine ⟨_, e, ?_⟩
  dsimp only
  rw [map_vec, map_vec, spec_mdct_vec]
  refine near_vec hM fun i hi => ?_
  exact (h.relM B 1 0 f g (fun i => R.val (f i)) (fun i => R.val (g i)) hB (le_refl _) ba.bd bb.bd i hi).mono hB (by omega) (by omega)

theorem MdctRel.imdct (h : MdctRel R o n v G d k) : StaysFiniteImdct R o.imdct n o.scratchLen (Spec.imdct n (vec (2 * n) v)) (G + 1) (d + k + 2) := by
  rintro B hB hM x ⟨oa, ob, scr⟩ ⟨hx, ha, hb, hs⟩ bx ba bb
  obtain ⟨X, rfl⟩ := exists_vec hx
  obtain ⟨f, hf⟩ := exists_vec ha
  obtain ⟨g, hg⟩ := exists_vec hb
  change oa = vec n f at hf
  change ob = vec n g at hg
  subst hf hg
  obtain ⟨scr', e, -⟩ := h.runI X f g scr hs
  refine ⟨_, e, length_vec _ _, length_vec _ _, ?_⟩
  dsimp only at ba bb ⊢
  rw [glue_vec, glue_vec]
  simp only [map_vec]
  rw [spec_imdct_vec, glue_vec, zipWith_vec_same]
  refine near_vec hM fun i hi => ?_
  unfold glue
  split_ifs with h1
  · exact (h.relA B 1 0 1 0 X f _ _ hB (le_refl _) bx.bd ba.bd i h1).mono hB (by omega) (by omega)
  · have := (h.relB B 1 0 1 0 X g _ _ hB (le_refl _) bx.bd bb.bd (i - n) (by omega)).mono hB (show 1 + G * 1 ≤ G + 1 by omega) (show _ ≤ d + k + 2 by omega)
    exact this

/-! ### Overlapping -/

/-- The closed form of the overlapped chain. -/
theorem MdctRel.lapped_run (h : MdctRel R o n v G d k) (hl : o.len = n) (rest : List (List T)) :
    ∀ (f acc y : ℕ → T) (scr : List T), (∀ b ∈ rest, b.length = n) → o.scratchLen ≤ scr.length →
      ∃ outs, lapped o (vec n f) rest (vec n acc) ⟨vec n y, scr⟩ = .ok outs ∧ outs.length = rest.length + 1 ∧
        (∀ b l, rest = b :: l → ∃ g, b = vec n g ∧ outs.head? = some (vec n (h.A (h.C f g) acc))) ∧
        ∀ t, t + 1 < rest.length → ∃ x y z, (vec n f :: rest)[t]? = some (vec n x) ∧ (vec n f :: rest)[t + 1]? = some (vec n y) ∧
          (vec n f :: rest)[t + 2]? = some (vec n z) ∧ outs[t + 1]? = some (vec n (h.A (h.C y z) (h.B (h.C x y) fun _ => 0))) := by
  subst hl
  induction rest with
  | nil =>
    intro f acc y scr _ _
    refine ⟨_, rfl, rfl, fun b l e => by simp at e, fun t ht => by simp at ht⟩
  | cons b rest ih =>
    intro f acc y scr hb hscr
    obtain ⟨g, rfl⟩ := exists_vec (hb b (by simp))
    obtain ⟨scr1, e1, l1, -⟩ := h.runM f g y scr hscr
    obtain ⟨scr2, e2, l2, -⟩ := h.runI (h.C f g) acc (fun _ => 0) scr1 (by omega)
    obtain ⟨outs, e3, l3, h3, t3⟩ := ih g (h.B (h.C f g) fun _ => 0) (h.C f g) scr2 (fun b hb' => hb b (by simp [hb'])) (by omega)
    refine ⟨_, by rw [lapped, e1]; dsimp only; rw [replicate_eq_vec, e2]; dsimp only; rw [e3], by simp [l3], ?_, ?_⟩
    · intro b l e
      injection e with e1 e2
      exact ⟨g, e1.symm, rfl⟩
    · intro t ht
      cases t with
      | succ t =>
        simp only [List.getElem?_cons_succ]
        exact t3 t (by simpa using ht)
      | zero =>
        cases rest with
        | nil => simp at ht
        | cons b' rest =>
          obtain ⟨g', rfl, h4⟩ := h3 b' rest rfl
          exact ⟨f, g, g', rfl, rfl, rfl, by rw [List.getElem?_cons_succ, ← List.head?_eq_getElem?, h4]⟩

/-- An interior block of the chain. -/
theorem MdctRel.block (h : MdctRel R o n v G d k) (hn : 1 ≤ n) (hG : 1 ≤ G) {c : ℝ} (hs : ∀ i, i < n → v (2 * n - 1 - i) = v i)
    (hc : ∀ i, i < n → v i ^ 2 + v (i + n) ^ 2 = c) {B : ℝ} (hB : R.L ≤ B) {x y z : ℕ → T} (hx : R.Bounded B (vec n x)) (hy : R.Bounded B (vec n y)) (hz : R.Bounded B (vec n z)) :
    ∀ i < n, Bd R B (4 * G ^ 2 + 1) (2 * (d + k) + 5) (h.A (h.C y z) (h.B (h.C x y) fun _ => 0) i) (c * n / 2 * R.val (y i)) := by
  intro i hi
  have h1 := h.relM B 1 0 x y _ _ hB (le_refl _) hx.bd hy.bd
  have h2 := h.relM B 1 0 y z _ _ hB (le_refl _) hy.bd hz.bd
  have h3 := h.relB B (2 * G * 1) _ 1 0 _ (fun _ => 0) _ (fun _ => 0) hB (by omega) h1 (fun _ _ => Bd.zero hB)
  have h4 := h.relA B (2 * G * 1) _ _ _ _ _ _ _ hB (by omega) h2 h3 i hi
  rw [zero_add (Spec.imdctAt n v _ _), tdac hn hs hc (fun i => R.val (x i)) (fun i => R.val (y i)) (fun i => R.val (z i)) hi] at h4
  exact h4.mono hB (le_of_eq (by ring)) (by omega)

theorem MdctRel.reconstructs (h : MdctRel R o n v G d k) (hl : o.len = n) (hn : 1 ≤ n) (hG : 1 ≤ G) {c : ℝ} (hs : ∀ i, i < n → v (2 * n - 1 - i) = v i)
    (hc : ∀ i, i < n → v i ^ 2 + v (i + n) ^ 2 = c) : ReconstructsFinite R o n (c * n / 2) (4 * G ^ 2 + 1) (2 * (d + k) + 5) := by
  rintro B hB hM a rest acc ⟨y, scr⟩ hb ha hy hscr
  obtain ⟨f, rfl⟩ := exists_vec (hb a (by simp)).1
  obtain ⟨acc, rfl⟩ := exists_vec ha
  obtain ⟨y', hy'⟩ := exists_vec hy
  change y = vec _ y' at hy'
  subst hy'
  obtain ⟨outs, e, l, -, ht⟩ := h.lapped_run hl rest f acc y' scr (fun b h => (hb b (by simp [h])).1) hscr
  refine ⟨outs, e, by simpa using l, ?_⟩
  intro t y out ht2 hy ho
  obtain ⟨x', y', z', hx', hy', hz', ho'⟩ := ht t (by simp only [List.length_cons] at ht2; omega)
  rw [hy] at hy'; rw [ho] at ho'
  injection hy' with hy'; injection ho' with ho'
  subst hy' ho'
  have bx := (hb _ (List.mem_of_getElem? hx')).2
  have by' := (hb _ (List.mem_of_getElem? hy)).2
  have bz := (hb _ (List.mem_of_getElem? hz')).2
  rw [map_vec]
  exact near_vec hM (h.block hn hG hs hc hB bx by' bz)

end RustDct
