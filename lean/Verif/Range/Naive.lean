import Verif.Range.Tables
import Verif.Float.Fft1
/-!
# The naive algorithms in arithmetic of bounded range
-/

set_option linter.all false

namespace RustDct
open Real

variable {T F : Type} [F64 F] [DctNum T F]

/-- The computed transform `C` of length `n` against the exact one: magnitudes grow at most by the factor `a`, `d` roundings are added. -/
def TransRel (R : Ieee T F) (k : Kind) (n : ℕ) (C : (ℕ → T) → ℕ → T) (a d : ℕ) : Prop :=
  ∀ (b : ℝ) (c m : ℕ) (f : ℕ → T) (F : ℕ → ℝ), R.L ≤ b → 1 ≤ c → (∀ i < n, Bd R b c m (f i) (F i)) → ∀ i < n, Bd R b (a * c) (m + d) (C f i) (k.specAt n F i)

def PRel (R : Ieee T F) (k : Kind) (p : Proc T) (n s : ℕ) (a d : ℕ) : Prop := ∃ C, RunsV p n s C ∧ TransRel R k n C a d
def PRelZ (R : Ieee T F) (k : Kind) (p : Proc T) (n s : ℕ) (a d : ℕ) : Prop := ∃ C, RunsZ p n s C ∧ TransRel R k n C a d

/-- As `PRel`, but the call may overwrite all of the scratch slice it is handed. -/
def PRelW (R : Ieee T F) (k : Kind) (p : Proc T) (n s : ℕ) (a d : ℕ) : Prop := ∃ C, RunsW p n s C ∧ TransRel R k n C a d

variable {R : Ieee T F}

theorem TransRel.mono {k : Kind} {n : ℕ} {C : (ℕ → T) → ℕ → T} {a d a' d' : ℕ} (h : TransRel R k n C a d) (ha : a ≤ a') (hd : d ≤ d') : TransRel R k n C a' d' :=
  fun b c m f F hb hc hf i hi => (h b c m f F hb hc hf i hi).mono hb (Nat.mul_le_mul_right c ha) (by omega)
theorem PRel.mono {k : Kind} {p : Proc T} {n s a d a' d' : ℕ} (h : PRel R k p n s a d) (ha : a ≤ a') (hd : d ≤ d') : PRel R k p n s a' d' := by
  obtain ⟨C, h1, h2⟩ := h
  exact ⟨C, h1, h2.mono ha hd⟩
theorem PRel.weak {k : Kind} {p : Proc T} {n s a d : ℕ} (h : PRel R k p n s a d) : PRelW R k p n s a d := by
  obtain ⟨C, h1, h2⟩ := h
  exact ⟨C, h1.weak, h2⟩
theorem PRel.toZ {k : Kind} {p : Proc T} {n s a d : ℕ} (h : PRel R k p n s a d) : PRelZ R k p n s a d := by
  obtain ⟨C, h1, h2⟩ := h
  exact ⟨C, h1.toZ, h2⟩

/-! ### Sums -/

theorem Bd.naive {W Wr : Type} {op : T → T → W → T} {opr : ℝ → ℝ → Wr → ℝ} {L n lo st t0 : ℕ} {w : ℕ → W} {wr : ℕ → Wr} {x : ℕ → T} {xr : ℕ → ℝ}
    {c0 : T} {c0r : ℝ} {b : ℝ} {c m : ℕ} (hL : 0 < L) (hlo : lo ≤ n)
    (hop : ∀ i < n, ∀ j < L, ∀ s sr c' m', m ≤ m' → Bd R b c' m' s sr → Bd R b (c' + c) (m' + 1) (op s (x i) (w j)) (opr sr (xr i) (wr j)))
    (hc : Bd R b c m c0 c0r) : Bd R b (c + (n - lo) * c) (m + (n - lo)) (naiveSum op L w n x lo st t0 c0) (naiveSum opr L wr n xr lo st t0 c0r) := by
  unfold naiveSum
  have h : ∀ q, q ≤ n - lo → Bd R b (c + q * c) (m + q) ((List.range' lo q).foldl (fun c i => op c (x i) (w ((t0 + st * (i - lo)) % L))) c0)
      ((List.range' lo q).foldl (fun c i => opr c (xr i) (wr ((t0 + st * (i - lo)) % L))) c0r) := by
    intro q
    induction q with
    | zero => intro _; simpa using hc
    | succ q ih =>
      intro hm
      have h1 := ih (by omega)
      rw [List.range'_concat, List.foldl_append, List.foldl_append]
      simp only [List.foldl_cons, List.foldl_nil, Nat.one_mul]
      have h2 := hop (lo + q) (by omega) ((t0 + st * (lo + q - lo)) % L) (Nat.mod_lt _ hL) _ _ _ _ (by omega) h1
      rw [show c + (q + 1) * c = c + q * c + c by ring]
      exact h2
  exact h (n - lo) (le_refl _)

section
variable {b : ℝ} {c m r L n : ℕ} {x : ℕ → T} {xr : ℕ → ℝ} (hb : R.L ≤ b)
include hb

theorem Bd.hop_add {w : ℕ → T} {wr : ℕ → ℝ} (hw : ∀ j < L, Tw R 1 r (w j) (wr j)) (hx : ∀ i < n, Bd R b c (m + 2) (x i) (xr i)) :
    ∀ i < n, ∀ j < L, ∀ s sr c' m', m + r + 3 ≤ m' → Bd R b c' m' s sr → Bd R b (c' + c) (m' + 1) (opAdd s (x i) (w j)) (opAdd sr (xr i) (wr j)) := by
  intro i hi j hj s sr c' m' hm hs
  have h := Bd.mul1 hb (hx i hi) (hw j hj)
  exact (Bd.add hb hs h).mono hb (le_refl _) (by omega)
theorem Bd.hop_re {w : ℕ → Cx T} {wr : ℕ → Cx ℝ} (hw : ∀ j < L, Tw R 1 r (w j).re (wr j).re) (hx : ∀ i < n, Bd R b c (m + 2) (x i) (xr i)) :
    ∀ i < n, ∀ j < L, ∀ s sr c' m', m + r + 3 ≤ m' → Bd R b c' m' s sr → Bd R b (c' + c) (m' + 1) (opAddRe s (x i) (w j)) (opAddRe sr (xr i) (wr j)) := by
  intro i hi j hj s sr c' m' hm hs
  have h := Bd.mul1 hb (hx i hi) (hw j hj)
  exact (Bd.add hb hs h).mono hb (le_refl _) (by omega)
theorem Bd.hop_im {w : ℕ → Cx T} {wr : ℕ → Cx ℝ} (hw : ∀ j < L, Tw R 1 r (w j).im (wr j).im) (hx : ∀ i < n, Bd R b c (m + 2) (x i) (xr i)) :
    ∀ i < n, ∀ j < L, ∀ s sr c' m', m + r + 3 ≤ m' → Bd R b c' m' s sr → Bd R b (c' + c) (m' + 1) (opSubIm s (x i) (w j)) (opSubIm sr (xr i) (wr j)) := by
  intro i hi j hj s sr c' m' hm hs
  have h := Bd.mul1 hb (hx i hi) (hw j hj)
  exact (Bd.sub hb hs h).mono hb (le_refl _) (by omega)

theorem Bd.foldl (hc : 1 ≤ c) (hx : ∀ i < n, Bd R b c m (x i) (xr i)) :
    Bd R b ((n + 1) * c) (m + n) ((vec n x).foldl (fun acc e => acc + e) 0) ((vec n xr).foldl (fun acc e => acc + e) 0) := by
  induction n with
  | zero => simpa [vec] using (Bd.zero (R := R) hb).mono hb hc (Nat.zero_le _)
  | succ n ih =>
    have h2 := ih fun i hi => hx i (by omega)
    unfold vec at h2 ⊢
    rw [List.range_succ, List.map_append, List.map_append, List.foldl_append, List.foldl_append]
    simp only [List.map_cons, List.map_nil, List.foldl_cons, List.foldl_nil]
    have h3 := Bd.add hb h2 (hx n (by omega))
    exact h3.mono hb (le_of_eq (by ring)) (by omega)

theorem Bd.zero' (hc : 1 ≤ c) : Bd R b c m (0 : T) (0 : ℝ) := (Bd.zero hb).mono hb hc (Nat.zero_le _)

variable {f : ℕ → T} {f' : ℕ → ℝ}

theorem Bd.hf (h : ∀ i < n, Bd R b c m (f i) (f' i)) : ∀ i < n, Bd R b c (m + 1) (halfFirst f i) (halfFirst f' i) := by
  intro i hi
  unfold halfFirst
  by_cases e : i = 0
  · subst e
    rw [if_pos rfl, if_pos rfl]
    exact Bd.mul1 hb (h 0 hi) Tw.half
  · rw [if_neg e, if_neg e]
    exact (h i hi).mono hb (le_refl _) (by omega)
theorem Bd.hl {n' : ℕ} (h : ∀ i < n, Bd R b c m (f i) (f' i)) : ∀ i < n, Bd R b c (m + 1) (halfLast n' f i) (halfLast n' f' i) := by
  intro i hi
  unfold halfLast
  by_cases e : i = n' - 1
  · subst e
    rw [if_pos rfl, if_pos rfl]
    exact Bd.mul1 hb (h _ hi) Tw.half
  · rw [if_neg e, if_neg e]
    exact (h i hi).mono hb (le_refl _) (by omega)

theorem Bd.hx_id (h : ∀ i < n, Bd R b c m (f i) (f' i)) : ∀ i < n, Bd R b c (m + 2) (f i) (f' i) := fun i hi => (h i hi).mono hb (le_refl _) (by omega)
theorem Bd.hx_first (h : ∀ i < n, Bd R b c m (f i) (f' i)) : ∀ i < n, Bd R b c (m + 2) (halfFirst f i) (halfFirst f' i) := fun i hi => (Bd.hf hb h i hi).mono hb (le_refl _) (by omega)
theorem Bd.hx_last (h : ∀ i < n, Bd R b c m (f i) (f' i)) : ∀ i < n, Bd R b c (m + 2) (halfLast n f i) (halfLast n f' i) := fun i hi => (Bd.hl hb h i hi).mono hb (le_refl _) (by omega)
theorem Bd.hx_both (h : ∀ i < n, Bd R b c m (f i) (f' i)) : ∀ i < n, Bd R b c (m + 2) (halfLast n (halfFirst f) i) (halfLast n (halfFirst f') i) :=
  Bd.hl hb (Bd.hf hb h)
end

theorem gain_le {n lo c : ℕ} (hn : lo ≤ n) : c + (n - lo) * c ≤ (n + 1) * c := by
  rw [show c + (n - lo) * c = (n - lo + 1) * c by ring]; exact Nat.mul_le_mul_right c (by omega)

/-! ### The sixteen transforms

Each magnitude grows at most by the number of terms, and each term passes through at most `n + 3` operations and a twiddle factor. -/

variable {r : ℕ}

theorem Dct1Naive.rel_dct1 (hr : R.Twiddles r) {n : ℕ} (hn : 2 ≤ n) (hn' : n ≤ 2 ^ 60) :
    PRel R .dct1 (Dct1Naive.dct1 (⟨vec ((n - 1) * 2) (Dct1Naive.tab n)⟩ : Dct1Naive T)) n n (n + 1) (n + r + 3) := by
  refine ⟨_, Dct1Naive.runs_dct1 hn _, fun b c m f f' hb hc hf i hi => ?_⟩
  have e := RunsV.unique (Dct1Naive.runs_dct1 hn (Dct1Naive.tab n : ℕ → ℝ)) (Dct1Naive.dct1_inst hn) f' hi
  rw [show Kind.dct1.specAt n f' i = _ from e.symm]
  have hx := Bd.hx_both hb hf
  exact (Bd.naive (lo := 1) (st := i) (t0 := i) (by omega) (by omega) (Bd.hop_add hb (Dct1Naive.tw_tab (n := n) hr hn hn') hx) ((hx 0 (by omega)).mono hb (le_refl _) (by omega))).mono hb (gain_le (by omega)) (by omega)

theorem Dst1Naive.rel_dst1 (hr : R.Twiddles r) {n : ℕ} (hn : 1 ≤ n) (hn' : n ≤ 2 ^ 60) :
    PRel R .dst1 (Dst1Naive.dst1 (⟨vec ((n + 1) * 2) (Dst1Naive.tab n)⟩ : Dst1Naive T)) n n (n + 1) (n + r + 3) := by
  refine ⟨_, Dst1Naive.runs_dst1  _, fun b c m f f' hb hc hf i hi => ?_⟩
  have e := RunsV.unique (Dst1Naive.runs_dst1  (Dst1Naive.tab n : ℕ → ℝ)) (Dst1Naive.dst1_inst ) f' hi
  rw [show Kind.dst1.specAt n f' i = _ from e.symm]
  have hx := Bd.hx_id hb hf
  exact (Bd.naive (lo := 0) (st := i + 1) (t0 := i + 1) (by omega) (by omega) (Bd.hop_add hb (Dst1Naive.tw_tab (n := n) hr  hn') hx) (Bd.zero' hb hc)).mono hb (gain_le (by omega)) (by omega)

theorem Type2And3Naive.rel_dct2 (hr : R.Twiddles r) {n : ℕ} (hn : 1 ≤ n) (hn' : n ≤ 2 ^ 60) :
    PRel R .dct2 (Type2And3Naive.dct2 (⟨vec (n * 4) (Type2And3Naive.tab n)⟩ : Type2And3Naive T)) n n (n + 1) (n + r + 3) := by
  refine ⟨_, Type2And3Naive.runs_dct2  _, fun b c m f f' hb hc hf i hi => ?_⟩
  have e := RunsV.unique (Type2And3Naive.runs_dct2  (Type2And3Naive.tab n : ℕ → Cx ℝ)) (Type2And3Naive.dct2_inst ) f' hi
  rw [show Kind.dct2.specAt n f' i = _ from e.symm]
  have hx := Bd.hx_id hb hf
  exact (Bd.naive (lo := 0) (st := i * 2) (t0 := i) (by omega) (by omega) (Bd.hop_re hb (fun j hj => (Type2And3Naive.tw_tab (n := n) hr  hn' j hj).1) hx) (Bd.zero' hb hc)).mono hb (gain_le (by omega)) (by omega)

theorem Type2And3Naive.rel_dst2 (hr : R.Twiddles r) {n : ℕ} (hn : 1 ≤ n) (hn' : n ≤ 2 ^ 60) :
    PRel R .dst2 (Type2And3Naive.dst2 (⟨vec (n * 4) (Type2And3Naive.tab n)⟩ : Type2And3Naive T)) n n (n + 1) (n + r + 3) := by
  refine ⟨_, Type2And3Naive.runs_dst2  _, fun b c m f f' hb hc hf i hi => ?_⟩
  have e := RunsV.unique (Type2And3Naive.runs_dst2  (Type2And3Naive.tab n : ℕ → Cx ℝ)) (Type2And3Naive.dst2_inst ) f' hi
  rw [show Kind.dst2.specAt n f' i = _ from e.symm]
  have hx := Bd.hx_id hb hf
  exact (Bd.naive (lo := 0) (st := (i + 1) * 2) (t0 := i + 1) (by omega) (by omega) (Bd.hop_im hb (fun j hj => (Type2And3Naive.tw_tab (n := n) hr  hn' j hj).2) hx) (Bd.zero' hb hc)).mono hb (gain_le (by omega)) (by omega)

theorem Type2And3Naive.rel_dct3 (hr : R.Twiddles r) {n : ℕ} (hn : 1 ≤ n) (hn' : n ≤ 2 ^ 60) :
    PRel R .dct3 (Type2And3Naive.dct3 (⟨vec (n * 4) (Type2And3Naive.tab n)⟩ : Type2And3Naive T)) n n (n + 1) (n + r + 3) := by
  refine ⟨_, Type2And3Naive.runs_dct3 hn _, fun b c m f f' hb hc hf i hi => ?_⟩
  have e := RunsV.unique (Type2And3Naive.runs_dct3 hn (Type2And3Naive.tab n : ℕ → Cx ℝ)) (Type2And3Naive.dct3_inst hn) f' hi
  rw [show Kind.dct3.specAt n f' i = _ from e.symm]
  have hx := Bd.hx_id hb hf
  exact (Bd.naive (lo := 1) (st := i * 2 + 1) (t0 := i * 2 + 1) (by omega) (by omega) (Bd.hop_re hb (fun j hj => (Type2And3Naive.tw_tab (n := n) hr  hn' j hj).1) hx) ((Bd.mul1' hb (hf 0 (by omega)) Tw.half).mono hb (le_refl _) (by omega))).mono hb (gain_le (by omega)) (by omega)

theorem Type2And3Naive.rel_dst3 (hr : R.Twiddles r) {n : ℕ} (hn : 1 ≤ n) (hn' : n ≤ 2 ^ 60) :
    PRel R .dst3 (Type2And3Naive.dst3 (⟨vec (n * 4) (Type2And3Naive.tab n)⟩ : Type2And3Naive T)) n n (n + 1) (n + r + 3) := by
  refine ⟨_, Type2And3Naive.runs_dst3 hn _, fun b c m f f' hb hc hf i hi => ?_⟩
  have e := RunsV.unique (Type2And3Naive.runs_dst3 hn (Type2And3Naive.tab n : ℕ → Cx ℝ)) (Type2And3Naive.dst3_inst hn) f' hi
  rw [show Kind.dst3.specAt n f' i = _ from e.symm]
  have hx := Bd.hx_last hb hf
  exact (Bd.naive (lo := 0) (st := i * 2 + 1) (t0 := i * 2 + 1) (by omega) (by omega) (Bd.hop_im hb (fun j hj => (Type2And3Naive.tw_tab (n := n) hr  hn' j hj).2) hx) (Bd.zero' hb hc)).mono hb (gain_le (by omega)) (by omega)

theorem Type4Naive.rel_dct4 (hr : R.Twiddles r) {n : ℕ} (hn : 1 ≤ n) (hn' : n ≤ 2 ^ 60) :
    PRel R .dct4 (Type4Naive.dct4 (⟨vec (n * 4) (Type4Naive.tab n)⟩ : Type4Naive T)) n n (n + 1) (n + r + 3) := by
  refine ⟨_, Type4Naive.runs_dct4  _, fun b c m f f' hb hc hf i hi => ?_⟩
  have e := RunsV.unique (Type4Naive.runs_dct4  (Type4Naive.tab n : ℕ → Cx ℝ)) (Type4Naive.dct4_inst ) f' hi
  rw [show Kind.dct4.specAt n f' i = _ from e.symm]
  have hx := Bd.hx_id hb hf
  exact (Bd.naive (lo := 0) (st := i * 2 + 1) (t0 := i) (by omega) (by omega) (Bd.hop_re hb (fun j hj => (Type4Naive.tw_tab (n := n) hr  hn' j hj).1) hx) (Bd.zero' hb hc)).mono hb (gain_le (by omega)) (by omega)

theorem Type4Naive.rel_dst4 (hr : R.Twiddles r) {n : ℕ} (hn : 1 ≤ n) (hn' : n ≤ 2 ^ 60) :
    PRel R .dst4 (Type4Naive.dst4 (⟨vec (n * 4) (Type4Naive.tab n)⟩ : Type4Naive T)) n n (n + 1) (n + r + 3) := by
  refine ⟨_, Type4Naive.runs_dst4  _, fun b c m f f' hb hc hf i hi => ?_⟩
  have e := RunsV.unique (Type4Naive.runs_dst4  (Type4Naive.tab n : ℕ → Cx ℝ)) (Type4Naive.dst4_inst ) f' hi
  rw [show Kind.dst4.specAt n f' i = _ from e.symm]
  have hx := Bd.hx_id hb hf
  exact (Bd.naive (lo := 0) (st := i * 2 + 1) (t0 := i) (by omega) (by omega) (Bd.hop_im hb (fun j hj => (Type4Naive.tw_tab (n := n) hr  hn' j hj).2) hx) (Bd.zero' hb hc)).mono hb (gain_le (by omega)) (by omega)

theorem Dct5Naive.rel_dct5 (hr : R.Twiddles r) {n : ℕ} (hn : 1 ≤ n) (hn' : n ≤ 2 ^ 60) :
    PRel R .dct5 (Dct5Naive.dct5 (⟨vec (n * 2 - 1) (Dct5Naive.tab n)⟩ : Dct5Naive T)) n n (n + 1) (n + r + 3) := by
  refine ⟨_, Dct5Naive.runs_dct5 hn _, fun b c m f f' hb hc hf i hi => ?_⟩
  have e := RunsV.unique (Dct5Naive.runs_dct5 hn (Dct5Naive.tab n : ℕ → ℝ)) (Dct5Naive.dct5_inst hn) f' hi
  rw [show Kind.dct5.specAt n f' i = _ from e.symm]
  have hx := Bd.hx_first hb hf
  by_cases h1 : i < 1
  · simp only [if_pos h1]
    exact (Bd.foldl hb hc hx).mono hb (le_refl _) (by omega)
  · simp only [if_neg h1]
    exact (Bd.naive (lo := 1) (st := i) (t0 := i) (by omega) (by omega) (Bd.hop_add hb (Dct5Naive.tw_tab (n := n) hr hn hn') hx) ((hx 0 (by omega)).mono hb (le_refl _) (by omega))).mono hb (gain_le (by omega)) (by omega)

theorem Dst5Naive.rel_dst5 (hr : R.Twiddles r) {n : ℕ} (hn : 1 ≤ n) (hn' : n ≤ 2 ^ 60) :
    PRel R .dst5 (Dst5Naive.dst5 (⟨vec (n * 2 + 1) (Dst5Naive.tab n)⟩ : Dst5Naive T)) n n (n + 1) (n + r + 3) := by
  refine ⟨_, Dst5Naive.runs_dst5  _, fun b c m f f' hb hc hf i hi => ?_⟩
  have e := RunsV.unique (Dst5Naive.runs_dst5  (Dst5Naive.tab n : ℕ → ℝ)) (Dst5Naive.dst5_inst ) f' hi
  rw [show Kind.dst5.specAt n f' i = _ from e.symm]
  have hx := Bd.hx_id hb hf
  exact (Bd.naive (lo := 0) (st := i + 1) (t0 := i + 1) (by omega) (by omega) (Bd.hop_add hb (Dst5Naive.tw_tab (n := n) hr  hn') hx) (Bd.zero' hb hc)).mono hb (gain_le (by omega)) (by omega)

theorem Dct6And7Naive.rel_dct6 (hr : R.Twiddles r) {n : ℕ} (hn : 1 ≤ n) (hn' : n ≤ 2 ^ 60) :
    PRel R .dct6 (Dct6And7Naive.dct6 (⟨vec (n * 4 - 2) (Dct6And7Naive.tab n)⟩ : Dct6And7Naive T)) n n (n + 1) (n + r + 3) := by
  refine ⟨_, Dct6And7Naive.runs_dct6 hn _, fun b c m f f' hb hc hf i hi => ?_⟩
  have e := RunsV.unique (Dct6And7Naive.runs_dct6 hn (Dct6And7Naive.tab n : ℕ → ℝ)) (Dct6And7Naive.dct6_inst hn) f' hi
  rw [show Kind.dct6.specAt n f' i = _ from e.symm]
  have hx := Bd.hx_last hb hf
  by_cases h1 : i < 1
  · simp only [if_pos h1]
    exact (Bd.foldl hb hc hx).mono hb (le_refl _) (by omega)
  · simp only [if_neg h1]
    exact (Bd.naive (lo := 0) (st := i * 2) (t0 := i) (by omega) (by omega) (Bd.hop_add hb (Dct6And7Naive.tw_tab (n := n) hr hn hn') hx) (Bd.zero' hb hc)).mono hb (gain_le (by omega)) (by omega)

theorem Dct6And7Naive.rel_dct7 (hr : R.Twiddles r) {n : ℕ} (hn : 1 ≤ n) (hn' : n ≤ 2 ^ 60) :
    PRel R .dct7 (Dct6And7Naive.dct7 (⟨vec (n * 4 - 2) (Dct6And7Naive.tab n)⟩ : Dct6And7Naive T)) n n (n + 1) (n + r + 3) := by
  refine ⟨_, Dct6And7Naive.runs_dct7 hn _, fun b c m f f' hb hc hf i hi => ?_⟩
  have e := RunsV.unique (Dct6And7Naive.runs_dct7 hn (Dct6And7Naive.tab n : ℕ → ℝ)) (Dct6And7Naive.dct7_inst hn) f' hi
  rw [show Kind.dct7.specAt n f' i = _ from e.symm]
  have hx := Bd.hx_first hb hf
  exact (Bd.naive (lo := 1) (st := i * 2 + 1) (t0 := i * 2 + 1) (by omega) (by omega) (Bd.hop_add hb (Dct6And7Naive.tw_tab (n := n) hr hn hn') hx) ((hx 0 (by omega)).mono hb (le_refl _) (by omega))).mono hb (gain_le (by omega)) (by omega)

theorem Dst6And7Naive.rel_dst6 (hr : R.Twiddles r) {n : ℕ} (hn : 1 ≤ n) (hn' : n ≤ 2 ^ 60) :
    PRel R .dst6 (Dst6And7Naive.dst6 (⟨vec (n * 4 + 2) (Dst6And7Naive.tab n)⟩ : Dst6And7Naive T)) n n (n + 1) (n + r + 3) := by
  refine ⟨_, Dst6And7Naive.runs_dst6  _, fun b c m f f' hb hc hf i hi => ?_⟩
  have e := RunsV.unique (Dst6And7Naive.runs_dst6  (Dst6And7Naive.tab n : ℕ → ℝ)) (Dst6And7Naive.dst6_inst ) f' hi
  rw [show Kind.dst6.specAt n f' i = _ from e.symm]
  have hx := Bd.hx_id hb hf
  exact (Bd.naive (lo := 0) (st := (i + 1) * 2) (t0 := i + 1) (by omega) (by omega) (Bd.hop_add hb (Dst6And7Naive.tw_tab (n := n) hr  hn') hx) (Bd.zero' hb hc)).mono hb (gain_le (by omega)) (by omega)

theorem Dst6And7Naive.rel_dst7 (hr : R.Twiddles r) {n : ℕ} (hn : 1 ≤ n) (hn' : n ≤ 2 ^ 60) :
    PRel R .dst7 (Dst6And7Naive.dst7 (⟨vec (n * 4 + 2) (Dst6And7Naive.tab n)⟩ : Dst6And7Naive T)) n n (n + 1) (n + r + 3) := by
  refine ⟨_, Dst6And7Naive.runs_dst7  _, fun b c m f f' hb hc hf i hi => ?_⟩
  have e := RunsV.unique (Dst6And7Naive.runs_dst7  (Dst6And7Naive.tab n : ℕ → ℝ)) (Dst6And7Naive.dst7_inst ) f' hi
  rw [show Kind.dst7.specAt n f' i = _ from e.symm]
  have hx := Bd.hx_id hb hf
  exact (Bd.naive (lo := 0) (st := i * 2 + 1) (t0 := i * 2 + 1) (by omega) (by omega) (Bd.hop_add hb (Dst6And7Naive.tw_tab (n := n) hr  hn') hx) (Bd.zero' hb hc)).mono hb (gain_le (by omega)) (by omega)

theorem Dct8Naive.rel_dct8 (hr : R.Twiddles r) {n : ℕ} (hn : 1 ≤ n) (hn' : n ≤ 2 ^ 60) :
    PRel R .dct8 (Dct8Naive.dct8 (⟨vec (n * 4 + 2) (Dct8Naive.tab n)⟩ : Dct8Naive T)) n n (n + 1) (n + r + 3) := by
  refine ⟨_, Dct8Naive.runs_dct8  _, fun b c m f f' hb hc hf i hi => ?_⟩
  have e := RunsV.unique (Dct8Naive.runs_dct8  (Dct8Naive.tab n : ℕ → ℝ)) (Dct8Naive.dct8_inst ) f' hi
  rw [show Kind.dct8.specAt n f' i = _ from e.symm]
  have hx := Bd.hx_id hb hf
  exact (Bd.naive (lo := 0) (st := i * 2 + 1) (t0 := i) (by omega) (by omega) (Bd.hop_add hb (Dct8Naive.tw_tab (n := n) hr  hn') hx) (Bd.zero' hb hc)).mono hb (gain_le (by omega)) (by omega)

theorem Dst8Naive.rel_dst8 (hr : R.Twiddles r) {n : ℕ} (hn : 1 ≤ n) (hn' : n ≤ 2 ^ 60) :
    PRel R .dst8 (Dst8Naive.dst8 (⟨vec (n * 4 - 2) (Dst8Naive.tab n)⟩ : Dst8Naive T)) n n (n + 1) (n + r + 3) := by
  refine ⟨_, Dst8Naive.runs_dst8 hn _, fun b c m f f' hb hc hf i hi => ?_⟩
  have e := RunsV.unique (Dst8Naive.runs_dst8 hn (Dst8Naive.tab n : ℕ → ℝ)) (Dst8Naive.dst8_inst hn) f' hi
  rw [show Kind.dst8.specAt n f' i = _ from e.symm]
  have hx := Bd.hx_last hb hf
  exact (Bd.naive (lo := 0) (st := i * 2 + 1) (t0 := i) (by omega) (by omega) (Bd.hop_add hb (Dst8Naive.tw_tab (n := n) hr hn hn') hx) (Bd.zero' hb hc)).mono hb (gain_le (by omega)) (by omega)

end RustDct
