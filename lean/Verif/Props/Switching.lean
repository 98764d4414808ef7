import Verif.Switching
import Verif.Props.Mdct
/-!
# C86: overlapped MDCT with a different window for every block
-/

set_option linter.all false

namespace RustDct
open Real Finset

/-- `imdct_mdct` with another window for the inverse transform. -/
theorem imdct_mdct_two {n : ℕ} (hn : 1 ≤ n) (v w x : ℕ → ℝ) {j : ℕ} (hj : j < 2 * n) :
    Spec.imdctAt n v (Spec.mdctAt n w x) j = (n : ℝ) / 2 * v j *
      (w j * x j + if j < n then -(w (n - 1 - j) * x (n - 1 - j)) else w (3 * n - 1 - j) * x (3 * n - 1 - j)) := by
  have h := imdct_mdct hn (fun _ => 1) (fun i => w i * x i) hj
  have e : Spec.mdctAt n (fun _ => 1) (fun i => w i * x i) = Spec.mdctAt n w x := by
    funext k
    unfold Spec.mdctAt
    exact sum_congr rfl fun i _ => by ring
  rw [e] at h
  have e' : Spec.imdctAt n v (Spec.mdctAt n w x) j = v j * Spec.imdctAt n (fun _ => 1) (Spec.mdctAt n w x) j := by
    unfold Spec.imdctAt
    ring
  rw [e', h]
  simp only [one_mul]
  ring

theorem seamOutput_vec {n : ℕ} (hn : 1 ≤ n) {w v w' v' f g h : ℕ → ℝ} :
    (vec n fun i => Spec.imdctAt n v (Spec.mdctAt n w (cat n f g)) (n + i) + Spec.imdctAt n v' (Spec.mdctAt n w' (cat n g h)) i) =
      Spec.seamOutput n (vec (2 * n) w) (vec (2 * n) v) (vec (2 * n) w') (vec (2 * n) v') (vec n g) := by
  unfold Spec.seamOutput
  rw [map_range_eq_vec]
  refine vec_congr fun i hi => ?_
  rw [imdct_mdct_two hn _ _ _ (by omega), imdct_mdct_two hn _ _ _ (by omega), if_neg (by omega), if_pos hi, getD_vec (by omega), getD_vec (by omega), getD_vec (by omega),
    getD_vec (by omega), getD_vec hi, getD_vec (by omega), getD_vec (by omega), getD_vec (by omega)]
  unfold cat
  rw [if_neg (by omega), if_neg (by omega), if_pos hi, if_pos (by omega), show n + i - n = i by omega, show 3 * n - 1 - (n + i) - n = n - 1 - i by omega,
    show 3 * n - 1 - (n + i) = 2 * n - 1 - i by omega]
  ring

/-- The instances of a step are made, with the windows `w` and `v`, by the constructors, for the length `n`; there is enough scratch for both. -/
def LapStep.Made (n scr : ℕ) (w v : List ℝ) (s : LapStep ℝ) : Prop :=
  MadeMdct FftContract w s.analysis ∧ MadeMdct FftContract v s.synthesis ∧ s.analysis.len = n ∧ s.synthesis.len = n ∧
    s.analysis.scratchLen ≤ scr ∧ s.synthesis.scratchLen ≤ scr ∧ s.block.length = n

/-- All steps are. -/
def LapSteps (n scr : ℕ) (w v : ℕ → List ℝ) (steps : List (LapStep ℝ)) : Prop :=
  ∀ (t : ℕ) (s : LapStep ℝ), steps[t]? = some s → s.Made n scr (w t) (v t)

theorem lappedSwitching_run {n : ℕ} (hn : 1 ≤ n) (steps : List (LapStep ℝ)) :
    ∀ (w v : ℕ → List ℝ) (f acc y : ℕ → ℝ) (scr : List ℝ), LapSteps n scr.length w v steps →
      ∃ outs, lappedSwitching (vec n f) steps (vec n acc) ⟨vec n y, scr⟩ = .ok outs ∧ outs.length = steps.length + 1 ∧
        (∀ s g w₀ v₀, steps.head? = some s → s.block = vec n g → w 0 = vec (2 * n) w₀ → v 0 = vec (2 * n) v₀ →
          outs.head? = some (vec n fun i => acc i + Spec.imdctAt n v₀ (Spec.mdctAt n w₀ (cat n f g)) i)) ∧
        ∀ t s, t + 1 < steps.length → steps[t]? = some s → outs[t + 1]? = some (Spec.seamOutput n (w t) (v t) (w (t + 1)) (v (t + 1)) s.block) := by
  induction steps with
  | nil =>
    intro w v f acc y scr _
    exact ⟨_, rfl, rfl, fun s g w₀ v₀ hs => by simp at hs, fun t s ht => by simp at ht⟩
  | cons s rest ih =>
    intro w v f acc y scr hm
    obtain ⟨h1, h2, l1, l2, s1, s2, lb⟩ := hm 0 s rfl
    obtain ⟨o, q, b⟩ := s
    dsimp only at h1 h2 l1 l2 s1 s2 lb
    obtain ⟨g, rfl⟩ := exists_vec lb
    obtain ⟨w₀, e₀, hM, -⟩ := h1.real (by omega)
    obtain ⟨v₀, e₁, -, hI⟩ := h2.real (by omega)
    rw [l1] at hM e₀
    rw [l2] at hI e₁
    obtain ⟨scr1, x1, k1, -⟩ := hM f g y scr s1
    obtain ⟨scr2, x2, k2, -⟩ := hI (Spec.mdctAt n w₀ (cat n f g)) acc (fun _ => 0) scr1 (by omega)
    obtain ⟨outs, x3, l3, h3, t3⟩ := ih (fun t => w (t + 1)) (fun t => v (t + 1)) g
      (fun k => 0 + Spec.imdctAt n v₀ (Spec.mdctAt n w₀ (cat n f g)) (n + k)) (Spec.mdctAt n w₀ (cat n f g)) scr2
      (fun t s hs => by rw [k2, k1]; exact hm (t + 1) s (by simpa using hs))
    refine ⟨_, by rw [lappedSwitching]; dsimp only; rw [x1]; dsimp only; rw [l2, replicate_eq_vec, x2]; dsimp only; rw [x3], by simp [l3], ?_, ?_⟩
    · intro s' g' w₁ v₁ hs' hg' hw hv
      rw [List.head?_cons, Option.some.injEq] at hs' ⊢
      subst hs'
      dsimp only at hg'
      refine vec_congr fun i hi => ?_
      congr 1
      rw [e₀] at hw
      rw [e₁] at hv
      refine imdctAt_congr (vec_inj hv _ (by omega)) fun k _ => mdctAt_congr (fun j hj => vec_inj hw _ hj) (fun j hj => ?_) k
      unfold cat
      split
      · rfl
      · exact vec_inj hg' _ (by omega)
    · intro t s ht hs
      rw [List.getElem?_cons_succ]
      cases t with
      | succ t => exact t3 t s (by simpa using ht) (by simpa using hs)
      | zero =>
        cases rest with
        | nil => simp at ht
        | cons s' rest =>
          simp only [List.getElem?_cons_zero, Option.some.injEq] at hs
          subst hs
          obtain ⟨h1', h2', l1', l2', -, -, lb'⟩ := hm 1 s' rfl
          obtain ⟨g', hg'⟩ := exists_vec lb'
          obtain ⟨w₁, e₂, -⟩ := h1'.real (by omega)
          obtain ⟨v₁, e₃, -⟩ := h2'.real (by omega)
          rw [l1'] at e₂
          rw [l2'] at e₃
          rw [← List.head?_eq_getElem?, h3 s' g' w₁ v₁ rfl hg' e₂ e₃, e₀, e₁]
          dsimp only
          rw [e₂, e₃, ← seamOutput_vec hn (f := f) (h := g')]
          simp only [zero_add]

/-- The program returns, and every interior block comes out as `Spec.seamOutput` of the windows of its two steps: for any instances, any windows, any number
of blocks, whatever the reused buffers contain. -/
theorem C86_exact {n : ℕ} (hn : 1 ≤ n) {w v : ℕ → List ℝ} {a acc : List ℝ} {steps : List (LapStep ℝ)} {m : Mem ℝ} (h : LapSteps n m.scr.length w v steps)
    (ha : a.length = n) (hacc : acc.length = n) (hm : m.buf.length = n) :
    ∃ outs, lappedSwitching a steps acc m = .ok outs ∧ outs.length = steps.length + 1 ∧
      ∀ t s, t + 1 < steps.length → steps[t]? = some s → outs[t + 1]? = some (Spec.seamOutput n (w t) (v t) (w (t + 1)) (v (t + 1)) s.block) := by
  obtain ⟨y, scr⟩ := m
  obtain ⟨f, rfl⟩ := exists_vec ha
  obtain ⟨acc, rfl⟩ := exists_vec hacc
  obtain ⟨y', hy'⟩ := exists_vec hm
  change y = vec _ y' at hy'
  subst hy'
  obtain ⟨outs, e, l, -, ht⟩ := lappedSwitching_run hn steps w v f acc y' scr h
  exact ⟨outs, e, l, ht⟩

/-- That is the block multiplied by `c n / 2`, whatever the block is, exactly if the windows fit together. -/
theorem C86_seam {n : ℕ} (hn : 1 ≤ n) (he : n % 2 = 0) (c : ℝ) (w v w' v' : List ℝ) :
    (∀ x : List ℝ, x.length = n → Spec.seamOutput n w v w' v' x = x.map (c * n / 2 * ·)) ↔ Spec.Seam n c w v w' v' := by
  have hz : (n : ℝ) ≠ 0 := Nat.cast_ne_zero.2 (by omega)
  constructor
  · intro h i hi
    have key : ∀ g : ℕ → ℝ, (n : ℝ) / 2 * ((v.getD (n + i) 0 * w.getD (n + i) 0 + v'.getD i 0 * w'.getD i 0) * g i +
        (v.getD (n + i) 0 * w.getD (2 * n - 1 - i) 0 - v'.getD i 0 * w'.getD (n - 1 - i) 0) * g (n - 1 - i)) = c * n / 2 * g i := by
      intro g
      have h1 := h (vec n g) (by simp)
      unfold Spec.seamOutput at h1
      rw [map_range_eq_vec, show (vec n g).map (c * n / 2 * ·) = vec n fun i => c * n / 2 * g i by simp [vec, Function.comp_def]] at h1
      have h2 := vec_inj h1 i hi
      rwa [getD_vec hi, getD_vec (by omega)] at h2
    have k1 := key fun j => if j = i then 1 else 0
    have k2 := key fun j => if j = i then 0 else 1
    rw [if_pos rfl, if_neg (by omega)] at k1 k2
    constructor
    · have : (n : ℝ) / 2 * (v.getD (n + i) 0 * w.getD (n + i) 0 + v'.getD i 0 * w'.getD i 0 - c) = 0 := by linear_combination k1
      rcases mul_eq_zero.1 this with h3 | h3
      · exact absurd h3 (by simpa using hz)
      · linarith
    · have : (n : ℝ) / 2 * (v.getD (n + i) 0 * w.getD (2 * n - 1 - i) 0 - v'.getD i 0 * w'.getD (n - 1 - i) 0) = 0 := by linear_combination k2
      rcases mul_eq_zero.1 this with h3 | h3
      · exact absurd h3 (by simpa using hz)
      · linarith
  · intro h x hx
    obtain ⟨g, rfl⟩ := exists_vec hx
    unfold Spec.seamOutput
    rw [map_range_eq_vec, show (vec n g).map (c * n / 2 * ·) = vec n fun i => c * n / 2 * g i by simp [vec, Function.comp_def]]
    refine vec_congr fun i hi => ?_
    obtain ⟨h1, h2⟩ := h i hi
    rw [h1, h2, getD_vec hi]
    ring

/-- Windows that fit together reconstruct the signal: also with another window for every block, and with other windows for the inverse transform. -/
theorem C86_reconstructs {n : ℕ} (hn : 1 ≤ n) (he : n % 2 = 0) {c : ℝ} {w v : ℕ → List ℝ} {a acc : List ℝ} {steps : List (LapStep ℝ)} {m : Mem ℝ}
    (h : LapSteps n m.scr.length w v steps) (ha : a.length = n) (hacc : acc.length = n) (hm : m.buf.length = n)
    (hs : ∀ t, t + 1 < steps.length → Spec.Seam n c (w t) (v t) (w (t + 1)) (v (t + 1))) :
    ∃ outs, lappedSwitching a steps acc m = .ok outs ∧ outs.length = steps.length + 1 ∧
      ∀ t s, t + 1 < steps.length → steps[t]? = some s → outs[t + 1]? = some (s.block.map (c * n / 2 * ·)) := by
  obtain ⟨outs, e, l, ht⟩ := C86_exact hn h ha hacc hm
  refine ⟨outs, e, l, fun t s h1 h2 => ?_⟩
  rw [ht t s h1 h2, (C86_seam hn he c _ _ _ _).2 (hs t h1) _ (h t s h2).2.2.2.2.2.2]

/-- Switching between window shapes: if the second half of one window and the first half of the next one are the halves of one symmetric window with the
Princen-Bradley condition, they fit together. -/
theorem C86_transition {n : ℕ} {c : ℝ} {u w w' : List ℝ} (hs : Spec.Symmetric n u) (hc : Spec.PrincenBradley n c u) (hw : w.drop n = u.drop n)
    (hw' : w'.take n = u.take n) : Spec.Seam n c w w w' w' := by
  have h1 : ∀ i, w.getD (n + i) 0 = u.getD (n + i) 0 := fun i => by
    have := congrArg (fun l => l.getD i 0) hw
    simpa [List.getD_eq_getElem?_getD, List.getElem?_drop] using this
  have h2 : ∀ i, i < n → w'.getD i 0 = u.getD i 0 := fun i hi => by
    have := congrArg (fun l => l.getD i 0) hw'
    simpa [List.getD_eq_getElem?_getD, List.getElem?_take, hi] using this
  have h3 : ∀ i, i < n → u.getD (n + i) 0 = u.getD (n - 1 - i) 0 := fun i hi => by
    have := hs.2 (n - 1 - i) (by omega)
    rwa [show 2 * n - 1 - (n - 1 - i) = n + i by omega] at this
  intro i hi
  have e := hc.2 i hi
  have e' := h3 (n - 1 - i) (by omega)
  rw [show n + (n - 1 - i) = 2 * n - 1 - i by omega, show n - 1 - (n - 1 - i) = i by omega] at e'
  rw [show 2 * n - 1 - i = n + (n - 1 - i) by omega, h1, h1, h2 i hi, h2 (n - 1 - i) (by omega), h3 i hi, h3 (n - 1 - i) (by omega),
    show n - 1 - (n - 1 - i) = i by omega]
  rw [show i + n = n + i by omega, h3 i hi] at e
  constructor
  · linear_combination e
  · ring

/-! ### A concrete case: from the window of MP3 to that of Vorbis and back -/

/-- The first half of one window and the second half of another. -/
def hybrid (n : ℕ) (u u' : List ℝ) : List ℝ := u.take n ++ u'.drop n

theorem hybrid_seams (n : ℕ) (hn : 1 ≤ n) :
    let p : List ℝ := WindowFn.mp3 (2 * n)
    let q : List ℝ := WindowFn.vorbis (2 * n)
    Spec.Seam n 1 p p (hybrid n p q) (hybrid n p q) ∧ Spec.Seam n 1 (hybrid n p q) (hybrid n p q) q q ∧ Spec.Seam n 1 q q (hybrid n q p) (hybrid n q p) ∧
    Spec.Seam n 1 (hybrid n q p) (hybrid n q p) p p := by
  intro p q
  obtain ⟨⟨a, b⟩, ⟨c, d⟩, -⟩ := C24_windows (n := n) hn
  have tk : ∀ u u' : List ℝ, Spec.Symmetric n u → (hybrid n u u').take n = u.take n := fun u u' h => by
    rw [hybrid, List.take_append_of_le_length (by simp [h.1]; omega), List.take_take, Nat.min_self]
  have dp : ∀ u u' : List ℝ, Spec.Symmetric n u → (hybrid n u u').drop n = u'.drop n := fun u u' h => by
    rw [hybrid, List.drop_left' (by simp [h.1]; omega)]
  exact ⟨C86_transition a b rfl (tk _ _ a), C86_transition c d (dp _ _ a) rfl, C86_transition c d rfl (tk _ _ c), C86_transition a b (dp _ _ c) rfl⟩

/-- There are instances for every window. -/
theorem made_of_window {n : ℕ} (he : n % 2 = 0) {win : List ℝ} (hw : win.length = 2 * n) : ∃ o, MadeMdct FftContract win o ∧ o.len = n := by
  obtain ⟨o, ho⟩ := plannedMdct_exists dftFft_plan.shape [] he (w := fun _ => win) hw
  obtain ⟨h1, h2⟩ := ho.made_window dftFft_plan.shape
  exact ⟨o, h2.mono (FromPlan.contract dftFft_plan), h1⟩

/-- Five blocks of length 64 with four windows: the three interior blocks come out multiplied by 32. -/
example (a b c d e : List ℝ) (ha : a.length = 64) (hb : b.length = 64) (hc : c.length = 64) (hd : d.length = 64) (he : e.length = 64) :
    ∃ (o₁ o₂ o₃ o₄ : MdctObj ℝ) (m : Mem ℝ) (outs : List (List ℝ)), MadeMdct FftContract (WindowFn.mp3 128) o₁ ∧ MadeMdct FftContract (WindowFn.vorbis 128) o₃ ∧
      lappedSwitching a [⟨o₁, o₁, b⟩, ⟨o₂, o₂, c⟩, ⟨o₃, o₃, d⟩, ⟨o₄, o₄, e⟩] (List.replicate 64 0) m = .ok outs ∧
      outs[1]? = some (b.map (32 * ·)) ∧ outs[2]? = some (c.map (32 * ·)) ∧ outs[3]? = some (d.map (32 * ·)) := by
  obtain ⟨s1, s2, s3, s4⟩ := hybrid_seams 64 (by norm_num)
  obtain ⟨⟨p1, -⟩, ⟨q1, -⟩, -⟩ := C24_windows (n := 64) (by norm_num)
  obtain ⟨o₁, m₁, l₁⟩ := made_of_window (n := 64) rfl p1.1
  obtain ⟨o₂, m₂, l₂⟩ := made_of_window (n := 64) (win := hybrid 64 (WindowFn.mp3 (2 * 64)) (WindowFn.vorbis (2 * 64))) rfl (by simp [hybrid, p1.1, q1.1])
  obtain ⟨o₃, m₃, l₃⟩ := made_of_window (n := 64) rfl q1.1
  obtain ⟨o₄, m₄, l₄⟩ := made_of_window (n := 64) (win := hybrid 64 (WindowFn.vorbis (2 * 64)) (WindowFn.mp3 (2 * 64))) rfl (by simp [hybrid, p1.1, q1.1])
  let w : ℕ → List ℝ := fun t =>
    if t = 0 then WindowFn.mp3 (2 * 64) else if t = 1 then hybrid 64 (WindowFn.mp3 (2 * 64)) (WindowFn.vorbis (2 * 64))
    else if t = 2 then WindowFn.vorbis (2 * 64) else hybrid 64 (WindowFn.vorbis (2 * 64)) (WindowFn.mp3 (2 * 64))
  let S := o₁.scratchLen + o₂.scratchLen + o₃.scratchLen + o₄.scratchLen
  have hL : LapSteps 64 (List.replicate S (0 : ℝ)).length w w [⟨o₁, o₁, b⟩, ⟨o₂, o₂, c⟩, ⟨o₃, o₃, d⟩, ⟨o₄, o₄, e⟩] := by
    intro t s hs
    rw [List.length_replicate]
    match t, hs with
    | 0, hs => injection hs with hs; subst hs; exact ⟨m₁, m₁, l₁, l₁, by dsimp only [S]; omega, by dsimp only [S]; omega, hb⟩
    | 1, hs => injection hs with hs; subst hs; exact ⟨m₂, m₂, l₂, l₂, by dsimp only [S]; omega, by dsimp only [S]; omega, hc⟩
    | 2, hs => injection hs with hs; subst hs; exact ⟨m₃, m₃, l₃, l₃, by dsimp only [S]; omega, by dsimp only [S]; omega, hd⟩
    | 3, hs => injection hs with hs; subst hs; exact ⟨m₄, m₄, l₄, l₄, by dsimp only [S]; omega, by dsimp only [S]; omega, he⟩
    | t + 4, hs => simp at hs
  obtain ⟨outs, e1, -, ht⟩ := C86_reconstructs (c := 1) (a := a) (acc := List.replicate 64 0) (m := ⟨List.replicate 64 0, List.replicate S 0⟩) (by norm_num) rfl hL ha (by simp) (by simp) (by
    intro t ht
    have : t = 0 ∨ t = 1 ∨ t = 2 := by simp at ht; omega
    rcases this with rfl | rfl | rfl
    · exact s1
    · exact s2
    · exact s3)
  have e32 : (1 : ℝ) * (64 : ℕ) / 2 = 32 := by norm_num
  rw [e32] at ht
  exact ⟨o₁, o₂, o₃, o₄, _, outs, m₁, m₃, e1, ht 0 _ (by simp) rfl, ht 1 _ (by simp) rfl, ht 2 _ (by simp) rfl⟩

end RustDct
