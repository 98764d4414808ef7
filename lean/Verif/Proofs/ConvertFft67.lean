import Verif.Proofs.ConvertFft
/-!
# What `Dst6And7ConvertToFft` computes, for every element type and every FFT
-/

set_option linter.all false

namespace RustDct

variable {T : Type} {F : Type} [F64 F] [DctNum T F]

/-- The object built by `Dst6And7ConvertToFft::new`. -/
def Dst6And7ConvertToFft.inst (fft : Fft T) : Dst6And7ConvertToFft T :=
  { scratchLen := 2 * (fft.len + fft.inplaceScratchLen), innerFftLen := fft.len, fft := fft, len := (fft.len - 1) / 2 }

theorem Dst6And7ConvertToFft.new_eq {fft : Fft T} (h1 : fft.len % 2 = 1) (h2 : fft.direction = .forward) :
    Dst6And7ConvertToFft.new fft = .ok (Dst6And7ConvertToFft.inst fft) := by
  simp [Dst6And7ConvertToFft.new, Dst6And7ConvertToFft.inst, h1, h2, csub_ok (show 1 ≤ fft.len by omega)]

/-- FFT input of the DST6 conversion: only the imaginary parts of the odd entries are assigned. -/
def dst6FftInput (g f : Nat → T) : Nat → Cx T := fun j =>
  if j % 2 = 1 then ⟨g (2 * j), f (j / 2)⟩ else ⟨g (2 * j), g (2 * j + 1)⟩

/-- Index of the input that DST7 places at position `n + 1 + m`. -/
def dst7Index (n m : Nat) : Nat :=
  if m < (n + 1) / 2 then m * 2 else 2 * (n - (n + 1) / 2 - (m - (n + 1) / 2)) - 1

/-- FFT input of the DST7 conversion: entry 0 is whatever scratch contained. -/
def dst7FftInput (n : Nat) (g f : Nat → T) : Nat → Cx T := fun j =>
  if j = 0 then ⟨g 0, g 1⟩
  else if j < n + 1 then Cx.neg (Cx.ofRe (f (dst7Index n (n - j))))
  else Cx.ofRe (f (dst7Index n (j - (n + 1))))

theorem Dst6And7ConvertToFft.runs_dst6 {fft : Fft T} {G} (hG : FftRuns fft G) {n : Nat} (hL : fft.len = n * 2 + 1) :
    RunsG (Dst6And7ConvertToFft.inst fft).dst6 n (Dst6And7ConvertToFft.inst fft).scratchLen (fun g f k =>
      if k % 2 = 1 then (G (dst6FftInput g f) ((k + 1) / 2)).re else (G (dst6FftInput g f) (n - k / 2)).re) := by
  have hl : (Dst6And7ConvertToFft.inst fft).len = n := by simp only [Dst6And7ConvertToFft.inst]; omega
  unfold Dst6And7ConvertToFft.dst6
  rw [hl]
  apply runsG_of_body
  intro f g
  simp only [Dst6And7ConvertToFft.inst, split_scratch, ok_bind, length_vec]
  rw [forRange_eq (fun m => vec fft.len fun j => if j % 2 = 1 ∧ j / 2 < m then (⟨g (2 * j), f (j / 2)⟩ : Cx T) else
    ⟨g (2 * j), g (2 * j + 1)⟩)]
  rotate_left
  · apply vec_congr; intro j hj; rw [if_neg (by omega)]
  · intro i h1 h2
    simp (disch := omega) only [rd_vec, wr_vec, ok_bind]
    congr 1
    apply vec_congr
    intro j hj
    by_cases h3 : j = i * 2 + 1
    · subst h3
      rw [if_pos rfl, if_neg (by omega), if_pos (by omega)]
      congr 2; omega
    · rw [if_neg h3]
      by_cases h4 : j % 2 = 1 ∧ j / 2 < i
      · rw [if_pos h4, if_pos (by omega)]
      · rw [if_neg h4, if_neg (by omega)]
  · omega
  simp only [ok_bind]
  rw [vec_congr (g := dst6FftInput g f) (by
    intro j hj
    unfold dst6FftInput
    by_cases h : j % 2 = 1
    · rw [if_pos (by omega), if_pos h]
    · rw [if_neg (by omega), if_neg h])]
  obtain ⟨scr', h1, h2⟩ := hG.run rfl (dst6FftInput g f)
    (fun i => ⟨g (2 * (fft.len + i)), g (2 * (fft.len + i) + 1)⟩) (Nat.le_refl _)
  simp (disch := omega) only [h1, ok_bind, csub_ok]
  rw [forRange_eq (fun m => vec n fun k => if k % 2 = 1 ∧ k / 2 < m then (G (dst6FftInput g f) ((k + 1) / 2)).re else f k)]
  rotate_left
  · apply vec_congr; intro j hj; rw [if_neg (by omega)]
  · intro i h1 h2
    simp (disch := omega) only [rd_vec, wr_vec, ok_bind]
    congr 1
    apply vec_congr
    intro j hj
    by_cases h3 : j = i * 2 + 1
    · subst h3
      rw [if_pos rfl, if_pos (by omega)]
      congr 2; omega
    · rw [if_neg h3]
      by_cases h4 : j % 2 = 1 ∧ j / 2 < i
      · rw [if_pos h4, if_pos (by omega)]
      · rw [if_neg h4, if_neg (by omega)]
  · omega
  simp only [ok_bind]
  rw [forRange_eq (fun m => vec n fun k => if k % 2 = 1 then (G (dst6FftInput g f) ((k + 1) / 2)).re else
    if (n + 1) / 2 - m ≤ k / 2 then (G (dst6FftInput g f) (n - k / 2)).re else f k)]
  rotate_left
  · apply vec_congr; intro j hj
    by_cases h : j % 2 = 1
    · rw [if_pos (by omega), if_pos h]
    · rw [if_neg (by omega), if_neg h, if_neg (by omega)]
  · intro i h1 h2
    simp (disch := omega) only [rd_vec, wr_vec, ok_bind, csub_ok]
    congr 1
    apply vec_congr
    intro j hj
    by_cases h3 : j = 2 * ((n + 1) / 2 - i - 1)
    · rw [if_pos h3, if_neg (by omega), if_pos (by omega)]
      congr 2; omega
    · rw [if_neg h3]
      by_cases h5 : j % 2 = 1
      · rw [if_pos h5, if_pos h5]
      rw [if_neg h5, if_neg h5]
      by_cases h4 : (n + 1) / 2 - i ≤ j / 2
      · rw [if_pos h4, if_pos (by omega)]
      · rw [if_neg h4, if_neg (by omega)]
  · omega
  simp only [ok_bind]
  refine ex_ok ?_ (length_scratch g _ scr' h2)
  apply vec_congr; intro j hj
  by_cases h : j % 2 = 1
  · rw [if_pos h, if_pos h]
  · rw [if_neg h, if_neg h, if_pos (by omega)]

theorem Dst6And7ConvertToFft.runs_dst7 {fft : Fft T} {G} (hG : FftRuns fft G) {n : Nat} (hL : fft.len = n * 2 + 1) :
    RunsG (Dst6And7ConvertToFft.inst fft).dst7 n (Dst6And7ConvertToFft.inst fft).scratchLen (fun g f k =>
      (G (dst7FftInput n g f) (k * 2 + 1)).im * thalf T) := by
  have hl : (Dst6And7ConvertToFft.inst fft).len = n := by simp only [Dst6And7ConvertToFft.inst]; omega
  unfold Dst6And7ConvertToFft.dst7
  rw [hl]
  apply runsG_of_body
  intro f g
  simp only [Dst6And7ConvertToFft.inst, split_scratch, ok_bind, length_vec]
  rw [forRange_eq (fun m => vec fft.len fun j => if n + 1 ≤ j ∧ j < n + 1 + m then
    (Cx.ofRe (f (dst7Index n (j - (n + 1)))) : Cx T) else ⟨g (2 * j), g (2 * j + 1)⟩)]
  rotate_left
  · apply vec_congr; intro j hj; rw [if_neg (by omega)]
  · intro i h1 h2
    simp (disch := omega) only [rd_vec, wr_vec, ok_bind]
    congr 1
    apply vec_congr
    intro j hj
    by_cases h3 : j = n + 1 + i
    · subst h3
      rw [if_pos rfl, if_pos (by omega)]
      congr 2
      unfold dst7Index
      rw [if_pos (by omega)]; omega
    · rw [if_neg h3]
      by_cases h4 : n + 1 ≤ j ∧ j < n + 1 + i
      · rw [if_pos h4, if_pos (by omega)]
      · rw [if_neg h4, if_neg (by omega)]
  · omega
  simp (disch := omega) only [ok_bind, csub_ok]
  rw [forRange_eq (fun m => vec fft.len fun j => if n + 1 ≤ j ∧ j < n + (n + 1) / 2 + 1 + m then
    (Cx.ofRe (f (dst7Index n (j - (n + 1)))) : Cx T) else ⟨g (2 * j), g (2 * j + 1)⟩)]
  rotate_left
  · apply vec_congr; intro j hj
    by_cases h4 : n + 1 ≤ j ∧ j < n + 1 + (n + 1) / 2
    · rw [if_pos h4, if_pos (by omega)]
    · rw [if_neg h4, if_neg (by omega)]
  · intro i h1 h2
    simp (disch := omega) only [rd_vec, wr_vec, ok_bind, csub_ok]
    congr 1
    apply vec_congr
    intro j hj
    by_cases h3 : j = n + (n + 1) / 2 + 1 + i
    · subst h3
      rw [if_pos rfl, if_pos (by omega)]
      congr 2
      unfold dst7Index
      rw [if_neg (by omega)]; congr 2; omega
    · rw [if_neg h3]
      by_cases h4 : n + 1 ≤ j ∧ j < n + (n + 1) / 2 + 1 + i
      · rw [if_pos h4, if_pos (by omega)]
      · rw [if_neg h4, if_neg (by omega)]
  · omega
  simp (disch := omega) only [ok_bind, csub_ok]
  rw [forRange_eq (fun m => vec fft.len fun j => if 1 ≤ j ∧ j < 1 + m then
    Cx.neg (Cx.ofRe (f (dst7Index n (n - j)))) else if n + 1 ≤ j then
    (Cx.ofRe (f (dst7Index n (j - (n + 1)))) : Cx T) else ⟨g (2 * j), g (2 * j + 1)⟩)]
  rotate_left
  · apply vec_congr; intro j hj
    rw [if_neg (c := 1 ≤ j ∧ _) (by omega)]
    by_cases h4 : n + 1 ≤ j
    · rw [if_pos h4, if_pos (by omega)]
    · rw [if_neg h4, if_neg (by omega)]
  · intro i h1 h2
    simp (disch := omega) only [rd_vec, wr_vec, ok_bind, csub_ok, length_vec]
    congr 1
    apply vec_congr
    intro j hj
    by_cases h3 : j = i + 1
    · rw [if_pos h3, if_neg (by omega), if_pos (by omega), if_pos (by omega)]
      congr 4; omega
    · rw [if_neg h3]
      by_cases h4 : 1 ≤ j ∧ j < 1 + i
      · rw [if_pos h4, if_pos (by omega)]
      · rw [if_neg h4, if_neg (c := 1 ≤ j ∧ _) (by omega)]
  · omega
  simp only [ok_bind]
  rw [vec_congr (g := dst7FftInput n g f) (by
    intro j hj
    unfold dst7FftInput
    by_cases h0 : j = 0
    · subst h0; rw [if_neg (by omega), if_neg (by omega), if_pos rfl]
    by_cases h1 : j < n + 1
    · rw [if_pos (by omega), if_neg h0, if_pos h1]
    · rw [if_neg (by omega), if_pos (by omega), if_neg h0, if_neg h1])]
  obtain ⟨scr', h1, h2⟩ := hG.run rfl (dst7FftInput n g f)
    (fun i => ⟨g (2 * (fft.len + i)), g (2 * (fft.len + i) + 1)⟩) (Nat.le_refl _)
  simp (disch := omega) only [h1, ok_bind, csub_ok]
  rw [forRange_eq (fun m => vec n fun k => if k < m then (G (dst7FftInput n g f) (k * 2 + 1)).im * thalf T else f k)]
  rotate_left
  · apply vec_congr; intro j hj; rw [if_neg (by omega)]
  · intro i h1 h2
    simp (disch := omega) only [rd_vec, wr_vec, ok_bind]
    congr 1
    apply vec_congr
    intro j hj
    by_cases h3 : j = i
    · subst h3
      rw [if_pos rfl, if_pos (by omega)]
    · rw [if_neg h3]
      by_cases h4 : j < i
      · rw [if_pos h4, if_pos (by omega)]
      · rw [if_neg h4, if_neg (by omega)]
  · omega
  simp only [ok_bind]
  refine ex_ok ?_ (length_scratch g _ scr' h2)
  apply vec_congr; intro j hj
  rw [if_pos hj]

end RustDct
