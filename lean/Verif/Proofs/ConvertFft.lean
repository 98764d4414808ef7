import Verif.Lib.FftLib
import Verif.Model.ConvertFft
/-!
# What the FFT-based algorithms compute, for every element type and every FFT
-/

set_option linter.all false

namespace RustDct

variable {T : Type} {F : Type} [F64 F] [DctNum T F]

/-! ### Type 1 -/

/-- The object built by `Dct1ConvertToFft::new`. -/
def Dct1ConvertToFft.inst (fft : Fft T) : Dct1ConvertToFft T :=
  { scratchLen := 2 * (fft.len + fft.inplaceScratchLen), innerFftLen := fft.len, fft := fft, len := fft.len / 2 + 1 }

theorem Dct1ConvertToFft.new_eq {fft : Fft T} (h1 : fft.len % 2 = 0) (h2 : fft.direction = .forward) :
    Dct1ConvertToFft.new fft = .ok (Dct1ConvertToFft.inst fft) := by
  simp [Dct1ConvertToFft.new, Dct1ConvertToFft.inst, h1, h2]

theorem Dct1ConvertToFft.runs {fft : Fft T} {G} (hG : FftRuns fft G) {n : Nat} (hn : 2 ≤ n) (hL : fft.len = (n - 1) * 2) :
    RunsV (Dct1ConvertToFft.inst fft).dct1 n (Dct1ConvertToFft.inst fft).scratchLen (fun f k =>
      (G (fun j => Cx.ofRe (if j < n then f j else f ((n - 1) * 2 - j))) k).re * thalf T) := by
  have hl : (Dct1ConvertToFft.inst fft).len = n := by simp only [Dct1ConvertToFft.inst]; omega
  unfold Dct1ConvertToFft.dct1
  rw [hl]
  apply runsV_of_body
  intro f sc hsc
  simp only [Dct1ConvertToFft.inst] at hsc ⊢
  obtain ⟨g, rfl⟩ := exists_vec hsc
  simp (disch := omega) only [split_scratch, ok_bind, length_vec, splitAtMut_vec, assignZip_vec, reverse_vec, drop_vec,
    append_vec]
  rw [vec_congr' (g := fun j => Cx.ofRe (if j < n then f j else f ((n - 1) * 2 - j))) (m := fft.len)]
  · obtain ⟨scr', h1, h2⟩ := hG.run rfl _ _ (Nat.le_refl _)
    rw [h1]
    simp only [ok_bind]
    refine ex_ok ?_ (length_scratch g _ scr' h2)
    rw [assignZip_vec]
    apply vec_congr
    intro i hi
    rw [if_pos (by omega)]
  · omega
  · intro i hi
    by_cases h : i < n
    · simp [h]
    · simp only [if_neg h]
      rw [if_pos (by omega)]
      congr 2; omega

/-- The object built by `Dst1ConvertToFft::new`. -/
def Dst1ConvertToFft.inst (fft : Fft T) : Dst1ConvertToFft T :=
  { scratchLen := 2 * (fft.len + fft.inplaceScratchLen), innerFftLen := fft.len, fft := fft, len := fft.len / 2 - 1 }

theorem Dst1ConvertToFft.new_eq {fft : Fft T} (h1 : fft.len % 2 = 0) (h2 : fft.direction = .forward) (h3 : 1 < fft.len) :
    Dst1ConvertToFft.new fft = .ok (Dst1ConvertToFft.inst fft) := by
  have h4 : 1 ≤ fft.len / 2 := by omega
  simp [Dst1ConvertToFft.new, Dst1ConvertToFft.inst, h1, h2, csub_ok h4]

/-- FFT input of the DST1 conversion: entries 0 and `n+1` are whatever scratch contained. -/
def dst1FftInput (n : Nat) (g f : Nat → T) : Nat → Cx T := fun j =>
  if j = 0 ∨ j = n + 1 then ⟨g (2 * j), g (2 * j + 1)⟩
  else if j < n + 1 then Cx.ofRe (f (j - 1)) else Cx.ofRe (-(f ((n + 1) * 2 - 1 - j)))

theorem Dst1ConvertToFft.runs {fft : Fft T} {G} (hG : FftRuns fft G) {n : Nat} (hL : fft.len = (n + 1) * 2) :
    RunsG (Dst1ConvertToFft.inst fft).dst1 n (Dst1ConvertToFft.inst fft).scratchLen (fun g f k =>
      (G (dst1FftInput n g f) ((n + 1) * 2 - 1 - k)).im * thalf T) := by
  have hl : (Dst1ConvertToFft.inst fft).len = n := by simp only [Dst1ConvertToFft.inst]; omega
  unfold Dst1ConvertToFft.dst1
  rw [hl]
  apply runsG_of_body
  intro f g
  simp only [Dst1ConvertToFft.inst]
  simp (disch := omega) only [split_scratch, ok_bind, length_vec, splitAtMut_vec, assignZip_vec, reverse_vec, drop_vec,
    append_vec, take_vec]
  rw [vec_congr' (g := dst1FftInput n g f) (m := fft.len)]
  · obtain ⟨scr', h1, h2⟩ := hG.run rfl (dst1FftInput n g f) _ (Nat.le_refl _)
    rw [h1]
    simp only [ok_bind]
    refine ex_ok ?_ (length_scratch g _ scr' h2)
    rw [reverse_vec, assignZip_vec]
    apply vec_congr
    intro i hi
    rw [if_pos (by omega), hL]
  · omega
  · intro i hi
    have e1 : 1 + (fft.len - 1) - 1 - (1 + (fft.len - 1) - 1 - i) = i := by omega
    simp only [e1, dst1FftInput]
    by_cases h0 : i = 0
    · subst h0
      rw [if_neg (by omega), if_pos (by omega), if_pos (Or.inl rfl)]
    by_cases h1 : i = n + 1
    · subst h1
      rw [if_neg (by omega), if_neg (by omega), if_neg (by omega), if_pos (Or.inr rfl)]
      rw [show 1 + (n + 1 - 1) = n + 1 by omega]
    by_cases h2 : i < n + 1
    · rw [if_neg (by omega), if_neg (by omega), if_pos (by omega), if_neg (by omega), if_pos (by omega)]
    · rw [if_pos (by omega), if_neg (by omega), if_neg (by omega)]
      congr 3; omega

/-! ### Types 2 and 3 -/

/-- The object built by `Type2And3ConvertToFft::new`. -/
def Type2And3ConvertToFft.inst (fft : Fft T) : Type2And3ConvertToFft T :=
  { fft := fft, twiddles := vec fft.len fun i => singleTwiddle i (fft.len * 4),
    scratchLen := 2 * (fft.len + fft.inplaceScratchLen) }

theorem Type2And3ConvertToFft.new_eq {fft : Fft T} (h2 : fft.direction = .forward) :
    Type2And3ConvertToFft.new fft = .ok (Type2And3ConvertToFft.inst fft) := by
  simp [Type2And3ConvertToFft.new, Type2And3ConvertToFft.inst, h2, vec]

/-- Position in the FFT order of index `k`: evens first, then odds backwards. -/
def evOdd (n k : Nat) : Nat := if k % 2 = 0 then k / 2 else n - 1 - k / 2
/-- Inverse of `evOdd`. -/
def evOddInv (n j : Nat) : Nat := if j < (n + 1) / 2 then j * 2 else 2 * (n - 1 - j) + 1

theorem bind_assoc_ex {ε α β γ : Type} (x : Except ε α) (f : α → Except ε β) (g : β → Except ε γ) :
    (x >>= f) >>= g = x >>= fun a => f a >>= g := by cases x <;> rfl

/-- The two gathering loops. -/
theorem gather_evOdd {n : Nat} (f : Nat → T) (c : Nat → Cx T) (neg : T → T) :
    (do
      let fftBuffer ← forRange 0 ((n + 1) / 2) (vec n c) fun i fftBuffer => do
        let x ← rd (vec n f) (i * 2)
        wr fftBuffer i (Cx.ofRe x)
      if n > 1 then do
        let a ← csub n 1
        let oddEnd ← csub a (n % 2)
        forRange 0 (n / 2) fftBuffer fun i fftBuffer => do
          let j ← csub oddEnd (2 * i)
          let x ← rd (vec n f) j
          wr fftBuffer ((n + 1) / 2 + i) (Cx.ofRe (neg x))
      else Except.ok fftBuffer) =
    .ok (vec n fun j => if j < (n + 1) / 2 then Cx.ofRe (f (j * 2)) else Cx.ofRe (neg (f (2 * (n - 1 - j) + 1)))) := by
  rw [forRange_eq (fun m => vec n fun j => if j < m then Cx.ofRe (f (j * 2)) else c j)]
  · simp only [ok_bind]
    by_cases h : n > 1
    · rw [if_pos h, csub_ok (by omega), ok_bind, csub_ok (by omega), ok_bind]
      rw [forRange_eq (fun m => vec n fun j => if j < (n + 1) / 2 then Cx.ofRe (f (j * 2)) else
        if j < (n + 1) / 2 + m then Cx.ofRe (neg (f (2 * (n - 1 - j) + 1))) else c j)]
      · congr 1
        apply vec_congr
        intro i hi
        by_cases h : i < (n + 1) / 2
        · simp [h]
        · rw [if_neg h, if_neg h, if_pos (by omega)]
      · apply vec_congr
        intro i hi
        by_cases h : i < (n + 1) / 2 <;> simp [h]
      · intro i h1 h2
        simp (disch := omega) only [csub_ok, ok_bind, rd_vec, wr_vec]
        congr 1
        apply vec_congr
        intro j hj
        by_cases h : j < (n + 1) / 2
        · rw [if_neg (by omega), if_pos h, if_pos h]
        · rw [if_neg h, if_neg h]
          by_cases h3 : j = (n + 1) / 2 + i
          · rw [if_pos h3, if_pos (by omega)]
            congr 3; omega
          · rw [if_neg h3]
            by_cases h4 : j < (n + 1) / 2 + i
            · rw [if_pos h4, if_pos (by omega)]
            · rw [if_neg h4, if_neg (by omega)]
      · omega
    · rw [if_neg h]
      congr 1
      apply vec_congr
      intro i hi
      rw [if_pos (by omega), if_pos (by omega)]
  · simp
  · intro i h1 h2
    simp (disch := omega) only [ok_bind, rd_vec, wr_vec]
    congr 1
    apply vec_congr
    intro j hj
    by_cases h3 : j = i
    · subst h3; simp
    · rw [if_neg h3]
      by_cases h4 : j < i
      · rw [if_pos h4, if_pos (by omega)]
      · rw [if_neg h4, if_neg (by omega)]
  · omega

/-- The two scattering loops. -/
theorem scatter_evOdd {n : Nat} (f : Nat → T) (c : Nat → Cx T) (neg : T → T) :
    (do
      let buffer ← forRange 0 ((n + 1) / 2) (vec n f) fun i buffer => do
        let x ← rd (vec n c) i
        wr buffer (i * 2) x.re
      if n > 1 then do
        let a ← csub n 1
        let oddEnd ← csub a (n % 2)
        forRange 0 (n / 2) buffer fun i buffer => do
          let x ← rd (vec n c) (i + (n + 1) / 2)
          let j ← csub oddEnd (2 * i)
          wr buffer j (neg x.re)
      else Except.ok buffer) =
    .ok (vec n fun k => if k % 2 = 0 then (c (k / 2)).re else neg (c (n - 1 - k / 2)).re) := by
  rw [forRange_eq (fun m => vec n fun k => if k % 2 = 0 ∧ k / 2 < m then (c (k / 2)).re else f k)]
  · simp only [ok_bind]
    by_cases h : n > 1
    · rw [if_pos h, csub_ok (by omega), ok_bind, csub_ok (by omega), ok_bind]
      rw [forRange_eq (fun m => vec n fun k => if k % 2 = 0 then (c (k / 2)).re else
        if n / 2 - m ≤ k / 2 then neg (c (n - 1 - k / 2)).re else f k)]
      · congr 1
        apply vec_congr
        intro k hk
        by_cases h : k % 2 = 0
        · simp [h]
        · rw [if_neg h, if_neg h, if_pos (by omega)]
      · apply vec_congr
        intro k hk
        by_cases h : k % 2 = 0
        · rw [if_pos h, if_pos (by omega)]
        · rw [if_neg h, if_neg (by omega), if_neg (by omega)]
      · intro i h1 h2
        simp (disch := omega) only [csub_ok, ok_bind, rd_vec, wr_vec]
        congr 1
        apply vec_congr
        intro k hk
        by_cases h : k % 2 = 0
        · rw [if_neg (by omega), if_pos h, if_pos h]
        · rw [if_neg h, if_neg h]
          by_cases h3 : k = n - 1 - n % 2 - 2 * i
          · rw [if_pos h3, if_pos (by omega)]
            congr 3; omega
          · rw [if_neg h3]
            by_cases h4 : n / 2 - i ≤ k / 2
            · rw [if_pos h4, if_pos (by omega)]
            · rw [if_neg h4, if_neg (by omega)]
      · omega
    · rw [if_neg h]
      congr 1
      apply vec_congr
      intro k hk
      rw [if_pos (by omega), if_pos (by omega)]
  · simp
  · intro i h1 h2
    simp (disch := omega) only [ok_bind, rd_vec, wr_vec]
    congr 1
    apply vec_congr
    intro j hj
    by_cases h3 : j = i * 2
    · subst h3
      rw [if_pos rfl, if_pos (by omega)]
      congr 2; omega
    · rw [if_neg h3]
      by_cases h4 : j % 2 = 0 ∧ j / 2 < i
      · rw [if_pos h4, if_pos (by omega)]
      · rw [if_neg h4, if_neg (by omega)]
  · omega

theorem Type2And3ConvertToFft.len_inst (fft : Fft T) : (Type2And3ConvertToFft.inst fft).len = fft.len := by
  simp [Type2And3ConvertToFft.inst, Type2And3ConvertToFft.len]

theorem gather_evOdd_k {n : Nat} {β : Type} (f : Nat → T) (c : Nat → Cx T) (neg : T → T) (K : List (Cx T) → Except Err β) :
    (do
      let fftBuffer ← forRange 0 ((n + 1) / 2) (vec n c) fun i fftBuffer => do
        let x ← rd (vec n f) (i * 2)
        wr fftBuffer i (Cx.ofRe x)
      if n > 1 then do
        let a ← csub n 1
        let oddEnd ← csub a (n % 2)
        let fftBuffer ← forRange 0 (n / 2) fftBuffer fun i fftBuffer => do
          let j ← csub oddEnd (2 * i)
          let x ← rd (vec n f) j
          wr fftBuffer ((n + 1) / 2 + i) (Cx.ofRe (neg x))
        K fftBuffer
      else K fftBuffer) =
    K (vec n fun j => if j < (n + 1) / 2 then Cx.ofRe (f (j * 2)) else Cx.ofRe (neg (f (2 * (n - 1 - j) + 1)))) := by
  have h := congrArg (· >>= K) (gather_evOdd (n := n) f c neg)
  simp only [bind_assoc_ex, ok_bind] at h
  rw [← h]
  congr 1
  funext b
  split_ifs <;> simp only [bind_assoc_ex, ok_bind]

theorem scatter_evOdd_k {n : Nat} {β : Type} (f : Nat → T) (c : Nat → Cx T) (neg : T → T) (K : List T → Except Err β) :
    (do
      let buffer ← forRange 0 ((n + 1) / 2) (vec n f) fun i buffer => do
        let x ← rd (vec n c) i
        wr buffer (i * 2) x.re
      if n > 1 then do
        let a ← csub n 1
        let oddEnd ← csub a (n % 2)
        let buffer ← forRange 0 (n / 2) buffer fun i buffer => do
          let x ← rd (vec n c) (i + (n + 1) / 2)
          let j ← csub oddEnd (2 * i)
          wr buffer j (neg x.re)
        K buffer
      else K buffer) =
    K (vec n fun k => if k % 2 = 0 then (c (k / 2)).re else neg (c (n - 1 - k / 2)).re) := by
  have h := congrArg (· >>= K) (scatter_evOdd (n := n) f c neg)
  simp only [bind_assoc_ex, ok_bind] at h
  rw [← h]
  congr 1
  funext b
  split_ifs <;> simp only [bind_assoc_ex, ok_bind]

theorem Type2And3ConvertToFft.runs_dct2 {fft : Fft T} {G} (hG : FftRuns fft G) {n : Nat} (hL : fft.len = n) :
    RunsV (Type2And3ConvertToFft.inst fft).dct2 n (Type2And3ConvertToFft.inst fft).scratchLen (fun f k =>
      (Cx.mul (G (fun j => if j < (n + 1) / 2 then Cx.ofRe (f (j * 2)) else Cx.ofRe (f (2 * (n - 1 - j) + 1))) k)
        (singleTwiddle k (n * 4))).re) := by
  unfold Type2And3ConvertToFft.dct2
  rw [Type2And3ConvertToFft.len_inst, hL]
  apply runsV_of_body
  intro f sc hsc
  simp only [Type2And3ConvertToFft.inst] at hsc ⊢
  subst hL
  obtain ⟨g, rfl⟩ := exists_vec hsc
  simp (disch := omega) only [split_scratch, ok_bind, length_vec]
  rw [gather_evOdd_k f _ (fun x => x)]
  obtain ⟨scr', h1, h2⟩ := hG.run rfl (fun j => if j < (fft.len + 1) / 2 then Cx.ofRe (f (j * 2)) else
    Cx.ofRe (f (2 * (fft.len - 1 - j) + 1))) (fun i => ⟨g (2 * (fft.len + i)), g (2 * (fft.len + i) + 1)⟩) (Nat.le_refl _)
  simp only [ok_bind, h1, zip_vec, assignZip_vec]
  refine ex_ok ?_ (length_scratch g _ scr' h2)
  apply vec_congr
  intro i hi
  rw [if_pos (by omega)]

theorem Type2And3ConvertToFft.runs_dst2 {fft : Fft T} {G} (hG : FftRuns fft G) {n : Nat} (hL : fft.len = n) :
    RunsV (Type2And3ConvertToFft.inst fft).dst2 n (Type2And3ConvertToFft.inst fft).scratchLen (fun f k =>
      (Cx.mul (G (fun j => if j < (n + 1) / 2 then Cx.ofRe (f (j * 2)) else Cx.ofRe (-(f (2 * (n - 1 - j) + 1))))
        (n - 1 - k)) (singleTwiddle (n - 1 - k) (n * 4))).re) := by
  unfold Type2And3ConvertToFft.dst2
  rw [Type2And3ConvertToFft.len_inst, hL]
  apply runsV_of_body
  intro f sc hsc
  simp only [Type2And3ConvertToFft.inst] at hsc ⊢
  subst hL
  obtain ⟨g, rfl⟩ := exists_vec hsc
  simp (disch := omega) only [split_scratch, ok_bind, length_vec]
  rw [gather_evOdd_k f _ (fun x => -x)]
  obtain ⟨scr', h1, h2⟩ := hG.run rfl (fun j => if j < (fft.len + 1) / 2 then Cx.ofRe (f (j * 2)) else
    Cx.ofRe (-(f (2 * (fft.len - 1 - j) + 1)))) (fun i => ⟨g (2 * (fft.len + i)), g (2 * (fft.len + i) + 1)⟩) (Nat.le_refl _)
  simp only [ok_bind, h1, zip_vec, reverse_vec, assignZip_vec]
  refine ex_ok ?_ (length_scratch g _ scr' h2)
  apply vec_congr
  intro i hi
  rw [if_pos (by omega)]

theorem Type2And3ConvertToFft.runs_dct3 {fft : Fft T} {G} (hG : FftRuns fft G) {n : Nat} (hn : 1 ≤ n) (hL : fft.len = n) :
    RunsV (Type2And3ConvertToFft.inst fft).dct3 n (Type2And3ConvertToFft.inst fft).scratchLen (fun f k =>
      let V := G fun j => if j = 0 then Cx.ofRe (f 0 * thalf T) else
        Cx.scale (Cx.mul ⟨f j, f (n - j)⟩ (singleTwiddle j (n * 4))) (thalf T)
      if k % 2 = 0 then (V (k / 2)).re else (V (n - 1 - k / 2)).re) := by
  unfold Type2And3ConvertToFft.dct3
  rw [Type2And3ConvertToFft.len_inst, hL]
  apply runsV_of_body
  intro f sc hsc
  simp only [Type2And3ConvertToFft.inst] at hsc ⊢
  subst hL
  obtain ⟨g, rfl⟩ := exists_vec hsc
  simp (disch := omega) only [split_scratch, ok_bind, length_vec, rd_vec, wr_vec, Nat.min_self]
  rw [forRange_eq (fun m => vec fft.len fun j => if j = 0 then Cx.ofRe (f 0 * thalf T) else if j < m then
    Cx.scale (Cx.mul ⟨f j, f (fft.len - j)⟩ (singleTwiddle j (fft.len * 4))) (thalf T) else
      ⟨g (2 * j), g (2 * j + 1)⟩)]
  rotate_left
  · apply vec_congr
    intro j hj
    by_cases h : j = 0
    · simp [h]
    · simp only [if_neg h]; rw [if_neg (by omega)]
  · intro i h1 h2
    simp (disch := omega) only [ok_bind, length_vec, rd_vec, wr_vec, csub_ok]
    congr 1
    apply vec_congr
    intro j hj
    by_cases h3 : j = i
    · subst h3
      rw [if_pos rfl, if_neg (by omega), if_pos (by omega)]
    · rw [if_neg h3]
      by_cases h4 : j = 0
      · simp [h4]
      · simp only [if_neg h4]
        by_cases h5 : j < i
        · rw [if_pos h5, if_pos (by omega)]
        · rw [if_neg h5, if_neg (by omega)]
  · exact hn
  rw [vec_congr (g := fun j => if j = 0 then Cx.ofRe (f 0 * thalf T) else
        Cx.scale (Cx.mul ⟨f j, f (fft.len - j)⟩ (singleTwiddle j (fft.len * 4))) (thalf T)) (by
    intro i hi
    by_cases h : i = 0
    · simp [h]
    · simp [h, hi])]
  obtain ⟨scr', h1, h2⟩ := hG.run rfl (fun j => if j = 0 then Cx.ofRe (f 0 * thalf T) else
        Cx.scale (Cx.mul ⟨f j, f (fft.len - j)⟩ (singleTwiddle j (fft.len * 4))) (thalf T))
     (fun i => ⟨g (2 * (fft.len + i)), g (2 * (fft.len + i) + 1)⟩) (Nat.le_refl _)
  simp only [ok_bind, h1]
  rw [scatter_evOdd_k f _ (fun x => x)]
  exact ⟨_, rfl, length_scratch g _ scr' h2⟩

theorem Type2And3ConvertToFft.runs_dst3 {fft : Fft T} {G} (hG : FftRuns fft G) {n : Nat} (hn : 1 ≤ n) (hL : fft.len = n) :
    RunsV (Type2And3ConvertToFft.inst fft).dst3 n (Type2And3ConvertToFft.inst fft).scratchLen (fun f k =>
      let V := G fun j => if j = 0 then Cx.ofRe (f (n - 1) * thalf T) else
        Cx.scale (Cx.mul ⟨f (n - j - 1), f (j - 1)⟩ (singleTwiddle j (n * 4))) (thalf T)
      if k % 2 = 0 then (V (k / 2)).re else -(V (n - 1 - k / 2)).re) := by
  unfold Type2And3ConvertToFft.dst3
  rw [Type2And3ConvertToFft.len_inst, hL]
  apply runsV_of_body
  intro f sc hsc
  simp only [Type2And3ConvertToFft.inst] at hsc ⊢
  subst hL
  obtain ⟨g, rfl⟩ := exists_vec hsc
  simp only [split_scratch, ok_bind, length_vec]
  rw (config := {occs := .pos [1]}) [csub_ok hn]
  simp (disch := omega) only [ok_bind, rd_vec, wr_vec, Nat.min_self, length_vec]
  rw [forRange_eq (fun m => vec fft.len fun j => if j = 0 then Cx.ofRe (f (fft.len - 1) * thalf T) else if j < m then
    Cx.scale (Cx.mul ⟨f (fft.len - j - 1), f (j - 1)⟩ (singleTwiddle j (fft.len * 4))) (thalf T) else
      ⟨g (2 * j), g (2 * j + 1)⟩)]
  rotate_left
  · apply vec_congr
    intro j hj
    by_cases h : j = 0
    · simp [h]
    · simp only [if_neg h]; rw [if_neg (by omega)]
  · intro i h1 h2
    simp (disch := omega) only [ok_bind, length_vec, rd_vec, wr_vec, csub_ok]
    congr 1
    apply vec_congr
    intro j hj
    by_cases h3 : j = i
    · subst h3
      rw [if_pos rfl, if_neg (by omega), if_pos (by omega)]
    · rw [if_neg h3]
      by_cases h4 : j = 0
      · simp [h4]
      · simp only [if_neg h4]
        by_cases h5 : j < i
        · rw [if_pos h5, if_pos (by omega)]
        · rw [if_neg h5, if_neg (by omega)]
  · exact hn
  rw [vec_congr (g := fun j => if j = 0 then Cx.ofRe (f (fft.len - 1) * thalf T) else
        Cx.scale (Cx.mul ⟨f (fft.len - j - 1), f (j - 1)⟩ (singleTwiddle j (fft.len * 4))) (thalf T)) (by
    intro i hi
    by_cases h : i = 0
    · simp [h]
    · simp [h, hi])]
  obtain ⟨scr', h1, h2⟩ := hG.run rfl (fun j => if j = 0 then Cx.ofRe (f (fft.len - 1) * thalf T) else
        Cx.scale (Cx.mul ⟨f (fft.len - j - 1), f (j - 1)⟩ (singleTwiddle j (fft.len * 4))) (thalf T))
     (fun i => ⟨g (2 * (fft.len + i)), g (2 * (fft.len + i) + 1)⟩) (Nat.le_refl _)
  simp only [ok_bind, h1]
  rw [scatter_evOdd_k f _ (fun x => -x)]
  exact ⟨_, rfl, length_scratch g _ scr' h2⟩

end RustDct
