import Verif.Proofs.ConvertFft
/-!
# What `Type4ConvertToFftOdd` computes, for every element type and every FFT
-/

set_option linter.all false

namespace RustDct

variable {T : Type} {F : Type} [F64 F] [DctNum T F]

/-- The object built by `Type4ConvertToFftOdd::new`. -/
def Type4ConvertToFftOdd.inst (fft : Fft T) : Type4ConvertToFftOdd T :=
  { scratchLen := 2 * (fft.len + fft.inplaceScratchLen), fft := fft, len := fft.len }

theorem Type4ConvertToFftOdd.new_eq {fft : Fft T} (h1 : fft.len % 2 = 1) (h2 : fft.direction = .forward) :
    Type4ConvertToFftOdd.new fft = .ok (Type4ConvertToFftOdd.inst fft) := by
  simp [Type4ConvertToFftOdd.new, Type4ConvertToFftOdd.inst, h1, h2]

theorem fillWhileInput_eq {n : Nat} {value : Nat → Except Err (Cx T)} (v : Nat → Cx T)
    (hv : ∀ i, i < n → value i = .ok (v i)) (d ii fi : Nat) (c : Nat → Cx T) (hd : d = (n - ii + 3) / 4)
    (hfi : fi + d ≤ n) :
    fillWhileInput n value ii fi (vec n c) =
      .ok (ii + 4 * d, fi + d, vec n fun j => if fi ≤ j ∧ j < fi + d then v (ii + 4 * (j - fi)) else c j) := by
  induction d generalizing ii fi c with
  | zero =>
    unfold fillWhileInput
    rw [if_neg (by omega)]
    congr 3
    apply vec_congr
    intro j hj
    rw [if_neg (by omega)]
  | succ d ih =>
    unfold fillWhileInput
    rw [if_pos (by omega), hv ii (by omega)]
    simp (disch := omega) only [ok_bind, wr_vec]
    rw [ih (ii + 4) (fi + 1) _ (by omega) (by omega)]
    congr 2
    · omega
    · congr 1
      · omega
      · apply vec_congr
        intro j hj
        by_cases h : fi + 1 ≤ j ∧ j < fi + 1 + d
        · rw [if_pos h, if_pos (by omega)]
          congr 1; omega
        · rw [if_neg h]
          by_cases h2 : j = fi
          · subst h2
            simp
          · rw [if_neg h2, if_neg (by omega)]

theorem fillWhileFft_eq {n : Nat} {value : Nat → Except Err (Cx T)} (v : Nat → Cx T) (d ii fi : Nat)
    (c : Nat → Cx T) (hd : fi + d = n) (hv : ∀ j, j < d → value (ii + 4 * j) = .ok (v (ii + 4 * j))) :
    fillWhileFft n value ii fi (vec n c) =
      .ok (vec n fun j => if fi ≤ j then v (ii + 4 * (j - fi)) else c j) := by
  induction d generalizing ii fi c with
  | zero =>
    unfold fillWhileFft
    rw [if_neg (by omega)]
    congr 1
    apply vec_congr
    intro j hj
    rw [if_neg (by omega)]
  | succ d ih =>
    unfold fillWhileFft
    have h0 := hv 0 (by omega)
    rw [if_pos (by omega), show ii = ii + 4 * 0 by omega, h0]
    simp (disch := omega) only [ok_bind, wr_vec]
    rw [ih (ii + 4 * 0 + 4) (fi + 1) _ (by omega) (by
      intro j hj
      have := hv (j + 1) (by omega)
      rwa [show ii + 4 * (j + 1) = ii + 4 * 0 + 4 + 4 * j by omega] at this)]
    congr 1
    apply vec_congr
    intro j hj
    by_cases h : fi + 1 ≤ j
    · rw [if_pos h, if_pos (by omega)]
      congr 1; omega
    · rw [if_neg h]
      by_cases h2 : j = fi
      · subst h2
        simp
      · rw [if_neg h2, if_neg (by omega)]

/-- Reading order of the type 4 conversion: virtual index `v` (of the periodic extension) folded to `0..n`. -/
def fold4 (n v : Nat) : Nat :=
  if v < n then v else if v < 2 * n then 2 * n - 1 - v else if v < 3 * n then v - 2 * n
  else if v < 4 * n then 4 * n - 1 - v else v - 4 * n

/-- FFT input of the type 4 conversion. -/
def type4FftInput (n : Nat) (f : Nat → T) : Nat → Cx T := fun j =>
  let v := n / 2 + 4 * j
  Cx.ofRe (if n ≤ v ∧ v < 3 * n then -(f (fold4 n v)) else f (fold4 n v))

/-- The five filling loops, `rdA` reading forwards and `rdB` backwards. -/
theorem fill4 {n : Nat} (hn : n % 2 = 1) (f : Nat → T) (c : Nat → Cx T) {β : Type} (K : List (Cx T) → Except Err β)
    (rdA rdB : Nat → Except Err T) (hA : ∀ i, i < n → rdA i = .ok (f i)) (hB : ∀ i, i < n → rdB i = .ok (f (n - 1 - i))) :
    (do
      let p ← fillWhileInput n (fun i => do
        let x ← rdA i
        .ok (Cx.ofRe x)) (n / 2) 0 (vec n c)
      let ii ← csub p.1 n
      let p ← fillWhileInput n (fun i => do
        let x ← rdB i
        .ok (Cx.ofRe (-x))) ii p.2.1 p.2.2
      let ii ← csub p.1 n
      let p ← fillWhileInput n (fun i => do
        let x ← rdA i
        .ok (Cx.ofRe (-x))) ii p.2.1 p.2.2
      let ii ← csub p.1 n
      let p ← fillWhileInput n (fun i => do
        let x ← rdB i
        .ok (Cx.ofRe x)) ii p.2.1 p.2.2
      let ii ← csub p.1 n
      let fftBuffer ← fillWhileFft n (fun i => do
        let x ← rdA i
        .ok (Cx.ofRe x)) ii p.2.1 p.2.2
      K fftBuffer) = K (vec n (type4FftInput n f)) := by
  rw [fillWhileInput_eq (fun i => Cx.ofRe (f i)) (by intro i hi; simp only [hA i hi, ok_bind]) _ _ _ _ rfl (by omega)]
  generalize e1 : (n - n / 2 + 3) / 4 = d1
  obtain ⟨i1, hi1⟩ : ∃ i1, n / 2 + 4 * d1 = n + i1 := ⟨n / 2 + 4 * d1 - n, by omega⟩
  have b1 : i1 < 4 := by omega
  have s1 : n / 2 + 4 * d1 - n = i1 := by omega
  simp (disch := omega) only [ok_bind, csub_ok, s1]
  rw [fillWhileInput_eq (fun i => Cx.ofRe (-(f (n - 1 - i)))) (by intro i hi; simp only [hB i hi, ok_bind]) _ _ _ _ rfl (by omega)]
  generalize e2 : (n - i1 + 3) / 4 = d2
  obtain ⟨i2, hi2⟩ : ∃ i2, i1 + 4 * d2 = n + i2 := ⟨i1 + 4 * d2 - n, by omega⟩
  have b2 : i2 < 4 := by omega
  have f2 : d2 = 0 ∨ i1 + 4 * d2 < n + 4 := by omega
  have s2 : i1 + 4 * d2 - n = i2 := by omega
  simp (disch := omega) only [ok_bind, csub_ok, s2]
  rw [fillWhileInput_eq (fun i => Cx.ofRe (-(f i))) (by intro i hi; simp only [hA i hi, ok_bind]) _ _ _ _ rfl (by omega)]
  generalize e3 : (n - i2 + 3) / 4 = d3
  obtain ⟨i3, hi3⟩ : ∃ i3, i2 + 4 * d3 = n + i3 := ⟨i2 + 4 * d3 - n, by omega⟩
  have b3 : i3 < 4 := by omega
  have s3 : i2 + 4 * d3 - n = i3 := by omega
  simp (disch := omega) only [ok_bind, csub_ok, s3]
  rw [fillWhileInput_eq (fun i => Cx.ofRe (f (n - 1 - i))) (by intro i hi; simp only [hB i hi, ok_bind]) _ _ _ _ rfl (by omega)]
  generalize e4 : (n - i3 + 3) / 4 = d4
  obtain ⟨i4, hi4⟩ : ∃ i4, i3 + 4 * d4 = n + i4 := ⟨i3 + 4 * d4 - n, by omega⟩
  have b4 : i4 < 4 := by omega
  have s4 : i3 + 4 * d4 - n = i4 := by omega
  simp (disch := omega) only [ok_bind, csub_ok, s4]
  rw [fillWhileFft_eq (fun i => Cx.ofRe (f i)) (n - (0 + d1 + d2 + d3 + d4)) _ _ _ (by omega) (by
    intro j hj
    simp only [hA _ (show i4 + 4 * j < n by omega), ok_bind])]
  simp only [ok_bind]
  congr 1
  apply vec_congr
  intro j hj
  unfold type4FftInput fold4
  simp only []
  by_cases h1 : n / 2 + 4 * j < n
  · rw [if_neg (by omega), if_neg (by omega), if_neg (by omega), if_neg (by omega), if_pos (by omega),
      if_neg (by omega), if_pos h1]
    exact congrArg (fun t => Cx.ofRe (f t)) (by omega)
  by_cases h2 : n / 2 + 4 * j < 2 * n
  · rw [if_neg (by omega), if_neg (by omega), if_neg (by omega), if_pos (by omega),
      if_pos (by omega), if_neg (by omega), if_pos h2]
    exact congrArg (fun t => Cx.ofRe (-(f t))) (by omega)
  by_cases h3 : n / 2 + 4 * j < 3 * n
  · rw [if_neg (by omega), if_neg (by omega), if_pos (by omega),
      if_pos (by omega), if_neg (by omega), if_neg (by omega), if_pos h3]
    exact congrArg (fun t => Cx.ofRe (-(f t))) (by omega)
  by_cases h4 : n / 2 + 4 * j < 4 * n
  · rw [if_neg (by omega), if_pos (by omega),
      if_neg (by omega), if_neg (by omega), if_neg (by omega), if_neg (by omega), if_pos h4]
    exact congrArg (fun t => Cx.ofRe (f t)) (by omega)
  · rw [if_pos (by omega), if_neg (by omega), if_neg (by omega), if_neg (by omega), if_neg (by omega), if_neg (by omega)]
    exact congrArg (fun t => Cx.ofRe (f t)) (by omega)

/-- `1, -1, -(-1), …`. -/
def altSign : Nat → T
  | 0 => 1
  | i + 1 => -(altSign i)

/-- Result of the output loop (`A`, `B`: lower half, even and odd; `C`, `D`: upper half). -/
def out4 (n : Nat) (V : Nat → Cx T) (A B C D : Cx T → T) (mid : Nat → T) (k : Nat) : T :=
  let r := fun m => Cx.scale (V (2 * m + 1)) (altSign (m / 2) * (DctNum.sqrt2 * thalf T))
  if k < 2 * (n / 4) then if k % 2 = 0 then A (r k) else B (r k)
  else if n - 2 * (n / 4) ≤ k then if (n - 1 - k) % 2 = 0 then D (r (n - 1 - k)) else C (r (n - 1 - k))
  else mid k

theorem outLoop4 {n : Nat} (hn : n % 2 = 1) (f : Nat → T) (V : Nat → Cx T) (A B C D : Cx T → T) :
    (forRange 0 (n / 4) (vec n f, (1 : T)) fun i st => do
      let a ← rd (vec n V) (4 * i + 1)
      let b ← rd (vec n V) (4 * i + 3)
      let buffer ← wr st.1 (i * 2) (A (Cx.scale a (st.2 * (DctNum.sqrt2 * thalf T))))
      let buffer ← wr buffer (i * 2 + 1) (B (Cx.scale b (st.2 * (DctNum.sqrt2 * thalf T))))
      let j ← csub n (i * 2)
      let j2 ← csub j 2
      let buffer ← wr buffer j2 (C (Cx.scale b (st.2 * (DctNum.sqrt2 * thalf T))))
      let j1 ← csub j 1
      let buffer ← wr buffer j1 (D (Cx.scale a (st.2 * (DctNum.sqrt2 * thalf T))))
      .ok (buffer, -st.2)) =
    .ok (vec n (out4 n V A B C D f), altSign (n / 4)) := by
  rw [forRange_eq (fun m => (vec n (fun k => if k < 2 * m ∨ n - 2 * m ≤ k then out4 n V A B C D f k else f k), altSign m))]
  rotate_left
  · congr 1
    apply vec_congr
    intro k hk
    rw [if_neg (by omega)]
  · intro i h1 h2
    simp (disch := omega) only [rd_vec, wr_vec, csub_ok, ok_bind]
    congr 2
    apply vec_congr
    intro k hk
    by_cases c1 : k = n - i * 2 - 1
    · rw [if_pos c1, if_pos (by omega)]
      unfold out4
      rw [if_neg (by omega), if_pos (by omega), if_pos (by omega)]
      rw [show n - 1 - k = 2 * i by omega]
      simp only [Nat.mul_div_cancel_left _ (show 0 < 2 by omega)]
      congr 3; omega
    rw [if_neg c1]
    by_cases c2 : k = n - i * 2 - 2
    · rw [if_pos c2, if_pos (by omega)]
      unfold out4
      rw [if_neg (by omega), if_pos (by omega), if_neg (by omega)]
      simp only []
      rw [show n - 1 - k = 2 * i + 1 by omega]
      rw [show (2 * i + 1) / 2 = i by omega]
      congr 3; omega
    rw [if_neg c2]
    by_cases c3 : k = i * 2 + 1
    · rw [if_pos c3, if_pos (by omega)]
      unfold out4
      simp only []
      rw [if_pos (by omega), if_neg (by omega)]
      rw [show k / 2 = i by omega]
      congr 3; omega
    rw [if_neg c3]
    by_cases c4 : k = i * 2
    · rw [if_pos c4, if_pos (by omega)]
      unfold out4
      simp only []
      rw [if_pos (by omega), if_pos (by omega)]
      rw [show k / 2 = i by omega]
      congr 3; omega
    rw [if_neg c4]
    by_cases c5 : k < 2 * i ∨ n - 2 * i ≤ k
    · rw [if_pos c5, if_pos (by omega)]
    · rw [if_neg c5, if_neg (by omega)]
  · omega
  congr 2
  apply vec_congr
  intro k hk
  by_cases h : k < 2 * (n / 4) ∨ n - 2 * (n / 4) ≤ k
  · rw [if_pos h]
  · rw [if_neg h]
    unfold out4
    rw [if_neg (by omega), if_neg (by omega)]

/-- Sign of the upper half. -/
abbrev sgn4 (n : Nat) : T := if n % 4 = 1 then 1 else -1

/-- The middle outputs of the type 4 conversion; `N` is applied to the central FFT output when `n % 4 = 3`. -/
def mid4 (n : Nat) (V : Nat → Cx T) (N : T → T) (k : Nat) : T :=
  let s : T := altSign (n / 4)
  let r : T := DctNum.sqrt2 * thalf T
  if n % 4 = 1 then (V 0).re * s * r
  else
    let z := Cx.scale (V (n - 2)) (s * r)
    if k = n / 2 then N (V 0).re * s * r else if k = n / 2 + 1 then -z.re + z.im else z.re + z.im

theorem Type4ConvertToFftOdd.runs_dct4 {fft : Fft T} {G} (hG : FftRuns fft G) {n : Nat} (hn : n % 2 = 1) (hL : fft.len = n) :
    RunsV (Type4ConvertToFftOdd.inst fft).dct4 n (Type4ConvertToFftOdd.inst fft).scratchLen (fun f =>
      let V := G (type4FftInput n f)
      out4 n V (fun r => r.re + r.im) (fun r => -r.re + r.im) (fun r => (r.re + r.im) * sgn4 n)
        (fun r => (r.re - r.im) * sgn4 n) (mid4 n V (fun x => -x))) := by
  have hl : (Type4ConvertToFftOdd.inst fft).len = n := hL
  unfold Type4ConvertToFftOdd.dct4
  rw [hl]
  apply runsV_of_body
  intro f sc hsc
  simp only [Type4ConvertToFftOdd.inst] at hsc ⊢
  subst hL
  obtain ⟨g, rfl⟩ := exists_vec hsc
  simp only [split_scratch, ok_bind]
  rw [fill4 hn f _ _ (fun i => rd (vec fft.len f) i) (fun i => rdMirror (vec fft.len f) fft.len i) (fun i hi => rd_vec hi)
    (fun i hi => by unfold rdMirror; simp (disch := omega) only [csub_ok, ok_bind, rd_vec]; congr 2; omega)]
  obtain ⟨scr', h1, h2⟩ := hG.run rfl (type4FftInput fft.len f)
    (fun i => ⟨g (2 * (fft.len + i)), g (2 * (fft.len + i) + 1)⟩) (Nat.le_refl _)
  simp only [h1, ok_bind]
  rw [outLoop4 hn f _ (fun r => r.re + r.im) (fun r => -r.re + r.im) (fun r => (r.re + r.im) * sgn4 fft.len)
        (fun r => (r.re - r.im) * sgn4 fft.len)]
  simp only [ok_bind]
  by_cases h4 : fft.len % 4 = 1
  · rw [if_pos h4]
    simp (disch := omega) only [rd_vec, wr_vec, ok_bind]
    refine ex_ok ?_ (length_scratch g _ scr' h2)
    apply vec_congr
    intro k hk
    unfold out4 mid4
    simp only []
    by_cases h : k = fft.len / 2
    · rw [if_pos h, if_neg (by omega), if_neg (by omega), if_pos h4]
    · rw [if_neg h]
      by_cases h5 : k < 2 * (fft.len / 4)
      · rw [if_pos h5, if_pos h5]
      · rw [if_neg h5, if_neg h5, if_pos (c := fft.len - 2 * (fft.len / 4) ≤ k) (by omega), if_pos (c := fft.len - 2 * (fft.len / 4) ≤ k) (by omega)]
  · rw [if_neg h4]
    simp (disch := omega) only [rd_vec, wr_vec, ok_bind, csub_ok]
    refine ex_ok ?_ (length_scratch g _ scr' h2)
    apply vec_congr
    intro k hk
    unfold out4 mid4
    simp only []
    by_cases h : k = fft.len / 2
    · rw [if_pos h, if_neg (by omega), if_neg (by omega), if_neg h4, if_pos h]
    rw [if_neg h]
    by_cases h' : k = fft.len / 2 + 1
    · rw [if_pos h', if_neg (by omega), if_neg (by omega), if_neg h4, if_neg h, if_pos h']
    rw [if_neg h']
    by_cases h'' : k = fft.len / 2 - 1
    · rw [if_pos h'', if_neg (by omega), if_neg (by omega), if_neg h4, if_neg h, if_neg h']
    rw [if_neg h'']
    by_cases h5 : k < 2 * (fft.len / 4)
    · rw [if_pos h5, if_pos h5]
    · rw [if_neg h5, if_neg h5, if_pos (c := fft.len - 2 * (fft.len / 4) ≤ k) (by omega), if_pos (c := fft.len - 2 * (fft.len / 4) ≤ k) (by omega)]

theorem Type4ConvertToFftOdd.runs_dst4 {fft : Fft T} {G} (hG : FftRuns fft G) {n : Nat} (hn : n % 2 = 1) (hL : fft.len = n) :
    RunsV (Type4ConvertToFftOdd.inst fft).dst4 n (Type4ConvertToFftOdd.inst fft).scratchLen (fun f =>
      let V := G (type4FftInput n (fun i => f (n - 1 - i)))
      out4 n V (fun r => r.re + r.im) (fun r => r.re - r.im) (fun r => -(r.re + r.im) * sgn4 n)
        (fun r => (r.re - r.im) * sgn4 n) (mid4 n V (fun x => x))) := by
  have hl : (Type4ConvertToFftOdd.inst fft).len = n := hL
  unfold Type4ConvertToFftOdd.dst4
  rw [hl]
  apply runsV_of_body
  intro f sc hsc
  simp only [Type4ConvertToFftOdd.inst] at hsc ⊢
  subst hL
  obtain ⟨g, rfl⟩ := exists_vec hsc
  simp only [split_scratch, ok_bind]
  rw [fill4 hn (fun i => f (fft.len - 1 - i)) _ _ (fun i => rdMirror (vec fft.len f) fft.len i) (fun i => rd (vec fft.len f) i)
    (fun i hi => by unfold rdMirror; simp (disch := omega) only [csub_ok, ok_bind, rd_vec]; congr 2; omega)
    (fun i hi => by rw [rd_vec hi]; congr 2; omega)]
  obtain ⟨scr', h1, h2⟩ := hG.run rfl (type4FftInput fft.len (fun i => f (fft.len - 1 - i)))
    (fun i => ⟨g (2 * (fft.len + i)), g (2 * (fft.len + i) + 1)⟩) (Nat.le_refl _)
  simp only [h1, ok_bind]
  rw [outLoop4 hn f _ (fun r => r.re + r.im) (fun r => r.re - r.im) (fun r => -(r.re + r.im) * sgn4 fft.len)
        (fun r => (r.re - r.im) * sgn4 fft.len)]
  simp only [ok_bind]
  by_cases h4 : fft.len % 4 = 1
  · rw [if_pos h4]
    simp (disch := omega) only [rd_vec, wr_vec, ok_bind]
    refine ex_ok ?_ (length_scratch g _ scr' h2)
    apply vec_congr
    intro k hk
    unfold out4 mid4
    simp only []
    by_cases h : k = fft.len / 2
    · rw [if_pos h, if_neg (by omega), if_neg (by omega), if_pos h4]
    · rw [if_neg h]
      by_cases h5 : k < 2 * (fft.len / 4)
      · rw [if_pos h5, if_pos h5]
      · rw [if_neg h5, if_neg h5, if_pos (c := fft.len - 2 * (fft.len / 4) ≤ k) (by omega), if_pos (c := fft.len - 2 * (fft.len / 4) ≤ k) (by omega)]
  · rw [if_neg h4]
    simp (disch := omega) only [rd_vec, wr_vec, ok_bind, csub_ok]
    refine ex_ok ?_ (length_scratch g _ scr' h2)
    apply vec_congr
    intro k hk
    unfold out4 mid4
    simp only []
    by_cases h : k = fft.len / 2
    · rw [if_pos h, if_neg (by omega), if_neg (by omega), if_neg h4, if_pos h]
    rw [if_neg h]
    by_cases h' : k = fft.len / 2 + 1
    · rw [if_pos h', if_neg (by omega), if_neg (by omega), if_neg h4, if_neg h, if_pos h']
    rw [if_neg h']
    by_cases h'' : k = fft.len / 2 - 1
    · rw [if_pos h'', if_neg (by omega), if_neg (by omega), if_neg h4, if_neg h, if_neg h']
    rw [if_neg h'']
    by_cases h5 : k < 2 * (fft.len / 4)
    · rw [if_pos h5, if_pos h5]
    · rw [if_neg h5, if_neg h5, if_pos (c := fft.len - 2 * (fft.len / 4) ≤ k) (by omega), if_pos (c := fft.len - 2 * (fft.len / 4) ≤ k) (by omega)]

end RustDct
