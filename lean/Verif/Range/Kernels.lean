import Verif.Range.Fft
import Verif.Float.Three
/-!
# The fixed-size kernels in arithmetic of bounded range
-/

set_option linter.all false

namespace RustDct
open Real

variable {T F : Type} [F64 F] [DctNum T F] {R : Ieee T F} {r : ℕ}

/-- The computation `p` against the same computation `q` on real numbers: magnitudes grow at most by the factor `a`, `d` roundings are added. -/
def KRel (R : Ieee T F) (p : List T → Except Err (List T)) (q : List ℝ → Except Err (List ℝ)) (n a d : ℕ) : Prop :=
  ∀ (b : ℝ) (c m : ℕ) (f : ℕ → T) (f' : ℕ → ℝ), R.L ≤ b → 1 ≤ c → (∀ i < n, Bd R b c m (f i) (f' i)) →
    ∃ g g', p (vec n f) = .ok (vec n g) ∧ q (vec n f') = .ok (vec n g') ∧ ∀ i < n, Bd R b (a * c) (m + d) (g i) (g' i)

theorem KRel.rel {k : Kind} {p : List T → Except Err (List T)} {q : List ℝ → Except Err (List ℝ)} {n a d : ℕ} (h : KRel R p q n a d)
    (hp : ∀ l, l.length = n → ∃ l', p l = .ok l' ∧ l'.length = n) (hq : ∀ x, q (vec n x) = .ok (vec n (k.specAt n x))) :
    PRel R k (fun m => validateBuffer m n p) n 0 a d := by
  obtain ⟨C, hC⟩ := ex_choose (T := T) (n := n) fun f => hp (vec n f) (length_vec _ _)
  refine ⟨C, runsV_of_buffer hC, fun b c m f f' hb hc hf i hi => ?_⟩
  obtain ⟨g, g', h1, h2, h3⟩ := h b c m f f' hb hc hf
  rw [hC] at h1
  rw [hq] at h2
  injection h1 with h1
  injection h2 with h2
  rw [vec_inj h1 i hi, vec_inj h2 i hi]
  exact h3 i hi

theorem Type2And3Butterfly3.tw (hr : R.Twiddles r) : Tw R 1 r (Type2And3Butterfly3.new : Type2And3Butterfly3 T).twiddle (Type2And3Butterfly3.new : Type2And3Butterfly3 ℝ).twiddle :=
  Ieee.twre hr (by norm_num) (by norm_num) (by norm_num)

theorem Tw.conj {i n : ℕ} (hr : R.Twiddles r) (hn : 1 ≤ n) (hn' : n < 2 ^ 64) (hi : i ≤ n) :
    Tw R 1 r (Cx.conj (singleTwiddle i n : Cx T)).re (Cx.conj (singleTwiddle i n : Cx ℝ)).re ∧ Tw R 1 r (Cx.conj (singleTwiddle i n : Cx T)).im (Cx.conj (singleTwiddle i n : Cx ℝ)).im :=
  ⟨Ieee.tw_re hr hn hn' hi, (Ieee.tw_im hr hn hn' hi).neg⟩

theorem Type2And3Butterfly8.tws (hr : R.Twiddles r) : ∃ (t0 t1 : Cx T) (s0 s1 : Cx ℝ), (Type2And3Butterfly8.new : Type2And3Butterfly8 T).twiddles = [t0, t1] ∧ (Type2And3Butterfly8.new : Type2And3Butterfly8 ℝ).twiddles = [s0, s1] ∧
    Tw R 1 r t0.re s0.re ∧ Tw R 1 r t0.im s0.im ∧ Tw R 1 r t1.re s1.re ∧ Tw R 1 r t1.im s1.im :=
  ⟨_, _, _, _, rfl, rfl, (Tw.conj (i := 1) (n := 32) hr (by norm_num) (by norm_num) (by norm_num)).1, (Tw.conj (i := 1) (n := 32) hr (by norm_num) (by norm_num) (by norm_num)).2, (Tw.conj (i := 3) (n := 32) hr (by norm_num) (by norm_num) (by norm_num)).1, (Tw.conj (i := 3) (n := 32) hr (by norm_num) (by norm_num) (by norm_num)).2⟩

theorem Type2And3Butterfly16.tws (hr : R.Twiddles r) : ∃ (t0 t1 t2 t3 : Cx T) (s0 s1 s2 s3 : Cx ℝ), (Type2And3Butterfly16.new : Type2And3Butterfly16 T).twiddles = [t0, t1, t2, t3] ∧ (Type2And3Butterfly16.new : Type2And3Butterfly16 ℝ).twiddles = [s0, s1, s2, s3] ∧
    Tw R 1 r t0.re s0.re ∧ Tw R 1 r t0.im s0.im ∧ Tw R 1 r t1.re s1.re ∧ Tw R 1 r t1.im s1.im ∧ Tw R 1 r t2.re s2.re ∧ Tw R 1 r t2.im s2.im ∧ Tw R 1 r t3.re s3.re ∧ Tw R 1 r t3.im s3.im :=
  ⟨_, _, _, _, _, _, _, _, rfl, rfl, (Tw.conj (i := 1) (n := 64) hr (by norm_num) (by norm_num) (by norm_num)).1, (Tw.conj (i := 1) (n := 64) hr (by norm_num) (by norm_num) (by norm_num)).2, (Tw.conj (i := 3) (n := 64) hr (by norm_num) (by norm_num) (by norm_num)).1, (Tw.conj (i := 3) (n := 64) hr (by norm_num) (by norm_num) (by norm_num)).2, (Tw.conj (i := 5) (n := 64) hr (by norm_num) (by norm_num) (by norm_num)).1, (Tw.conj (i := 5) (n := 64) hr (by norm_num) (by norm_num) (by norm_num)).2, (Tw.conj (i := 7) (n := 64) hr (by norm_num) (by norm_num) (by norm_num)).1, (Tw.conj (i := 7) (n := 64) hr (by norm_num) (by norm_num) (by norm_num)).2⟩

theorem Type2And3Butterfly4.tw (hr : R.Twiddles r) : Tw R 1 r (Type2And3Butterfly4.new : Type2And3Butterfly4 T).twiddle.re (Type2And3Butterfly4.new : Type2And3Butterfly4 ℝ).twiddle.re ∧
    Tw R 1 r (Type2And3Butterfly4.new : Type2And3Butterfly4 T).twiddle.im (Type2And3Butterfly4.new : Type2And3Butterfly4 ℝ).twiddle.im :=
  Tw.conj hr (by norm_num) (by norm_num) (by norm_num)

theorem Type2And3Butterfly2.krel_dct2 : KRel R (Type2And3Butterfly2.new : Type2And3Butterfly2 T).inplaceDct2 (Type2And3Butterfly2.new : Type2And3Butterfly2 ℝ).inplaceDct2 2 2 3 := by
  intro b c m f f' hb hc hf
  have x0 := hf 0 (by norm_num)
  have x1 := hf 1 (by norm_num)
  refine ⟨lf [f 0 + f 1, (f 0 - f 1) * DctNum.fracSqrt2], lf [f' 0 + f' 1, (f' 0 - f' 1) * DctNum.fracSqrt2], by rw [vec_two, vec_two]; exact Type2And3Butterfly2.inplaceDct2_gen _ _ _, by rw [vec_two, vec_two]; exact Type2And3Butterfly2.inplaceDct2_gen _ _ _, ?_⟩
  refine all2 ?_ ?_ <;> (simp only [lf, List.getD_cons_zero, List.getD_cons_succ]; bd)

theorem Type2And3Butterfly2.krel_dct3 : KRel R (Type2And3Butterfly2.new : Type2And3Butterfly2 T).inplaceDct3 (Type2And3Butterfly2.new : Type2And3Butterfly2 ℝ).inplaceDct3 2 2 3 := by
  intro b c m f f' hb hc hf
  have x0 := hf 0 (by norm_num)
  have x1 := hf 1 (by norm_num)
  refine ⟨lf [f 0 * thalf T + f 1 * DctNum.fracSqrt2, f 0 * thalf T - f 1 * DctNum.fracSqrt2], lf [f' 0 * thalf ℝ + f' 1 * DctNum.fracSqrt2, f' 0 * thalf ℝ - f' 1 * DctNum.fracSqrt2], by rw [vec_two, vec_two]; exact Type2And3Butterfly2.inplaceDct3_gen _ _ _, by rw [vec_two, vec_two]; exact Type2And3Butterfly2.inplaceDct3_gen _ _ _, ?_⟩
  refine all2 ?_ ?_ <;> (simp only [lf, List.getD_cons_zero, List.getD_cons_succ]; bd)

theorem Type2And3Butterfly2.krel_dst2 : KRel R (Type2And3Butterfly2.new : Type2And3Butterfly2 T).inplaceDst2 (Type2And3Butterfly2.new : Type2And3Butterfly2 ℝ).inplaceDst2 2 2 3 := by
  intro b c m f f' hb hc hf
  have x0 := hf 0 (by norm_num)
  have x1 := hf 1 (by norm_num)
  refine ⟨lf [(f 0 + f 1) * DctNum.fracSqrt2, f 0 - f 1], lf [(f' 0 + f' 1) * DctNum.fracSqrt2, f' 0 - f' 1], by rw [vec_two, vec_two]; exact Type2And3Butterfly2.inplaceDst2_gen _ _ _, by rw [vec_two, vec_two]; exact Type2And3Butterfly2.inplaceDst2_gen _ _ _, ?_⟩
  refine all2 ?_ ?_ <;> (simp only [lf, List.getD_cons_zero, List.getD_cons_succ]; bd)

theorem Type2And3Butterfly2.krel_dst3 : KRel R (Type2And3Butterfly2.new : Type2And3Butterfly2 T).inplaceDst3 (Type2And3Butterfly2.new : Type2And3Butterfly2 ℝ).inplaceDst3 2 2 3 := by
  intro b c m f f' hb hc hf
  have x0 := hf 0 (by norm_num)
  have x1 := hf 1 (by norm_num)
  refine ⟨lf [f 0 * DctNum.fracSqrt2 + f 1 * thalf T, f 0 * DctNum.fracSqrt2 - f 1 * thalf T], lf [f' 0 * DctNum.fracSqrt2 + f' 1 * thalf ℝ, f' 0 * DctNum.fracSqrt2 - f' 1 * thalf ℝ], by rw [vec_two, vec_two]; exact Type2And3Butterfly2.inplaceDst3_gen _ _ _, by rw [vec_two, vec_two]; exact Type2And3Butterfly2.inplaceDst3_gen _ _ _, ?_⟩
  refine all2 ?_ ?_ <;> (simp only [lf, List.getD_cons_zero, List.getD_cons_succ]; bd)

theorem Type2And3Butterfly3.krel_dct2 (hr : R.Twiddles r) : KRel R (Type2And3Butterfly3.new : Type2And3Butterfly3 T).inplaceDct2 (Type2And3Butterfly3.new : Type2And3Butterfly3 ℝ).inplaceDct2 3 3 (r + 3) := by
  intro b c m f f' hb hc hf
  have x0 := hf 0 (by norm_num)
  have x1 := hf 1 (by norm_num)
  have x2 := hf 2 (by norm_num)
  have t0 := Type2And3Butterfly3.tw hr
  refine ⟨lf [f 0 + f 1 + f 2, (f 0 - f 2) * (Type2And3Butterfly3.new : Type2And3Butterfly3 T).twiddle, (f 0 + f 2) * thalf T - f 1], lf [f' 0 + f' 1 + f' 2, (f' 0 - f' 2) * (Type2And3Butterfly3.new : Type2And3Butterfly3 ℝ).twiddle, (f' 0 + f' 2) * thalf ℝ - f' 1], by rw [vec_three, vec_three]; exact Type2And3Butterfly3.inplaceDct2_gen _ _ _ _, by rw [vec_three, vec_three]; exact Type2And3Butterfly3.inplaceDct2_gen _ _ _ _, ?_⟩
  refine three_cases ?_ ?_ ?_ <;> (simp only [lf, List.getD_cons_zero, List.getD_cons_succ]; bd)

theorem Type2And3Butterfly3.krel_dct3 (hr : R.Twiddles r) : KRel R (Type2And3Butterfly3.new : Type2And3Butterfly3 T).inplaceDct3 (Type2And3Butterfly3.new : Type2And3Butterfly3 ℝ).inplaceDct3 3 3 (r + 3) := by
  intro b c m f f' hb hc hf
  have x0 := hf 0 (by norm_num)
  have x1 := hf 1 (by norm_num)
  have x2 := hf 2 (by norm_num)
  have t0 := Type2And3Butterfly3.tw hr
  refine ⟨lf [f 0 * thalf T + f 1 * (Type2And3Butterfly3.new : Type2And3Butterfly3 T).twiddle + f 2 * thalf T, f 0 * thalf T - f 2, f 0 * thalf T + f 1 * -(Type2And3Butterfly3.new : Type2And3Butterfly3 T).twiddle + f 2 * thalf T], lf [f' 0 * thalf ℝ + f' 1 * (Type2And3Butterfly3.new : Type2And3Butterfly3 ℝ).twiddle + f' 2 * thalf ℝ, f' 0 * thalf ℝ - f' 2, f' 0 * thalf ℝ + f' 1 * -(Type2And3Butterfly3.new : Type2And3Butterfly3 ℝ).twiddle + f' 2 * thalf ℝ], by rw [vec_three, vec_three]; exact Type2And3Butterfly3.inplaceDct3_gen _ _ _ _, by rw [vec_three, vec_three]; exact Type2And3Butterfly3.inplaceDct3_gen _ _ _ _, ?_⟩
  refine three_cases ?_ ?_ ?_ <;> (simp only [lf, List.getD_cons_zero, List.getD_cons_succ]; bd)

theorem Type2And3Butterfly3.krel_dst2 (hr : R.Twiddles r) : KRel R (Type2And3Butterfly3.new : Type2And3Butterfly3 T).inplaceDst2 (Type2And3Butterfly3.new : Type2And3Butterfly3 ℝ).inplaceDst2 3 3 (r + 3) := by
  intro b c m f f' hb hc hf
  have x0 := hf 0 (by norm_num)
  have x1 := hf 1 (by norm_num)
  have x2 := hf 2 (by norm_num)
  have t0 := Type2And3Butterfly3.tw hr
  refine ⟨lf [(f 0 + f 2) * thalf T + f 1, (f 0 - f 2) * (Type2And3Butterfly3.new : Type2And3Butterfly3 T).twiddle, f 0 - f 1 + f 2], lf [(f' 0 + f' 2) * thalf ℝ + f' 1, (f' 0 - f' 2) * (Type2And3Butterfly3.new : Type2And3Butterfly3 ℝ).twiddle, f' 0 - f' 1 + f' 2], by rw [vec_three, vec_three]; exact Type2And3Butterfly3.inplaceDst2_gen _ _ _ _, by rw [vec_three, vec_three]; exact Type2And3Butterfly3.inplaceDst2_gen _ _ _ _, ?_⟩
  refine three_cases ?_ ?_ ?_ <;> (simp only [lf, List.getD_cons_zero, List.getD_cons_succ]; bd)

theorem Type2And3Butterfly3.krel_dst3 (hr : R.Twiddles r) : KRel R (Type2And3Butterfly3.new : Type2And3Butterfly3 T).inplaceDst3 (Type2And3Butterfly3.new : Type2And3Butterfly3 ℝ).inplaceDst3 3 3 (r + 3) := by
  intro b c m f f' hb hc hf
  have x0 := hf 0 (by norm_num)
  have x1 := hf 1 (by norm_num)
  have x2 := hf 2 (by norm_num)
  have t0 := Type2And3Butterfly3.tw hr
  refine ⟨lf [f 2 * thalf T + f 1 * (Type2And3Butterfly3.new : Type2And3Butterfly3 T).twiddle + f 0 * thalf T, f 0 - f 2 * thalf T, f 2 * thalf T + f 1 * -(Type2And3Butterfly3.new : Type2And3Butterfly3 T).twiddle + f 0 * thalf T], lf [f' 2 * thalf ℝ + f' 1 * (Type2And3Butterfly3.new : Type2And3Butterfly3 ℝ).twiddle + f' 0 * thalf ℝ, f' 0 - f' 2 * thalf ℝ, f' 2 * thalf ℝ + f' 1 * -(Type2And3Butterfly3.new : Type2And3Butterfly3 ℝ).twiddle + f' 0 * thalf ℝ], by rw [vec_three, vec_three]; exact Type2And3Butterfly3.inplaceDst3_gen _ _ _ _, by rw [vec_three, vec_three]; exact Type2And3Butterfly3.inplaceDst3_gen _ _ _ _, ?_⟩
  refine three_cases ?_ ?_ ?_ <;> (simp only [lf, List.getD_cons_zero, List.getD_cons_succ]; bd)

theorem Type2And3Butterfly4.krel_dct2 (hr : R.Twiddles r) : KRel R (Type2And3Butterfly4.new : Type2And3Butterfly4 T).inplaceDct2 (Type2And3Butterfly4.new : Type2And3Butterfly4 ℝ).inplaceDct2 4 4 (r + 4) := by
  intro b c m f f' hb hc hf
  have x0 := hf 0 (by norm_num)
  have x1 := hf 1 (by norm_num)
  have x2 := hf 2 (by norm_num)
  have x3 := hf 3 (by norm_num)
  have t0 := (Type2And3Butterfly4.tw hr).1
  have t1 := (Type2And3Butterfly4.tw hr).2
  refine ⟨lf [(f 0 + f 3) + (f 2 + f 1), (f 0 - f 3) * (Type2And3Butterfly4.new : Type2And3Butterfly4 T).twiddle.re - (f 2 - f 1) * (Type2And3Butterfly4.new : Type2And3Butterfly4 T).twiddle.im, ((f 0 + f 3) - (f 2 + f 1)) * DctNum.fracSqrt2, (f 2 - f 1) * (Type2And3Butterfly4.new : Type2And3Butterfly4 T).twiddle.re + (f 0 - f 3) * (Type2And3Butterfly4.new : Type2And3Butterfly4 T).twiddle.im], lf [(f' 0 + f' 3) + (f' 2 + f' 1), (f' 0 - f' 3) * (Type2And3Butterfly4.new : Type2And3Butterfly4 ℝ).twiddle.re - (f' 2 - f' 1) * (Type2And3Butterfly4.new : Type2And3Butterfly4 ℝ).twiddle.im, ((f' 0 + f' 3) - (f' 2 + f' 1)) * DctNum.fracSqrt2, (f' 2 - f' 1) * (Type2And3Butterfly4.new : Type2And3Butterfly4 ℝ).twiddle.re + (f' 0 - f' 3) * (Type2And3Butterfly4.new : Type2And3Butterfly4 ℝ).twiddle.im], by rw [vec_four, vec_four]; exact Type2And3Butterfly4.inplaceDct2_gen _ _ _ _ _, by rw [vec_four, vec_four]; exact Type2And3Butterfly4.inplaceDct2_gen _ _ _ _ _, ?_⟩
  refine all4 ?_ ?_ ?_ ?_ <;> (simp only [lf, List.getD_cons_zero, List.getD_cons_succ]; bd)

theorem Type2And3Butterfly4.krel_dct3 (hr : R.Twiddles r) : KRel R (Type2And3Butterfly4.new : Type2And3Butterfly4 T).inplaceDct3 (Type2And3Butterfly4.new : Type2And3Butterfly4 ℝ).inplaceDct3 4 4 (r + 4) := by
  intro b c m f f' hb hc hf
  have x0 := hf 0 (by norm_num)
  have x1 := hf 1 (by norm_num)
  have x2 := hf 2 (by norm_num)
  have x3 := hf 3 (by norm_num)
  have t0 := (Type2And3Butterfly4.tw hr).1
  have t1 := (Type2And3Butterfly4.tw hr).2
  refine ⟨lf [f 0 * thalf T + f 2 * DctNum.fracSqrt2 + (f 1 * (Type2And3Butterfly4.new : Type2And3Butterfly4 T).twiddle.re + f 3 * (Type2And3Butterfly4.new : Type2And3Butterfly4 T).twiddle.im), f 0 * thalf T - f 2 * DctNum.fracSqrt2 + (f 1 * (Type2And3Butterfly4.new : Type2And3Butterfly4 T).twiddle.im - f 3 * (Type2And3Butterfly4.new : Type2And3Butterfly4 T).twiddle.re), f 0 * thalf T - f 2 * DctNum.fracSqrt2 - (f 1 * (Type2And3Butterfly4.new : Type2And3Butterfly4 T).twiddle.im - f 3 * (Type2And3Butterfly4.new : Type2And3Butterfly4 T).twiddle.re), f 0 * thalf T + f 2 * DctNum.fracSqrt2 - (f 1 * (Type2And3Butterfly4.new : Type2And3Butterfly4 T).twiddle.re + f 3 * (Type2And3Butterfly4.new : Type2And3Butterfly4 T).twiddle.im)], lf [f' 0 * thalf ℝ + f' 2 * DctNum.fracSqrt2 + (f' 1 * (Type2And3Butterfly4.new : Type2And3Butterfly4 ℝ).twiddle.re + f' 3 * (Type2And3Butterfly4.new : Type2And3Butterfly4 ℝ).twiddle.im), f' 0 * thalf ℝ - f' 2 * DctNum.fracSqrt2 + (f' 1 * (Type2And3Butterfly4.new : Type2And3Butterfly4 ℝ).twiddle.im - f' 3 * (Type2And3Butterfly4.new : Type2And3Butterfly4 ℝ).twiddle.re), f' 0 * thalf ℝ - f' 2 * DctNum.fracSqrt2 - (f' 1 * (Type2And3Butterfly4.new : Type2And3Butterfly4 ℝ).twiddle.im - f' 3 * (Type2And3Butterfly4.new : Type2And3Butterfly4 ℝ).twiddle.re), f' 0 * thalf ℝ + f' 2 * DctNum.fracSqrt2 - (f' 1 * (Type2And3Butterfly4.new : Type2And3Butterfly4 ℝ).twiddle.re + f' 3 * (Type2And3Butterfly4.new : Type2And3Butterfly4 ℝ).twiddle.im)], by rw [vec_four, vec_four]; exact Type2And3Butterfly4.inplaceDct3_gen _ _ _ _ _, by rw [vec_four, vec_four]; exact Type2And3Butterfly4.inplaceDct3_gen _ _ _ _ _, ?_⟩
  refine all4 ?_ ?_ ?_ ?_ <;> (simp only [lf, List.getD_cons_zero, List.getD_cons_succ]; bd)

theorem Type2And3Butterfly4.krel_dst2 (hr : R.Twiddles r) : KRel R (Type2And3Butterfly4.new : Type2And3Butterfly4 T).inplaceDst2 (Type2And3Butterfly4.new : Type2And3Butterfly4 ℝ).inplaceDst2 4 4 (r + 4) := by
  intro b c m f f' hb hc hf
  have x0 := hf 0 (by norm_num)
  have x1 := hf 1 (by norm_num)
  have x2 := hf 2 (by norm_num)
  have x3 := hf 3 (by norm_num)
  have t0 := (Type2And3Butterfly4.tw hr).1
  have t1 := (Type2And3Butterfly4.tw hr).2
  refine ⟨lf [(f 2 + f 1) * (Type2And3Butterfly4.new : Type2And3Butterfly4 T).twiddle.re + (f 0 + f 3) * (Type2And3Butterfly4.new : Type2And3Butterfly4 T).twiddle.im, ((f 0 - f 3) - (f 2 - f 1)) * DctNum.fracSqrt2, (f 0 + f 3) * (Type2And3Butterfly4.new : Type2And3Butterfly4 T).twiddle.re - (f 2 + f 1) * (Type2And3Butterfly4.new : Type2And3Butterfly4 T).twiddle.im, (f 0 - f 3) + (f 2 - f 1)], lf [(f' 2 + f' 1) * (Type2And3Butterfly4.new : Type2And3Butterfly4 ℝ).twiddle.re + (f' 0 + f' 3) * (Type2And3Butterfly4.new : Type2And3Butterfly4 ℝ).twiddle.im, ((f' 0 - f' 3) - (f' 2 - f' 1)) * DctNum.fracSqrt2, (f' 0 + f' 3) * (Type2And3Butterfly4.new : Type2And3Butterfly4 ℝ).twiddle.re - (f' 2 + f' 1) * (Type2And3Butterfly4.new : Type2And3Butterfly4 ℝ).twiddle.im, (f' 0 - f' 3) + (f' 2 - f' 1)], by rw [vec_four, vec_four]; exact Type2And3Butterfly4.inplaceDst2_gen _ _ _ _ _, by rw [vec_four, vec_four]; exact Type2And3Butterfly4.inplaceDst2_gen _ _ _ _ _, ?_⟩
  refine all4 ?_ ?_ ?_ ?_ <;> (simp only [lf, List.getD_cons_zero, List.getD_cons_succ]; bd)

theorem Type2And3Butterfly4.krel_dst3 (hr : R.Twiddles r) : KRel R (Type2And3Butterfly4.new : Type2And3Butterfly4 T).inplaceDst3 (Type2And3Butterfly4.new : Type2And3Butterfly4 ℝ).inplaceDst3 4 4 (r + 4) := by
  intro b c m f f' hb hc hf
  have x0 := hf 0 (by norm_num)
  have x1 := hf 1 (by norm_num)
  have x2 := hf 2 (by norm_num)
  have x3 := hf 3 (by norm_num)
  have t0 := (Type2And3Butterfly4.tw hr).1
  have t1 := (Type2And3Butterfly4.tw hr).2
  refine ⟨lf [f 3 * thalf T + f 1 * DctNum.fracSqrt2 + (f 2 * (Type2And3Butterfly4.new : Type2And3Butterfly4 T).twiddle.re + f 0 * (Type2And3Butterfly4.new : Type2And3Butterfly4 T).twiddle.im), -(f 3 * thalf T - f 1 * DctNum.fracSqrt2 + (f 2 * (Type2And3Butterfly4.new : Type2And3Butterfly4 T).twiddle.im - f 0 * (Type2And3Butterfly4.new : Type2And3Butterfly4 T).twiddle.re)), f 3 * thalf T - f 1 * DctNum.fracSqrt2 - (f 2 * (Type2And3Butterfly4.new : Type2And3Butterfly4 T).twiddle.im - f 0 * (Type2And3Butterfly4.new : Type2And3Butterfly4 T).twiddle.re), f 2 * (Type2And3Butterfly4.new : Type2And3Butterfly4 T).twiddle.re + f 0 * (Type2And3Butterfly4.new : Type2And3Butterfly4 T).twiddle.im - (f 3 * thalf T + f 1 * DctNum.fracSqrt2)], lf [f' 3 * thalf ℝ + f' 1 * DctNum.fracSqrt2 + (f' 2 * (Type2And3Butterfly4.new : Type2And3Butterfly4 ℝ).twiddle.re + f' 0 * (Type2And3Butterfly4.new : Type2And3Butterfly4 ℝ).twiddle.im), -(f' 3 * thalf ℝ - f' 1 * DctNum.fracSqrt2 + (f' 2 * (Type2And3Butterfly4.new : Type2And3Butterfly4 ℝ).twiddle.im - f' 0 * (Type2And3Butterfly4.new : Type2And3Butterfly4 ℝ).twiddle.re)), f' 3 * thalf ℝ - f' 1 * DctNum.fracSqrt2 - (f' 2 * (Type2And3Butterfly4.new : Type2And3Butterfly4 ℝ).twiddle.im - f' 0 * (Type2And3Butterfly4.new : Type2And3Butterfly4 ℝ).twiddle.re), f' 2 * (Type2And3Butterfly4.new : Type2And3Butterfly4 ℝ).twiddle.re + f' 0 * (Type2And3Butterfly4.new : Type2And3Butterfly4 ℝ).twiddle.im - (f' 3 * thalf ℝ + f' 1 * DctNum.fracSqrt2)], by rw [vec_four, vec_four]; exact Type2And3Butterfly4.inplaceDst3_gen _ _ _ _ _, by rw [vec_four, vec_four]; exact Type2And3Butterfly4.inplaceDst3_gen _ _ _ _ _, ?_⟩
  refine all4 ?_ ?_ ?_ ?_ <;> (simp only [lf, List.getD_cons_zero, List.getD_cons_succ]; bd)

theorem Type2And3Butterfly8.krel_dct2 (hr : R.Twiddles r) : KRel R (Type2And3Butterfly8.new : Type2And3Butterfly8 T).inplaceDct2 (Type2And3Butterfly8.new : Type2And3Butterfly8 ℝ).inplaceDct2 8 16 (r + 7) := by
  intro b c m f f' hb hc hf
  obtain ⟨t0, t1, s0, s1, ht, hs, r0, i0, r1, i1⟩ := Type2And3Butterfly8.tws hr
  have x0 := hf 0 (by norm_num)
  have x1 := hf 1 (by norm_num)
  have x2 := hf 2 (by norm_num)
  have x3 := hf 3 (by norm_num)
  have x4 := hf 4 (by norm_num)
  have x5 := hf 5 (by norm_num)
  have x6 := hf 6 (by norm_num)
  have x7 := hf 7 (by norm_num)
  obtain ⟨d, d', hd, hd', bd⟩ := Type2And3Butterfly4.krel_dct2 hr b (2 * c) (m + 1) (lf [f 0 + f 7, f 1 + f 6, f 2 + f 5, f 3 + f 4]) (lf [f' 0 + f' 7, f' 1 + f' 6, f' 2 + f' 5, f' 3 + f' 4]) hb (by omega) (by
    refine all4 ?_ ?_ ?_ ?_ <;> (simp only [lf, List.getD_cons_zero, List.getD_cons_succ]; bd))
  rw [vec_four, vec_four] at hd hd'
  have dx0 := bd 0 (by norm_num)
  have dx1 := bd 1 (by norm_num)
  have dx2 := bd 2 (by norm_num)
  have dx3 := bd 3 (by norm_num)
  obtain ⟨e, e', he, he', be⟩ := Type2And3Butterfly2.krel_dct2 b (4 * c) (m + (r + 3)) (lf [(f 0 - f 7) * t0.re + (f 3 - f 4) * t0.im, (f 1 - f 6) * t1.re + (f 2 - f 5) * t1.im]) (lf [(f' 0 - f' 7) * s0.re + (f' 3 - f' 4) * s0.im, (f' 1 - f' 6) * s1.re + (f' 2 - f' 5) * s1.im]) hb (by omega) (by
    refine all2 ?_ ?_ <;> (simp only [lf, List.getD_cons_zero, List.getD_cons_succ]; bd))
  rw [vec_two, vec_two] at he he'
  have ex0 := be 0 (by norm_num)
  have ex1 := be 1 (by norm_num)
  obtain ⟨o, o', ho, ho', bo⟩ := Type2And3Butterfly2.krel_dst2 b (4 * c) (m + (r + 3)) (lf [(f 2 - f 5) * t1.re - (f 1 - f 6) * t1.im, (f 3 - f 4) * t0.re - (f 0 - f 7) * t0.im]) (lf [(f' 2 - f' 5) * s1.re - (f' 1 - f' 6) * s1.im, (f' 3 - f' 4) * s0.re - (f' 0 - f' 7) * s0.im]) hb (by omega) (by
    refine all2 ?_ ?_ <;> (simp only [lf, List.getD_cons_zero, List.getD_cons_succ]; bd))
  rw [vec_two, vec_two] at ho ho'
  have ox0 := bo 0 (by norm_num)
  have ox1 := bo 1 (by norm_num)
  refine ⟨lf [d 0, e 0, d 1, e 1 - o 0, d 2, e 1 + o 0, d 3, o 1], lf [d' 0, e' 0, d' 1, e' 1 - o' 0, d' 2, e' 1 + o' 0, d' 3, o' 1], by rw [vec_eight, vec_eight]; exact Type2And3Butterfly8.inplaceDct2_gen _ ht hd he ho, by rw [vec_eight, vec_eight]; exact Type2And3Butterfly8.inplaceDct2_gen _ hs hd' he' ho', ?_⟩
  clear ht hs hd he ho hd' he' ho' hf bd be bo x0 x1 x2 x3 x4 x5 x6 x7
  refine all8 ?_ ?_ ?_ ?_ ?_ ?_ ?_ ?_ <;> (simp only [lf, List.getD_cons_zero, List.getD_cons_succ]; bd)

theorem Type2And3Butterfly8.krel_dct3 (hr : R.Twiddles r) : KRel R (Type2And3Butterfly8.new : Type2And3Butterfly8 T).inplaceDct3 (Type2And3Butterfly8.new : Type2And3Butterfly8 ℝ).inplaceDct3 8 16 (r + 7) := by
  intro b c m f f' hb hc hf
  obtain ⟨t0, t1, s0, s1, ht, hs, r0, i0, r1, i1⟩ := Type2And3Butterfly8.tws hr
  have x0 := hf 0 (by norm_num)
  have x1 := hf 1 (by norm_num)
  have x2 := hf 2 (by norm_num)
  have x3 := hf 3 (by norm_num)
  have x4 := hf 4 (by norm_num)
  have x5 := hf 5 (by norm_num)
  have x6 := hf 6 (by norm_num)
  have x7 := hf 7 (by norm_num)
  obtain ⟨d, d', hd, hd', bd⟩ := Type2And3Butterfly4.krel_dct3 hr b c m (lf [f 0, f 2, f 4, f 6]) (lf [f' 0, f' 2, f' 4, f' 6]) hb (by omega) (by
    refine all4 ?_ ?_ ?_ ?_ <;> (simp only [lf, List.getD_cons_zero, List.getD_cons_succ]; bd))
  rw [vec_four, vec_four] at hd hd'
  have dx0 := bd 0 (by norm_num)
  have dx1 := bd 1 (by norm_num)
  have dx2 := bd 2 (by norm_num)
  have dx3 := bd 3 (by norm_num)
  obtain ⟨e, e', he, he', be⟩ := Type2And3Butterfly2.krel_dct3 b (2 * c) (m + 1) (lf [f 1 * ttwo T, f 3 + f 5]) (lf [f' 1 * ttwo ℝ, f' 3 + f' 5]) hb (by omega) (by
    refine all2 ?_ ?_ <;> (simp only [lf, List.getD_cons_zero, List.getD_cons_succ]; bd))
  rw [vec_two, vec_two] at he he'
  have ex0 := be 0 (by norm_num)
  have ex1 := be 1 (by norm_num)
  obtain ⟨o, o', ho, ho', bo⟩ := Type2And3Butterfly2.krel_dst3 b (2 * c) (m + 1) (lf [f 3 - f 5, f 7 * ttwo T]) (lf [f' 3 - f' 5, f' 7 * ttwo ℝ]) hb (by omega) (by
    refine all2 ?_ ?_ <;> (simp only [lf, List.getD_cons_zero, List.getD_cons_succ]; bd))
  rw [vec_two, vec_two] at ho ho'
  have ox0 := bo 0 (by norm_num)
  have ox1 := bo 1 (by norm_num)
  refine ⟨lf [d 0 + (e 0 * t0.re + o 0 * t0.im), d 1 + (e 1 * t1.re + o 1 * t1.im), d 2 + (e 1 * t1.im - o 1 * t1.re), d 3 + (e 0 * t0.im - o 0 * t0.re), d 3 - (e 0 * t0.im - o 0 * t0.re), d 2 - (e 1 * t1.im - o 1 * t1.re), d 1 - (e 1 * t1.re + o 1 * t1.im), d 0 - (e 0 * t0.re + o 0 * t0.im)], lf [d' 0 + (e' 0 * s0.re + o' 0 * s0.im), d' 1 + (e' 1 * s1.re + o' 1 * s1.im), d' 2 + (e' 1 * s1.im - o' 1 * s1.re), d' 3 + (e' 0 * s0.im - o' 0 * s0.re), d' 3 - (e' 0 * s0.im - o' 0 * s0.re), d' 2 - (e' 1 * s1.im - o' 1 * s1.re), d' 1 - (e' 1 * s1.re + o' 1 * s1.im), d' 0 - (e' 0 * s0.re + o' 0 * s0.im)], by rw [vec_eight, vec_eight]; exact Type2And3Butterfly8.inplaceDct3_gen _ ht hd he ho, by rw [vec_eight, vec_eight]; exact Type2And3Butterfly8.inplaceDct3_gen _ hs hd' he' ho', ?_⟩
  clear ht hs hd he ho hd' he' ho' hf bd be bo x0 x1 x2 x3 x4 x5 x6 x7
  refine all8 ?_ ?_ ?_ ?_ ?_ ?_ ?_ ?_ <;> (simp only [lf, List.getD_cons_zero, List.getD_cons_succ]; bd)

theorem Type2And3Butterfly8.krel_dst2 (hr : R.Twiddles r) : KRel R (Type2And3Butterfly8.new : Type2And3Butterfly8 T).inplaceDst2 (Type2And3Butterfly8.new : Type2And3Butterfly8 ℝ).inplaceDst2 8 16 (r + 7) := by
  intro b c m f f' hb hc hf
  obtain ⟨t0, t1, s0, s1, ht, hs, r0, i0, r1, i1⟩ := Type2And3Butterfly8.tws hr
  have x0 := hf 0 (by norm_num)
  have x1 := hf 1 (by norm_num)
  have x2 := hf 2 (by norm_num)
  have x3 := hf 3 (by norm_num)
  have x4 := hf 4 (by norm_num)
  have x5 := hf 5 (by norm_num)
  have x6 := hf 6 (by norm_num)
  have x7 := hf 7 (by norm_num)
  obtain ⟨d, d', hd, hd', bd⟩ := Type2And3Butterfly4.krel_dct2 hr b (2 * c) (m + 1) (lf [f 0 - f 7, f 6 - f 1, f 2 - f 5, f 4 - f 3]) (lf [f' 0 - f' 7, f' 6 - f' 1, f' 2 - f' 5, f' 4 - f' 3]) hb (by omega) (by
    refine all4 ?_ ?_ ?_ ?_ <;> (simp only [lf, List.getD_cons_zero, List.getD_cons_succ]; bd))
  rw [vec_four, vec_four] at hd hd'
  have dx0 := bd 0 (by norm_num)
  have dx1 := bd 1 (by norm_num)
  have dx2 := bd 2 (by norm_num)
  have dx3 := bd 3 (by norm_num)
  obtain ⟨e, e', he, he', be⟩ := Type2And3Butterfly2.krel_dct2 b (4 * c) (m + (r + 3)) (lf [(f 0 + f 7) * t0.re + (-(f 3) - f 4) * t0.im, (-(f 1) - f 6) * t1.re + (f 2 + f 5) * t1.im]) (lf [(f' 0 + f' 7) * s0.re + (-(f' 3) - f' 4) * s0.im, (-(f' 1) - f' 6) * s1.re + (f' 2 + f' 5) * s1.im]) hb (by omega) (by
    refine all2 ?_ ?_ <;> (simp only [lf, List.getD_cons_zero, List.getD_cons_succ]; bd))
  rw [vec_two, vec_two] at he he'
  have ex0 := be 0 (by norm_num)
  have ex1 := be 1 (by norm_num)
  obtain ⟨o, o', ho, ho', bo⟩ := Type2And3Butterfly2.krel_dst2 b (4 * c) (m + (r + 3)) (lf [(f 2 + f 5) * t1.re - (-(f 1) - f 6) * t1.im, (-(f 3) - f 4) * t0.re - (f 0 + f 7) * t0.im]) (lf [(f' 2 + f' 5) * s1.re - (-(f' 1) - f' 6) * s1.im, (-(f' 3) - f' 4) * s0.re - (f' 0 + f' 7) * s0.im]) hb (by omega) (by
    refine all2 ?_ ?_ <;> (simp only [lf, List.getD_cons_zero, List.getD_cons_succ]; bd))
  rw [vec_two, vec_two] at ho ho'
  have ox0 := bo 0 (by norm_num)
  have ox1 := bo 1 (by norm_num)
  refine ⟨lf [o 1, d 3, e 1 + o 0, d 2, e 1 - o 0, d 1, e 0, d 0], lf [o' 1, d' 3, e' 1 + o' 0, d' 2, e' 1 - o' 0, d' 1, e' 0, d' 0], by rw [vec_eight, vec_eight]; exact Type2And3Butterfly8.inplaceDst2_gen _ ht hd he ho, by rw [vec_eight, vec_eight]; exact Type2And3Butterfly8.inplaceDst2_gen _ hs hd' he' ho', ?_⟩
  clear ht hs hd he ho hd' he' ho' hf bd be bo x0 x1 x2 x3 x4 x5 x6 x7
  refine all8 ?_ ?_ ?_ ?_ ?_ ?_ ?_ ?_ <;> (simp only [lf, List.getD_cons_zero, List.getD_cons_succ]; bd)

theorem Type2And3Butterfly8.krel_dst3 (hr : R.Twiddles r) : KRel R (Type2And3Butterfly8.new : Type2And3Butterfly8 T).inplaceDst3 (Type2And3Butterfly8.new : Type2And3Butterfly8 ℝ).inplaceDst3 8 16 (r + 7) := by
  intro b c m f f' hb hc hf
  obtain ⟨t0, t1, s0, s1, ht, hs, r0, i0, r1, i1⟩ := Type2And3Butterfly8.tws hr
  have x0 := hf 0 (by norm_num)
  have x1 := hf 1 (by norm_num)
  have x2 := hf 2 (by norm_num)
  have x3 := hf 3 (by norm_num)
  have x4 := hf 4 (by norm_num)
  have x5 := hf 5 (by norm_num)
  have x6 := hf 6 (by norm_num)
  have x7 := hf 7 (by norm_num)
  obtain ⟨d, d', hd, hd', bd⟩ := Type2And3Butterfly4.krel_dct3 hr b c m (lf [f 7, f 5, f 3, f 1]) (lf [f' 7, f' 5, f' 3, f' 1]) hb (by omega) (by
    refine all4 ?_ ?_ ?_ ?_ <;> (simp only [lf, List.getD_cons_zero, List.getD_cons_succ]; bd))
  rw [vec_four, vec_four] at hd hd'
  have dx0 := bd 0 (by norm_num)
  have dx1 := bd 1 (by norm_num)
  have dx2 := bd 2 (by norm_num)
  have dx3 := bd 3 (by norm_num)
  obtain ⟨e, e', he, he', be⟩ := Type2And3Butterfly2.krel_dct3 b (2 * c) (m + 1) (lf [f 6 * ttwo T, f 4 + f 2]) (lf [f' 6 * ttwo ℝ, f' 4 + f' 2]) hb (by omega) (by
    refine all2 ?_ ?_ <;> (simp only [lf, List.getD_cons_zero, List.getD_cons_succ]; bd))
  rw [vec_two, vec_two] at he he'
  have ex0 := be 0 (by norm_num)
  have ex1 := be 1 (by norm_num)
  obtain ⟨o, o', ho, ho', bo⟩ := Type2And3Butterfly2.krel_dst3 b (2 * c) (m + 1) (lf [f 4 - f 2, f 0 * ttwo T]) (lf [f' 4 - f' 2, f' 0 * ttwo ℝ]) hb (by omega) (by
    refine all2 ?_ ?_ <;> (simp only [lf, List.getD_cons_zero, List.getD_cons_succ]; bd))
  rw [vec_two, vec_two] at ho ho'
  have ox0 := bo 0 (by norm_num)
  have ox1 := bo 1 (by norm_num)
  refine ⟨lf [d 0 + (e 0 * t0.re + o 0 * t0.im), -(d 1 + (e 1 * t1.re + o 1 * t1.im)), d 2 + (e 1 * t1.im - o 1 * t1.re), -(d 3 + (e 0 * t0.im - o 0 * t0.re)), d 3 - (e 0 * t0.im - o 0 * t0.re), (e 1 * t1.im - o 1 * t1.re) - d 2, d 1 - (e 1 * t1.re + o 1 * t1.im), (e 0 * t0.re + o 0 * t0.im) - d 0], lf [d' 0 + (e' 0 * s0.re + o' 0 * s0.im), -(d' 1 + (e' 1 * s1.re + o' 1 * s1.im)), d' 2 + (e' 1 * s1.im - o' 1 * s1.re), -(d' 3 + (e' 0 * s0.im - o' 0 * s0.re)), d' 3 - (e' 0 * s0.im - o' 0 * s0.re), (e' 1 * s1.im - o' 1 * s1.re) - d' 2, d' 1 - (e' 1 * s1.re + o' 1 * s1.im), (e' 0 * s0.re + o' 0 * s0.im) - d' 0], by rw [vec_eight, vec_eight]; exact Type2And3Butterfly8.inplaceDst3_gen _ ht hd he ho, by rw [vec_eight, vec_eight]; exact Type2And3Butterfly8.inplaceDst3_gen _ hs hd' he' ho', ?_⟩
  clear ht hs hd he ho hd' he' ho' hf bd be bo x0 x1 x2 x3 x4 x5 x6 x7
  refine all8 ?_ ?_ ?_ ?_ ?_ ?_ ?_ ?_ <;> (simp only [lf, List.getD_cons_zero, List.getD_cons_succ]; bd)

theorem Type2And3Butterfly16.krel_dct2 (hr : R.Twiddles r) : KRel R (Type2And3Butterfly16.new : Type2And3Butterfly16 T).inplaceDct2 (Type2And3Butterfly16.new : Type2And3Butterfly16 ℝ).inplaceDct2 16 32 (2 * r + 8) := by
  intro b c m f f' hb hc hf
  obtain ⟨t0, t1, t2, t3, s0, s1, s2, s3, ht, hs, r0, i0, r1, i1, r2, i2, r3, i3⟩ := Type2And3Butterfly16.tws hr
  have x0 := hf 0 (by norm_num)
  have x1 := hf 1 (by norm_num)
  have x2 := hf 2 (by norm_num)
  have x3 := hf 3 (by norm_num)
  have x4 := hf 4 (by norm_num)
  have x5 := hf 5 (by norm_num)
  have x6 := hf 6 (by norm_num)
  have x7 := hf 7 (by norm_num)
  have x8 := hf 8 (by norm_num)
  have x9 := hf 9 (by norm_num)
  have x10 := hf 10 (by norm_num)
  have x11 := hf 11 (by norm_num)
  have x12 := hf 12 (by norm_num)
  have x13 := hf 13 (by norm_num)
  have x14 := hf 14 (by norm_num)
  have x15 := hf 15 (by norm_num)
  obtain ⟨d, d', hd, hd', bd⟩ := Type2And3Butterfly8.krel_dct2 hr b (2 * c) (m + 1) (lf [f 0 + f 15, f 1 + f 14, f 2 + f 13, f 3 + f 12, f 4 + f 11, f 5 + f 10, f 6 + f 9, f 7 + f 8]) (lf [f' 0 + f' 15, f' 1 + f' 14, f' 2 + f' 13, f' 3 + f' 12, f' 4 + f' 11, f' 5 + f' 10, f' 6 + f' 9, f' 7 + f' 8]) hb (by omega) (by
    refine all8 ?_ ?_ ?_ ?_ ?_ ?_ ?_ ?_ <;> (simp only [lf, List.getD_cons_zero, List.getD_cons_succ]; bd))
  rw [vec_eight, vec_eight] at hd hd'
  have dx0 := bd 0 (by norm_num)
  have dx1 := bd 1 (by norm_num)
  have dx2 := bd 2 (by norm_num)
  have dx3 := bd 3 (by norm_num)
  have dx4 := bd 4 (by norm_num)
  have dx5 := bd 5 (by norm_num)
  have dx6 := bd 6 (by norm_num)
  have dx7 := bd 7 (by norm_num)
  obtain ⟨e, e', he, he', be⟩ := Type2And3Butterfly4.krel_dct2 hr b (4 * c) (m + (r + 3)) (lf [(f 0 - f 15) * t0.re + (f 7 - f 8) * t0.im, (f 1 - f 14) * t1.re + (f 6 - f 9) * t1.im, (f 2 - f 13) * t2.re + (f 5 - f 10) * t2.im, (f 3 - f 12) * t3.re + (f 4 - f 11) * t3.im]) (lf [(f' 0 - f' 15) * s0.re + (f' 7 - f' 8) * s0.im, (f' 1 - f' 14) * s1.re + (f' 6 - f' 9) * s1.im, (f' 2 - f' 13) * s2.re + (f' 5 - f' 10) * s2.im, (f' 3 - f' 12) * s3.re + (f' 4 - f' 11) * s3.im]) hb (by omega) (by
    refine all4 ?_ ?_ ?_ ?_ <;> (simp only [lf, List.getD_cons_zero, List.getD_cons_succ]; bd))
  rw [vec_four, vec_four] at he he'
  have ex0 := be 0 (by norm_num)
  have ex1 := be 1 (by norm_num)
  have ex2 := be 2 (by norm_num)
  have ex3 := be 3 (by norm_num)
  obtain ⟨o, o', ho, ho', bo⟩ := Type2And3Butterfly4.krel_dst2 hr b (4 * c) (m + (r + 3)) (lf [(f 4 - f 11) * t3.re - (f 3 - f 12) * t3.im, (f 5 - f 10) * t2.re - (f 2 - f 13) * t2.im, (f 6 - f 9) * t1.re - (f 1 - f 14) * t1.im, (f 7 - f 8) * t0.re - (f 0 - f 15) * t0.im]) (lf [(f' 4 - f' 11) * s3.re - (f' 3 - f' 12) * s3.im, (f' 5 - f' 10) * s2.re - (f' 2 - f' 13) * s2.im, (f' 6 - f' 9) * s1.re - (f' 1 - f' 14) * s1.im, (f' 7 - f' 8) * s0.re - (f' 0 - f' 15) * s0.im]) hb (by omega) (by
    refine all4 ?_ ?_ ?_ ?_ <;> (simp only [lf, List.getD_cons_zero, List.getD_cons_succ]; bd))
  rw [vec_four, vec_four] at ho ho'
  have ox0 := bo 0 (by norm_num)
  have ox1 := bo 1 (by norm_num)
  have ox2 := bo 2 (by norm_num)
  have ox3 := bo 3 (by norm_num)
  refine ⟨lf [d 0, e 0, d 1, e 1 - o 0, d 2, e 1 + o 0, d 3, e 2 + o 1, d 4, e 2 - o 1, d 5, e 3 - o 2, d 6, e 3 + o 2, d 7, o 3], lf [d' 0, e' 0, d' 1, e' 1 - o' 0, d' 2, e' 1 + o' 0, d' 3, e' 2 + o' 1, d' 4, e' 2 - o' 1, d' 5, e' 3 - o' 2, d' 6, e' 3 + o' 2, d' 7, o' 3], by rw [vec_sixteen, vec_sixteen]; exact Type2And3Butterfly16.inplaceDct2_gen _ ht hd he ho, by rw [vec_sixteen, vec_sixteen]; exact Type2And3Butterfly16.inplaceDct2_gen _ hs hd' he' ho', ?_⟩
  clear ht hs hd he ho hd' he' ho' hf bd be bo x0 x1 x2 x3 x4 x5 x6 x7 x8 x9 x10 x11 x12 x13 x14 x15
  refine all16 ?_ ?_ ?_ ?_ ?_ ?_ ?_ ?_ ?_ ?_ ?_ ?_ ?_ ?_ ?_ ?_ <;> (simp only [lf, List.getD_cons_zero, List.getD_cons_succ]; bd)

theorem Type2And3Butterfly16.krel_dct3 (hr : R.Twiddles r) : KRel R (Type2And3Butterfly16.new : Type2And3Butterfly16 T).inplaceDct3 (Type2And3Butterfly16.new : Type2And3Butterfly16 ℝ).inplaceDct3 16 32 (2 * r + 8) := by
  intro b c m f f' hb hc hf
  obtain ⟨t0, t1, t2, t3, s0, s1, s2, s3, ht, hs, r0, i0, r1, i1, r2, i2, r3, i3⟩ := Type2And3Butterfly16.tws hr
  have x0 := hf 0 (by norm_num)
  have x1 := hf 1 (by norm_num)
  have x2 := hf 2 (by norm_num)
  have x3 := hf 3 (by norm_num)
  have x4 := hf 4 (by norm_num)
  have x5 := hf 5 (by norm_num)
  have x6 := hf 6 (by norm_num)
  have x7 := hf 7 (by norm_num)
  have x8 := hf 8 (by norm_num)
  have x9 := hf 9 (by norm_num)
  have x10 := hf 10 (by norm_num)
  have x11 := hf 11 (by norm_num)
  have x12 := hf 12 (by norm_num)
  have x13 := hf 13 (by norm_num)
  have x14 := hf 14 (by norm_num)
  have x15 := hf 15 (by norm_num)
  obtain ⟨d, d', hd, hd', bd⟩ := Type2And3Butterfly8.krel_dct3 hr b c m (lf [f 0, f 2, f 4, f 6, f 8, f 10, f 12, f 14]) (lf [f' 0, f' 2, f' 4, f' 6, f' 8, f' 10, f' 12, f' 14]) hb (by omega) (by
    refine all8 ?_ ?_ ?_ ?_ ?_ ?_ ?_ ?_ <;> (simp only [lf, List.getD_cons_zero, List.getD_cons_succ]; bd))
  rw [vec_eight, vec_eight] at hd hd'
  have dx0 := bd 0 (by norm_num)
  have dx1 := bd 1 (by norm_num)
  have dx2 := bd 2 (by norm_num)
  have dx3 := bd 3 (by norm_num)
  have dx4 := bd 4 (by norm_num)
  have dx5 := bd 5 (by norm_num)
  have dx6 := bd 6 (by norm_num)
  have dx7 := bd 7 (by norm_num)
  obtain ⟨e, e', he, he', be⟩ := Type2And3Butterfly4.krel_dct3 hr b (2 * c) (m + 1) (lf [f 1 * ttwo T, f 3 + f 5, f 7 + f 9, f 11 + f 13]) (lf [f' 1 * ttwo ℝ, f' 3 + f' 5, f' 7 + f' 9, f' 11 + f' 13]) hb (by omega) (by
    refine all4 ?_ ?_ ?_ ?_ <;> (simp only [lf, List.getD_cons_zero, List.getD_cons_succ]; bd))
  rw [vec_four, vec_four] at he he'
  have ex0 := be 0 (by norm_num)
  have ex1 := be 1 (by norm_num)
  have ex2 := be 2 (by norm_num)
  have ex3 := be 3 (by norm_num)
  obtain ⟨o, o', ho, ho', bo⟩ := Type2And3Butterfly4.krel_dst3 hr b (2 * c) (m + 1) (lf [f 3 - f 5, f 7 - f 9, f 11 - f 13, f 15 * ttwo T]) (lf [f' 3 - f' 5, f' 7 - f' 9, f' 11 - f' 13, f' 15 * ttwo ℝ]) hb (by omega) (by
    refine all4 ?_ ?_ ?_ ?_ <;> (simp only [lf, List.getD_cons_zero, List.getD_cons_succ]; bd))
  rw [vec_four, vec_four] at ho ho'
  have ox0 := bo 0 (by norm_num)
  have ox1 := bo 1 (by norm_num)
  have ox2 := bo 2 (by norm_num)
  have ox3 := bo 3 (by norm_num)
  refine ⟨lf [d 0 + (e 0 * t0.re + o 0 * t0.im), d 1 + (e 1 * t1.re + o 1 * t1.im), d 2 + (e 2 * t2.re + o 2 * t2.im), d 3 + (e 3 * t3.re + o 3 * t3.im), d 4 + (e 3 * t3.im - o 3 * t3.re), d 5 + (e 2 * t2.im - o 2 * t2.re), d 6 + (e 1 * t1.im - o 1 * t1.re), d 7 + (e 0 * t0.im - o 0 * t0.re), d 7 - (e 0 * t0.im - o 0 * t0.re), d 6 - (e 1 * t1.im - o 1 * t1.re), d 5 - (e 2 * t2.im - o 2 * t2.re), d 4 - (e 3 * t3.im - o 3 * t3.re), d 3 - (e 3 * t3.re + o 3 * t3.im), d 2 - (e 2 * t2.re + o 2 * t2.im), d 1 - (e 1 * t1.re + o 1 * t1.im), d 0 - (e 0 * t0.re + o 0 * t0.im)], lf [d' 0 + (e' 0 * s0.re + o' 0 * s0.im), d' 1 + (e' 1 * s1.re + o' 1 * s1.im), d' 2 + (e' 2 * s2.re + o' 2 * s2.im), d' 3 + (e' 3 * s3.re + o' 3 * s3.im), d' 4 + (e' 3 * s3.im - o' 3 * s3.re), d' 5 + (e' 2 * s2.im - o' 2 * s2.re), d' 6 + (e' 1 * s1.im - o' 1 * s1.re), d' 7 + (e' 0 * s0.im - o' 0 * s0.re), d' 7 - (e' 0 * s0.im - o' 0 * s0.re), d' 6 - (e' 1 * s1.im - o' 1 * s1.re), d' 5 - (e' 2 * s2.im - o' 2 * s2.re), d' 4 - (e' 3 * s3.im - o' 3 * s3.re), d' 3 - (e' 3 * s3.re + o' 3 * s3.im), d' 2 - (e' 2 * s2.re + o' 2 * s2.im), d' 1 - (e' 1 * s1.re + o' 1 * s1.im), d' 0 - (e' 0 * s0.re + o' 0 * s0.im)], by rw [vec_sixteen, vec_sixteen]; exact Type2And3Butterfly16.inplaceDct3_gen _ ht hd he ho, by rw [vec_sixteen, vec_sixteen]; exact Type2And3Butterfly16.inplaceDct3_gen _ hs hd' he' ho', ?_⟩
  clear ht hs hd he ho hd' he' ho' hf bd be bo x0 x1 x2 x3 x4 x5 x6 x7 x8 x9 x10 x11 x12 x13 x14 x15
  refine all16 ?_ ?_ ?_ ?_ ?_ ?_ ?_ ?_ ?_ ?_ ?_ ?_ ?_ ?_ ?_ ?_ <;> (simp only [lf, List.getD_cons_zero, List.getD_cons_succ]; bd)

theorem Type2And3Butterfly16.krel_dst2 (hr : R.Twiddles r) : KRel R (Type2And3Butterfly16.new : Type2And3Butterfly16 T).inplaceDst2 (Type2And3Butterfly16.new : Type2And3Butterfly16 ℝ).inplaceDst2 16 32 (2 * r + 8) := by
  intro b c m f f' hb hc hf
  obtain ⟨t0, t1, t2, t3, s0, s1, s2, s3, ht, hs, r0, i0, r1, i1, r2, i2, r3, i3⟩ := Type2And3Butterfly16.tws hr
  have x0 := hf 0 (by norm_num)
  have x1 := hf 1 (by norm_num)
  have x2 := hf 2 (by norm_num)
  have x3 := hf 3 (by norm_num)
  have x4 := hf 4 (by norm_num)
  have x5 := hf 5 (by norm_num)
  have x6 := hf 6 (by norm_num)
  have x7 := hf 7 (by norm_num)
  have x8 := hf 8 (by norm_num)
  have x9 := hf 9 (by norm_num)
  have x10 := hf 10 (by norm_num)
  have x11 := hf 11 (by norm_num)
  have x12 := hf 12 (by norm_num)
  have x13 := hf 13 (by norm_num)
  have x14 := hf 14 (by norm_num)
  have x15 := hf 15 (by norm_num)
  obtain ⟨d, d', hd, hd', bd⟩ := Type2And3Butterfly8.krel_dct2 hr b (2 * c) (m + 1) (lf [f 0 - f 15, -(f 1) + f 14, f 2 - f 13, -(f 3) + f 12, f 4 - f 11, -(f 5) + f 10, f 6 - f 9, -(f 7) + f 8]) (lf [f' 0 - f' 15, -(f' 1) + f' 14, f' 2 - f' 13, -(f' 3) + f' 12, f' 4 - f' 11, -(f' 5) + f' 10, f' 6 - f' 9, -(f' 7) + f' 8]) hb (by omega) (by
    refine all8 ?_ ?_ ?_ ?_ ?_ ?_ ?_ ?_ <;> (simp only [lf, List.getD_cons_zero, List.getD_cons_succ]; bd))
  rw [vec_eight, vec_eight] at hd hd'
  have dx0 := bd 0 (by norm_num)
  have dx1 := bd 1 (by norm_num)
  have dx2 := bd 2 (by norm_num)
  have dx3 := bd 3 (by norm_num)
  have dx4 := bd 4 (by norm_num)
  have dx5 := bd 5 (by norm_num)
  have dx6 := bd 6 (by norm_num)
  have dx7 := bd 7 (by norm_num)
  obtain ⟨e, e', he, he', be⟩ := Type2And3Butterfly4.krel_dct2 hr b (4 * c) (m + (r + 3)) (lf [(f 0 + f 15) * t0.re + (-(f 7) - f 8) * t0.im, (-(f 1) - f 14) * t1.re + (f 6 + f 9) * t1.im, (f 2 + f 13) * t2.re + (-(f 5) - f 10) * t2.im, (-(f 3) - f 12) * t3.re + (f 4 + f 11) * t3.im]) (lf [(f' 0 + f' 15) * s0.re + (-(f' 7) - f' 8) * s0.im, (-(f' 1) - f' 14) * s1.re + (f' 6 + f' 9) * s1.im, (f' 2 + f' 13) * s2.re + (-(f' 5) - f' 10) * s2.im, (-(f' 3) - f' 12) * s3.re + (f' 4 + f' 11) * s3.im]) hb (by omega) (by
    refine all4 ?_ ?_ ?_ ?_ <;> (simp only [lf, List.getD_cons_zero, List.getD_cons_succ]; bd))
  rw [vec_four, vec_four] at he he'
  have ex0 := be 0 (by norm_num)
  have ex1 := be 1 (by norm_num)
  have ex2 := be 2 (by norm_num)
  have ex3 := be 3 (by norm_num)
  obtain ⟨o, o', ho, ho', bo⟩ := Type2And3Butterfly4.krel_dst2 hr b (4 * c) (m + (r + 3)) (lf [(f 4 + f 11) * t3.re - (-(f 3) - f 12) * t3.im, (-(f 5) - f 10) * t2.re - (f 2 + f 13) * t2.im, (f 6 + f 9) * t1.re - (-(f 1) - f 14) * t1.im, (-(f 7) - f 8) * t0.re - (f 0 + f 15) * t0.im]) (lf [(f' 4 + f' 11) * s3.re - (-(f' 3) - f' 12) * s3.im, (-(f' 5) - f' 10) * s2.re - (f' 2 + f' 13) * s2.im, (f' 6 + f' 9) * s1.re - (-(f' 1) - f' 14) * s1.im, (-(f' 7) - f' 8) * s0.re - (f' 0 + f' 15) * s0.im]) hb (by omega) (by
    refine all4 ?_ ?_ ?_ ?_ <;> (simp only [lf, List.getD_cons_zero, List.getD_cons_succ]; bd))
  rw [vec_four, vec_four] at ho ho'
  have ox0 := bo 0 (by norm_num)
  have ox1 := bo 1 (by norm_num)
  have ox2 := bo 2 (by norm_num)
  have ox3 := bo 3 (by norm_num)
  refine ⟨lf [o 3, d 7, e 3 + o 2, d 6, e 3 - o 2, d 5, e 2 - o 1, d 4, e 2 + o 1, d 3, e 1 + o 0, d 2, e 1 - o 0, d 1, e 0, d 0], lf [o' 3, d' 7, e' 3 + o' 2, d' 6, e' 3 - o' 2, d' 5, e' 2 - o' 1, d' 4, e' 2 + o' 1, d' 3, e' 1 + o' 0, d' 2, e' 1 - o' 0, d' 1, e' 0, d' 0], by rw [vec_sixteen, vec_sixteen]; exact Type2And3Butterfly16.inplaceDst2_gen _ ht hd he ho, by rw [vec_sixteen, vec_sixteen]; exact Type2And3Butterfly16.inplaceDst2_gen _ hs hd' he' ho', ?_⟩
  clear ht hs hd he ho hd' he' ho' hf bd be bo x0 x1 x2 x3 x4 x5 x6 x7 x8 x9 x10 x11 x12 x13 x14 x15
  refine all16 ?_ ?_ ?_ ?_ ?_ ?_ ?_ ?_ ?_ ?_ ?_ ?_ ?_ ?_ ?_ ?_ <;> (simp only [lf, List.getD_cons_zero, List.getD_cons_succ]; bd)

theorem Type2And3Butterfly16.krel_dst3 (hr : R.Twiddles r) : KRel R (Type2And3Butterfly16.new : Type2And3Butterfly16 T).inplaceDst3 (Type2And3Butterfly16.new : Type2And3Butterfly16 ℝ).inplaceDst3 16 32 (2 * r + 8) := by
  intro b c m f f' hb hc hf
  obtain ⟨t0, t1, t2, t3, s0, s1, s2, s3, ht, hs, r0, i0, r1, i1, r2, i2, r3, i3⟩ := Type2And3Butterfly16.tws hr
  have x0 := hf 0 (by norm_num)
  have x1 := hf 1 (by norm_num)
  have x2 := hf 2 (by norm_num)
  have x3 := hf 3 (by norm_num)
  have x4 := hf 4 (by norm_num)
  have x5 := hf 5 (by norm_num)
  have x6 := hf 6 (by norm_num)
  have x7 := hf 7 (by norm_num)
  have x8 := hf 8 (by norm_num)
  have x9 := hf 9 (by norm_num)
  have x10 := hf 10 (by norm_num)
  have x11 := hf 11 (by norm_num)
  have x12 := hf 12 (by norm_num)
  have x13 := hf 13 (by norm_num)
  have x14 := hf 14 (by norm_num)
  have x15 := hf 15 (by norm_num)
  obtain ⟨d, d', hd, hd', bd⟩ := Type2And3Butterfly8.krel_dct3 hr b c m (lf [f 15, f 13, f 11, f 9, f 7, f 5, f 3, f 1]) (lf [f' 15, f' 13, f' 11, f' 9, f' 7, f' 5, f' 3, f' 1]) hb (by omega) (by
    refine all8 ?_ ?_ ?_ ?_ ?_ ?_ ?_ ?_ <;> (simp only [lf, List.getD_cons_zero, List.getD_cons_succ]; bd))
  rw [vec_eight, vec_eight] at hd hd'
  have dx0 := bd 0 (by norm_num)
  have dx1 := bd 1 (by norm_num)
  have dx2 := bd 2 (by norm_num)
  have dx3 := bd 3 (by norm_num)
  have dx4 := bd 4 (by norm_num)
  have dx5 := bd 5 (by norm_num)
  have dx6 := bd 6 (by norm_num)
  have dx7 := bd 7 (by norm_num)
  obtain ⟨e, e', he, he', be⟩ := Type2And3Butterfly4.krel_dct3 hr b (2 * c) (m + 1) (lf [f 14 * ttwo T, f 12 + f 10, f 8 + f 6, f 4 + f 2]) (lf [f' 14 * ttwo ℝ, f' 12 + f' 10, f' 8 + f' 6, f' 4 + f' 2]) hb (by omega) (by
    refine all4 ?_ ?_ ?_ ?_ <;> (simp only [lf, List.getD_cons_zero, List.getD_cons_succ]; bd))
  rw [vec_four, vec_four] at he he'
  have ex0 := be 0 (by norm_num)
  have ex1 := be 1 (by norm_num)
  have ex2 := be 2 (by norm_num)
  have ex3 := be 3 (by norm_num)
  obtain ⟨o, o', ho, ho', bo⟩ := Type2And3Butterfly4.krel_dst3 hr b (2 * c) (m + 1) (lf [f 12 - f 10, f 8 - f 6, f 4 - f 2, f 0 * ttwo T]) (lf [f' 12 - f' 10, f' 8 - f' 6, f' 4 - f' 2, f' 0 * ttwo ℝ]) hb (by omega) (by
    refine all4 ?_ ?_ ?_ ?_ <;> (simp only [lf, List.getD_cons_zero, List.getD_cons_succ]; bd))
  rw [vec_four, vec_four] at ho ho'
  have ox0 := bo 0 (by norm_num)
  have ox1 := bo 1 (by norm_num)
  have ox2 := bo 2 (by norm_num)
  have ox3 := bo 3 (by norm_num)
  refine ⟨lf [d 0 + (e 0 * t0.re + o 0 * t0.im), -(d 1 + (e 1 * t1.re + o 1 * t1.im)), d 2 + (e 2 * t2.re + o 2 * t2.im), -(d 3 + (e 3 * t3.re + o 3 * t3.im)), d 4 + (e 3 * t3.im - o 3 * t3.re), -(d 5 + (e 2 * t2.im - o 2 * t2.re)), d 6 + (e 1 * t1.im - o 1 * t1.re), -(d 7 + (e 0 * t0.im - o 0 * t0.re)), d 7 - (e 0 * t0.im - o 0 * t0.re), (e 1 * t1.im - o 1 * t1.re) - d 6, d 5 - (e 2 * t2.im - o 2 * t2.re), (e 3 * t3.im - o 3 * t3.re) - d 4, d 3 - (e 3 * t3.re + o 3 * t3.im), (e 2 * t2.re + o 2 * t2.im) - d 2, d 1 - (e 1 * t1.re + o 1 * t1.im), (e 0 * t0.re + o 0 * t0.im) - d 0], lf [d' 0 + (e' 0 * s0.re + o' 0 * s0.im), -(d' 1 + (e' 1 * s1.re + o' 1 * s1.im)), d' 2 + (e' 2 * s2.re + o' 2 * s2.im), -(d' 3 + (e' 3 * s3.re + o' 3 * s3.im)), d' 4 + (e' 3 * s3.im - o' 3 * s3.re), -(d' 5 + (e' 2 * s2.im - o' 2 * s2.re)), d' 6 + (e' 1 * s1.im - o' 1 * s1.re), -(d' 7 + (e' 0 * s0.im - o' 0 * s0.re)), d' 7 - (e' 0 * s0.im - o' 0 * s0.re), (e' 1 * s1.im - o' 1 * s1.re) - d' 6, d' 5 - (e' 2 * s2.im - o' 2 * s2.re), (e' 3 * s3.im - o' 3 * s3.re) - d' 4, d' 3 - (e' 3 * s3.re + o' 3 * s3.im), (e' 2 * s2.re + o' 2 * s2.im) - d' 2, d' 1 - (e' 1 * s1.re + o' 1 * s1.im), (e' 0 * s0.re + o' 0 * s0.im) - d' 0], by rw [vec_sixteen, vec_sixteen]; exact Type2And3Butterfly16.inplaceDst3_gen _ ht hd he ho, by rw [vec_sixteen, vec_sixteen]; exact Type2And3Butterfly16.inplaceDst3_gen _ hs hd' he' ho', ?_⟩
  clear ht hs hd he ho hd' he' ho' hf bd be bo x0 x1 x2 x3 x4 x5 x6 x7 x8 x9 x10 x11 x12 x13 x14 x15
  refine all16 ?_ ?_ ?_ ?_ ?_ ?_ ?_ ?_ ?_ ?_ ?_ ?_ ?_ ?_ ?_ ?_ <;> (simp only [lf, List.getD_cons_zero, List.getD_cons_succ]; bd)

end RustDct
