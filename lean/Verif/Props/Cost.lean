import Verif.Cost.Planned
import Verif.Props.Safety
/-!
# C75: the documented running times

What a step is: `Verif/Model/Counted.lean`.  What the counting version of an instance is: `Verif/Counting.lean`.
-/

set_option linter.all false

namespace RustDct
open Counted

section
variable {T : Type} {F : Type} [F64 F] [DctNum T F]
variable {okFft : Fft T → Prop} {cost : Fft T → Nat} {planFft : Nat → Fft T} {calls : List (PlanCall T)} {k : Kind} {p : Proc T} {c : CProc T} {n s : Nat}

/-- Counting changes nothing: the counting version of a method ends as the method ends, on every memory. -/
theorem C75_same (hok : ∀ f, okFft f → FftSane f) (h : Times okFft cost k p c n s) (m : Mem T) : (c m).1 = p m := by
  cases h with
  | dct1 h => cases h with
    | naive h => exact (Counted.Dct1Naive.dct1_takes _).same m
    | fft hf h => exact (Counted.Dct1ConvertToFft.dct1_takes cost _).same m
  | dst1 h => cases h with
    | naive h => exact (Counted.Dst1Naive.dst1_takes _).same m
    | fft hf h => exact (Counted.Dst1ConvertToFft.dst1_takes cost _).same m
  | dct2 h => obtain ⟨k, h⟩ := h.takes hok; exact h.dct2.same m
  | dct3 h => obtain ⟨k, h⟩ := h.takes hok; exact h.dct3.same m
  | dst2 h => obtain ⟨k, h⟩ := h.takes hok; exact h.dst2.same m
  | dst3 h => obtain ⟨k, h⟩ := h.takes hok; exact h.dst3.same m
  | dct4 h => obtain ⟨k, h, -⟩ := h.takes hok; exact h.same m
  | dst4 h => obtain ⟨k, -, h⟩ := h.takes hok; exact h.same m
  | dct5 h => cases h; exact (Counted.Dct5Naive.dct5_takes _).same m
  | dct6 h => cases h; exact (Counted.Dct6And7Naive.dct6_takes _).same m
  | dct7 h => cases h; exact (Counted.Dct6And7Naive.dct7_takes _).same m
  | dct8 h => cases h; exact (Counted.Dct8Naive.dct8_takes _).same m
  | dst5 h => cases h; exact (Counted.Dst5Naive.dst5_takes _).same m
  | dst8 h => cases h; exact (Counted.Dst8Naive.dst8_takes _).same m
  | dst6 h => cases h with
    | naive h => exact (Counted.Dst6And7Naive.dst6_takes _).same m
    | fft hf h => exact (Counted.Dst6And7ConvertToFft.dst6_takes cost _).same m
  | dst7 h => cases h with
    | naive h => exact (Counted.Dst6And7Naive.dst7_takes _).same m
    | fft hf h => exact (Counted.Dst6And7ConvertToFft.dst7_takes cost _).same m

theorem C75_same_mdct (hok : ∀ f, okFft f → FftSane f) {o : MdctObj T} {c : CMdct T} (h : CountsMdct okFft cost o c) :
    (∀ a b m, (c.mdct a b m).1 = o.mdct a b m) ∧ ∀ x m, (c.imdct x m).1 = o.imdct x m := by
  obtain ⟨k, h1, h2⟩ := h.takes hok
  exact ⟨h1.same, h2.same⟩

/-- Every method of every instance has a counting version. -/
theorem C75_exists (cost : Fft T → Nat) (h : Method okFft k p n s) : ∃ c, Times okFft cost k p c n s := by
  cases h with
  | dct1 h _ => obtain ⟨c, h⟩ := exists_dct1 (cost := cost) h; exact ⟨_, .dct1 h⟩
  | dst1 h => obtain ⟨c, h⟩ := exists_dst1 (cost := cost) h; exact ⟨_, .dst1 h⟩
  | dct2 h => obtain ⟨c, h⟩ := exists_23 (cost := cost) h; exact ⟨_, .dct2 h⟩
  | dct3 h _ => obtain ⟨c, h⟩ := exists_23 (cost := cost) h; exact ⟨_, .dct3 h⟩
  | dst2 h => obtain ⟨c, h⟩ := exists_23 (cost := cost) h; exact ⟨_, .dst2 h⟩
  | dst3 h _ => obtain ⟨c, h⟩ := exists_23 (cost := cost) h; exact ⟨_, .dst3 h⟩
  | dct4 h _ => obtain ⟨c, h⟩ := exists_4 (cost := cost) h; exact ⟨_, .dct4 h⟩
  | dst4 h _ => obtain ⟨c, h⟩ := exists_4 (cost := cost) h; exact ⟨_, .dst4 h⟩
  | dct5 h => cases h with | naive h => exact ⟨_, .dct5 (.naive h)⟩
  | dct6 h => cases h with | naive h => exact ⟨_, .dct6 (.naive h)⟩
  | dct7 h => cases h with | naive h => exact ⟨_, .dct7 (.naive h)⟩
  | dct8 h => cases h with | naive h => exact ⟨_, .dct8 (.naive h)⟩
  | dst5 h => cases h with | naive h => exact ⟨_, .dst5 (.naive h)⟩
  | dst8 h => cases h with | naive h => exact ⟨_, .dst8 (.naive h)⟩
  | dst6 h => obtain ⟨c, h⟩ := exists_dst67 (cost := cost) h; exact ⟨_, .dst6 h⟩
  | dst7 h => obtain ⟨c, h⟩ := exists_dst67 (cost := cost) h; exact ⟨_, .dst7 h⟩

/-- A quadratic number of steps: never more than `4 n² + 6 n + 6`, and at least `n²` if the call returns. -/
def Quadratic (c : CProc T) (n : Nat) : Prop :=
  c.within n (4 * n * n + 6 * n + 6) ∧ ∀ m m', ValidCall n n m → (c m).1 = .ok m' → n * n ≤ (c m).2

/-- "This has a runtime of O(n^2)": src/algorithm/type1_naive.rs:9,87, type2and3_naive.rs:9, type4_naive.rs:9, type5_naive.rs:9,82,
type6and7_naive.rs:7,110, type8_naive.rs:7,74. -/
theorem C75_naive (n : Nat) :
    (∀ x : Dct1Naive T, Dct1Naive.new n = .ok x → Quadratic (Counted.Dct1Naive.dct1 x) n) ∧
    (∀ x : Dst1Naive T, Dst1Naive.new n = .ok x → Quadratic (Counted.Dst1Naive.dst1 x) n) ∧
    (∀ x : Type2And3Naive T, Type2And3Naive.new n = .ok x → Quadratic (Counted.Type2And3Naive.dct2 x) n ∧ Quadratic (Counted.Type2And3Naive.dct3 x) n ∧ Quadratic (Counted.Type2And3Naive.dst2 x) n ∧ Quadratic (Counted.Type2And3Naive.dst3 x) n) ∧
    (∀ x : Type4Naive T, Type4Naive.new n = .ok x → Quadratic (Counted.Type4Naive.dct4 x) n ∧ Quadratic (Counted.Type4Naive.dst4 x) n) ∧
    (∀ x : Dct5Naive T, Dct5Naive.new n = .ok x → Quadratic (Counted.Dct5Naive.dct5 x) n) ∧
    (∀ x : Dst5Naive T, Dst5Naive.new n = .ok x → Quadratic (Counted.Dst5Naive.dst5 x) n) ∧
    (∀ x : Dct6And7Naive T, Dct6And7Naive.new n = .ok x → Quadratic (Counted.Dct6And7Naive.dct6 x) n ∧ Quadratic (Counted.Dct6And7Naive.dct7 x) n) ∧
    (∀ x : Dst6And7Naive T, Dst6And7Naive.new n = .ok x → Quadratic (Counted.Dst6And7Naive.dst6 x) n ∧ Quadratic (Counted.Dst6And7Naive.dst7 x) n) ∧
    (∀ x : Dct8Naive T, Dct8Naive.new n = .ok x → Quadratic (Counted.Dct8Naive.dct8 x) n) ∧
    (∀ x : Dst8Naive T, Dst8Naive.new n = .ok x → Quadratic (Counted.Dst8Naive.dst8 x) n) := by
  refine ⟨?_, ?_, ?_, ?_, ?_, ?_, ?_, ?_, ?_, ?_⟩
  all_goals intro x h
  · obtain rfl := Dct1Naive.len_new h
    exact ⟨(Counted.Dct1Naive.dct1_takes x).within _, fun m m' hv => Counted.Dct1Naive.dct1_costs x m m' hv.1 hv.2⟩
  · obtain rfl := Dst1Naive.len_new h
    exact ⟨(Counted.Dst1Naive.dst1_takes x).within _, fun m m' hv => Counted.Dst1Naive.dst1_costs x m m' hv.1 hv.2⟩
  · obtain rfl := Type2And3Naive.len_new h
    exact ⟨⟨(Counted.Type2And3Naive.dct2_takes x).within _, fun m m' hv => Counted.Type2And3Naive.dct2_costs x m m' hv.1 hv.2⟩,
      ⟨(Counted.Type2And3Naive.dct3_takes x).within _, fun m m' hv => Counted.Type2And3Naive.dct3_costs x m m' hv.1 hv.2⟩,
      ⟨(Counted.Type2And3Naive.dst2_takes x).within _, fun m m' hv => Counted.Type2And3Naive.dst2_costs x m m' hv.1 hv.2⟩,
      ⟨(Counted.Type2And3Naive.dst3_takes x).within _, fun m m' hv => Counted.Type2And3Naive.dst3_costs x m m' hv.1 hv.2⟩⟩
  · obtain rfl := Type4Naive.len_new h
    exact ⟨⟨(Counted.Type4Naive.dct4_takes x).within _, fun m m' hv => Counted.Type4Naive.dct4_costs x m m' hv.1 hv.2⟩,
      ⟨(Counted.Type4Naive.dst4_takes x).within _, fun m m' hv => Counted.Type4Naive.dst4_costs x m m' hv.1 hv.2⟩⟩
  · obtain rfl := Dct5Naive.len_new h
    exact ⟨(Counted.Dct5Naive.dct5_takes x).within _, fun m m' hv => Counted.Dct5Naive.dct5_costs x m m' hv.1 hv.2⟩
  · obtain rfl := Dst5Naive.len_new h
    exact ⟨(Counted.Dst5Naive.dst5_takes x).within _, fun m m' hv => Counted.Dst5Naive.dst5_costs x m m' hv.1 hv.2⟩
  · obtain rfl := Dct6And7Naive.len_new h
    exact ⟨⟨(Counted.Dct6And7Naive.dct6_takes x).within _, fun m m' hv => Counted.Dct6And7Naive.dct6_costs x m m' hv.1 hv.2⟩,
      ⟨(Counted.Dct6And7Naive.dct7_takes x).within _, fun m m' hv => Counted.Dct6And7Naive.dct7_costs x m m' hv.1 hv.2⟩⟩
  · obtain rfl := Dst6And7Naive.len_new h
    exact ⟨⟨(Counted.Dst6And7Naive.dst6_takes x).within _, fun m m' hv => Counted.Dst6And7Naive.dst6_costs x m m' hv.1 hv.2⟩,
      ⟨(Counted.Dst6And7Naive.dst7_takes x).within _, fun m m' hv => Counted.Dst6And7Naive.dst7_costs x m m' hv.1 hv.2⟩⟩
  · obtain rfl := Dct8Naive.len_new h
    exact ⟨(Counted.Dct8Naive.dct8_takes x).within _, fun m m' hv => Counted.Dct8Naive.dct8_costs x m m' hv.1 hv.2⟩
  · obtain rfl := Dst8Naive.len_new h
    exact ⟨(Counted.Dst8Naive.dst8_takes x).within _, fun m m' hv => Counted.Dst8Naive.dst8_costs x m m' hv.1 hv.2⟩

/-- "O(NlogN)" (src/algorithm/type2and3_convert_to_fft.rs:13, type6and7_convert_to_fft.rs:13): all conversions add a linear number of steps to
what the FFT takes. -/
theorem C75_convert (cost : Fft T → Nat) (fft : Fft T) :
    (∀ x : Dct1ConvertToFft T, Dct1ConvertToFft.new fft = .ok x → (Counted.Dct1ConvertToFft.dct1 cost x).within x.len (cost fft + 30 * x.len + 30)) ∧
    (∀ x : Dst1ConvertToFft T, Dst1ConvertToFft.new fft = .ok x → (Counted.Dst1ConvertToFft.dst1 cost x).within x.len (cost fft + 30 * x.len + 30)) ∧
    (∀ x : Type2And3ConvertToFft T, Type2And3ConvertToFft.new fft = .ok x → (Counted.Type2And3ConvertToFft.dct2 cost x).within x.len (cost fft + 30 * x.len + 30) ∧ (Counted.Type2And3ConvertToFft.dct3 cost x).within x.len (cost fft + 30 * x.len + 30) ∧ (Counted.Type2And3ConvertToFft.dst2 cost x).within x.len (cost fft + 30 * x.len + 30) ∧ (Counted.Type2And3ConvertToFft.dst3 cost x).within x.len (cost fft + 30 * x.len + 30)) ∧
    (∀ x : Type4ConvertToFftOdd T, Type4ConvertToFftOdd.new fft = .ok x → (Counted.Type4ConvertToFftOdd.dct4 cost x).within x.len (cost fft + 30 * x.len + 30) ∧ (Counted.Type4ConvertToFftOdd.dst4 cost x).within x.len (cost fft + 30 * x.len + 30)) ∧
    (∀ x : Dst6And7ConvertToFft T, Dst6And7ConvertToFft.new fft = .ok x → (Counted.Dst6And7ConvertToFft.dst6 cost x).within x.len (cost fft + 30 * x.len + 30) ∧ (Counted.Dst6And7ConvertToFft.dst7 cost x).within x.len (cost fft + 30 * x.len + 30)) := by
  refine ⟨?_, ?_, ?_, ?_, ?_⟩
  all_goals intro x h
  · obtain ⟨-, -, rfl⟩ := Dct1ConvertToFft.new_shape h
    exact (Counted.Dct1ConvertToFft.dct1_takes cost _).within _
  · obtain ⟨-, -, -, rfl⟩ := Dst1ConvertToFft.new_shape h
    exact (Counted.Dst1ConvertToFft.dst1_takes cost _).within _
  · obtain ⟨-, rfl⟩ := Type2And3ConvertToFft.new_shape h
    exact ⟨(Counted.Type2And3ConvertToFft.dct2_takes cost _).within _, (Counted.Type2And3ConvertToFft.dct3_takes cost _).within _, (Counted.Type2And3ConvertToFft.dst2_takes cost _).within _, (Counted.Type2And3ConvertToFft.dst3_takes cost _).within _⟩
  · obtain ⟨-, -, rfl⟩ := Type4ConvertToFftOdd.new_shape h
    exact ⟨(Counted.Type4ConvertToFftOdd.dct4_takes cost _).within _, (Counted.Type4ConvertToFftOdd.dst4_takes cost _).within _⟩
  · obtain ⟨-, -, rfl⟩ := Dst6And7ConvertToFft.new_shape h
    exact ⟨(Counted.Dst6And7ConvertToFft.dst6_takes cost _).within _, (Counted.Dst6And7ConvertToFft.dst7_takes cost _).within _⟩

/-- The butterflies take a constant number of steps. -/
theorem C75_butterflies :
    (∀ x : Type2And3Butterfly2 T, (Counted.Type2And3Butterfly2.dct2 x).within 2 10 ∧ (Counted.Type2And3Butterfly2.dct3 x).within 2 10 ∧ (Counted.Type2And3Butterfly2.dst2 x).within 2 10 ∧ (Counted.Type2And3Butterfly2.dst3 x).within 2 10) ∧
    (∀ x : Type2And3Butterfly3 T, (Counted.Type2And3Butterfly3.dct2 x).within 3 17 ∧ (Counted.Type2And3Butterfly3.dct3 x).within 3 17 ∧ (Counted.Type2And3Butterfly3.dst2 x).within 3 17 ∧ (Counted.Type2And3Butterfly3.dst3 x).within 3 17) ∧
    (∀ x : Type2And3Butterfly4 T, (Counted.Type2And3Butterfly4.dct2 x).within 4 35 ∧ (Counted.Type2And3Butterfly4.dct3 x).within 4 35 ∧ (Counted.Type2And3Butterfly4.dst2 x).within 4 35 ∧ (Counted.Type2And3Butterfly4.dst3 x).within 4 35) ∧
    (∀ x : Type2And3Butterfly8 T, (Counted.Type2And3Butterfly8.dct2 x).within 8 150 ∧ (Counted.Type2And3Butterfly8.dct3 x).within 8 150 ∧ (Counted.Type2And3Butterfly8.dst2 x).within 8 150 ∧ (Counted.Type2And3Butterfly8.dst3 x).within 8 150) ∧
    (∀ x : Type2And3Butterfly16 T, (Counted.Type2And3Butterfly16.dct2 x).within 16 400 ∧ (Counted.Type2And3Butterfly16.dct3 x).within 16 400 ∧ (Counted.Type2And3Butterfly16.dst2 x).within 16 400 ∧ (Counted.Type2And3Butterfly16.dst3 x).within 16 400) := by
  exact ⟨fun x => ⟨(Counted.Type2And3Butterfly2.dct2_takes x).within _, (Counted.Type2And3Butterfly2.dct3_takes x).within _, (Counted.Type2And3Butterfly2.dst2_takes x).within _, (Counted.Type2And3Butterfly2.dst3_takes x).within _⟩,
    fun x => ⟨(Counted.Type2And3Butterfly3.dct2_takes x).within _, (Counted.Type2And3Butterfly3.dct3_takes x).within _, (Counted.Type2And3Butterfly3.dst2_takes x).within _, (Counted.Type2And3Butterfly3.dst3_takes x).within _⟩,
    fun x => ⟨(Counted.Type2And3Butterfly4.dct2_takes x).within _, (Counted.Type2And3Butterfly4.dct3_takes x).within _, (Counted.Type2And3Butterfly4.dst2_takes x).within _, (Counted.Type2And3Butterfly4.dst3_takes x).within _⟩,
    fun x => ⟨(Counted.Type2And3Butterfly8.dct2_takes x).within _, (Counted.Type2And3Butterfly8.dct3_takes x).within _, (Counted.Type2And3Butterfly8.dst2_takes x).within _, (Counted.Type2And3Butterfly8.dst3_takes x).within _⟩,
    fun x => ⟨(Counted.Type2And3Butterfly16.dct2_takes x).within _, (Counted.Type2And3Butterfly16.dct3_takes x).within _, (Counted.Type2And3Butterfly16.dst2_takes x).within _, (Counted.Type2And3Butterfly16.dst3_takes x).within _⟩⟩

/-- Split radix: one transform of half the size, two of a quarter, and a linear number of steps. -/
theorem C75_split_radix (hok : ∀ f, okFft f → FftSane f) {half quarter : Obj23 T} {ch cq : CObj23 T} {x : Type2And3SplitRadix T} (hh : Counts23 okFft cost half ch)
    (hq : Counts23 okFft cost quarter cq) (sh : half.scratchLen ≤ half.len * 2) (sq : quarter.scratchLen ≤ half.len * 2) (h : Type2And3SplitRadix.new half quarter = .ok x)
    {h2 h3 q2 q3 : Nat} (b2 : ch.dct2.within half.len h2) (b3 : ch.dct3.within half.len h3) (c2 : cq.dct2.within quarter.len q2) (c3 : cq.dct3.within quarter.len q3) :
    (Counted.Type2And3SplitRadix.dct2 ch cq x).within x.len (h2 + 2 * q2 + 9 * x.len + 10) ∧ (Counted.Type2And3SplitRadix.dct3 ch cq x).within x.len (h3 + 2 * q3 + 9 * x.len + 10) ∧
      (Counted.Type2And3SplitRadix.dst2 ch cq x).within x.len (h2 + 2 * q2 + 13 * x.len + 10) ∧ (Counted.Type2And3SplitRadix.dst3 ch cq x).within x.len (h3 + 2 * q3 + 13 * x.len + 10) := by
  obtain ⟨kh, th⟩ := hh.takes hok
  obtain ⟨kq, tq⟩ := hq.takes hok
  have t := splitRadix_takes hok hh.made hq.made sh sq h (th.dct2.ofWithin (fun m => hh.wrong2) b2) (th.dct3.ofWithin (fun m => hh.wrong3) b3) (tq.dct2.ofWithin (fun m => hq.wrong2) c2)
    (tq.dct3.ofWithin (fun m => hq.wrong3) c3)
  exact ⟨t.dct2.within _, t.dct3.within _, t.dst2.within _, t.dst3.within⟩

/-- "If the inner DCT3 is O(nlogn), then so is this" (src/algorithm/type4_convert_to_type3.rs:11). -/
theorem C75_type4_even (hok : ∀ f, okFft f → FftSane f) {inner : Obj23 T} {ci : CObj23 T} {x : Type4ConvertToType3Even T} (hi : Counts23 okFft cost inner ci)
    (h : Type4ConvertToType3Even.new inner = .ok x) {d e : Nat} (bd : ci.dct3.within inner.len d) (be : ci.dst3.within inner.len e) :
    x.len = 2 * inner.len ∧ (Counted.Type4ConvertToType3Even.dct4 ci x).within x.len (d + e + 9 * x.len + 10) ∧
      (Counted.Type4ConvertToType3Even.dst4 ci x).within x.len (d + e + 9 * x.len + 10) := by
  obtain ⟨k, t⟩ := hi.takes hok
  rw [Type4ConvertToType3Even.new_eq rfl] at h
  injection h with h
  subst h
  have el : (Type4ConvertToType3Even.inst inner.len inner).len = 2 * inner.len := Type4ConvertToType3Even.inst_len inner.len inner
  have ed : (Type4ConvertToType3Even.inst inner.len inner).len / 2 = inner.len := by omega
  have t3 : TakesAt ((Type4ConvertToType3Even.inst inner.len inner).len / 2) (Type4ConvertToType3Even.inst inner.len inner).innerDct.dct3 d ci.dct3 := by
    rw [ed]; exact ⟨t.dct3.same, bd⟩
  have s3 : TakesAt ((Type4ConvertToType3Even.inst inner.len inner).len / 2) (Type4ConvertToType3Even.inst inner.len inner).innerDct.dst3 e ci.dst3 := by
    rw [ed]; exact ⟨t.dst3.same, be⟩
  exact ⟨el, (Counted.Type4ConvertToType3Even.dct4_takes _ (by omega) t3 s3).within _, (Counted.Type4ConvertToType3Even.dst4_takes _ (by omega) t3 s3).within _⟩

/-- "This algorithm does a full O(n^2) computation" (src/mdct/mdct_naive.rs:9). -/
theorem C75_mdct_naive {w : Nat → List T} {x : MdctNaive T} (h : MdctNaive.new n w = .ok x) :
    (∀ a b m, (Counted.MdctNaive.mdct x a b m).2 ≤ 12 * n * n + 10 * n) ∧ (∀ y m, (Counted.MdctNaive.imdct x y m).2 ≤ 12 * n * n + 10 * n) ∧
    (∀ a b m m', ValidMdct n 0 a b m → (Counted.MdctNaive.mdct x a b m).1 = .ok m' → n * n ≤ (Counted.MdctNaive.mdct x a b m).2) ∧
    (∀ y m m', ValidImdct n 0 y m → (Counted.MdctNaive.imdct x y m).1 = .ok m' → n * n ≤ (Counted.MdctNaive.imdct x y m).2) := by
  have el : x.len = n := by
    obtain ⟨-, -, t, rfl⟩ := MdctNaive.new_shape h
    simp only [MdctNaive.len, length_vec]; omega
  subst el
  exact ⟨(Counted.MdctNaive.mdct_takes x).le, (Counted.MdctNaive.imdct_takes x).le, Counted.MdctNaive.mdct_costs x, Counted.MdctNaive.imdct_costs x⟩

/-- The MDCT via a DCT4 adds a linear number of steps. -/
theorem C75_mdct_via_dct4 (hok : ∀ f, okFft f → FftSane f) {inner : Obj4 T} {ci : CObj4 T} {w : Nat → List T} {x : MdctViaDct4 T} (hi : Counts4 okFft cost inner ci)
    (h : MdctViaDct4.new inner w = .ok x) {d : Nat} (bd : ci.dct4.within inner.len d) :
    (∀ a b m, (Counted.MdctViaDct4.mdct ci x a b m).2 ≤ d + 22 * inner.len) ∧ ∀ y m, (Counted.MdctViaDct4.imdct ci x y m).2 ≤ d + 22 * inner.len := by
  obtain ⟨k, t, -⟩ := hi.takes hok
  have t := t.ofWithin (fun m => hi.wrong) bd
  obtain ⟨-, -, rfl⟩ := MdctViaDct4.new_shape h
  exact ⟨(Counted.MdctViaDct4.mdct_takes _ t).le, (Counted.MdctViaDct4.imdct_takes _ t).le⟩

/-! ### Planned instances -/

/-- What a planned instance takes at most, in terms of what rustfft takes. -/
theorem C75_planned (cost : Fft T → Nat) (hf : PlanFftSane planFft) (h : Planned planFft calls k p n s) :
    ∃ c, Times (FromPlan planFft) cost k p c n s ∧ c.within n (plannedSteps (fun m => cost (planFft m)) k n) := by
  obtain ⟨c, h1, h2, -⟩ := planned_steps (cost := cost) hf h
  exact ⟨c, h1, h2⟩

/-- If rustfft takes `O(n log n)` steps then so do all planned transforms for which there is a fast algorithm. -/
theorem C75_planned_nlogn (hf : PlanFftSane planFft) {A : Nat} (hc : ∀ m, 1 ≤ m → cost (planFft m) ≤ A * m * (Nat.log 2 m + 1))
    (h : Planned planFft calls k p n s) (hk : k.fast) (hn : 1 ≤ n) :
    ∃ c, Times (FromPlan planFft) cost k p c n s ∧ c.within n ((12 * A + 100) * n * (Nat.log 2 n + 1)) := by
  obtain ⟨c, h1, h2, -⟩ := planned_steps (cost := cost) hf h
  exact ⟨c, h1, fun m hm => (h2 m hm).trans (planned_nlogn hc hk hn)⟩

/-- Types 2 and 3 of a power of two: `O(n log n)` whatever rustfft does, since it is not called. -/
theorem C75_planned_pow2 (cost : Fft T → Nat) (hf : PlanFftSane planFft) {j : Nat} (h : Planned planFft calls k p (2 ^ (j + 1)) s)
    (hk : k = .dct2 ∨ k = .dct3 ∨ k = .dst2 ∨ k = .dst3) :
    ∃ c, Times (FromPlan planFft) cost k p c (2 ^ (j + 1)) s ∧ c.within (2 ^ (j + 1)) (16 * 2 ^ (j + 1) * (j + 2)) := by
  obtain ⟨c, h1, h2, -⟩ := planned_steps (cost := cost) hf h
  refine ⟨c, h1, ?_⟩
  rw [← steps23_pow (fun m => cost (planFft m)) j]
  rcases hk with rfl | rfl | rfl | rfl <;> exact h2

/-- The other planned transforms (DCT5 to DCT8, DST5, DST8) are quadratic: every valid call takes at least `n²` steps. -/
theorem C75_planned_quadratic (cost : Fft T → Nat) (hf : PlanFftSane planFft) (h : Planned planFft calls k p n s) (hk : ¬ k.fast) :
    ∃ c, Times (FromPlan planFft) cost k p c n s ∧ c.within n (4 * n * n + 6 * n + 6) ∧ ∀ m, ValidCall n s m → n * n ≤ (c m).2 := by
  obtain ⟨c, h1, h2, h3⟩ := planned_steps (cost := cost) hf h
  refine ⟨c, h1, ?_, ?_⟩
  · cases k <;> first | exact absurd trivial hk | exact h2
  · intro m hv
    obtain ⟨m', e, -⟩ := C26_planned hf h m hv
    exact h3 hk m m' hv ((C75_same (FromPlan.sane hf) h1 m).trans e)

/-- A planned MDCT. -/
theorem C75_planned_mdct (cost : Fft T → Nat) (hf : PlanFftSane planFft) {w : Nat → List T} {o : MdctObj T} (h : PlannedMdct planFft calls n w o) :
    ∃ c, CountsMdct (FromPlan planFft) cost o c ∧ c.mdctWithin (plannedSteps (fun m => cost (planFft m)) .dct4 n + 22 * n) ∧
      c.imdctWithin (plannedSteps (fun m => cost (planFft m)) .dct4 n + 22 * n) :=
  (planned_mdct_steps hf h).2

/-- If rustfft takes `O(n log n)` steps then so does a planned MDCT. -/
theorem C75_planned_mdct_nlogn (hf : PlanFftSane planFft) {A : Nat} (hc : ∀ m, 1 ≤ m → cost (planFft m) ≤ A * m * (Nat.log 2 m + 1))
    {w : Nat → List T} {o : MdctObj T} (h : PlannedMdct planFft calls n w o) (hn : 1 ≤ n) :
    ∃ c, CountsMdct (FromPlan planFft) cost o c ∧ c.mdctWithin ((12 * A + 122) * n * (Nat.log 2 n + 1)) ∧ c.imdctWithin ((12 * A + 122) * n * (Nat.log 2 n + 1)) := by
  obtain ⟨-, c, h1, h2, h3⟩ := planned_mdct_steps (cost := cost) hf h
  have hl : n ≤ n * (Nat.log 2 n + 1) := Nat.le_mul_of_pos_right n (by omega)
  have h4 : plannedSteps (fun m => cost (planFft m)) .dct4 n ≤ _ := planned_nlogn hc (k := .dct4) trivial hn
  have h5 : plannedSteps (fun m => cost (planFft m)) .dct4 n + 22 * n ≤ (12 * A + 122) * n * (Nat.log 2 n + 1) := by nlinarith
  exact ⟨c, h1, fun a b m => (h2 a b m).trans h5, fun y m => (h3 y m).trans h5⟩

/-! ### Instances of the hypotheses -/

/-- A planned DCT2 of length 1024 takes at most `16 · 1024 · 11` steps; the naive one at least `1024²`. -/
example (calls : List (PlanCall T)) : ∃ p s c, Planned (fun n => (dftFft n : Fft T)) calls .dct2 p (2 ^ 10) s ∧
    Times (FromPlan fun n => (dftFft n : Fft T)) (fun _ => 0) .dct2 p c (2 ^ 10) s ∧ c.within (2 ^ 10) (16 * 2 ^ 10 * 11) :=
  let ⟨p, s, h⟩ := planned_exists dftFft_planSane.shape calls .dct2 (n := 2 ^ 10) (by norm_num)
  let ⟨c, h1, h2⟩ := C75_planned_pow2 (fun _ => 0) dftFft_planSane (j := 9) h (.inl rfl)
  ⟨p, s, c, h, h1, h2⟩

/-- A planned DST1 of length 1000 with an FFT that takes `5 n (log n + 1)` steps. -/
example (calls : List (PlanCall T)) : ∃ p s c, Planned (fun n => (dftFft n : Fft T)) calls .dst1 p 1000 s ∧
    Times (FromPlan fun n => (dftFft n : Fft T)) (fun f => 5 * f.len * (Nat.log 2 f.len + 1)) .dst1 p c 1000 s ∧
    c.within 1000 (160 * 1000 * (Nat.log 2 1000 + 1)) :=
  let ⟨p, s, h⟩ := planned_exists dftFft_planSane.shape calls .dst1 (n := 1000) (by norm_num)
  let ⟨c, h1, h2⟩ := C75_planned_nlogn (cost := fun f => 5 * f.len * (Nat.log 2 f.len + 1)) dftFft_planSane (A := 5) (fun m _ => by rw [(dftFft_planSane m).1]) h trivial (by norm_num)
  ⟨p, s, c, h, h1, h2⟩

/-- A planned DCT8 of length 100 takes between 10000 and 40606 steps. -/
example (calls : List (PlanCall T)) : ∃ p s c, Planned (fun n => (dftFft n : Fft T)) calls .dct8 p 100 s ∧
    Times (FromPlan fun n => (dftFft n : Fft T)) (fun _ => 0) .dct8 p c 100 s ∧ c.within 100 40606 ∧ 10000 ≤ (c ⟨List.replicate 100 1, List.replicate s 0⟩).2 := by
  obtain ⟨p, s, h⟩ := planned_exists dftFft_planSane.shape calls .dct8 (n := 100) (by norm_num)
  obtain ⟨c, h1, h2, h3⟩ := C75_planned_quadratic (fun _ => 0) dftFft_planSane h id
  exact ⟨p, s, c, h, h1, h2, h3 _ ⟨by simp, by simp⟩⟩

/-- A planned MDCT of length 64. -/
example (calls : List (PlanCall T)) : ∃ o c, PlannedMdct (fun n => (dftFft n : Fft T)) calls 64 (fun n => List.replicate n 1) o ∧
    CountsMdct (FromPlan fun n => (dftFft n : Fft T)) (fun f => f.len) o c ∧ c.mdctWithin (134 * 64 * (Nat.log 2 64 + 1)) :=
  let ⟨o, h⟩ := plannedMdct_exists dftFft_planSane.shape calls (n := 64) rfl (w := fun n => List.replicate n 1) (by simp)
  let ⟨c, h1, h2, _⟩ := C75_planned_mdct_nlogn (cost := fun f => f.len) dftFft_planSane (A := 1)
    (fun m _ => by rw [(dftFft_planSane m).1, Nat.one_mul]; exact Nat.le_mul_of_pos_right m (by omega)) h (by norm_num)
  ⟨o, c, h, h1, h2⟩

end
end RustDct
