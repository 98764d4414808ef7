import Verif.Model.Convert
import Verif.Proofs.Made
/-!
# C81: number types whose `from_f64` can fail
-/

set_option linter.all false

namespace RustDct

section
variable {T : Type} {F : Type} [F64 F] [DctNum T F] {conv : F → Option T} {n : Nat}

/-- `fromF64` is the conversion of the number type wherever that succeeds (and anything elsewhere). -/
def Extends (conv : F → Option T) : Prop := ∀ v y, conv v = some y → fromF64 v = y

/-- Real and imaginary part of the twiddle factor with angle `θ` can be converted. -/
def ConvertsAt (conv : F → Option T) (θ : F) : Prop := (conv (F64.nat 1 * F64.cos θ)).isSome ∧ (conv (F64.nat 1 * F64.sin θ)).isSome

theorem unwrap_iff (hc : Extends conv) {v : F} {y : T} : unwrap (conv v) = .ok y ↔ (conv v).isSome ∧ y = fromF64 v := by
  cases h : conv v with
  | none => exact ⟨fun e => (by cases e), fun e => (by cases e.1)⟩
  | some z =>
    have := hc v z h
    constructor
    · intro e; cases e; exact ⟨rfl, this.symm⟩
    · rintro ⟨-, e⟩; rw [e, this]; rfl

theorem bind_iff {α β : Type} {x : Except Err α} {f : α → Except Err β} {y : β} : (x >>= f) = .ok y ↔ ∃ a, x = .ok a ∧ f a = .ok y := by
  cases x with
  | error e => exact ⟨fun h => (by cases h), fun ⟨_, h, _⟩ => (by cases h)⟩
  | ok a => exact ⟨fun h => ⟨a, rfl, h⟩, fun ⟨b, h, h'⟩ => (by cases h; exact h')⟩

/-- Filling a table. -/
theorem mapM_iff {α : Type} {g : Nat → Except Err α} {f : Nat → α} {P : Nat → Prop} (h : ∀ i y, g i = .ok y ↔ P i ∧ y = f i) (L : List Nat) (l : List α) :
    L.mapM g = .ok l ↔ (∀ i ∈ L, P i) ∧ l = L.map f := by
  induction L generalizing l with
  | nil =>
    rw [List.mapM_nil]
    constructor
    · intro e; cases e; exact ⟨by simp, rfl⟩
    · rintro ⟨-, rfl⟩; rfl
  | cons a L ih =>
    rw [List.mapM_cons, bind_iff]
    constructor
    · rintro ⟨y, hy, hl⟩
      obtain ⟨l', hl', e⟩ := bind_iff.mp hl
      cases e
      obtain ⟨p1, rfl⟩ := (h a y).mp hy
      obtain ⟨p2, rfl⟩ := (ih l').mp hl'
      exact ⟨by simpa using ⟨p1, p2⟩, rfl⟩
    · rintro ⟨p, rfl⟩
      exact ⟨f a, (h a _).mpr ⟨p a (by simp), rfl⟩, bind_iff.mpr ⟨_, (ih _).mpr ⟨fun i hi => p i (by simp [hi]), rfl⟩, rfl⟩⟩

theorem tableVia_iff (hc : Extends conv) {f : Nat → F} {l : List T} :
    tableVia conv n f = .ok l ↔ (∀ i < n, (conv (f i)).isSome) ∧ l = (List.range n).map fun i => fromF64 (f i) := by
  unfold tableVia
  rw [mapM_iff (P := fun i => (conv (f i)).isSome) (f := fun i => fromF64 (f i)) fun i y => unwrap_iff hc]
  simp only [List.mem_range]

theorem singleTwiddleVia_iff (hc : Extends conv) {i m : Nat} {y : Cx T} :
    singleTwiddleVia conv i m = .ok y ↔ ConvertsAt conv (angleConstant m * F64.nat i) ∧ y = singleTwiddle i m := by
  unfold singleTwiddleVia ConvertsAt
  simp only [bind_iff, unwrap_iff hc]
  constructor
  · rintro ⟨a, ⟨h1, rfl⟩, b, ⟨h2, rfl⟩, h⟩; cases h; exact ⟨⟨h1, h2⟩, rfl⟩
  · rintro ⟨⟨h1, h2⟩, rfl⟩; exact ⟨_, ⟨h1, rfl⟩, _, ⟨h2, rfl⟩, rfl⟩

theorem singleTwiddleHalfoffsetVia_iff (hc : Extends conv) {i m : Nat} {y : Cx T} :
    singleTwiddleHalfoffsetVia conv i m = .ok y ↔ ConvertsAt conv (angleConstant m * (F64.nat i + F64.half)) ∧ y = singleTwiddleHalfoffset i m := by
  unfold singleTwiddleHalfoffsetVia ConvertsAt
  simp only [bind_iff, unwrap_iff hc]
  constructor
  · rintro ⟨a, ⟨h1, rfl⟩, b, ⟨h2, rfl⟩, h⟩; cases h; exact ⟨⟨h1, h2⟩, rfl⟩
  · rintro ⟨⟨h1, h2⟩, rfl⟩; exact ⟨_, ⟨h1, rfl⟩, _, ⟨h2, rfl⟩, rfl⟩

theorem conjTwiddleVia_iff (hc : Extends conv) {i m : Nat} {y : Cx T} :
    conjTwiddleVia conv i m = .ok y ↔ ConvertsAt conv (angleConstant m * F64.nat i) ∧ y = Cx.conj (singleTwiddle i m) := by
  unfold conjTwiddleVia
  constructor
  · intro h
    obtain ⟨x, hx, rfl⟩ := map_ok h
    obtain ⟨h1, rfl⟩ := (singleTwiddleVia_iff hc).mp hx
    exact ⟨h1, rfl⟩
  · rintro ⟨h1, rfl⟩
    rw [(singleTwiddleVia_iff hc).mpr ⟨h1, rfl⟩]
    rfl

theorem csub_iff {a b c : Nat} : csub a b = .ok c ↔ b ≤ a ∧ c = a - b := by
  unfold csub
  split
  · exact ⟨fun h => (by cases h; exact ⟨‹_›, rfl⟩), fun h => (by rw [h.2])⟩
  · exact ⟨fun h => (by cases h), fun h => absurd h.1 ‹_›⟩

/-! ### Constructors

Each constructor returns an instance exactly if the constructor of the basic model does (that is, its arguments are valid) and all
numbers in its table can be converted; and then it is the same instance. -/

theorem C81_dct1 (hc : Extends conv) (x : Dct1Naive T) :
    Dct1Naive.newVia conv n = .ok x ↔ Dct1Naive.new n = .ok x ∧ ∀ i < (n - 1) * 2, (conv (F64.cos (F64.pi / F64.nat (n - 1) * F64.nat i))).isSome := by
  unfold Dct1Naive.newVia Dct1Naive.new
  split
  · exact ⟨fun h => (by cases h), fun h => (by cases h.1)⟩
  simp only [bind_iff, tableVia_iff hc, csub_iff]
  constructor
  · rintro ⟨a, ⟨h0, rfl⟩, t, ⟨h1, rfl⟩, h⟩
    exact ⟨⟨_, ⟨h0, rfl⟩, h⟩, h1⟩
  · rintro ⟨⟨a, ⟨h0, rfl⟩, h⟩, h1⟩
    exact ⟨_, ⟨h0, rfl⟩, _, ⟨h1, rfl⟩, h⟩

theorem C81_dst1 (hc : Extends conv) (x : Dst1Naive T) :
    Dst1Naive.newVia conv n = .ok x ↔ Dst1Naive.new n = .ok x ∧ ∀ i < (n + 1) * 2, (conv (F64.sin (F64.pi / F64.nat (n + 1) * F64.nat i))).isSome := by
  unfold Dst1Naive.newVia Dst1Naive.new
  simp only [bind_iff, tableVia_iff hc]
  constructor
  · rintro ⟨t, ⟨h1, rfl⟩, h⟩
    exact ⟨h, h1⟩
  · rintro ⟨h, h1⟩
    exact ⟨_, ⟨h1, rfl⟩, h⟩

theorem C81_dct5 (hc : Extends conv) (x : Dct5Naive T) :
    Dct5Naive.newVia conv n = .ok x ↔ Dct5Naive.new n = .ok x ∧ ∀ i < n * 2 - 1, (conv (F64.cos (F64.pi / (F64.nat n - F64.half) * F64.nat i))).isSome := by
  unfold Dct5Naive.newVia Dct5Naive.new
  simp only [bind_iff, tableVia_iff hc, csub_iff]
  constructor
  · rintro ⟨a, ⟨h0, rfl⟩, t, ⟨h1, rfl⟩, h⟩
    exact ⟨⟨_, ⟨h0, rfl⟩, h⟩, h1⟩
  · rintro ⟨⟨a, ⟨h0, rfl⟩, h⟩, h1⟩
    exact ⟨_, ⟨h0, rfl⟩, _, ⟨h1, rfl⟩, h⟩

theorem C81_dst5 (hc : Extends conv) (x : Dst5Naive T) :
    Dst5Naive.newVia conv n = .ok x ↔ Dst5Naive.new n = .ok x ∧ ∀ i < n * 2 + 1, (conv (F64.sin (F64.pi / (F64.nat n + F64.half) * F64.nat i))).isSome := by
  unfold Dst5Naive.newVia Dst5Naive.new
  simp only [bind_iff, tableVia_iff hc]
  constructor
  · rintro ⟨t, ⟨h1, rfl⟩, h⟩
    exact ⟨h, h1⟩
  · rintro ⟨h, h1⟩
    exact ⟨_, ⟨h1, rfl⟩, h⟩

theorem C81_dct67 (hc : Extends conv) (x : Dct6And7Naive T) :
    Dct6And7Naive.newVia conv n = .ok x ↔ Dct6And7Naive.new n = .ok x ∧ ∀ i < n * 4 - 2, (conv (F64.cos (F64.pi / F64.nat (n * 2 - 1) * F64.nat i))).isSome := by
  unfold Dct6And7Naive.newVia Dct6And7Naive.new
  simp only [bind_iff, tableVia_iff hc, csub_iff]
  constructor
  · rintro ⟨a, ⟨h0, rfl⟩, b, ⟨h0', rfl⟩, t, ⟨h1, rfl⟩, h⟩
    exact ⟨⟨_, ⟨h0, rfl⟩, _, ⟨h0', rfl⟩, h⟩, h1⟩
  · rintro ⟨⟨a, ⟨h0, rfl⟩, b, ⟨h0', rfl⟩, h⟩, h1⟩
    exact ⟨_, ⟨h0, rfl⟩, _, ⟨h0', rfl⟩, _, ⟨h1, rfl⟩, h⟩

theorem C81_dst67 (hc : Extends conv) (x : Dst6And7Naive T) :
    Dst6And7Naive.newVia conv n = .ok x ↔ Dst6And7Naive.new n = .ok x ∧ ∀ i < n * 4 + 2, (conv (F64.sin (F64.pi / F64.nat (n * 2 + 1) * F64.nat i))).isSome := by
  unfold Dst6And7Naive.newVia Dst6And7Naive.new
  simp only [bind_iff, tableVia_iff hc]
  constructor
  · rintro ⟨t, ⟨h1, rfl⟩, h⟩
    exact ⟨h, h1⟩
  · rintro ⟨h, h1⟩
    exact ⟨_, ⟨h1, rfl⟩, h⟩

theorem C81_dct8 (hc : Extends conv) (x : Dct8Naive T) :
    Dct8Naive.newVia conv n = .ok x ↔ Dct8Naive.new n = .ok x ∧ ∀ i < n * 4 + 2, (conv (F64.cos (F64.pi / F64.nat (n * 2 + 1) * (F64.nat i + F64.half)))).isSome := by
  unfold Dct8Naive.newVia Dct8Naive.new
  simp only [bind_iff, tableVia_iff hc]
  constructor
  · rintro ⟨t, ⟨h1, rfl⟩, h⟩
    exact ⟨h, h1⟩
  · rintro ⟨h, h1⟩
    exact ⟨_, ⟨h1, rfl⟩, h⟩

theorem C81_dst8 (hc : Extends conv) (x : Dst8Naive T) :
    Dst8Naive.newVia conv n = .ok x ↔ Dst8Naive.new n = .ok x ∧ ∀ i < n * 4 - 2, (conv (F64.sin (F64.pi / F64.nat (n * 2 - 1) * (F64.nat i + F64.half)))).isSome := by
  unfold Dst8Naive.newVia Dst8Naive.new
  simp only [bind_iff, tableVia_iff hc, csub_iff]
  constructor
  · rintro ⟨a, ⟨h0, rfl⟩, b, ⟨h0', rfl⟩, t, ⟨h1, rfl⟩, h⟩
    exact ⟨⟨_, ⟨h0, rfl⟩, _, ⟨h0', rfl⟩, h⟩, h1⟩
  · rintro ⟨⟨a, ⟨h0, rfl⟩, b, ⟨h0', rfl⟩, h⟩, h1⟩
    exact ⟨_, ⟨h0, rfl⟩, _, ⟨h0', rfl⟩, _, ⟨h1, rfl⟩, h⟩

theorem C81_type23 (hc : Extends conv) (x : Type2And3Naive T) :
    Type2And3Naive.newVia conv n = .ok x ↔ Type2And3Naive.new n = .ok x ∧ ∀ i < n * 4, ConvertsAt conv (angleConstant (n * 4) * F64.nat i) := by
  unfold Type2And3Naive.newVia Type2And3Naive.new
  simp only [bind_iff, mapM_iff fun i y => singleTwiddleVia_iff hc, List.mem_range]
  constructor
  · rintro ⟨t, ⟨h1, rfl⟩, h⟩
    exact ⟨h, h1⟩
  · rintro ⟨h, h1⟩
    exact ⟨_, ⟨h1, rfl⟩, h⟩

theorem C81_type4 (hc : Extends conv) (x : Type4Naive T) :
    Type4Naive.newVia conv n = .ok x ↔ Type4Naive.new n = .ok x ∧ ∀ i < n * 4, ConvertsAt conv (angleConstant (n * 4) * (F64.nat i + F64.half)) := by
  unfold Type4Naive.newVia Type4Naive.new
  simp only [bind_iff, mapM_iff fun i y => singleTwiddleHalfoffsetVia_iff hc, List.mem_range]
  constructor
  · rintro ⟨t, ⟨h1, rfl⟩, h⟩
    exact ⟨h, h1⟩
  · rintro ⟨h, h1⟩
    exact ⟨_, ⟨h1, rfl⟩, h⟩

theorem C81_fft23 (hc : Extends conv) {fft : Fft T} (x : Type2And3ConvertToFft T) :
    Type2And3ConvertToFft.newVia conv fft = .ok x ↔
      Type2And3ConvertToFft.new fft = .ok x ∧ ∀ i < fft.len, ConvertsAt conv (angleConstant (fft.len * 4) * F64.nat i) := by
  unfold Type2And3ConvertToFft.newVia Type2And3ConvertToFft.new
  split
  · exact ⟨fun h => (by cases h), fun h => (by cases h.1)⟩
  simp only [bind_iff, mapM_iff fun i y => singleTwiddleVia_iff hc, List.mem_range]
  constructor
  · rintro ⟨t, ⟨h1, rfl⟩, h⟩
    exact ⟨h, h1⟩
  · rintro ⟨h, h1⟩
    exact ⟨_, ⟨h1, rfl⟩, h⟩

theorem C81_splitRadix (hc : Extends conv) {half quarter : Obj23 T} (x : Type2And3SplitRadix T) :
    Type2And3SplitRadix.newVia conv half quarter = .ok x ↔
      Type2And3SplitRadix.new half quarter = .ok x ∧ ∀ i < half.len * 2 / 4, ConvertsAt conv (angleConstant (half.len * 2 * 4) * F64.nat (2 * i + 1)) := by
  unfold Type2And3SplitRadix.newVia Type2And3SplitRadix.new
  dsimp only
  split
  · exact ⟨fun h => (by cases h), fun h => (by cases h.1)⟩
  split
  · exact ⟨fun h => (by cases h), fun h => (by cases h.1)⟩
  simp only [bind_iff, mapM_iff fun i y => conjTwiddleVia_iff (i := 2 * i + 1) hc, List.mem_range]
  constructor
  · rintro ⟨t, ⟨h1, rfl⟩, h⟩
    exact ⟨h, h1⟩
  · rintro ⟨h, h1⟩
    exact ⟨_, ⟨h1, rfl⟩, h⟩

theorem C81_type4Even (hc : Extends conv) {inner : Obj23 T} (x : Type4ConvertToType3Even T) :
    Type4ConvertToType3Even.newVia conv inner = .ok x ↔
      Type4ConvertToType3Even.new inner = .ok x ∧ ∀ i < inner.len, ConvertsAt conv (angleConstant (inner.len * 2 * 8) * F64.nat (2 * i + 1)) := by
  unfold Type4ConvertToType3Even.newVia Type4ConvertToType3Even.new
  dsimp only
  simp only [bind_iff, mapM_iff fun i y => conjTwiddleVia_iff (i := 2 * i + 1) hc, List.mem_range]
  constructor
  · rintro ⟨t, ⟨h1, rfl⟩, h⟩
    exact ⟨h, h1⟩
  · rintro ⟨h, h1⟩
    exact ⟨_, ⟨h1, rfl⟩, h⟩

theorem C81_butterfly3 (hc : Extends conv) (x : Type2And3Butterfly3 T) :
    Type2And3Butterfly3.newVia conv = .ok x ↔ x = Type2And3Butterfly3.new ∧ (conv (F64.cos (angleConstant 12 * F64.nat 1))).isSome := by
  unfold Type2And3Butterfly3.newVia Type2And3Butterfly3.new singleTwiddleReVia
  simp only [bind_iff, unwrap_iff hc]
  constructor
  · rintro ⟨t, ⟨h1, rfl⟩, h⟩
    cases h; exact ⟨rfl, h1⟩
  · rintro ⟨rfl, h1⟩
    exact ⟨_, ⟨h1, rfl⟩, rfl⟩

theorem C81_butterfly4 (hc : Extends conv) (x : Type2And3Butterfly4 T) :
    Type2And3Butterfly4.newVia conv = .ok x ↔ x = Type2And3Butterfly4.new ∧ ConvertsAt conv (angleConstant 16 * F64.nat 1) := by
  unfold Type2And3Butterfly4.newVia Type2And3Butterfly4.new
  simp only [bind_iff, conjTwiddleVia_iff hc]
  constructor
  · rintro ⟨t, ⟨h1, rfl⟩, h⟩
    cases h; exact ⟨rfl, h1⟩
  · rintro ⟨rfl, h1⟩
    exact ⟨_, ⟨h1, rfl⟩, rfl⟩

theorem C81_butterfly8 (hc : Extends conv) (x : Type2And3Butterfly8 T) :
    Type2And3Butterfly8.newVia conv = .ok x ↔ x = Type2And3Butterfly8.new ∧ ConvertsAt conv (angleConstant 16 * F64.nat 1) ∧
      ∀ i ∈ [1, 3], ConvertsAt conv (angleConstant 32 * F64.nat i) := by
  unfold Type2And3Butterfly8.newVia Type2And3Butterfly8.new
  simp only [bind_iff, conjTwiddleVia_iff hc, C81_butterfly4 hc]
  constructor
  · rintro ⟨t, ⟨rfl, h0⟩, a, ⟨h1, rfl⟩, b, ⟨h2, rfl⟩, h⟩
    cases h; exact ⟨rfl, h0, by simp [h1, h2]⟩
  · rintro ⟨rfl, h0, h1⟩
    exact ⟨_, ⟨rfl, h0⟩, _, ⟨h1 _ (by simp), rfl⟩, _, ⟨h1 _ (by simp), rfl⟩, rfl⟩

theorem C81_butterfly16 (hc : Extends conv) (x : Type2And3Butterfly16 T) :
    Type2And3Butterfly16.newVia conv = .ok x ↔ x = Type2And3Butterfly16.new ∧ ConvertsAt conv (angleConstant 16 * F64.nat 1) ∧
      (∀ i ∈ [1, 3], ConvertsAt conv (angleConstant 32 * F64.nat i)) ∧ ∀ i ∈ [1, 3, 5, 7], ConvertsAt conv (angleConstant 64 * F64.nat i) := by
  unfold Type2And3Butterfly16.newVia Type2And3Butterfly16.new
  simp only [bind_iff, conjTwiddleVia_iff hc, C81_butterfly4 hc, C81_butterfly8 hc]
  constructor
  · rintro ⟨t, ⟨rfl, h0, h0'⟩, t', ⟨rfl, -⟩, a, ⟨h1, rfl⟩, b, ⟨h2, rfl⟩, c, ⟨h3, rfl⟩, d, ⟨h4, rfl⟩, h⟩
    cases h; exact ⟨rfl, h0, h0', by simp [h1, h2, h3, h4]⟩
  · rintro ⟨rfl, h0, h0', h1⟩
    exact ⟨_, ⟨rfl, h0, h0'⟩, _, ⟨rfl, h0⟩, _, ⟨h1 _ (by simp), rfl⟩, _, ⟨h1 _ (by simp), rfl⟩, _, ⟨h1 _ (by simp), rfl⟩, _, ⟨h1 _ (by simp), rfl⟩, rfl⟩

theorem C81_mdct (hc : Extends conv) {w : Nat → List T} (x : MdctNaive T) :
    MdctNaive.newVia conv n w = .ok x ↔
      MdctNaive.new n w = .ok x ∧ ∀ i < n * 4, (conv (F64.cos (F64.half * F64.pi / F64.nat n * (F64.nat i + F64.half)))).isSome := by
  unfold MdctNaive.newVia MdctNaive.new
  split
  · exact ⟨fun h => (by cases h), fun h => (by cases h.1)⟩
  dsimp only
  simp only [bind_iff, tableVia_iff hc]
  constructor
  · rintro ⟨t, ⟨h1, rfl⟩, h⟩
    exact ⟨h, h1⟩
  · rintro ⟨h, h1⟩
    exact ⟨_, ⟨h1, rfl⟩, h⟩

/-! ### Window functions -/

/-- Each window function returns, exactly if all its values can be converted, the window of the basic model. -/
theorem C81_windows (hc : Extends conv) (len : Nat) (l : List T) :
    (WindowFn.mp3Via conv len = .ok l ↔ l = WindowFn.mp3 len ∧ ∀ i < len, (conv (F64.sin (F64.pi / F64.nat len * (F64.nat i + F64.half)))).isSome) ∧
    (WindowFn.mp3InvertibleVia conv len = .ok l ↔ l = WindowFn.mp3Invertible len ∧ ∀ i < len,
      (conv (F64.sin (F64.pi / F64.nat len * (F64.nat i + F64.half)) * F64.sqrt (F64.nat 4 / F64.nat len))).isSome) ∧
    (WindowFn.vorbisVia conv len = .ok l ↔ l = WindowFn.vorbis len ∧ ∀ i < len,
      (conv (let s := F64.sin (F64.pi / F64.nat len * (F64.nat i + F64.half)); F64.sin (F64.pi * F64.half * s * s))).isSome) ∧
    (WindowFn.vorbisInvertibleVia conv len = .ok l ↔ l = WindowFn.vorbisInvertible len ∧ ∀ i < len,
      (conv (let s := F64.sin (F64.pi / F64.nat len * (F64.nat i + F64.half)); F64.sin (F64.pi * F64.half * s * s) * F64.sqrt (F64.nat 4 / F64.nat len))).isSome) ∧
    (WindowFn.invertibleVia conv len = .ok l ↔ l = WindowFn.invertible len ∧ ∀ i < len, (conv (F64.sqrt (F64.nat 2 / F64.nat len))).isSome) := by
  refine ⟨?_, ?_, ?_, ?_, ?_⟩ <;> exact (tableVia_iff hc).trans And.comm

/-! ### Non-vacuity -/

/-- A conversion that never fails. -/
example : Extends (fun v => some (fromF64 v : T)) := fun v y h => by injection h

/-- One that fails wherever `P` is false: a DST1 of length 1 can be made if and only if its four sines satisfy `P`. -/
example (P : F → Bool) (x : Dst1Naive T) : Dst1Naive.newVia (fun v => if P v then some (fromF64 v) else none) 1 = .ok x ↔
    Dst1Naive.new 1 = .ok x ∧ ∀ i < 4, P (F64.sin (F64.pi / F64.nat 2 * F64.nat i)) = true := by
  rw [C81_dst1 (fun v y h => by split at h <;> simp_all)]
  simp

end
end RustDct
