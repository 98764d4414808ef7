import Verif.Model.FftPanic
import Verif.Methods
import Verif.Formula
/-!
# Vocabulary for C83: what memory holds after a panic inside rustfft
-/

set_option linter.all false

namespace RustDct

variable {T F M : Type}

/-- `b` is `a`, except that `b` may know the contents of memory at a panic where `a` does not. -/
def Records : Outcome M → Outcome M → Prop
  | .ok m, .ok m' => m = m'
  | .panic e o, .panic e' o' => e = e' ∧ (o = none ∨ o = o')
  | _, _ => False

/-- What the FFT has written into its two slices at a panic fits into them. -/
def Left.Fits (left : Left T) : Prop := ∀ f b s, (left f b s).1.length = b.length ∧ (left f b s).2.length = s.length

/-- The FFT may panic whenever it likes; if it returns, the slices have the lengths they had. -/
def FftFits (fft : Fft T) : Prop := ∀ b s b' s', fft.process b s = .ok (b', s') → b'.length = b.length ∧ s'.length = s.length

/-- The FFT `fft` has panicked with `e`. -/
def FftPanicked (fft : Fft T) (e : Err) : Prop := ∃ b s, b.length = fft.len ∧ fft.inplaceScratchLen ≤ s.length ∧ fft.process b s = .error e

/-- The FFT `fft` has returned. -/
def FftReturned (fft : Fft T) : Prop := ∃ b s r, b.length = fft.len ∧ fft.inplaceScratchLen ≤ s.length ∧ fft.process b s = .ok r

/-- Every valid call uses the FFT; it returns, or the FFT panics.  Then the caller's buffer is what it was before the call, and scratch begins with what the FFT left
in its two slices. -/
def StopsInFft (left : Left T) (fft : Fft T) (q : Proc T) (n s : Nat) : Prop :=
  ∀ m, ValidCall n s m →
    (∃ m', q m = .ok m' ∧ m'.buf.length = n ∧ m'.scr.length = m.scr.length ∧ m'.scr.drop s = m.scr.drop s ∧ FftReturned fft) ∨
    ∃ e b t, b.length = fft.len ∧ t.length = fft.inplaceScratchLen ∧ fft.process b t = .error e ∧
      q m = .panic e (some ⟨m.buf, flattenComplex ((left fft b t).1 ++ (left fft b t).2) ++ m.scr.drop s⟩)

/-- Every valid call uses the FFT; it returns, or the FFT panics.  Then the caller's buffer is what it was before the call. -/
def KeepsBuffer (fft : Fft T) (q : Proc T) (n s : Nat) : Prop :=
  ∀ m, ValidCall n s m →
    (∃ m', q m = .ok m' ∧ m'.buf.length = n ∧ m'.scr.length = m.scr.length ∧ m'.scr.drop s = m.scr.drop s ∧ FftReturned fft) ∨
    ∃ e scr', FftPanicked fft e ∧ q m = .panic e (some ⟨m.buf, scr'⟩) ∧ scr'.length = m.scr.length ∧ scr'.drop s = m.scr.drop s

/-- Every valid call uses the FFT; it returns, or the FFT panics.  Then the caller's buffer holds what the FFT left in its own buffer. -/
def LosesBuffer (left : Left T) (fft : Fft T) (q : Proc T) (n s : Nat) : Prop :=
  ∀ m, ValidCall n s m →
    (∃ m', q m = .ok m' ∧ m'.buf.length = n ∧ m'.scr.length = m.scr.length ∧ m'.scr.drop s = m.scr.drop s ∧ FftReturned fft) ∨
    ∃ e b scr', b.length = fft.len ∧ fft.process b [] = .error e ∧ q m = .panic e (some ⟨flattenComplex (left fft b []).1, scr'⟩) ∧
      (flattenComplex (left fft b []).1).length = n ∧ scr'.length = m.scr.length ∧ scr'.drop s = m.scr.drop s

/-- Every valid call returns, or the FFT panics.  Then the slices have the lengths they had, and scratch that was not asked for is untouched. -/
def KeepsShape (panicked : Err → Prop) (q : Proc T) (n s : Nat) : Prop :=
  ∀ m, ValidCall n s m →
    (∃ m', q m = .ok m' ∧ m'.buf.length = n ∧ m'.scr.length = m.scr.length ∧ m'.scr.drop s = m.scr.drop s) ∨
    ∃ e m', panicked e ∧ q m = .panic e (some m') ∧ m'.buf.length = n ∧ m'.scr.length = m.scr.length ∧ m'.scr.drop s = m.scr.drop s

/-- The same for an MDCT. -/
def KeepsShapeMdct (panicked : Err → Prop) (q : List T → List T → Mem T → Outcome (Mem T)) (n s : Nat) : Prop :=
  ∀ a b m, ValidMdct n s a b m →
    (∃ m', q a b m = .ok m' ∧ m'.buf.length = n ∧ m'.scr.length = m.scr.length ∧ m'.scr.drop s = m.scr.drop s) ∨
    ∃ e m', panicked e ∧ q a b m = .panic e (some m') ∧ m'.buf.length = n ∧ m'.scr.length = m.scr.length ∧ m'.scr.drop s = m.scr.drop s

/-- Every valid call of the IMDCT returns, or the FFT panics.  Then both output buffers are what they were before the call. -/
def KeepsOutputs (panicked : Err → Prop) (q : List T → IMem T → Outcome (IMem T)) (n s : Nat) : Prop :=
  ∀ x m, ValidImdct n s x m →
    (∃ m', q x m = .ok m' ∧ m'.outA.length = n ∧ m'.outB.length = n ∧ m'.scr.length = m.scr.length ∧ m'.scr.drop s = m.scr.drop s) ∨
    ∃ e scr', panicked e ∧ q x m = .panic e (some ⟨m.outA, m.outB, scr'⟩) ∧ scr'.length = m.scr.length ∧ scr'.drop s = m.scr.drop s

section
variable [F64 F] [DctNum T F]

/-- `p` is a method of an instance that a public constructor made from the FFT `fft`, and `q` is the same method with the contents of memory at a
panic of the FFT. -/
inductive ViaFft (left : Left T) (fft : Fft T) : Kind → Proc T → Proc T → Nat → Nat → Prop
  | dct1 {x} (h : Dct1ConvertToFft.new fft = .ok x) (hn : 2 ≤ x.len) : ViaFft left fft .dct1 x.dct1 (x.dct1Cut.run left) x.len x.scratchLen
  | dst1 {x} (h : Dst1ConvertToFft.new fft = .ok x) : ViaFft left fft .dst1 x.dst1 (x.dst1Cut.run left) x.len x.scratchLen
  | dct2 {x} (h : Type2And3ConvertToFft.new fft = .ok x) : ViaFft left fft .dct2 x.dct2 (x.dct2Cut.run left) x.len x.scratchLen
  | dst2 {x} (h : Type2And3ConvertToFft.new fft = .ok x) : ViaFft left fft .dst2 x.dst2 (x.dst2Cut.run left) x.len x.scratchLen
  | dct3 {x} (h : Type2And3ConvertToFft.new fft = .ok x) (hn : 1 ≤ x.len) : ViaFft left fft .dct3 x.dct3 (x.dct3Cut.run left) x.len x.scratchLen
  | dst3 {x} (h : Type2And3ConvertToFft.new fft = .ok x) (hn : 1 ≤ x.len) : ViaFft left fft .dst3 x.dst3 (x.dst3Cut.run left) x.len x.scratchLen
  | dct4 {x} (h : Type4ConvertToFftOdd.new fft = .ok x) (hn : 1 ≤ x.len) : ViaFft left fft .dct4 x.dct4 (x.dct4Cut.run left) x.len x.scratchLen
  | dst4 {x} (h : Type4ConvertToFftOdd.new fft = .ok x) (hn : 1 ≤ x.len) : ViaFft left fft .dst4 x.dst4 (x.dst4Cut.run left) x.len x.scratchLen
  | dst6 {x} (h : Dst6And7ConvertToFft.new fft = .ok x) : ViaFft left fft .dst6 x.dst6 (x.dst6Cut.run left) x.len x.scratchLen
  | dst7 {x} (h : Dst6And7ConvertToFft.new fft = .ok x) : ViaFft left fft .dst7 x.dst7 (x.dst7Cut.run left) x.len x.scratchLen

/-- The same for an instance of type 4 on top of one that was made from `fft`. -/
inductive ViaType3 (left : Left T) (fft : Fft T) : Kind → Proc T → Proc T → Nat → Nat → Prop
  | dct4 {y x} (hy : Type2And3ConvertToFft.new fft = .ok y) (hx : Type4ConvertToType3Even.new y.toObj = .ok x) (hn : 1 ≤ x.len) :
      ViaType3 left fft .dct4 x.dct4 (x.dct4Trk (y.toObjLeft left)) x.len x.scratchLen
  | dst4 {y x} (hy : Type2And3ConvertToFft.new fft = .ok y) (hx : Type4ConvertToType3Even.new y.toObj = .ok x) (hn : 1 ≤ x.len) :
      ViaType3 left fft .dst4 x.dst4 (x.dst4Trk (y.toObjLeft left)) x.len x.scratchLen

/-- `q` is `p` with the contents of memory at a panic of the FFT; `p` is a method for `k` that uses the FFT which a planned instance of length `n` uses.
If that is none, there is nothing to record. -/
def Recorded (left : Left T) (planFft : Nat → Fft T) (k : Kind) (p q : Proc T) (n s : Nat) : Prop :=
  match k.fftLen n with
  | none => q = p
  | some L => ViaFft left (planFft L) k p q n s ∨ ViaType3 left (planFft L) k p q n s

/-- The same for the two methods of an MDCT instance that the public constructor made from a DCT4. -/
inductive RecordedMdct (left : Left T) (planFft : Nat → Fft T) :
    MdctObj T → (List T → List T → Mem T → Outcome (Mem T)) → (List T → IMem T → Outcome (IMem T)) → Prop
  | via {d w x q} (h : MdctViaDct4.new d w = .ok x) (hq : Recorded left planFft .dct4 d.dct4 q d.len d.scratchLen) :
      RecordedMdct left planFft x.toObj (x.mdctTrk q) (x.imdctTrk q)

end

end RustDct
