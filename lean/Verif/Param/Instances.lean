import Verif.Param.Mdct
import Verif.Param.Butterflies
import Verif.Param.Naive
import Verif.Param.SplitRadix
import Verif.Param.ConvertFft
/-!
# Instances of the crate are related to themselves

Every instance made by the public constructors from FFTs that are related to themselves is related to itself.
-/

set_option linter.all false

namespace RustDct
namespace Param

variable {T F : Type} [F64 F] [DctNum T F] (P : Param T T (F := F) (F' := F)) {okFft : Fft T → Prop}

omit [F64 F] [DctNum T F] in
theorem self_of {α : Type} {r : α → α → Prop} {x : α} {e : Except Err α} (h : ERel r e e) (he : e = .ok x) : r x x := by
  rw [he] at h
  cases h with
  | ok h => exact h

theorem madeDct1 (hf : ∀ f, okFft f → FftRel P.d f f) {o : Obj1 T} (h : MadeDct1 okFft o) : Obj1Rel P.d o o := by
  cases h with
  | naive h => exact P.dct1_obj (by have := self_of (P.dct1_new _) h; exact this)
  | fft ho h => exact P.d1fft_obj (self_of (P.d1fft_new (hf _ ho)) h)

theorem madeDst1 (hf : ∀ f, okFft f → FftRel P.d f f) {o : Obj1 T} (h : MadeDst1 okFft o) : Obj1Rel P.d o o := by
  cases h with
  | naive h => exact P.dst1_obj (by have := self_of (P.dst1_new _) h; exact this)
  | fft ho h => exact P.s1fft_obj (self_of (P.s1fft_new (hf _ ho)) h)

theorem made23 (hf : ∀ f, okFft f → FftRel P.d f f) {o : Obj23 T} (h : Made23 okFft o) : Obj23Rel P.d o o := by
  induction h with
  | naive h => exact P.t23_obj (by have := self_of (P.t23_new _) h; exact this)
  | butterfly2 => exact P.b2_obj
  | butterfly3 => exact P.b3_obj P.b3_new
  | butterfly4 => exact P.b4_obj P.b4_new
  | butterfly8 => exact P.b8_obj P.b8_new
  | butterfly16 => exact P.b16_obj P.b16_new
  | fft ho h => exact P.fft23_obj (self_of (P.fft23_new (hf _ ho)) h)
  | splitRadix _ _ _ _ h ih iq => exact P.split_obj (self_of (P.split_new ih iq) h)

theorem made4 (hf : ∀ f, okFft f → FftRel P.d f f) {o : Obj4 T} (h : Made4 okFft o) : Obj4Rel P.d o o := by
  cases h with
  | naive h => exact P.t4_obj (by have := self_of (P.t4_new _) h; exact this)
  | fft ho h => exact P.odd4_obj (self_of (P.odd4_new (hf _ ho)) h)
  | type3 hi h => exact P.even4_obj (self_of (P.even4_new (P.made23 hf hi)) h)

theorem madeDct5 {o : Obj1 T} (h : MadeDct5 o) : Obj1Rel P.d o o := by
  cases h with
  | naive h => exact P.dct5_obj (by have := self_of (P.dct5_new _) h; exact this)

theorem madeDst5 {o : Obj1 T} (h : MadeDst5 o) : Obj1Rel P.d o o := by
  cases h with
  | naive h => exact P.dst5_obj (by have := self_of (P.dst5_new _) h; exact this)

theorem madeDct8 {o : Obj1 T} (h : MadeDct8 o) : Obj1Rel P.d o o := by
  cases h with
  | naive h => exact P.dct8_obj (by have := self_of (P.dct8_new _) h; exact this)

theorem madeDst8 {o : Obj1 T} (h : MadeDst8 o) : Obj1Rel P.d o o := by
  cases h with
  | naive h => exact P.dst8_obj (by have := self_of (P.dst8_new _) h; exact this)

theorem madeDct67 {o : Obj67 T} (h : MadeDct67 o) : Obj67Rel P.d o o := by
  cases h with
  | naive h => exact P.dct67_obj (by have := self_of (P.dct67_new _) h; exact this)

theorem madeDst67 (hf : ∀ f, okFft f → FftRel P.d f f) {o : Obj67 T} (h : MadeDst67 okFft o) : Obj67Rel P.d o o := by
  cases h with
  | naive h => exact P.dst67_obj (by have := self_of (P.dst67_new _) h; exact this)
  | fft ho h => exact P.fft67_obj (self_of (P.fft67_new (hf _ ho)) h)

theorem madeMdct' (hf : ∀ f, okFft f → FftRel P.d f f) {w : List T} (hw : LRel P.c w w) {o : MdctObj T} (h : MadeMdct okFft w o) : MdctObjRel P.d o o := by
  cases h with
  | naive h => exact P.mnaive_obj (self_of (P.mnaive_new _ hw) h)
  | viaDct4 hi h => exact P.mvia_obj (self_of (P.mvia_new (P.made4 hf hi) hw) h)

theorem madeMdct (hc : ∀ x, P.c x x) (hf : ∀ f, okFft f → FftRel P.d f f) {w : List T} {o : MdctObj T} (h : MadeMdct okFft w o) : MdctObjRel P.d o o :=
  P.madeMdct' hf (List.forall₂_same.2 fun x _ => hc x) h

/-- Every method. -/
theorem method (hf : ∀ f, okFft f → FftRel P.d f f) {k : Kind} {p : Proc T} {n s : ℕ} (h : Method okFft k p n s) : ProcRel P.d p p := by
  cases h with
  | dct1 h _ => exact (P.madeDct1 hf h).run
  | dct2 h => exact (P.made23 hf h).dct2
  | dct3 h _ => exact (P.made23 hf h).dct3
  | dct4 h _ => exact (P.made4 hf h).dct4
  | dct5 h => exact (P.madeDct5 h).run
  | dct6 h => exact (P.madeDct67 h).t6
  | dct7 h => exact (P.madeDct67 h).t7
  | dct8 h => exact (P.madeDct8 h).run
  | dst1 h => exact (P.madeDst1 hf h).run
  | dst2 h => exact (P.made23 hf h).dst2
  | dst3 h _ => exact (P.made23 hf h).dst3
  | dst4 h _ => exact (P.made4 hf h).dst4
  | dst5 h => exact (P.madeDst5 h).run
  | dst6 h => exact (P.madeDst67 hf h).t6
  | dst7 h => exact (P.madeDst67 hf h).t7
  | dst8 h => exact (P.madeDst8 h).run

end Param
end RustDct
