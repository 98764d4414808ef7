import Verif.Param.Logic
import Verif.Model.ConvertFft
/-!
# Related runs: the algorithms which convert the problem to an FFT
-/

set_option linter.all false

namespace RustDct

variable {T T' F F' : Type} [F64 F] [DctNum T F] [F64 F'] [DctNum T' F'] (P : Param T T')

theorem fillWhileInput_rel {α α' : Type} {r : α → α' → Prop} {len : Nat} {v : Nat → Except Err (Cx α)} {v' : Nat → Except Err (Cx α')} (hv : ∀ i, ERel (CxRel r) (v i) (v' i)) (i j : Nat)
    {b : List (Cx α)} {b' : List (Cx α')} (hb : LRel (CxRel r) b b') :
    ERel (PRl Eq (PRl Eq (LRel (CxRel r)))) (fillWhileInput len v i j b) (fillWhileInput len v' i j b') := by
  induction hk : len - i using Nat.strongRecOn generalizing i j b b' with
  | ind k ih =>
    unfold fillWhileInput
    refine ERel.ite Iff.rfl (fun h => ?_) fun _ => .ok ⟨rfl, rfl, hb⟩
    exact (hv i).bind fun x x' hx => (ERel.wr hb hx).bind fun c c' hc => ih _ (by omega) (i + 4) (j + 1) hc rfl

theorem fillWhileFft_rel {α α' : Type} {r : α → α' → Prop} {len : Nat} {v : Nat → Except Err (Cx α)} {v' : Nat → Except Err (Cx α')} (hv : ∀ i, ERel (CxRel r) (v i) (v' i)) (i j : Nat)
    {b : List (Cx α)} {b' : List (Cx α')} (hb : LRel (CxRel r) b b') : ERel (LRel (CxRel r)) (fillWhileFft len v i j b) (fillWhileFft len v' i j b') := by
  induction hk : len - j using Nat.strongRecOn generalizing i j b b' with
  | ind k ih =>
    unfold fillWhileFft
    refine ERel.ite Iff.rfl (fun h => ?_) fun _ => .ok hb
    exact (hv i).bind fun x x' hx => (ERel.wr hb hx).bind fun c c' hc => ih _ (by omega) (i + 4) (j + 1) hc rfl

theorem rdMirror_rel {α α' : Type} {r : α → α' → Prop} {b : List α} {b' : List α'} (hb : LRel r b b') {n i : Nat} : ERel r (rdMirror b n i) (rdMirror b' n i) := by
  unfold rdMirror
  erel

macro_rules
  | `(tactic| erel0) => `(tactic| (guard_head fillWhileInput; exact fillWhileInput_rel (by intro i; beta_reduce; erel) _ _ (by drel)))
macro_rules
  | `(tactic| erel0) => `(tactic| (guard_head fillWhileFft; exact fillWhileFft_rel (by intro i; beta_reduce; erel) _ _ (by drel)))
macro_rules
  | `(tactic| erel0) => `(tactic| (guard_head rdMirror; exact rdMirror_rel (by drel)))

namespace Param

structure D1fft (s : Dct1ConvertToFft T) (s' : Dct1ConvertToFft T') : Prop where
  fft : FftRel P.d s.fft s'.fft
  len : s.len = s'.len
  scratchLen : s.scratchLen = s'.scratchLen
  innerFftLen : s.innerFftLen = s'.innerFftLen

theorem d1fft_len {s : Dct1ConvertToFft T} {s' : Dct1ConvertToFft T'} (h : P.D1fft s s') : s.len = s'.len := h.len

theorem d1fft_dct1 {s : Dct1ConvertToFft T} {s' : Dct1ConvertToFft T'} (h : P.D1fft s s') : ProcRel P.d s.dct1 s'.dct1 := by
  mrel P.d1fft_len h, h.scratchLen
  obtain ⟨h0, h1, h2, h3⟩ := h
  try rw [P.d1fft_len ⟨h0, h1, h2, h3⟩]
  erel

theorem d1fft_obj {s : Dct1ConvertToFft T} {s' : Dct1ConvertToFft T'} (h : P.D1fft s s') : Obj1Rel P.d s.toObj s'.toObj :=
  ⟨P.d1fft_len h, h.scratchLen, P.d1fft_dct1 h⟩

theorem d1fft_new {f : Fft T} {f' : Fft T'} (h : FftRel P.d f f') : ERel P.D1fft (Dct1ConvertToFft.new f) (Dct1ConvertToFft.new f') := by
  unfold Dct1ConvertToFft.new
  rw [h.len, h.direction, h.scratchLen]
  exact ERel.ite Iff.rfl (fun _ => .error) fun _ => ERel.ite Iff.rfl (fun _ => .error) fun _ => .ok ⟨h, rfl, rfl, rfl⟩

structure S1fft (s : Dst1ConvertToFft T) (s' : Dst1ConvertToFft T') : Prop where
  fft : FftRel P.d s.fft s'.fft
  len : s.len = s'.len
  scratchLen : s.scratchLen = s'.scratchLen
  innerFftLen : s.innerFftLen = s'.innerFftLen

theorem s1fft_len {s : Dst1ConvertToFft T} {s' : Dst1ConvertToFft T'} (h : P.S1fft s s') : s.len = s'.len := h.len

theorem s1fft_dst1 {s : Dst1ConvertToFft T} {s' : Dst1ConvertToFft T'} (h : P.S1fft s s') : ProcRel P.d s.dst1 s'.dst1 := by
  mrel P.s1fft_len h, h.scratchLen
  obtain ⟨h0, h1, h2, h3⟩ := h
  try rw [P.s1fft_len ⟨h0, h1, h2, h3⟩]
  erel

theorem s1fft_obj {s : Dst1ConvertToFft T} {s' : Dst1ConvertToFft T'} (h : P.S1fft s s') : Obj1Rel P.d s.toObj s'.toObj :=
  ⟨P.s1fft_len h, h.scratchLen, P.s1fft_dst1 h⟩

theorem s1fft_new {f : Fft T} {f' : Fft T'} (h : FftRel P.d f f') : ERel P.S1fft (Dst1ConvertToFft.new f) (Dst1ConvertToFft.new f') := by
  unfold Dst1ConvertToFft.new
  rw [h.len, h.direction, h.scratchLen]
  exact ERel.ite Iff.rfl (fun _ => .error) fun _ => ERel.ite Iff.rfl (fun _ => .error) fun _ => ERel.bindEq .csub fun _ => .ok ⟨h, rfl, rfl, rfl⟩

structure Fft23 (s : Type2And3ConvertToFft T) (s' : Type2And3ConvertToFft T') : Prop where
  fft : FftRel P.d s.fft s'.fft
  twiddles : LRel (CxRel P.c) s.twiddles s'.twiddles
  scratchLen : s.scratchLen = s'.scratchLen

theorem fft23_len {s : Type2And3ConvertToFft T} {s' : Type2And3ConvertToFft T'} (h : P.Fft23 s s') : s.len = s'.len := by
  unfold Type2And3ConvertToFft.len
  exact h.twiddles.length_eq

theorem fft23_dct2 {s : Type2And3ConvertToFft T} {s' : Type2And3ConvertToFft T'} (h : P.Fft23 s s') : ProcRel P.d s.dct2 s'.dct2 := by
  mrel P.fft23_len h, h.scratchLen
  obtain ⟨h0, h1, h2⟩ := h
  try rw [P.fft23_len ⟨h0, h1, h2⟩]
  erel

theorem fft23_dct3 {s : Type2And3ConvertToFft T} {s' : Type2And3ConvertToFft T'} (h : P.Fft23 s s') : ProcRel P.d s.dct3 s'.dct3 := by
  mrel P.fft23_len h, h.scratchLen
  obtain ⟨h0, h1, h2⟩ := h
  try rw [P.fft23_len ⟨h0, h1, h2⟩]
  erel

theorem fft23_dst2 {s : Type2And3ConvertToFft T} {s' : Type2And3ConvertToFft T'} (h : P.Fft23 s s') : ProcRel P.d s.dst2 s'.dst2 := by
  mrel P.fft23_len h, h.scratchLen
  obtain ⟨h0, h1, h2⟩ := h
  try rw [P.fft23_len ⟨h0, h1, h2⟩]
  erel

theorem fft23_dst3 {s : Type2And3ConvertToFft T} {s' : Type2And3ConvertToFft T'} (h : P.Fft23 s s') : ProcRel P.d s.dst3 s'.dst3 := by
  mrel P.fft23_len h, h.scratchLen
  obtain ⟨h0, h1, h2⟩ := h
  try rw [P.fft23_len ⟨h0, h1, h2⟩]
  erel

theorem fft23_obj {s : Type2And3ConvertToFft T} {s' : Type2And3ConvertToFft T'} (h : P.Fft23 s s') : Obj23Rel P.d s.toObj s'.toObj :=
  ⟨P.fft23_len h, h.scratchLen, P.fft23_dct2 h, P.fft23_dct3 h, P.fft23_dst2 h, P.fft23_dst3 h⟩

theorem fft23_new {f : Fft T} {f' : Fft T'} (h : FftRel P.d f f') : ERel P.Fft23 (Type2And3ConvertToFft.new f) (Type2And3ConvertToFft.new f') := by
  unfold Type2And3ConvertToFft.new
  rw [h.len, h.direction, h.scratchLen]
  exact ERel.ite Iff.rfl (fun _ => .error) fun _ => .ok ⟨h, LRel.ofMap fun i => P.c_twiddle _ _, rfl⟩

structure Odd4 (s : Type4ConvertToFftOdd T) (s' : Type4ConvertToFftOdd T') : Prop where
  fft : FftRel P.d s.fft s'.fft
  len : s.len = s'.len
  scratchLen : s.scratchLen = s'.scratchLen

theorem odd4_len {s : Type4ConvertToFftOdd T} {s' : Type4ConvertToFftOdd T'} (h : P.Odd4 s s') : s.len = s'.len := h.len

theorem odd4_dct4 {s : Type4ConvertToFftOdd T} {s' : Type4ConvertToFftOdd T'} (h : P.Odd4 s s') : ProcRel P.d s.dct4 s'.dct4 := by
  mrel P.odd4_len h, h.scratchLen
  obtain ⟨h0, h1, h2⟩ := h
  try rw [P.odd4_len ⟨h0, h1, h2⟩]
  erel

theorem odd4_dst4 {s : Type4ConvertToFftOdd T} {s' : Type4ConvertToFftOdd T'} (h : P.Odd4 s s') : ProcRel P.d s.dst4 s'.dst4 := by
  mrel P.odd4_len h, h.scratchLen
  obtain ⟨h0, h1, h2⟩ := h
  try rw [P.odd4_len ⟨h0, h1, h2⟩]
  erel

theorem odd4_obj {s : Type4ConvertToFftOdd T} {s' : Type4ConvertToFftOdd T'} (h : P.Odd4 s s') : Obj4Rel P.d s.toObj s'.toObj :=
  ⟨P.odd4_len h, h.scratchLen, P.odd4_dct4 h, P.odd4_dst4 h⟩

theorem odd4_new {f : Fft T} {f' : Fft T'} (h : FftRel P.d f f') : ERel P.Odd4 (Type4ConvertToFftOdd.new f) (Type4ConvertToFftOdd.new f') := by
  unfold Type4ConvertToFftOdd.new
  rw [h.len, h.direction, h.scratchLen]
  exact ERel.ite Iff.rfl (fun _ => .error) fun _ => ERel.ite Iff.rfl (fun _ => .error) fun _ => .ok ⟨h, rfl, rfl⟩

structure Fft67 (s : Dst6And7ConvertToFft T) (s' : Dst6And7ConvertToFft T') : Prop where
  fft : FftRel P.d s.fft s'.fft
  len : s.len = s'.len
  scratchLen : s.scratchLen = s'.scratchLen
  innerFftLen : s.innerFftLen = s'.innerFftLen

theorem fft67_len {s : Dst6And7ConvertToFft T} {s' : Dst6And7ConvertToFft T'} (h : P.Fft67 s s') : s.len = s'.len := h.len

theorem fft67_dst6 {s : Dst6And7ConvertToFft T} {s' : Dst6And7ConvertToFft T'} (h : P.Fft67 s s') : ProcRel P.d s.dst6 s'.dst6 := by
  mrel P.fft67_len h, h.scratchLen
  obtain ⟨h0, h1, h2, h3⟩ := h
  try rw [P.fft67_len ⟨h0, h1, h2, h3⟩]
  erel

theorem fft67_dst7 {s : Dst6And7ConvertToFft T} {s' : Dst6And7ConvertToFft T'} (h : P.Fft67 s s') : ProcRel P.d s.dst7 s'.dst7 := by
  mrel P.fft67_len h, h.scratchLen
  obtain ⟨h0, h1, h2, h3⟩ := h
  try rw [P.fft67_len ⟨h0, h1, h2, h3⟩]
  erel

theorem fft67_obj {s : Dst6And7ConvertToFft T} {s' : Dst6And7ConvertToFft T'} (h : P.Fft67 s s') : Obj67Rel P.d s.toObj s'.toObj :=
  ⟨P.fft67_len h, h.scratchLen, P.fft67_dst6 h, P.fft67_dst7 h⟩

theorem fft67_new {f : Fft T} {f' : Fft T'} (h : FftRel P.d f f') : ERel P.Fft67 (Dst6And7ConvertToFft.new f) (Dst6And7ConvertToFft.new f') := by
  unfold Dst6And7ConvertToFft.new
  rw [h.len, h.direction, h.scratchLen]
  exact ERel.ite Iff.rfl (fun _ => .error) fun _ => ERel.ite Iff.rfl (fun _ => .error) fun _ => ERel.bindEq .csub fun _ => .ok ⟨h, rfl, rfl, rfl⟩

end Param
end RustDct
