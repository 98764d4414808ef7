import Verif.FftPanics
import Verif.Proofs.ConvertFft
import Verif.Proofs.SplitRadix
import Verif.Proofs.Made
import Verif.Proofs.MadeMdct
import Verif.Props.Safety
set_option linter.all false
namespace RustDct
variable {T F M : Type} [F64 F] [DctNum T F]

theorem Records.rfl' {a : Outcome M} : Records a a := by cases a <;> simp [Records]

theorem FftMethod.records (x : FftMethod T) (left : Left T) (m : Mem T) {body : List T → List T → Except Err (List T × List T)}
    (h : ∀ b s, body b s = (x.pre b s >>= fun r => x.fft.process r.2.1 r.2.2 >>= fun q => x.post r.1 q.1 >>= fun b =>
      .ok (b, fromComplex (q.1 ++ q.2) s))) : Records (validateBuffers m x.len x.scratchLen body) (x.run left m) := by
  unfold validateBuffers FftMethod.run
  split
  · exact Records.rfl'
  split
  · rw [h]
    dsimp only
    cases x.pre m.buf (m.scr.take x.scratchLen) with
    | error e => exact ⟨rfl, .inl rfl⟩
    | ok r =>
      obtain ⟨b, fb, fs⟩ := r
      dsimp only [bind, Except.bind]
      cases x.fft.process fb fs with
      | error e => exact ⟨rfl, .inl rfl⟩
      | ok q =>
        obtain ⟨fb', fs'⟩ := q
        dsimp only [bind, Except.bind]
        cases x.post b fb' with
        | error e => exact ⟨rfl, .inl rfl⟩
        | ok b => exact rfl
  · exact Records.rfl'

theorem ite_bind_ex {α β ε : Type} (c : Prop) [Decidable c] (a b : Except ε α) (f : α → Except ε β) :
    ((if c then a else b) >>= f) = if c then a >>= f else b >>= f := by split <;> rfl


theorem dct1_records (x : Dct1ConvertToFft T) (left : Left T) (m : Mem T) : Records (x.dct1 m) (x.dct1Cut.run left m) := by
  unfold Dct1ConvertToFft.dct1
  refine FftMethod.records x.dct1Cut left m fun b s => ?_
  simp only [Dct1ConvertToFft.dct1Cut, bind_assoc, ok_bind, ite_bind_ex]

theorem dst1_records (x : Dst1ConvertToFft T) (left : Left T) (m : Mem T) : Records (x.dst1 m) (x.dst1Cut.run left m) := by
  unfold Dst1ConvertToFft.dst1
  refine FftMethod.records x.dst1Cut left m fun b s => ?_
  simp only [Dst1ConvertToFft.dst1Cut, bind_assoc, ok_bind, ite_bind_ex]

theorem dct2_records (x : Type2And3ConvertToFft T) (left : Left T) (m : Mem T) : Records (x.dct2 m) (x.dct2Cut.run left m) := by
  unfold Type2And3ConvertToFft.dct2
  refine FftMethod.records x.dct2Cut left m fun b s => ?_
  simp only [Type2And3ConvertToFft.dct2Cut, bind_assoc, ok_bind, ite_bind_ex]

theorem dst2_records (x : Type2And3ConvertToFft T) (left : Left T) (m : Mem T) : Records (x.dst2 m) (x.dst2Cut.run left m) := by
  unfold Type2And3ConvertToFft.dst2
  refine FftMethod.records x.dst2Cut left m fun b s => ?_
  simp only [Type2And3ConvertToFft.dst2Cut, bind_assoc, ok_bind, ite_bind_ex]

theorem dct3_records (x : Type2And3ConvertToFft T) (left : Left T) (m : Mem T) : Records (x.dct3 m) (x.dct3Cut.run left m) := by
  unfold Type2And3ConvertToFft.dct3
  refine FftMethod.records x.dct3Cut left m fun b s => ?_
  simp only [Type2And3ConvertToFft.dct3Cut, bind_assoc, ok_bind, ite_bind_ex]

theorem dst3_records (x : Type2And3ConvertToFft T) (left : Left T) (m : Mem T) : Records (x.dst3 m) (x.dst3Cut.run left m) := by
  unfold Type2And3ConvertToFft.dst3
  refine FftMethod.records x.dst3Cut left m fun b s => ?_
  simp only [Type2And3ConvertToFft.dst3Cut, bind_assoc, ok_bind, ite_bind_ex]

theorem dct4_records (x : Type4ConvertToFftOdd T) (left : Left T) (m : Mem T) : Records (x.dct4 m) (x.dct4Cut.run left m) := by
  unfold Type4ConvertToFftOdd.dct4
  refine FftMethod.records x.dct4Cut left m fun b s => ?_
  simp only [Type4ConvertToFftOdd.dct4Cut, bind_assoc, ok_bind, ite_bind_ex]

theorem dst4_records (x : Type4ConvertToFftOdd T) (left : Left T) (m : Mem T) : Records (x.dst4 m) (x.dst4Cut.run left m) := by
  unfold Type4ConvertToFftOdd.dst4
  refine FftMethod.records x.dst4Cut left m fun b s => ?_
  simp only [Type4ConvertToFftOdd.dst4Cut, bind_assoc, ok_bind, ite_bind_ex]

theorem dst6_records (x : Dst6And7ConvertToFft T) (left : Left T) (m : Mem T) : Records (x.dst6 m) (x.dst6Cut.run left m) := by
  unfold Dst6And7ConvertToFft.dst6
  refine FftMethod.records x.dst6Cut left m fun b s => ?_
  simp only [Dst6And7ConvertToFft.dst6Cut, bind_assoc, ok_bind, ite_bind_ex]

theorem dst7_records (x : Dst6And7ConvertToFft T) (left : Left T) (m : Mem T) : Records (x.dst7 m) (x.dst7Cut.run left m) := by
  unfold Dst6And7ConvertToFft.dst7
  refine FftMethod.records x.dst7Cut left m fun b s => ?_
  simp only [Dst6And7ConvertToFft.dst7Cut, bind_assoc, ok_bind, ite_bind_ex]

/-! ### Inner instances -/

/-- `b` is `a` with some memory contents recorded. -/
def TRec {α : Type} : Except Err α → Trk M α → Prop
  | .ok x, .ok y => x = y
  | .error e, .error e' => e = e'.1
  | _, _ => False

theorem trec_untracked {α : Type} (a : Except Err α) : TRec a (untracked a : Trk M α) := by cases a <;> exact rfl

theorem trec_ok {α : Type} (a : α) : TRec (.ok a) (.ok a : Trk M α) := rfl

theorem trec_bind {α β : Type} {a : Except Err α} {b : Trk M α} {f : α → Except Err β} {g : α → Trk M β} (h : TRec a b) (hf : ∀ x, TRec (f x) (g x)) :
    TRec (a >>= f) (b >>= g) := by
  cases a <;> cases b <;> simp only [TRec] at h
  · exact h
  · subst h; exact hf _

theorem trec_call {p q : Proc T} (h : ∀ m, Records (p m) (q m)) (b s : List T) (mem : List T → List T → M) : TRec (callProc p b s) (callTrk q b s mem) := by
  unfold callProc callTrk
  have := h ⟨b, s⟩
  cases e1 : p ⟨b, s⟩ <;> cases e2 : q ⟨b, s⟩ <;> rw [e1, e2] at this
  · rw [show _ = _ from this]; exact rfl
  · exact False.elim this
  · exact False.elim this
  · rename_i e o e' o'
    cases o' <;> exact this.1

theorem records_validateBuffers {m : Mem T} {n s : ℕ} {body body'} (h : ∀ b s, TRec (body b s) (body' b s)) :
    Records (validateBuffers m n s body) (validateBuffersTrk m n s body') := by
  unfold validateBuffers validateBuffersTrk
  split
  · exact Records.rfl'
  split
  · have := h m.buf (m.scr.take s)
    cases e1 : body m.buf (m.scr.take s) <;> cases e2 : body' m.buf (m.scr.take s) <;> rw [e1, e2] at this
    · rename_i x y
      obtain ⟨e', o⟩ := y
      cases o <;> exact ⟨this, .inl rfl⟩
    · exact False.elim this
    · exact False.elim this
    · rw [show _ = _ from this]; exact rfl
  · exact Records.rfl'

theorem trec_pair {p1 p2 q1 q2 : Proc T} (h1 : ∀ m, Records (p1 m) (q1 m)) (h2 : ∀ m, Records (p2 m) (q2 m)) (l r b ex : List T) :
    TRec (runInnerPair p1 p2 l r b ex) (runInnerPairTrk q1 q2 l r b ex) := by
  unfold runInnerPair runInnerPairTrk
  split
  · refine trec_bind (trec_call h1 _ _ _) fun x => ?_
    refine trec_bind (trec_call h2 _ _ _) fun y => ?_
    exact rfl
  · refine trec_bind (trec_call h1 _ _ _) fun x => ?_
    refine trec_bind (trec_call h2 _ _ _) fun y => ?_
    exact rfl

abbrev EvenPre (T : Type) := List T → List T → Except Err (List T × List T × List T × List T)
abbrev EvenPost (T : Type) := List T → List T → List T → Except Err (List T)

/-- Both methods of `Type4ConvertToType3Even`. -/
def evenBody (pre : EvenPre T) (post : EvenPost T) (p1 p2 : Proc T) (b s : List T) : Except Err (List T × List T) :=
  pre b s >>= fun x => runInnerPair p1 p2 x.2.1 x.2.2.1 x.1 x.2.2.2 >>= fun y => post y.2.2.1 y.1 y.2.1 >>= fun b => .ok (b, (y.1 ++ y.2.1) ++ y.2.2.2)

def evenTrk (pre : EvenPre T) (post : EvenPost T) (p1 p2 : Proc T) (b s : List T) : Trk (List T × List T) (List T × List T) :=
  untracked (pre b s) >>= fun x => runInnerPairTrk p1 p2 x.2.1 x.2.2.1 x.1 x.2.2.2 >>= fun y => untracked (post y.2.2.1 y.1 y.2.1) >>= fun b =>
    .ok (b, (y.1 ++ y.2.1) ++ y.2.2.2)

theorem trec_even (pre : EvenPre T) (post : EvenPost T) {p1 p2 q1 q2 : Proc T} (h1 : ∀ m, Records (p1 m) (q1 m)) (h2 : ∀ m, Records (p2 m) (q2 m)) (b s : List T) :
    TRec (evenBody pre post p1 p2 b s) (evenTrk pre post q1 q2 b s) :=
  trec_bind (trec_untracked _) fun _ => trec_bind (trec_pair h1 h2 _ _ _ _) fun _ => trec_bind (trec_untracked _) fun _ => trec_ok _

theorem even_dct4_eq (x : Type4ConvertToType3Even T) : x.dct4 = fun m => validateBuffers m x.len x.scratchLen (evenBody x.dct4Pre x.dct4Post x.innerDct.dct3 x.innerDct.dst3) := by
  funext m
  unfold Type4ConvertToType3Even.dct4
  congr 1
  funext b s
  simp only [evenBody, Type4ConvertToType3Even.dct4Pre, Type4ConvertToType3Even.dct4Post, bind_assoc, ok_bind]

theorem even_dst4_eq (x : Type4ConvertToType3Even T) : x.dst4 = fun m => validateBuffers m x.len x.scratchLen (evenBody x.dst4Pre x.dst4Post x.innerDct.dst3 x.innerDct.dct3) := by
  funext m
  unfold Type4ConvertToType3Even.dst4
  congr 1
  funext b s
  simp only [evenBody, Type4ConvertToType3Even.dst4Pre, Type4ConvertToType3Even.dst4Post, bind_assoc, ok_bind]

theorem even_dct4Trk_eq (x : Type4ConvertToType3Even T) (o : Obj23 T) :
    x.dct4Trk o = fun m => validateBuffersTrk m x.len x.scratchLen (evenTrk x.dct4Pre x.dct4Post o.dct3 o.dst3) := rfl

theorem even_dst4Trk_eq (x : Type4ConvertToType3Even T) (o : Obj23 T) :
    x.dst4Trk o = fun m => validateBuffersTrk m x.len x.scratchLen (evenTrk x.dst4Pre x.dst4Post o.dst3 o.dct3) := rfl

theorem even_dct4_records (x : Type4ConvertToType3Even T) {o : Obj23 T} (h3 : ∀ m, Records (x.innerDct.dct3 m) (o.dct3 m))
    (h3' : ∀ m, Records (x.innerDct.dst3 m) (o.dst3 m)) (m : Mem T) : Records (x.dct4 m) (x.dct4Trk o m) := by
  rw [even_dct4_eq, even_dct4Trk_eq]
  exact records_validateBuffers (trec_even _ _ h3 h3')

theorem even_dst4_records (x : Type4ConvertToType3Even T) {o : Obj23 T} (h3 : ∀ m, Records (x.innerDct.dct3 m) (o.dct3 m))
    (h3' : ∀ m, Records (x.innerDct.dst3 m) (o.dst3 m)) (m : Mem T) : Records (x.dst4 m) (x.dst4Trk o m) := by
  rw [even_dst4_eq, even_dst4Trk_eq]
  exact records_validateBuffers (trec_even _ _ h3' h3)

theorem mdct_eq (x : MdctViaDct4 T) (a b : List T) : x.mdct a b = fun m => validateMdct a b m x.len x.scratchLen fun o s =>
    x.mdctPre a b o >>= fun o => callProc x.dct.dct4 o s := by
  funext m
  unfold MdctViaDct4.mdct
  congr 1
  funext o s
  simp only [MdctViaDct4.mdctPre, bind_assoc, ok_bind]

theorem imdct_eq (x : MdctViaDct4 T) (a : List T) : x.imdct a = fun m => validateImdct a m x.len x.scratchLen fun oa ob s =>
    splitAtMut s x.len >>= fun y => copyFromSlice y.1 a >>= fun d => callProc x.dct.dct4 d y.2 >>= fun z => x.imdctPost oa ob z.1 >>= fun w =>
      .ok (w.1, w.2, z.1 ++ z.2) := by
  funext m
  unfold MdctViaDct4.imdct
  congr 1
  funext oa ob s
  simp only [MdctViaDct4.imdctPost, bind_assoc, ok_bind]

theorem mdct_records (x : MdctViaDct4 T) {q : Proc T} (h : ∀ m, Records (x.dct.dct4 m) (q m)) (a b : List T) (m : Mem T) :
    Records (x.mdct a b m) (x.mdctTrk q a b m) := by
  rw [mdct_eq]
  unfold MdctViaDct4.mdctTrk validateMdct
  beta_reduce
  split
  · exact Records.rfl'
  split
  · have : TRec (x.mdctPre a b m.buf >>= fun o => callProc x.dct.dct4 o (m.scr.take x.scratchLen))
      ((untracked (x.mdctPre a b m.buf) >>= fun o => callTrk q o (m.scr.take x.scratchLen) fun o s => (o, s)) : Trk (List T × List T) _) :=
      trec_bind (trec_untracked _) fun _ => trec_call h _ _ _
    generalize e1 : (x.mdctPre a b m.buf >>= fun o => callProc x.dct.dct4 o (m.scr.take x.scratchLen)) = A at this ⊢
    generalize e2 : ((untracked (x.mdctPre a b m.buf) >>= fun o => callTrk q o (m.scr.take x.scratchLen) fun o s => (o, s)) : Trk (List T × List T) _) = B at this ⊢
    cases A <;> cases B
    · rename_i x y
      obtain ⟨e', o⟩ := y
      cases o <;> exact ⟨this, .inl rfl⟩
    · exact False.elim this
    · exact False.elim this
    · rw [show _ = _ from this]; exact rfl
  · exact Records.rfl'

theorem imdct_records (x : MdctViaDct4 T) {q : Proc T} (h : ∀ m, Records (x.dct.dct4 m) (q m)) (a : List T) (m : IMem T) :
    Records (x.imdct a m) (x.imdctTrk q a m) := by
  rw [imdct_eq]
  unfold MdctViaDct4.imdctTrk validateImdct
  beta_reduce
  split
  · exact Records.rfl'
  split
  · have : TRec (splitAtMut (m.scr.take x.scratchLen) x.len >>= fun y => copyFromSlice y.1 a >>= fun d => callProc x.dct.dct4 d y.2 >>= fun z =>
        x.imdctPost m.outA m.outB z.1 >>= fun w => .ok (w.1, w.2, z.1 ++ z.2))
      ((untracked (splitAtMut (m.scr.take x.scratchLen) x.len) >>= fun y => untracked (copyFromSlice y.1 a) >>= fun d =>
        callTrk q d y.2 (fun d s => (m.outA, m.outB, d ++ s)) >>= fun z =>
        untracked (x.imdctPost m.outA m.outB z.1) >>= fun w => .ok (w.1, w.2, z.1 ++ z.2)) : Trk (List T × List T × List T) _) :=
      trec_bind (trec_untracked _) fun _ => trec_bind (trec_untracked _) fun _ => trec_bind (trec_call h _ _ _) fun _ => trec_bind (trec_untracked _) fun _ => trec_ok _
    generalize e1 : (splitAtMut (m.scr.take x.scratchLen) x.len >>= fun y => copyFromSlice y.1 a >>= fun d => callProc x.dct.dct4 d y.2 >>= fun z =>
        x.imdctPost m.outA m.outB z.1 >>= fun w => .ok (w.1, w.2, z.1 ++ z.2)) = A at this ⊢
    generalize e2 : ((untracked (splitAtMut (m.scr.take x.scratchLen) x.len) >>= fun y => untracked (copyFromSlice y.1 a) >>= fun d =>
        callTrk q d y.2 (fun d s => (m.outA, m.outB, d ++ s)) >>= fun z =>
        untracked (x.imdctPost m.outA m.outB z.1) >>= fun w => .ok (w.1, w.2, z.1 ++ z.2)) : Trk (List T × List T × List T) _) = B at this ⊢
    cases A <;> cases B
    · rename_i x y
      obtain ⟨e', o⟩ := y
      cases o <;> exact ⟨this, .inl rfl⟩
    · exact False.elim this
    · exact False.elim this
    · rw [show _ = _ from this]; exact rfl
  · exact Records.rfl'
/-! ### Valid calls return or stop in the FFT -/

/-- The same FFT with another implementation. -/
def Fft.with (f : Fft T) (process : List (Cx T) → List (Cx T) → Except Err (List (Cx T) × List (Cx T))) : Fft T := { f with process }

theorem FftMethod.stops {x : FftMethod T} {left : Left T} (hl : left.Fits) (hf : FftFits x.fft) (hs : x.scratchLen = 2 * (x.fft.len + x.fft.inplaceScratchLen))
    (hsafe : ∀ g, FftSane (x.fft.with g) → Safe (({ x with fft := x.fft.with g } : FftMethod T).run left) x.len x.scratchLen)
    (hpre : ∀ b s, x.pre b s = (x.pre b s).map fun r => (b, r.2)) : StopsInFft left x.fft (x.run left) x.len x.scratchLen := by
  classical
  intro m hm
  -- an FFT that checks its arguments
  let t1 : Fft T := x.fft.with fun b s => if b.length = x.fft.len ∧ x.fft.inplaceScratchLen ≤ s.length then .ok (b, s) else .error .assertion
  have st1 : FftSane t1 := ⟨id, fun l h => h, fun b s h1 h2 => ⟨s, if_pos ⟨h1, h2⟩, rfl⟩⟩
  obtain ⟨m1, h1, h1b, h1l, h1d⟩ := hsafe _ st1 m hm
  have hp := hpre m.buf (m.scr.take x.scratchLen)
  obtain ⟨hm1, hm2⟩ := hm
  simp only [FftMethod.run, hm1, hm2, ne_eq, not_true_eq_false, if_false, if_true] at h1 ⊢
  cases ep : x.pre m.buf (m.scr.take x.scratchLen) with
  | error e => rw [ep] at h1; cases h1
  | ok r =>
    obtain ⟨b0, fb, fs⟩ := r
    rw [ep] at h1 hp
    simp only [Except.map] at hp
    injection hp with hp
    injection hp with hp
    subst hp
    dsimp only at h1 ⊢
    have hv : fb.length = x.fft.len ∧ x.fft.inplaceScratchLen ≤ fs.length := by
      by_contra hc
      rw [show t1.process fb fs = .error .assertion from if_neg hc] at h1
      cases h1
    rw [show t1.process fb fs = .ok (fb, fs) from if_pos hv] at h1
    dsimp only at h1
    have hlen : (fromComplex (fb ++ fs) (m.scr.take x.scratchLen)).length = x.scratchLen := by
      cases eq : x.post m.buf fb with
      | error e => rw [eq] at h1; cases h1
      | ok b' =>
        rw [eq] at h1
        injection h1 with h1
        subst h1
        simp only [List.length_append, List.length_drop] at h1l ⊢
        omega
    have hfs : fs.length = x.fft.inplaceScratchLen := by
      simp only [fromComplex, List.length_append, length_flattenComplex, List.length_drop, List.length_take] at hlen
      omega
    have hfrom : ∀ l : List (Cx T), l.length = fb.length + fs.length → fromComplex l (m.scr.take x.scratchLen) = flattenComplex l := by
      intro l hl
      rw [fromComplex, List.drop_eq_nil_of_le, List.append_nil]
      simp only [List.length_take]
      omega
    cases eq : x.fft.process fb fs with
    | error e =>
      right
      refine ⟨e, fb, fs, hv.1, hfs, eq, ?_⟩
      dsimp only
      rw [hfrom]
      rw [List.length_append, (hl x.fft fb fs).1, (hl x.fft fb fs).2]
    | ok r =>
      left
      obtain ⟨fb', fs'⟩ := r
      have hr := hf _ _ _ _ eq
      let t2 : Fft T := x.fft.with fun b s => .ok (if b = fb then fb' else b, s)
      have st2 : FftSane t2 := ⟨fun b => if b = fb then fb' else b, fun l h => by
        dsimp only
        split
        · rw [hr.1, hv.1]; rfl
        · exact h, fun b s h1 h2 => ⟨s, rfl, rfl⟩⟩
      obtain ⟨m2, h2, h2b, h2l, h2d⟩ := hsafe _ st2 m ⟨hm1, hm2⟩
      simp only [FftMethod.run, hm1, hm2, ne_eq, not_true_eq_false, if_false, if_true] at h2
      rw [ep] at h2
      dsimp only at h2
      rw [show t2.process fb fs = .ok (fb', fs) by simp [t2, Fft.with]] at h2
      dsimp only at h2 ⊢
      cases eq2 : x.post m.buf fb' with
      | error e => rw [eq2] at h2; cases h2
      | ok b' =>
        rw [eq2] at h2
        injection h2 with h2
        subst h2
        refine ⟨_, rfl, h2b, ?_, ?_, ⟨_, _, _, hv.1, hv.2, eq⟩⟩
        · dsimp only at h2l ⊢
          rw [hfrom _ (by rw [List.length_append, hr.1, hr.2])]
          simp only [List.length_append, length_flattenComplex, List.length_drop, hr.1, hr.2]
          omega
        · dsimp only
          rw [hfrom _ (by rw [List.length_append, hr.1, hr.2])]
          refine List.drop_left' ?_
          simp only [List.length_append, length_flattenComplex, hr.1, hr.2]
          omega

theorem Safe.of_records {p q : Proc T} {n s : ℕ} (h : Safe p n s) (hr : ∀ m, Records (p m) (q m)) : Safe q n s := by
  intro m hm
  obtain ⟨m', h1, h2⟩ := h m hm
  have := hr m
  rw [h1] at this
  cases e : q m with
  | ok m2 => rw [e] at this; rw [← show m' = m2 from this]; exact ⟨m', rfl, h2⟩
  | panic e o => rw [e] at this; exact False.elim this

theorem map_bind_ex {α β γ ε : Type} (x : Except ε α) (g : α → Except ε β) (f : β → γ) : Except.map f (x >>= g) = x >>= fun a => Except.map f (g a) := by
  cases x <;> rfl

theorem map_ite_ex {α γ ε : Type} (c : Prop) [Decidable c] (x y : Except ε α) (f : α → γ) : Except.map f (if c then x else y) = if c then Except.map f x else Except.map f y := by
  split <;> rfl

theorem map_ok_ex {α γ ε : Type} (x : α) (f : α → γ) : (Except.map f (.ok x) : Except ε γ) = .ok (f x) := rfl

variable {left : Left T} {fft : Fft T}

theorem Dct1ConvertToFft.new_swap {x : Dct1ConvertToFft T} (h : Dct1ConvertToFft.new fft = .ok x) :
    x.fft = fft ∧ x.scratchLen = 2 * (fft.len + fft.inplaceScratchLen) ∧ ∀ g, Dct1ConvertToFft.new (fft.with g) = .ok { x with fft := fft.with g } := by
  have hg : ∀ g, Dct1ConvertToFft.new (fft.with g) = (Dct1ConvertToFft.new fft).map fun x => { x with fft := fft.with g } := by
    intro g
    simp only [Dct1ConvertToFft.new, map_ite_ex, map_bind_ex, map_ok_ex]
    rfl
  refine ⟨?_, ?_, fun g => by rw [hg g, h]; rfl⟩
  all_goals
    simp only [Dct1ConvertToFft.new] at h
    repeat' split at h
    all_goals first
      | (cases h; done)
      | (injection h with h; subst h; rfl)
      | (cases hc : csub (fft.len / 2) 1 with
        | error e => rw [hc] at h; cases h
        | ok l => rw [hc] at h; injection h with h; subst h; rfl)

theorem dct1_stops (hl : left.Fits) (hf : FftFits fft) {x : Dct1ConvertToFft T} (h : Dct1ConvertToFft.new fft = .ok x) (hn : 2 ≤ x.len) :
    StopsInFft left fft (x.dct1Cut.run left) x.len x.scratchLen := by
  obtain ⟨e1, e2, hs⟩ := Dct1ConvertToFft.new_swap h
  subst e1
  refine FftMethod.stops (x := x.dct1Cut) hl hf e2 (fun g hg => ?_) fun b s => ?_
  · exact (C26_made (F := F) (Method.dct1 (MadeDct1.fft hg (hs g)) hn)).of_records (dct1_records { x with fft := x.fft.with g } left)
  · simp only [Dct1ConvertToFft.dct1Cut, map_bind_ex, map_ok_ex, map_ite_ex]

theorem Dst1ConvertToFft.new_swap {x : Dst1ConvertToFft T} (h : Dst1ConvertToFft.new fft = .ok x) :
    x.fft = fft ∧ x.scratchLen = 2 * (fft.len + fft.inplaceScratchLen) ∧ ∀ g, Dst1ConvertToFft.new (fft.with g) = .ok { x with fft := fft.with g } := by
  have hg : ∀ g, Dst1ConvertToFft.new (fft.with g) = (Dst1ConvertToFft.new fft).map fun x => { x with fft := fft.with g } := by
    intro g
    simp only [Dst1ConvertToFft.new, map_ite_ex, map_bind_ex, map_ok_ex]
    rfl
  refine ⟨?_, ?_, fun g => by rw [hg g, h]; rfl⟩
  all_goals
    simp only [Dst1ConvertToFft.new] at h
    repeat' split at h
    all_goals first
      | (cases h; done)
      | (injection h with h; subst h; rfl)
      | (cases hc : csub (fft.len / 2) 1 with
        | error e => rw [hc] at h; cases h
        | ok l => rw [hc] at h; injection h with h; subst h; rfl)

theorem dst1_stops (hl : left.Fits) (hf : FftFits fft) {x : Dst1ConvertToFft T} (h : Dst1ConvertToFft.new fft = .ok x) :
    StopsInFft left fft (x.dst1Cut.run left) x.len x.scratchLen := by
  obtain ⟨e1, e2, hs⟩ := Dst1ConvertToFft.new_swap h
  subst e1
  refine FftMethod.stops (x := x.dst1Cut) hl hf e2 (fun g hg => ?_) fun b s => ?_
  · exact (C26_made (F := F) (Method.dst1 (MadeDst1.fft hg (hs g)))).of_records (dst1_records { x with fft := x.fft.with g } left)
  · simp only [Dst1ConvertToFft.dst1Cut, map_bind_ex, map_ok_ex, map_ite_ex]

theorem Type2And3ConvertToFft.new_swap {x : Type2And3ConvertToFft T} (h : Type2And3ConvertToFft.new fft = .ok x) :
    x.fft = fft ∧ x.scratchLen = 2 * (fft.len + fft.inplaceScratchLen) ∧ ∀ g, Type2And3ConvertToFft.new (fft.with g) = .ok { x with fft := fft.with g } := by
  have hg : ∀ g, Type2And3ConvertToFft.new (fft.with g) = (Type2And3ConvertToFft.new fft).map fun x => { x with fft := fft.with g } := by
    intro g
    simp only [Type2And3ConvertToFft.new, map_ite_ex, map_bind_ex, map_ok_ex]
    rfl
  refine ⟨?_, ?_, fun g => by rw [hg g, h]; rfl⟩
  all_goals
    simp only [Type2And3ConvertToFft.new] at h
    repeat' split at h
    all_goals first
      | (cases h; done)
      | (injection h with h; subst h; rfl)
      | (cases hc : csub (fft.len / 2) 1 with
        | error e => rw [hc] at h; cases h
        | ok l => rw [hc] at h; injection h with h; subst h; rfl)

theorem dct2_stops (hl : left.Fits) (hf : FftFits fft) {x : Type2And3ConvertToFft T} (h : Type2And3ConvertToFft.new fft = .ok x) :
    StopsInFft left fft (x.dct2Cut.run left) x.len x.scratchLen := by
  obtain ⟨e1, e2, hs⟩ := Type2And3ConvertToFft.new_swap h
  subst e1
  refine FftMethod.stops (x := x.dct2Cut) hl hf e2 (fun g hg => ?_) fun b s => ?_
  · exact (C26_made (F := F) (Method.dct2 (Made23.fft hg (hs g)))).of_records (dct2_records { x with fft := x.fft.with g } left)
  · simp only [Type2And3ConvertToFft.dct2Cut, map_bind_ex, map_ok_ex, map_ite_ex]

theorem dst2_stops (hl : left.Fits) (hf : FftFits fft) {x : Type2And3ConvertToFft T} (h : Type2And3ConvertToFft.new fft = .ok x) :
    StopsInFft left fft (x.dst2Cut.run left) x.len x.scratchLen := by
  obtain ⟨e1, e2, hs⟩ := Type2And3ConvertToFft.new_swap h
  subst e1
  refine FftMethod.stops (x := x.dst2Cut) hl hf e2 (fun g hg => ?_) fun b s => ?_
  · exact (C26_made (F := F) (Method.dst2 (Made23.fft hg (hs g)))).of_records (dst2_records { x with fft := x.fft.with g } left)
  · simp only [Type2And3ConvertToFft.dst2Cut, map_bind_ex, map_ok_ex, map_ite_ex]

theorem dct3_stops (hl : left.Fits) (hf : FftFits fft) {x : Type2And3ConvertToFft T} (h : Type2And3ConvertToFft.new fft = .ok x) (hn : 1 ≤ x.len) :
    StopsInFft left fft (x.dct3Cut.run left) x.len x.scratchLen := by
  obtain ⟨e1, e2, hs⟩ := Type2And3ConvertToFft.new_swap h
  subst e1
  refine FftMethod.stops (x := x.dct3Cut) hl hf e2 (fun g hg => ?_) fun b s => ?_
  · exact (C26_made (F := F) (Method.dct3 (Made23.fft hg (hs g)) hn)).of_records (dct3_records { x with fft := x.fft.with g } left)
  · simp only [Type2And3ConvertToFft.dct3Cut, map_bind_ex, map_ok_ex, map_ite_ex]

theorem dst3_stops (hl : left.Fits) (hf : FftFits fft) {x : Type2And3ConvertToFft T} (h : Type2And3ConvertToFft.new fft = .ok x) (hn : 1 ≤ x.len) :
    StopsInFft left fft (x.dst3Cut.run left) x.len x.scratchLen := by
  obtain ⟨e1, e2, hs⟩ := Type2And3ConvertToFft.new_swap h
  subst e1
  refine FftMethod.stops (x := x.dst3Cut) hl hf e2 (fun g hg => ?_) fun b s => ?_
  · exact (C26_made (F := F) (Method.dst3 (Made23.fft hg (hs g)) hn)).of_records (dst3_records { x with fft := x.fft.with g } left)
  · simp only [Type2And3ConvertToFft.dst3Cut, map_bind_ex, map_ok_ex, map_ite_ex]

theorem Type4ConvertToFftOdd.new_swap {x : Type4ConvertToFftOdd T} (h : Type4ConvertToFftOdd.new fft = .ok x) :
    x.fft = fft ∧ x.scratchLen = 2 * (fft.len + fft.inplaceScratchLen) ∧ ∀ g, Type4ConvertToFftOdd.new (fft.with g) = .ok { x with fft := fft.with g } := by
  have hg : ∀ g, Type4ConvertToFftOdd.new (fft.with g) = (Type4ConvertToFftOdd.new fft).map fun x => { x with fft := fft.with g } := by
    intro g
    simp only [Type4ConvertToFftOdd.new, map_ite_ex, map_bind_ex, map_ok_ex]
    rfl
  refine ⟨?_, ?_, fun g => by rw [hg g, h]; rfl⟩
  all_goals
    simp only [Type4ConvertToFftOdd.new] at h
    repeat' split at h
    all_goals first
      | (cases h; done)
      | (injection h with h; subst h; rfl)
      | (cases hc : csub (fft.len / 2) 1 with
        | error e => rw [hc] at h; cases h
        | ok l => rw [hc] at h; injection h with h; subst h; rfl)

theorem dct4_stops (hl : left.Fits) (hf : FftFits fft) {x : Type4ConvertToFftOdd T} (h : Type4ConvertToFftOdd.new fft = .ok x) (hn : 1 ≤ x.len) :
    StopsInFft left fft (x.dct4Cut.run left) x.len x.scratchLen := by
  obtain ⟨e1, e2, hs⟩ := Type4ConvertToFftOdd.new_swap h
  subst e1
  refine FftMethod.stops (x := x.dct4Cut) hl hf e2 (fun g hg => ?_) fun b s => ?_
  · exact (C26_made (F := F) (Method.dct4 (Made4.fft hg (hs g)) hn)).of_records (dct4_records { x with fft := x.fft.with g } left)
  · simp only [Type4ConvertToFftOdd.dct4Cut, map_bind_ex, map_ok_ex, map_ite_ex]

theorem dst4_stops (hl : left.Fits) (hf : FftFits fft) {x : Type4ConvertToFftOdd T} (h : Type4ConvertToFftOdd.new fft = .ok x) (hn : 1 ≤ x.len) :
    StopsInFft left fft (x.dst4Cut.run left) x.len x.scratchLen := by
  obtain ⟨e1, e2, hs⟩ := Type4ConvertToFftOdd.new_swap h
  subst e1
  refine FftMethod.stops (x := x.dst4Cut) hl hf e2 (fun g hg => ?_) fun b s => ?_
  · exact (C26_made (F := F) (Method.dst4 (Made4.fft hg (hs g)) hn)).of_records (dst4_records { x with fft := x.fft.with g } left)
  · simp only [Type4ConvertToFftOdd.dst4Cut, map_bind_ex, map_ok_ex, map_ite_ex]

theorem Dst6And7ConvertToFft.new_swap {x : Dst6And7ConvertToFft T} (h : Dst6And7ConvertToFft.new fft = .ok x) :
    x.fft = fft ∧ x.scratchLen = 2 * (fft.len + fft.inplaceScratchLen) ∧ ∀ g, Dst6And7ConvertToFft.new (fft.with g) = .ok { x with fft := fft.with g } := by
  have hg : ∀ g, Dst6And7ConvertToFft.new (fft.with g) = (Dst6And7ConvertToFft.new fft).map fun x => { x with fft := fft.with g } := by
    intro g
    simp only [Dst6And7ConvertToFft.new, map_ite_ex, map_bind_ex, map_ok_ex]
    rfl
  refine ⟨?_, ?_, fun g => by rw [hg g, h]; rfl⟩
  all_goals
    simp only [Dst6And7ConvertToFft.new] at h
    repeat' split at h
    all_goals first
      | (cases h; done)
      | (injection h with h; subst h; rfl)
      | (cases hc : csub fft.len 1 with
        | error e => rw [hc] at h; cases h
        | ok l => rw [hc] at h; injection h with h; subst h; rfl)

theorem dst6_stops {T F : Type} [F64 F] [DctNum T F] {left : Left T} {fft : Fft T} (hl : left.Fits) (hf : FftFits fft) {x : Dst6And7ConvertToFft T} (h : Dst6And7ConvertToFft.new fft = .ok x) :
    StopsInFft left fft (x.dst6Cut.run left) x.len x.scratchLen := by
  obtain ⟨e1, e2, hs⟩ := Dst6And7ConvertToFft.new_swap h
  subst e1
  refine FftMethod.stops (x := x.dst6Cut) hl hf e2 (fun g hg => ?_) fun b s => ?_
  · exact (C26_made (F := F) (Method.dst6 (MadeDst67.fft hg (hs g)))).of_records (dst6_records { x with fft := x.fft.with g } left)
  · simp only [Dst6And7ConvertToFft.dst6Cut, map_bind_ex, map_ok_ex, map_ite_ex]

theorem dst7_stops (hl : left.Fits) (hf : FftFits fft) {x : Dst6And7ConvertToFft T} (h : Dst6And7ConvertToFft.new fft = .ok x) :
    StopsInFft left fft (x.dst7Cut.run left) x.len x.scratchLen := by
  obtain ⟨e1, e2, hs⟩ := Dst6And7ConvertToFft.new_swap h
  subst e1
  refine FftMethod.stops (x := x.dst7Cut) hl hf e2 (fun g hg => ?_) fun b s => ?_
  · exact (C26_made (F := F) (Method.dst7 (MadeDst67.fft hg (hs g)))).of_records (dst7_records { x with fft := x.fft.with g } left)
  · simp only [Dst6And7ConvertToFft.dst7Cut, map_bind_ex, map_ok_ex, map_ite_ex]

/-! ### Even lengths of type 4 -/

theorem mock [Zero T] {n s : ℕ} (m0 m1 : Mem T) (hb : m1.buf.length = n) (hs : m1.scr.length = m0.scr.length) :
    ∃ p : Proc T, (∃ C, RunsW p n s C) ∧ (ValidCall n s m0 → p m0 = .ok m1) ∧
      ∀ m m', p m = .ok m' → ValidCall n s m ∧ m'.buf.length = n ∧ m'.scr.length = m.scr.length := by
  classical
  refine ⟨fun m => if ValidCall n s m then .ok ⟨if m.buf = m0.buf then m1.buf else m.buf, if m = m0 then m1.scr else m.scr⟩ else .panic .assertion none,
    ⟨fun f => fn (if vec n f = m0.buf then m1.buf else vec n f), fun f scr h => ?_⟩, fun h => ?_, fun m m' h => ?_⟩
  · beta_reduce
    rw [if_pos ⟨length_vec n f, h⟩]
    have e : ∀ l : List T, l.length = n → vec n (fn l) = l := fun l h => by subst h; exact (eq_vec_fn l).symm
    refine ⟨if (⟨vec n f, scr⟩ : Mem T) = m0 then m1.scr else scr, ?_, ?_⟩
    · dsimp only
      rw [e]
      split
      · exact hb
      · exact length_vec n f
    · split
      · rename_i h; rw [hs, ← h]
      · rfl
  · beta_reduce
    rw [if_pos h, if_pos rfl, if_pos rfl]
  · beta_reduce at h
    split at h
    · rename_i hv
      injection h with h
      subst h
      refine ⟨hv, ?_, ?_⟩
      · dsimp only; split
        · exact hb
        · exact hv.1
      · dsimp only; split
        · rename_i h; rw [hs, ← h]
        · rfl
    · cases h

theorem callProc_ok {p : Proc T} {b s : List T} {r} (h : callProc p b s = .ok r) : p ⟨b, s⟩ = .ok ⟨r.1, r.2⟩ := by
  unfold callProc at h
  cases e : p ⟨b, s⟩ with
  | ok m => rw [e] at h; injection h with h; subst h; rfl
  | panic e' o => rw [e] at h; cases h

/-- A well-behaved pair of inner calls. -/
theorem pair_ok {p1 p2 : Proc T} {n s : ℕ} (h1 : ∀ m m', p1 m = .ok m' → ValidCall n s m ∧ m'.buf.length = n ∧ m'.scr.length = m.scr.length)
    (h2 : ∀ m m', p2 m = .ok m' → ValidCall n s m ∧ m'.buf.length = n ∧ m'.scr.length = m.scr.length) {l r b ex : List T} {y}
    (h : runInnerPair p1 p2 l r b ex = .ok y) : l.length = n ∧ r.length = n ∧ y.1.length = n ∧ y.2.1.length = n ∧ y.2.2.1.length = b.length ∧ y.2.2.2.length = ex.length := by
  unfold runInnerPair at h
  split at h
  · cases e1 : callProc p1 l ex with
    | error e => rw [e1] at h; cases h
    | ok x =>
      obtain ⟨x1, x2⟩ := x
      rw [e1, ok_bind] at h
      dsimp only at h
      cases e2 : callProc p2 r x2 with
      | error e => rw [e2] at h; cases h
      | ok z =>
        obtain ⟨z1, z2⟩ := z
        rw [e2, ok_bind] at h
        injection h with h
        subst h
        have a1 := h1 _ _ (callProc_ok e1)
        have a2 := h2 _ _ (callProc_ok e2)
        exact ⟨a1.1.1, a2.1.1, a1.2.1, a2.2.1, rfl, a2.2.2.trans a1.2.2⟩
  · cases e1 : callProc p1 l b with
    | error e => rw [e1] at h; cases h
    | ok x =>
      obtain ⟨x1, x2⟩ := x
      rw [e1, ok_bind] at h
      dsimp only at h
      cases e2 : callProc p2 r x2 with
      | error e => rw [e2] at h; cases h
      | ok z =>
        obtain ⟨z1, z2⟩ := z
        rw [e2, ok_bind] at h
        injection h with h
        subst h
        have a1 := h1 _ _ (callProc_ok e1)
        have a2 := h2 _ _ (callProc_ok e2)
        exact ⟨a1.1.1, a2.1.1, a1.2.1, a2.2.1, a2.2.2.trans a1.2.2, rfl⟩

section even
variable [Zero T] {h si sl : ℕ} {pre : EvenPre T} {post : EvenPost T}

/-- The method works if the inner methods do. -/
def EvenWorks (h si sl : ℕ) (pre : EvenPre T) (post : EvenPost T) : Prop :=
  ∀ p1 p2 C S, RunsW p1 h si C → RunsW p2 h si S → Safe (fun m => validateBuffers m (2 * h) sl (evenBody pre post p1 p2)) (2 * h) sl

theorem even_split (hsafe : EvenWorks h si sl pre post)
    (hpre : ∀ b s, pre b s = (pre b s).map fun r => (b, r.2)) {m : Mem T} (hm : ValidCall (2 * h) sl m) {p1 p2 C S} (hC : RunsW p1 h si C) (hS : RunsW p2 h si S)
    (v1 : ∀ m m', p1 m = .ok m' → ValidCall h si m ∧ m'.buf.length = h ∧ m'.scr.length = m.scr.length)
    (v2 : ∀ m m', p2 m = .ok m' → ValidCall h si m ∧ m'.buf.length = h ∧ m'.scr.length = m.scr.length) :
    ∃ l r ex y b', pre m.buf (m.scr.take sl) = .ok (m.buf, l, r, ex) ∧ l.length = h ∧ r.length = h ∧ ex.length = sl - 2 * h ∧
      runInnerPair p1 p2 l r m.buf ex = .ok y ∧ post y.2.2.1 y.1 y.2.1 = .ok b' ∧ b'.length = 2 * h := by
  obtain ⟨m', h1, h2, h3, h4⟩ := hsafe p1 p2 C S hC hS m hm
  have hp := hpre m.buf (m.scr.take sl)
  obtain ⟨hm1, hm2⟩ := hm
  simp only [validateBuffers, hm1, hm2, ne_eq, not_true_eq_false, if_false, if_true, evenBody] at h1
  cases ep : pre m.buf (m.scr.take sl) with
  | error e => rw [ep] at h1; cases h1
  | ok x =>
    obtain ⟨b0, l, r, ex⟩ := x
    rw [ep] at h1 hp
    simp only [Except.map] at hp
    injection hp with hp
    injection hp with hp
    subst hp
    rw [ok_bind] at h1
    cases er : runInnerPair p1 p2 l r m.buf ex with
    | error e => dsimp only at h1; rw [er] at h1; cases h1
    | ok y =>
      dsimp only at h1
      rw [er, ok_bind] at h1
      cases eo : post y.2.2.1 y.1 y.2.1 with
      | error e => rw [eo] at h1; cases h1
      | ok b' =>
        rw [eo, ok_bind] at h1
        injection h1 with h1
        subst h1
        obtain ⟨a1, a2, a3, a4, a5, a6⟩ := pair_ok v1 v2 er
        refine ⟨l, r, ex, y, b', rfl, a1, a2, ?_, er, eo, h2⟩
        simp only [List.length_append, List.length_drop] at h3
        omega

/-- What the first part of the method hands to the inner instances. -/
theorem even_pre (hsafe : EvenWorks h si sl pre post)
    (hpre : ∀ b s, pre b s = (pre b s).map fun r => (b, r.2)) {m : Mem T} (hm : ValidCall (2 * h) sl m) :
    ∃ l r ex, pre m.buf (m.scr.take sl) = .ok (m.buf, l, r, ex) ∧ l.length = h ∧ r.length = h ∧ ex.length = sl - 2 * h := by
  obtain ⟨p, ⟨C, hC⟩, -, hv⟩ := mock (n := h) (s := si) (⟨[], []⟩ : Mem T) ⟨List.replicate h 0, []⟩ (by simp) rfl
  obtain ⟨l, r, ex, y, b', h1, h2, h3, h4, -⟩ := even_split hsafe hpre hm hC hC hv hv
  exact ⟨l, r, ex, h1, h2, h3, h4⟩

/-- The last part of the method returns whatever the inner instances have returned. -/
theorem even_post (hsl : sl = if si ≤ 2 * h then 2 * h else 2 * h + si) (hsafe : EvenWorks h si sl pre post)
    (hpre : ∀ b s, pre b s = (pre b s).map fun r => (b, r.2)) {m : Mem T} (hm : ValidCall (2 * h) sl m) {l r ex : List T}
    (he : pre m.buf (m.scr.take sl) = .ok (m.buf, l, r, ex)) {l' r' b : List T} (hl : l'.length = h) (hr : r'.length = h) :
    (0 < ex.length → ∃ b', post m.buf l' r' = .ok b' ∧ b'.length = 2 * h) ∧
    (¬ 0 < ex.length → ∀ b1 b2 : List T, b1.length = 2 * h → b2.length = 2 * h → ∃ b', post b2 l' r' = .ok b' ∧ b'.length = 2 * h) := by
  obtain ⟨_, _, _, e0, e1, e2, e3⟩ := even_pre hsafe hpre hm
  rw [he] at e0
  injection e0 with e0
  injection e0 with _ e0
  injection e0 with e0 e0'
  injection e0' with e0' e0''
  subst e0 e0' e0''
  constructor
  · intro hex
    obtain ⟨p1, ⟨C, hC⟩, hp1, hv1⟩ := mock (n := h) (s := si) (⟨l, ex⟩ : Mem T) ⟨l', ex⟩ hl rfl
    obtain ⟨p2, ⟨S, hS⟩, hp2, hv2⟩ := mock (n := h) (s := si) (⟨r, ex⟩ : Mem T) ⟨r', ex⟩ hr rfl
    obtain ⟨l0, r0, ex0, y, b', h1, h2, h3, h4, h5, h6, h7⟩ := even_split hsafe hpre hm hC hS hv1 hv2
    rw [he] at h1
    injection h1 with h1
    injection h1 with _ h1
    injection h1 with h1 h1'
    injection h1' with h1' h1''
    subst h1 h1' h1''
    have hsi : si ≤ ex.length := by
      split at hsl <;> omega
    have : runInnerPair p1 p2 l r m.buf ex = .ok (l', r', m.buf, ex) := by
      unfold runInnerPair
      rw [if_pos hex]
      simp only [callProc, hp1 ⟨e1, hsi⟩, hp2 ⟨e2, hsi⟩, ok_bind]
    rw [this] at h5
    injection h5 with h5
    subst h5
    exact ⟨b', h6, h7⟩
  · intro hex b1 b2 hb1 hb2
    have hmb := hm.1
    obtain ⟨p1, ⟨C, hC⟩, hp1, hv1⟩ := mock (n := h) (s := si) (⟨l, m.buf⟩ : Mem T) ⟨l', b1⟩ hl (by dsimp only; omega)
    obtain ⟨p2, ⟨S, hS⟩, hp2, hv2⟩ := mock (n := h) (s := si) (⟨r, b1⟩ : Mem T) ⟨r', b2⟩ hr (by dsimp only; omega)
    obtain ⟨l0, r0, ex0, y, b', h1, h2, h3, h4, h5, h6, h7⟩ := even_split hsafe hpre hm hC hS hv1 hv2
    rw [he] at h1
    injection h1 with h1
    injection h1 with _ h1
    injection h1 with h1 h1'
    injection h1' with h1' h1''
    subst h1 h1' h1''
    have hsi : si ≤ 2 * h := by
      split at hsl <;> omega
    have : runInnerPair p1 p2 l r m.buf ex = .ok (l', r', b2, ex) := by
      unfold runInnerPair
      rw [if_neg hex]
      simp only [callProc, hp1 ⟨e1, by dsimp only; omega⟩, hp2 ⟨e2, by dsimp only; omega⟩, ok_bind]
    rw [this] at h5
    injection h5 with h5
    subst h5
    exact ⟨b', h6, h7⟩

theorem callTrk_ok {q : Proc T} {b s : List T} {mem : List T → List T → M} {m : Mem T} (h : q ⟨b, s⟩ = .ok m) : callTrk q b s mem = .ok (m.buf, m.scr) := by
  simp only [callTrk, h]

theorem callTrk_panic {q : Proc T} {b s : List T} {mem : List T → List T → M} {m : Mem T} {e : Err} (h : q ⟨b, s⟩ = .panic e (some m)) :
    callTrk q b s mem = .error (e, some (mem m.buf m.scr)) := by
  simp only [callTrk, h]

theorem error_bind_trk {α β : Type} (e : Err × Option M) (f : α → Trk M β) : ((.error e : Trk M α) >>= f) = .error e := rfl

/-- The inner instance has scratch of its own: the caller's buffer is kept. -/
theorem even_keeps (hsi : ¬ si ≤ 2 * h) (hsl : sl = if si ≤ 2 * h then 2 * h else 2 * h + si) (hsafe : EvenWorks h si sl pre post)
    (hpre : ∀ b s, pre b s = (pre b s).map fun r => (b, r.2)) {q1 q2 : Proc T} {fft : Fft T} (k1 : KeepsBuffer fft q1 h si) (k2 : KeepsBuffer fft q2 h si) :
    KeepsBuffer fft (fun m => validateBuffersTrk m (2 * h) sl (evenTrk pre post q1 q2)) (2 * h) sl := by
  intro m hm
  obtain ⟨l, r, ex, e0, e1, e2, e3⟩ := even_pre hsafe hpre hm
  have hpost := fun (l' r' : List T) (hl : l'.length = h) (hr : r'.length = h) => (even_post hsl hsafe hpre hm e0 (b := []) hl hr).1
  rw [if_neg hsi] at hsl
  obtain ⟨hm1, hm2⟩ := hm
  have hex : ex.length > 0 := by omega
  beta_reduce
  simp only [validateBuffersTrk, hm1, hm2, ne_eq, not_true_eq_false, if_false, if_true, evenTrk, e0, untracked, ok_bind, runInnerPairTrk, hex]
  rcases k1 ⟨l, ex⟩ ⟨e1, by dsimp only; omega⟩ with ⟨m1, a1, a2, a3, a4, a5⟩ | ⟨e, s1, a1, a2, a3, a4⟩
  · simp only [callTrk_ok a1, ok_bind]
    dsimp only at a3
    rcases k2 ⟨r, m1.scr⟩ ⟨e2, by dsimp only; omega⟩ with ⟨m2, b1, b2, b3, b4, b5⟩ | ⟨e, s2, b1, b2, b3, b4⟩
    · simp only [callTrk_ok b1, ok_bind]
      obtain ⟨b', c1, c2⟩ := hpost m1.buf m2.buf a2 b2 hex
      dsimp only at b3
      simp only [c1, ok_bind]
      refine .inl ⟨_, rfl, c2, ?_, ?_, a5⟩
      · simp only [List.length_append, List.length_drop]; omega
      · exact List.drop_left' (by simp only [List.length_append]; omega)
    · simp only [callTrk_panic b2, error_bind_trk]
      dsimp only at b3
      refine .inr ⟨e, _, b1, rfl, ?_, ?_⟩
      · simp only [List.length_append, List.length_drop]; omega
      · exact List.drop_left' (by simp only [List.length_append]; omega)
  · simp only [callTrk_panic a2, error_bind_trk]
    dsimp only at a3
    refine .inr ⟨e, _, a1, rfl, ?_, ?_⟩
    · simp only [List.length_append, List.length_drop]; omega
    · exact List.drop_left' (by simp only [List.length_append]; omega)

/-- It has not: the caller's buffer is its scratch. -/
theorem even_loses {left : Left T} (hleft : left.Fits) {fft : Fft T} (hf : fft.len = h) (hi : fft.inplaceScratchLen = 0) (hsi : si = 2 * h)
    (hsl : sl = if si ≤ 2 * h then 2 * h else 2 * h + si) (hsafe : EvenWorks h si sl pre post)
    (hpre : ∀ b s, pre b s = (pre b s).map fun r => (b, r.2)) {q1 q2 : Proc T} (k1 : StopsInFft left fft q1 h si) (k2 : StopsInFft left fft q2 h si) :
    LosesBuffer left fft (fun m => validateBuffersTrk m (2 * h) sl (evenTrk pre post q1 q2)) (2 * h) sl := by
  intro m hm
  obtain ⟨l, r, ex, e0, e1, e2, e3⟩ := even_pre hsafe hpre hm
  have hpost := fun (l' r' : List T) (hl : l'.length = h) (hr : r'.length = h) => (even_post hsl hsafe hpre hm e0 (b := []) hl hr).2
  rw [if_pos (by omega)] at hsl
  obtain ⟨hm1, hm2⟩ := hm
  have hex : ¬ ex.length > 0 := by omega
  have hgarb : ∀ (b t : List (Cx T)) (s : List T), b.length = fft.len → t.length = fft.inplaceScratchLen → s.length = 2 * h →
      t = [] ∧ flattenComplex ((left fft b t).1 ++ (left fft b t).2) ++ s.drop si = flattenComplex (left fft b []).1 := by
    intro b t s hb ht hs
    have : t = [] := List.eq_nil_of_length_eq_zero (by omega)
    subst this
    have h2 : (left fft b []).2 = [] := List.eq_nil_of_length_eq_zero (hleft fft b []).2
    rw [h2, List.append_nil, List.drop_eq_nil_of_le (by omega), List.append_nil]
    exact ⟨rfl, rfl⟩
  beta_reduce
  simp only [validateBuffersTrk, hm1, hm2, ne_eq, not_true_eq_false, if_false, if_true, evenTrk, e0, untracked, ok_bind, runInnerPairTrk, hex]
  rcases k1 ⟨l, m.buf⟩ ⟨e1, by dsimp only; omega⟩ with ⟨m1, a1, a2, a3, a4, a5⟩ | ⟨e, b, t, a1, a2, a3, a4⟩
  · simp only [callTrk_ok a1, ok_bind]
    dsimp only at a3
    rcases k2 ⟨r, m1.scr⟩ ⟨e2, by dsimp only; omega⟩ with ⟨m2, b1, b2, b3, b4, b5⟩ | ⟨e, b, t, b1, b2, b3, b4⟩
    · simp only [callTrk_ok b1, ok_bind]
      dsimp only at b3
      obtain ⟨b', c1, c2⟩ := hpost m1.buf m2.buf a2 b2 hex m2.scr m2.scr (by omega) (by omega)
      simp only [c1, ok_bind]
      refine .inl ⟨_, rfl, c2, ?_, ?_, a5⟩
      · simp only [List.length_append, List.length_drop]; omega
      · exact List.drop_left' (by simp only [List.length_append]; omega)
    · simp only [callTrk_panic b4, error_bind_trk]
      obtain ⟨rfl, g2⟩ := hgarb b t m1.scr b1 b2 (by omega)
      rw [g2]
      refine .inr ⟨e, b, _, b1, b3, rfl, ?_, ?_, ?_⟩
      · rw [length_flattenComplex, (hleft fft b []).1, b1, hf]
      · simp only [List.length_append, List.length_drop]; omega
      · exact List.drop_left' (by simp only [List.length_append]; omega)
  · simp only [callTrk_panic a4, error_bind_trk]
    obtain ⟨rfl, g2⟩ := hgarb b t m.buf a1 a2 (by omega)
    rw [g2]
    refine .inr ⟨e, b, _, a1, a3, rfl, ?_, ?_, ?_⟩
    · rw [length_flattenComplex, (hleft fft b []).1, a1, hf]
    · simp only [List.length_append, List.length_drop]; omega
    · exact List.drop_left' (by simp only [List.length_append]; omega)
end even

theorem StopsInFft.keeps {left : Left T} (hleft : left.Fits) {fft : Fft T} {q : Proc T} {n s : ℕ} (hs : s = 2 * (fft.len + fft.inplaceScratchLen))
    (k : StopsInFft left fft q n s) : KeepsBuffer fft q n s := by
  intro m hm
  rcases k m hm with h | ⟨e, b, t, h1, h2, h3, h4⟩
  · exact .inl h
  · refine .inr ⟨e, _, ⟨b, t, h1, le_of_eq h2.symm, h3⟩, h4, ?_, ?_⟩
    · have := hm.2
      simp only [List.length_append, length_flattenComplex, List.length_drop, (hleft fft b t).1, (hleft fft b t).2]
      omega
    · refine List.drop_left' ?_
      simp only [List.length_append, length_flattenComplex, (hleft fft b t).1, (hleft fft b t).2]
      omega

section even2
variable {T F : Type} [F64 F] [DctNum T F] {left : Left T} {fft : Fft T}

theorem even_works_dct4 {h : ℕ} (hh : 1 ≤ h) (inner : Obj23 T) : EvenWorks h inner.scratchLen (Type4ConvertToType3Even.inst h inner).scratchLen
    (Type4ConvertToType3Even.inst h inner).dct4Pre (Type4ConvertToType3Even.inst h inner).dct4Post := by
  intro p1 p2 C S h1 h2
  have := (Type4ConvertToType3Even.dct4_inst hh (inner := { inner with dct3 := p1, dst3 := p2 }) h1 h2).safe
  rw [even_dct4_eq, Type4ConvertToType3Even.inst_len] at this
  exact this

theorem even_works_dst4 {h : ℕ} (hh : 1 ≤ h) (inner : Obj23 T) : EvenWorks h inner.scratchLen (Type4ConvertToType3Even.inst h inner).scratchLen
    (Type4ConvertToType3Even.inst h inner).dst4Pre (Type4ConvertToType3Even.inst h inner).dst4Post := by
  intro p1 p2 C S h1 h2
  have := (Type4ConvertToType3Even.dst4_inst hh (inner := { inner with dct3 := p2, dst3 := p1 }) h2 h1).safe
  rw [even_dst4_eq, Type4ConvertToType3Even.inst_len] at this
  exact this

theorem dct4Pre_buffer (x : Type4ConvertToType3Even T) (b s : List T) : x.dct4Pre b s = (x.dct4Pre b s).map fun r => (b, r.2) := by
  simp only [Type4ConvertToType3Even.dct4Pre, map_bind_ex, map_ok_ex]

theorem dst4Pre_buffer (x : Type4ConvertToType3Even T) (b s : List T) : x.dst4Pre b s = (x.dst4Pre b s).map fun r => (b, r.2) := by
  simp only [Type4ConvertToType3Even.dst4Pre, map_bind_ex, map_ok_ex]

end even2
/-! ### The MDCT -/

section mdct
variable {T F : Type} [F64 F] [DctNum T F] {P : Err → Prop} {q : Proc T} {d : Obj4 T} {w : ℕ → List T} {x : MdctViaDct4 T}

theorem mdct_works (hn : 1 ≤ d.len) (h : MdctViaDct4.new d w = .ok x) {p : Proc T} {C} (hC : RunsW p d.len d.scratchLen C) :
    SafeMdct ({ x with dct := { d with dct4 := p } } : MdctViaDct4 T).mdct d.len x.scratchLen ∧
    SafeImdct ({ x with dct := { d with dct4 := p } } : MdctViaDct4 T).imdct d.len x.scratchLen := by
  obtain ⟨h1, h2, rfl⟩ := MdctViaDct4.new_shape h
  obtain ⟨g, hg⟩ : ∃ g, d.len = 2 * g := ⟨d.len / 2, by omega⟩
  have h2' : (w (d.len * 2)).length = 4 * g := by omega
  obtain ⟨v, hv⟩ := exists_vec h2'
  rw [hv]
  rw [hg] at hC
  have hM := MdctViaDct4.mdct_vec (dct := { d with dct4 := p }) v hg hC (show d.len + d.scratchLen = _ by rw [hg])
  have hI := MdctViaDct4.imdct_vec (dct := { d with dct4 := p }) v hg hC (show d.len + d.scratchLen = _ by rw [hg])
  refine ⟨?_, ?_⟩
  · have := hM.safe
    rw [← hg] at this
    exact this
  · have := hI.safe
    rw [← hg] at this
    exact this

theorem mdct_keeps (hn : 1 ≤ d.len) (h : MdctViaDct4.new d w = .ok x) (k : KeepsShape P q d.len d.scratchLen) : KeepsShapeMdct P (x.mdctTrk q) d.len x.scratchLen := by
  intro a b m hm
  obtain ⟨p, ⟨C, hC⟩, -, hv⟩ := mock (n := d.len) (s := d.scratchLen) (⟨[], []⟩ : Mem T) ⟨List.replicate d.len 0, []⟩ (by simp) rfl
  obtain ⟨m1, a1, a2, a3, a4⟩ := (mdct_works hn h hC).1 a b m hm
  obtain ⟨h1, h2, rfl⟩ := MdctViaDct4.new_shape h
  rw [mdct_eq] at a1
  obtain ⟨m1a, m1b, m1c, m1d⟩ := hm
  dsimp only at m1d
  simp only [validateMdct, MdctViaDct4.len, m1a, m1b, m1c, m1d, ne_eq, not_true_eq_false, or_self, if_false, if_true] at a1
  simp only [MdctViaDct4.mdctTrk, MdctViaDct4.len, m1a, m1b, m1c, m1d, ne_eq, not_true_eq_false, or_self, if_false, if_true]
  have e0 : ({ dct := { d with dct4 := p }, window := w (d.len * 2), scratchLen := d.len + d.scratchLen } : MdctViaDct4 T).mdctPre a b m.buf =
    ({ dct := d, window := w (d.len * 2), scratchLen := d.len + d.scratchLen } : MdctViaDct4 T).mdctPre a b m.buf := rfl
  rw [e0] at a1
  cases ep : ({ dct := d, window := w (d.len * 2), scratchLen := d.len + d.scratchLen } : MdctViaDct4 T).mdctPre a b m.buf with
  | error e => rw [ep] at a1; cases a1
  | ok o =>
    rw [ep, ok_bind] at a1
    simp only [untracked, ok_bind]
    cases ec : callProc p o (m.scr.take (d.len + d.scratchLen)) with
    | error e => rw [ec] at a1; cases a1
    | ok z =>
      have ho := (hv _ _ (callProc_ok ec)).1
      rcases k _ ho with ⟨m', b1, b2, b3, b4⟩ | ⟨e, m', hP, b1, b2, b3, b4⟩
      · rw [callTrk_ok b1]
        refine .inl ⟨_, rfl, b2, ?_, ?_⟩
        · simp only [List.length_append, List.length_drop, b3, List.length_take]; omega
        · exact List.drop_left' (by rw [b3, List.length_take]; omega)
      · rw [callTrk_panic b1]
        refine .inr ⟨e, _, hP, rfl, b2, ?_, ?_⟩
        · simp only [List.length_append, List.length_drop, b3, List.length_take]; omega
        · exact List.drop_left' (by rw [b3, List.length_take]; omega)

theorem imdct_keeps (hn : 1 ≤ d.len) (h : MdctViaDct4.new d w = .ok x) (k : KeepsShape P q d.len d.scratchLen) : KeepsOutputs P (x.imdctTrk q) d.len x.scratchLen := by
  intro a m hm
  have works := fun (p : Proc T) C (hC : RunsW p d.len d.scratchLen C) => (mdct_works hn h hC).2 a m hm
  obtain ⟨h1, h2, rfl⟩ := MdctViaDct4.new_shape h
  simp only [imdct_eq] at works
  obtain ⟨m1a, m1b, m1c, m1d⟩ := hm
  dsimp only at m1d
  simp only [validateImdct, MdctViaDct4.len, m1a, m1b, m1c, m1d, ne_eq, not_true_eq_false, or_self, if_false, if_true] at works
  simp only [MdctViaDct4.imdctTrk, MdctViaDct4.len, m1a, m1b, m1c, m1d, ne_eq, not_true_eq_false, or_self, if_false, if_true]
  obtain ⟨p, ⟨C, hC⟩, -, hv⟩ := mock (n := d.len) (s := d.scratchLen) (⟨[], []⟩ : Mem T) ⟨List.replicate d.len 0, []⟩ (by simp) rfl
  obtain ⟨m1, a1, a2, a2', a3, a4⟩ := works p C hC
  cases es : splitAtMut (m.scr.take (d.len + d.scratchLen)) d.len with
  | error e => rw [es] at a1; cases a1
  | ok y =>
    simp only [es, ok_bind, untracked] at a1 works ⊢
    cases ec : copyFromSlice y.1 a with
    | error e => rw [ec] at a1; cases a1
    | ok o =>
      simp only [ec, ok_bind] at a1 works ⊢
      cases ez : callProc p o y.2 with
      | error e => rw [ez] at a1; cases a1
      | ok z =>
        have ho := (hv _ _ (callProc_ok ez)).1
        have hy : o.length + y.2.length = d.len + d.scratchLen := by
          have h3 := (hv _ _ (callProc_ok ez)).2
          rw [ez, ok_bind] at a1
          cases ew : ({ dct := { d with dct4 := p }, window := w (d.len * 2), scratchLen := d.len + d.scratchLen } : MdctViaDct4 T).imdctPost m.outA m.outB z.1 with
          | error e => rw [ew] at a1; cases a1
          | ok u =>
            rw [ew, ok_bind] at a1
            injection a1 with a1
            subst a1
            simp only [List.length_append, List.length_drop] at a3 h3
            have := ho.1
            dsimp only at this
            omega
        rcases k _ ho with ⟨m', b1, b2, b3, b4⟩ | ⟨e, m', hP, b1, b2, b3, b4⟩
        · rw [callTrk_ok b1]
          simp only [ok_bind]
          dsimp only at b3
          obtain ⟨p', ⟨C', hC'⟩, hp', hv'⟩ := mock (n := d.len) (s := d.scratchLen) (⟨o, y.2⟩ : Mem T) m' b2 b3
          obtain ⟨m2, c1, c2, c2', c3, c4⟩ := works p' C' hC'
          have ep' : callProc p' o y.2 = .ok (m'.buf, m'.scr) := by simp only [callProc, hp' ho]
          rw [ep', ok_bind] at c1
          have e0 : ({ dct := { d with dct4 := p' }, window := w (d.len * 2), scratchLen := d.len + d.scratchLen } : MdctViaDct4 T).imdctPost m.outA m.outB m'.buf =
            ({ dct := d, window := w (d.len * 2), scratchLen := d.len + d.scratchLen } : MdctViaDct4 T).imdctPost m.outA m.outB m'.buf := rfl
          dsimp only at c1
          rw [e0] at c1
          cases ew : ({ dct := d, window := w (d.len * 2), scratchLen := d.len + d.scratchLen } : MdctViaDct4 T).imdctPost m.outA m.outB m'.buf with
          | error e => rw [ew] at c1; cases c1
          | ok u =>
            rw [ew, ok_bind] at c1
            injection c1 with c1
            subst c1
            exact .inl ⟨_, rfl, c2, c2', c3, c4⟩
        · rw [callTrk_panic b1]
          have := ho.1
          dsimp only at this b3
          refine .inr ⟨e, _, hP, rfl, ?_, ?_⟩
          · simp only [List.length_append, List.length_drop]; omega
          · exact List.drop_left' (by simp only [List.length_append]; omega)

end mdct

end RustDct
