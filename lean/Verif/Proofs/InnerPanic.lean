import Verif.InnerPanics
import Verif.Proofs.FftPanic
import Verif.Proofs.Soundness
/-!
# Proofs for C91
-/

set_option linter.all false

namespace RustDct

section yield
variable {α β T : Type}

/-- The computation returns something with the property. -/
def Yld (x : Except Err α) (P : α → Prop) : Prop := ∃ a, x = .ok a ∧ P a

theorem Yld.ok {a : α} {P : α → Prop} (h : P a) : Yld (.ok a) P := ⟨a, rfl, h⟩
theorem Yld.bind {x : Except Err α} {f : α → Except Err β} {P : α → Prop} {Q : β → Prop} (h : Yld x P) (hf : ∀ a, P a → Yld (f a) Q) : Yld (x >>= f) Q := by
  obtain ⟨a, rfl, ha⟩ := h; exact hf a ha
theorem Yld.mono {x : Except Err α} {P Q : α → Prop} (h : Yld x P) (hq : ∀ a, P a → Q a) : Yld x Q := by
  obtain ⟨a, h1, h2⟩ := h; exact ⟨a, h1, hq a h2⟩
theorem Yld.rdU {l : List α} {i : ℕ} (h : i < l.length) : Yld (RustDct.rdU l i) fun _ => True := ⟨l[i], by simp [RustDct.rdU, h], trivial⟩
theorem Yld.rd {l : List α} {i : ℕ} (h : i < l.length) : Yld (RustDct.rd l i) fun _ => True := ⟨l[i], by simp [RustDct.rd, h], trivial⟩
theorem Yld.wrU {l : List α} {i : ℕ} {v : α} (h : i < l.length) : Yld (RustDct.wrU l i v) fun l' => l'.length = l.length := ⟨l.set i v, by simp [RustDct.wrU, h], by simp⟩
theorem Yld.wr {l : List α} {i : ℕ} {v : α} (h : i < l.length) : Yld (RustDct.wr l i v) fun l' => l'.length = l.length := ⟨l.set i v, by simp [RustDct.wr, h], by simp⟩
theorem Yld.csub {a b : ℕ} (h : b ≤ a) : Yld (RustDct.csub a b) fun c => c = a - b := ⟨a - b, csub_ok h, rfl⟩
theorem Yld.split {l : List α} {k : ℕ} (h : k ≤ l.length) : Yld (splitAtMut l k) fun r => r.1.length = k ∧ r.2.length = l.length - k :=
  ⟨(l.take k, l.drop k), by simp [splitAtMut, h], by simp [h], by simp⟩
theorem Yld.forLen {lo hi n : ℕ} {l : List α} {f : ℕ → List α → Except Err (List α)} (h0 : l.length = n)
    (hf : ∀ i l, lo ≤ i → i < hi → l.length = n → Yld (f i l) fun l' => l'.length = n) : Yld (forRange lo hi l f) fun l' => l'.length = n := by
  unfold forRange
  have : ∀ (is : List ℕ) (l : List α), (∀ i ∈ is, lo ≤ i ∧ i < hi) → l.length = n → Yld (is.foldlM (fun s i => f i s) l) fun l' => l'.length = n := by
    intro is
    induction is with
    | nil => exact fun l _ h => ⟨l, rfl, h⟩
    | cons i is ih =>
      intro l h hl
      rw [List.foldlM_cons]
      exact Yld.bind (hf i l (h i (by simp)).1 (h i (by simp)).2 hl) fun l' h' => ih l' (fun j hj => h j (by simp [hj])) h'
  exact this _ _ (fun i hi => by rw [List.mem_range'_1] at hi; omega) h0
theorem Yld.forLen3 {lo hi n1 n2 n3 : ℕ} {a b c : List α} {f : ℕ → List α × List α × List α → Except Err (List α × List α × List α)}
    (ha : a.length = n1) (hb : b.length = n2) (hc : c.length = n3)
    (hf : ∀ i a b c, lo ≤ i → i < hi → a.length = n1 → b.length = n2 → c.length = n3 → Yld (f i (a, b, c)) fun r => r.1.length = n1 ∧ r.2.1.length = n2 ∧ r.2.2.length = n3) :
    Yld (forRange lo hi (a, b, c) f) fun r => r.1.length = n1 ∧ r.2.1.length = n2 ∧ r.2.2.length = n3 := by
  unfold forRange
  have : ∀ (is : List ℕ) (a b c : List α), (∀ i ∈ is, lo ≤ i ∧ i < hi) → a.length = n1 → b.length = n2 → c.length = n3 →
      Yld (is.foldlM (fun s i => f i s) (a, b, c)) fun r => r.1.length = n1 ∧ r.2.1.length = n2 ∧ r.2.2.length = n3 := by
    intro is
    induction is with
    | nil => exact fun a b c _ h h' h'' => ⟨(a, b, c), rfl, h, h', h''⟩
    | cons i is ih =>
      intro a b c h ha hb hc
      rw [List.foldlM_cons]
      exact Yld.bind (hf i a b c (h i (by simp)).1 (h i (by simp)).2 ha hb hc) fun r h' => ih r.1 r.2.1 r.2.2 (fun j hj => h j (by simp [hj])) h'.1 h'.2.1 h'.2.2
  exact this _ _ _ _ (fun i hi => by rw [List.mem_range'_1] at hi; omega) ha hb hc

end yield

macro "ystep" : tactic => `(tactic| first
  | with_reducible refine Yld.ok ?_
  | with_reducible refine Yld.bind (Yld.rd (by omega)) fun _ _ => ?_
  | with_reducible refine Yld.bind (Yld.wr (by omega)) fun _ _ => ?_
  | with_reducible refine Yld.bind (Yld.rdU (by omega)) fun _ _ => ?_
  | with_reducible refine Yld.bind (Yld.wrU (by omega)) fun _ _ => ?_
  | with_reducible refine Yld.bind (Yld.csub (by omega)) fun _ _ => ?_
  | with_reducible refine Yld.bind (Yld.split (by omega)) (Prod.rec fun _ _ => And.rec fun _ _ => ?_)
  | with_reducible refine Yld.mono (Yld.wrU (by omega)) fun _ _ => ?_
  | dsimp only at *)

section
variable {T F : Type} [F64 F] [DctNum T F] {q : ℕ}

theorem sr_dct2Pre (x : Type2And3SplitRadix T) (hx : x.twiddles.length = q) {b s : List T} (hb : b.length = 4 * q) (hs : s.length = 4 * q) :
    Yld (x.dct2Pre b s) fun r => r.1.length = 2 * q ∧ r.2.1.length = q ∧ r.2.2.length = q := by
  have hl : x.len = 4 * q := by rw [Type2And3SplitRadix.len, hx]; omega
  unfold Type2And3SplitRadix.dct2Pre
  rw [hl]
  repeat ystep
  refine Yld.forLen3 (by omega) (by omega) (by omega) fun i a b c h1 h2 h3 h4 h5 => ?_
  repeat ystep
  exact ⟨by omega, by omega, by omega⟩

theorem sr_dct2Post (x : Type2And3SplitRadix T) (h1 : 1 ≤ q) (hx : x.twiddles.length = q) {b u v w : List T} (hb : b.length = 4 * q) (hu : u.length = 2 * q)
    (hv : v.length = q) (hw : w.length = q) : Yld (x.dct2Post b u v w) fun r => r.length = 4 * q := by
  have hl : x.len = 4 * q := by rw [Type2And3SplitRadix.len, hx]; omega
  unfold Type2And3SplitRadix.dct2Post
  rw [hl]
  repeat ystep
  refine Yld.bind (Yld.forLen (n := 4 * q) (by omega) fun i l h1 h2 h3 => ?_) fun _ _ => ?_
  · repeat ystep
    omega
  · repeat ystep
    omega

theorem sr_dct3Pre (h1 : 1 ≤ q) {b s : List T} (hb : b.length = 4 * q) (hs : s.length = 4 * q) :
    Yld (Type2And3SplitRadix.dct3Pre b s) fun r => r.1.length = 2 * q ∧ r.2.1.length = q ∧ r.2.2.length = q := by
  unfold Type2And3SplitRadix.dct3Pre
  rw [hb]
  repeat ystep
  refine Yld.forLen3 (by omega) (by omega) (by omega) fun i a b c h1 h2 h3 h4 h5 => ?_
  repeat ystep
  exact ⟨by omega, by omega, by omega⟩

theorem sr_dct3Post (x : Type2And3SplitRadix T) (hx : x.twiddles.length = q) {b u v w : List T} (hb : b.length = 4 * q) (hu : u.length = 2 * q)
    (hv : v.length = q) (hw : w.length = q) : Yld (x.dct3Post (4 * q) b u v w) fun r => r.length = 4 * q := by
  unfold Type2And3SplitRadix.dct3Post
  refine Yld.forLen (by omega) fun i l h1 h2 h3 => ?_
  repeat ystep
  omega


abbrev SrPre (T : Type) := List T → List T → Except Err (List T × List T × List T)
abbrev SrPost (T : Type) := List T → List T → List T → List T → Except Err (List T)

/-- DCT2 and DCT3 of `Type2And3SplitRadix`. -/
def srBody (pre : SrPre T) (post : SrPost T) (p1 p2 : Proc T) (b s : List T) : Except Err (List T × List T) :=
  pre b s >>= fun x => callProc p1 x.1 b >>= fun y => callProc p2 x.2.1 y.2 >>= fun z => callProc p2 x.2.2 z.2 >>= fun w =>
    post w.2 y.1 z.1 w.1 >>= fun b => .ok (b, y.1 ++ (z.1 ++ w.1))

def srTrk (pre : SrPre T) (post : SrPost T) (p1 p2 : Proc T) (b s : List T) : Trk (List T × List T) (List T × List T) :=
  untracked (pre b s) >>= fun x => runInnerTriple p1 p2 x.1 x.2.1 x.2.2 b >>= fun y => untracked (post y.2.2.2 y.1 y.2.1 y.2.2.1) >>= fun b =>
    .ok (b, y.1 ++ (y.2.1 ++ y.2.2.1))

theorem trec_sr (pre : SrPre T) (post : SrPost T) {p1 p2 q1 q2 : Proc T} (h1 : ∀ m, Records (p1 m) (q1 m)) (h2 : ∀ m, Records (p2 m) (q2 m)) (b s : List T) :
    TRec (srBody pre post p1 p2 b s) (srTrk pre post q1 q2 b s) := by
  unfold srBody srTrk runInnerTriple
  simp only [bind_assoc, ok_bind]
  exact trec_bind (trec_untracked _) fun _ => trec_bind (trec_call h1 _ _ _) fun _ => trec_bind (trec_call h2 _ _ _) fun _ => trec_bind (trec_call h2 _ _ _) fun _ =>
    trec_bind (trec_untracked _) fun _ => trec_ok _

theorem sr_dct2_eq (x : Type2And3SplitRadix T) :
    x.dct2 = fun m => validateBuffers m x.len x.scratchLen (srBody x.dct2Pre x.dct2Post x.halfDct.dct2 x.quarterDct.dct2) := by
  funext m
  unfold Type2And3SplitRadix.dct2
  congr 1
  funext b s
  simp only [srBody, Type2And3SplitRadix.dct2Pre, Type2And3SplitRadix.dct2Post, bind_assoc, ok_bind]

theorem sr_dct3_eq (x : Type2And3SplitRadix T) :
    x.dct3 = fun m => validateBuffers m x.len x.scratchLen fun b s => srBody Type2And3SplitRadix.dct3Pre (x.dct3Post b.length) x.halfDct.dct3 x.quarterDct.dct3 b s := by
  funext m
  unfold Type2And3SplitRadix.dct3
  congr 1
  funext b s
  simp only [srBody, Type2And3SplitRadix.dct3Pre, Type2And3SplitRadix.dct3Post, bind_assoc, ok_bind]

theorem sr_dct2Trk_eq (x : Type2And3SplitRadix T) (a b : Obj23 T) :
    x.dct2Trk a b = fun m => validateBuffersTrk m x.len x.scratchLen (srTrk x.dct2Pre x.dct2Post a.dct2 b.dct2) := rfl

theorem sr_dct3Trk_eq (x : Type2And3SplitRadix T) (a b : Obj23 T) :
    x.dct3Trk a b = fun m => validateBuffersTrk m x.len x.scratchLen fun b' s => srTrk Type2And3SplitRadix.dct3Pre (x.dct3Post b'.length) a.dct3 b.dct3 b' s := rfl

theorem sr_dct2_records (x : Type2And3SplitRadix T) {a b : Obj23 T} (ha : ∀ m, Records (x.halfDct.dct2 m) (a.dct2 m))
    (hb : ∀ m, Records (x.quarterDct.dct2 m) (b.dct2 m)) (m : Mem T) : Records (x.dct2 m) (x.dct2Trk a b m) := by
  rw [sr_dct2_eq, sr_dct2Trk_eq]
  exact records_validateBuffers (trec_sr _ _ ha hb)

theorem sr_dct3_records (x : Type2And3SplitRadix T) {a b : Obj23 T} (ha : ∀ m, Records (x.halfDct.dct3 m) (a.dct3 m))
    (hb : ∀ m, Records (x.quarterDct.dct3 m) (b.dct3 m)) (m : Mem T) : Records (x.dct3 m) (x.dct3Trk a b m) := by
  rw [sr_dct3_eq, sr_dct3Trk_eq]
  exact records_validateBuffers fun b s => trec_sr _ _ ha hb b s

theorem sr_dst2_records (x : Type2And3SplitRadix T) {a b : Obj23 T} (h : ∀ m, Records (x.dct2 m) (x.dct2Trk a b m)) (m : Mem T) :
    Records (x.dst2 m) (x.dst2Trk a b m) := by
  unfold Type2And3SplitRadix.dst2 Type2And3SplitRadix.dst2Trk
  cases negOdds (x.len / 2) m.buf with
  | error p => exact Records.rfl'
  | ok b' =>
    dsimp only
    have := h ⟨b', m.scr⟩
    cases e1 : x.dct2 ⟨b', m.scr⟩ <;> cases e2 : x.dct2Trk a b ⟨b', m.scr⟩ <;> rw [e1, e2] at this
    · rw [show _ = _ from this]; exact Records.rfl'
    · exact False.elim this
    · exact False.elim this
    · exact this

theorem sr_dst3_records (x : Type2And3SplitRadix T) {a b : Obj23 T} (h : ∀ m, Records (x.dct3 m) (x.dct3Trk a b m)) (m : Mem T) :
    Records (x.dst3 m) (x.dst3Trk a b m) := by
  unfold Type2And3SplitRadix.dst3 Type2And3SplitRadix.dst3Trk
  have := h ⟨m.buf.reverse, m.scr⟩
  cases e1 : x.dct3 ⟨m.buf.reverse, m.scr⟩ <;> cases e2 : x.dct3Trk a b ⟨m.buf.reverse, m.scr⟩ <;> rw [e1, e2] at this
  · rw [show _ = _ from this]; exact Records.rfl'
  · exact False.elim this
  · exact False.elim this
  · exact this

variable {P : Err → Prop} {c : ℕ}

theorem drop_le {s s' : List T} {i c : ℕ} (h : s'.drop i = s.drop i) (hc : i ≤ c) : s'.drop c = s.drop c := by
  have : c = i + (c - i) := by omega
  rw [this, ← List.drop_drop, h, List.drop_drop]

/-- The three inner calls. -/
theorem triple_keeps {T : Type} [Zero T] {sh sq : ℕ} {p1 p2 : Proc T} (k1 : KeepsShape P p1 (2 * q) sh) (k2 : KeepsShape P p2 q sq) (h1 : sh ≤ c) (h2 : sq ≤ c) (hc : c ≤ 4 * q)
    {u v w b : List T} (hu : u.length = 2 * q) (hv : v.length = q) (hw : w.length = q) (hb : b.length = 4 * q) :
    (∃ r, runInnerTriple p1 p2 u v w b = .ok r ∧ r.1.length = 2 * q ∧ r.2.1.length = q ∧ r.2.2.1.length = q ∧ r.2.2.2.length = 4 * q) ∨
    ∃ e r, P e ∧ runInnerTriple p1 p2 u v w b = .error (e, some r) ∧ r.1.length = 4 * q ∧ r.2.length = 4 * q ∧ r.1.drop c = b.drop c := by
  unfold runInnerTriple
  rcases k1 ⟨u, b⟩ ⟨hu, by dsimp only; omega⟩ with ⟨m1, a1, a2, a3, a4⟩ | ⟨e, m1, a0, a1, a2, a3, a4⟩
  · rw [callTrk_ok a1, ok_bind]
    dsimp only at a3 a4 ⊢
    rcases k2 ⟨v, m1.scr⟩ ⟨hv, by dsimp only; omega⟩ with ⟨m2, b1, b2, b3, b4⟩ | ⟨e, m2, b0, b1, b2, b3, b4⟩
    · rw [callTrk_ok b1, ok_bind]
      dsimp only at b3 b4 ⊢
      rcases k2 ⟨w, m2.scr⟩ ⟨hw, by dsimp only; omega⟩ with ⟨m3, c1, c2, c3, c4⟩ | ⟨e, m3, c0, c1, c2, c3, c4⟩
      · rw [callTrk_ok c1, ok_bind]
        dsimp only at c3 c4 ⊢
        exact .inl ⟨_, rfl, a2, b2, c2, by dsimp only; omega⟩
      · rw [callTrk_panic c1, error_bind_trk]
        dsimp only at c3 c4
        refine .inr ⟨e, _, c0, rfl, by dsimp only; omega, by simp only [List.length_append]; omega, ?_⟩
        exact (drop_le c4 h2).trans ((drop_le b4 h2).trans (drop_le a4 h1))
    · rw [callTrk_panic b1, error_bind_trk]
      dsimp only at b3 b4
      refine .inr ⟨e, _, b0, rfl, by dsimp only; omega, by simp only [List.length_append]; omega, ?_⟩
      exact (drop_le b4 h2).trans (drop_le a4 h1)
  · rw [callTrk_panic a1, error_bind_trk]
    dsimp only at a3 a4
    exact .inr ⟨e, _, a0, rfl, by dsimp only; omega, by simp only [List.length_append]; omega, drop_le a4 h1⟩

theorem sr_keeps {T : Type} [Zero T] {sh sq : ℕ} {pre : SrPre T} {post : ℕ → SrPost T} {p1 p2 : Proc T} (k1 : KeepsShape P p1 (2 * q) sh) (k2 : KeepsShape P p2 q sq) (h1 : sh ≤ c)
    (h2 : sq ≤ c) (hc : c ≤ 4 * q)
    (hpre : ∀ {b s : List T}, b.length = 4 * q → s.length = 4 * q → Yld (pre b s) fun r => r.1.length = 2 * q ∧ r.2.1.length = q ∧ r.2.2.length = q)
    (hpost : ∀ {b u v w : List T}, b.length = 4 * q → u.length = 2 * q → v.length = q → w.length = q → Yld (post (4 * q) b u v w) fun r => r.length = 4 * q) :
    KeepsTail c id P (fun m => validateBuffersTrk m (4 * q) (4 * q) fun b s => srTrk pre (post b.length) p1 p2 b s) (4 * q) (4 * q) := by
  intro m hm
  obtain ⟨hm1, hm2⟩ := hm
  obtain ⟨⟨u, v, w⟩, e0, e1, e2, e3⟩ := hpre (b := m.buf) (s := m.scr.take (4 * q)) hm1 (by simp [hm2])
  dsimp only at e1 e2 e3
  beta_reduce
  simp only [validateBuffersTrk, hm1, hm2, ne_eq, not_true_eq_false, if_false, if_true, srTrk, e0, untracked, ok_bind]
  rcases triple_keeps k1 k2 h1 h2 hc e1 e2 e3 hm1 with ⟨r, a1, a2, a3, a4, a5⟩ | ⟨e, r, a0, a1, a2, a3, a4⟩
  · rw [a1, ok_bind]
    obtain ⟨b', b1, b2⟩ := hpost a5 a2 a3 a4
    simp only [b1, ok_bind]
    refine .inl ⟨_, rfl, b2, ?_, ?_⟩
    · simp only [List.length_append, List.length_drop]; omega
    · exact List.drop_left' (by simp only [List.length_append]; omega)
  · rw [a1, error_bind_trk]
    refine .inr ⟨e, _, a0, rfl, a2, ?_, ?_, a4⟩
    · simp only [List.length_append, List.length_drop]; omega
    · exact List.drop_left' a3

theorem negOdds_alternate {l : List T} {k : ℕ} (h : l.length = 2 * k) : negOdds k l = .ok (alternate l) := by
  obtain ⟨f, rfl⟩ := exists_vec h
  rw [negOdds_vec k le_rfl f]
  congr 1
  unfold alternate
  refine (list_ext_vec (by simp) fun i hi => ?_).symm
  rw [List.getElem?_mapIdx, getElem?_vec_lt hi]
  simp only [Option.map_some, hi, true_and]

theorem length_alternate (l : List T) : (alternate l).length = l.length := by simp [alternate]

theorem sr_dst2_keeps (x : Type2And3SplitRadix T) (hx : x.twiddles.length = q) {a b : Obj23 T} (h : KeepsTail c id P (x.dct2Trk a b) (4 * q) (4 * q)) :
    KeepsTail c alternate P (x.dst2Trk a b) (4 * q) (4 * q) := by
  intro m hm
  have hl : x.len / 2 = 2 * q := by rw [Type2And3SplitRadix.len, hx]; omega
  have hm1 := hm.1
  unfold Type2And3SplitRadix.dst2Trk
  rw [hl, negOdds_alternate (by omega)]
  dsimp only
  rcases h ⟨alternate m.buf, m.scr⟩ ⟨by rw [length_alternate]; exact hm.1, hm.2⟩ with ⟨m', a1, a2, a3, a4⟩ | ⟨e, m', a0, a1, a2, a3, a4, a5⟩
  · rw [a1]
    exact .inl ⟨_, rfl, by simpa using a2, a3, a4⟩
  · rw [a1]
    exact .inr ⟨e, _, a0, rfl, a2, a3, a4, a5⟩

theorem sr_dst3_keeps (x : Type2And3SplitRadix T) (hx : x.twiddles.length = q) {a b : Obj23 T} (h : KeepsTail c id P (x.dct3Trk a b) (4 * q) (4 * q)) :
    KeepsTail c List.reverse P (x.dst3Trk a b) (4 * q) (4 * q) := by
  intro m hm
  have hl : x.len / 2 = 2 * q := by rw [Type2And3SplitRadix.len, hx]; omega
  unfold Type2And3SplitRadix.dst3Trk
  rcases h ⟨m.buf.reverse, m.scr⟩ ⟨by simpa using hm.1, hm.2⟩ with ⟨m', a1, a2, a3, a4⟩ | ⟨e, m', a0, a1, a2, a3, a4, a5⟩
  · rw [a1]
    dsimp only
    rw [hl, negOdds_alternate (by omega)]
    exact .inl ⟨_, rfl, by simpa [length_alternate] using a2, a3, a4⟩
  · rw [a1]
    exact .inr ⟨e, _, a0, rfl, a2, a3, a4, a5⟩

/-! ### Type 4 of even length -/

theorem even_keeps_tail {T : Type} [Zero T] {h si sl : ℕ} {pre : EvenPre T} {post : EvenPost T} (hsl : sl = if si ≤ 2 * h then 2 * h else 2 * h + si) (hsafe : EvenWorks h si sl pre post)
    (hpre : ∀ b s, pre b s = (pre b s).map fun r => (b, r.2)) {q1 q2 : Proc T} (k1 : KeepsShape P q1 h si) (k2 : KeepsShape P q2 h si) :
    KeepsTail (if si ≤ 2 * h then si else 0) id P (fun m => validateBuffersTrk m (2 * h) sl (evenTrk pre post q1 q2)) (2 * h) sl := by
  intro m hm
  obtain ⟨l, r, ex, e0, e1, e2, e3⟩ := even_pre hsafe hpre hm
  have hpost := fun (l' r' : List T) (hl : l'.length = h) (hr : r'.length = h) => even_post hsl hsafe hpre hm e0 (b := []) hl hr
  obtain ⟨hm1, hm2⟩ := hm
  beta_reduce
  simp only [validateBuffersTrk, hm1, hm2, ne_eq, not_true_eq_false, if_false, if_true, evenTrk, e0, untracked, ok_bind, runInnerPairTrk]
  by_cases hsi : si ≤ 2 * h
  · rw [if_pos hsi] at hsl ⊢
    have hex : ¬ ex.length > 0 := by omega
    rw [if_neg hex]
    rcases k1 ⟨l, m.buf⟩ ⟨e1, by dsimp only; omega⟩ with ⟨m1, a1, a2, a3, a4⟩ | ⟨e, m1, a0, a1, a2, a3, a4⟩
    · simp only [callTrk_ok a1, ok_bind]
      dsimp only at a3 a4
      rcases k2 ⟨r, m1.scr⟩ ⟨e2, by dsimp only; omega⟩ with ⟨m2, b1, b2, b3, b4⟩ | ⟨e, m2, b0, b1, b2, b3, b4⟩
      · simp only [callTrk_ok b1, ok_bind]
        dsimp only at b3
        obtain ⟨b', c1, c2⟩ := (hpost m1.buf m2.buf a2 b2).2 hex m2.scr m2.scr (by omega) (by omega)
        simp only [c1, ok_bind]
        refine .inl ⟨_, rfl, c2, ?_, ?_⟩
        · simp only [List.length_append, List.length_drop]; omega
        · exact List.drop_left' (by simp only [List.length_append]; omega)
      · simp only [callTrk_panic b1, error_bind_trk]
        dsimp only at b3 b4
        refine .inr ⟨e, _, b0, rfl, by dsimp only; omega, ?_, ?_, b4.trans a4⟩
        · simp only [List.length_append, List.length_drop]; omega
        · exact List.drop_left' (by simp only [List.length_append]; omega)
    · simp only [callTrk_panic a1, error_bind_trk]
      dsimp only at a3 a4
      refine .inr ⟨e, _, a0, rfl, by dsimp only; omega, ?_, ?_, a4⟩
      · simp only [List.length_append, List.length_drop]; omega
      · exact List.drop_left' (by simp only [List.length_append]; omega)
  · rw [if_neg hsi] at hsl ⊢
    have hex : ex.length > 0 := by omega
    rw [if_pos hex]
    rcases k1 ⟨l, ex⟩ ⟨e1, by dsimp only; omega⟩ with ⟨m1, a1, a2, a3, a4⟩ | ⟨e, m1, a0, a1, a2, a3, a4⟩
    · simp only [callTrk_ok a1, ok_bind]
      dsimp only at a3 a4
      rcases k2 ⟨r, m1.scr⟩ ⟨e2, by dsimp only; omega⟩ with ⟨m2, b1, b2, b3, b4⟩ | ⟨e, m2, b0, b1, b2, b3, b4⟩
      · simp only [callTrk_ok b1, ok_bind]
        dsimp only at b3
        obtain ⟨b', c1, c2⟩ := (hpost m1.buf m2.buf a2 b2).1 hex
        simp only [c1, ok_bind]
        refine .inl ⟨_, rfl, c2, ?_, ?_⟩
        · simp only [List.length_append, List.length_drop]; omega
        · exact List.drop_left' (by simp only [List.length_append]; omega)
      · simp only [callTrk_panic b1, error_bind_trk]
        dsimp only at b3 b4
        refine .inr ⟨e, _, b0, rfl, hm1, ?_, ?_, rfl⟩
        · simp only [List.length_append, List.length_drop]; omega
        · exact List.drop_left' (by simp only [List.length_append]; omega)
    · simp only [callTrk_panic a1, error_bind_trk]
      dsimp only at a3 a4
      refine .inr ⟨e, _, a0, rfl, hm1, ?_, ?_, rfl⟩
      · simp only [List.length_append, List.length_drop]; omega
      · exact List.drop_left' (by simp only [List.length_append]; omega)

theorem KeepsTail.shape {q : Proc T} {n s : ℕ} {f : List T → List T} (h : KeepsTail c f P q n s) : KeepsShape P q n s := by
  intro m hm
  rcases h m hm with h | ⟨e, m', h0, h1, h2, h3, h4, -⟩
  · exact .inl h
  · exact .inr ⟨e, m', h0, h1, h2, h3, h4⟩

theorem Safe.shape {q : Proc T} {n s : ℕ} (h : Safe q n s) : KeepsShape P q n s := fun m hm => .inl (h m hm)

end
end RustDct
