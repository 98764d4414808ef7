import Verif.Props.Eager
/-!
# C85: what the panic message of a rejected call says
-/

set_option linter.all false

namespace RustDct

variable {T : Type} {F : Type} [F64 F] [DctNum T F]
variable {planFft : Nat → Fft T} {calls : List (PlanCall T)} {k : Kind} {p : Proc T} {n s : Nat}

/-- The message a caller should get: it names the size of the buffer, expected and given, if that is wrong, and otherwise the size of scratch. -/
def sizeMessage (n s : Nat) (m : Mem T) : Err :=
  if m.buf.length = n then .scratchLen s m.scr.length else .bufferLen n m.buf.length

/-- Calls with wrong sizes panic with that message. -/
def Reports (p : Proc T) (n s : Nat) : Prop :=
  ∀ m, ¬ ValidCall n s m → ∃ m', p m = .panic (sizeMessage n s m) m'

/-- Calls with wrong sizes panic with that message, unless the buffer is too short; then they panic with an index out of bounds. -/
def ReportsLong (p : Proc T) (n s : Nat) : Prop :=
  ∀ m, ¬ ValidCall n s m → ∃ m', p m = .panic (if m.buf.length < n then .index else sizeMessage n s m) m'

theorem Rejects.reports (h : Rejects p n s) : Reports p n s := fun m hm => ⟨_, h m hm⟩

theorem Type2And3SplitRadix.reports_dst2 (q : Nat) (half quarter : Obj23 T) :
    ReportsLong (Type2And3SplitRadix.inst q half quarter).dst2 (4 * q) (4 * q) := by
  rintro ⟨buf, scr⟩ hv
  have hl := Type2And3SplitRadix.inst_len q half quarter
  obtain ⟨f, hb⟩ := exists_vec (n := buf.length) rfl
  generalize buf.length = L at hb
  subst hb
  change ¬ ((vec L f).length = _ ∧ _) at hv
  unfold sizeMessage
  dsimp only
  rw [length_vec] at hv ⊢
  unfold Type2And3SplitRadix.dst2
  rw [hl, show 4 * q / 2 = 2 * q by omega]
  by_cases hL : L < 4 * q
  · dsimp only
    rw [negOdds_short (2 * q) (by omega), if_pos hL]
    exact ⟨_, rfl⟩
  · dsimp only
    rw [negOdds_vec (2 * q) (by omega), if_neg hL]
    dsimp only
    rw [Type2And3SplitRadix.rejects_dct2 q half quarter _ (by rintro ⟨h1, h2⟩; rw [length_vec] at h1; exact hv ⟨h1, h2⟩)]
    rw [length_vec]
    exact ⟨_, rfl⟩

theorem Type2And3SplitRadix.reports_dst3 (q : Nat) (half quarter : Obj23 T) :
    Reports (Type2And3SplitRadix.inst q half quarter).dst3 (4 * q) (4 * q) := by
  rintro ⟨buf, scr⟩ hv
  unfold Type2And3SplitRadix.dst3 sizeMessage
  dsimp only
  rw [Type2And3SplitRadix.rejects_dct3 q half quarter _ (by
    rintro ⟨h1, h2⟩; change buf.reverse.length = _ at h1; rw [List.length_reverse] at h1; exact hv ⟨h1, h2⟩)]
  dsimp only
  rw [List.length_reverse]
  exact ⟨_, rfl⟩

/-- A DST2 either reports a wrong size, whatever it is, or it is a split radix one. -/
theorem Made23.reports {o : Obj23 T} (h : Made23 FftSane o) :
    (Reports o.dst2 o.len o.scratchLen ∨ ReportsLong o.dst2 o.len o.scratchLen) ∧ Reports o.dst3 o.len o.scratchLen := by
  cases h with
  | naive h => exact ⟨.inl (Type2And3Naive.rejects_dst2 _).reports, (Type2And3Naive.rejects_dst3 _).reports⟩
  | butterfly2 => exact ⟨.inl (Type2And3Butterfly2.rejects_dst2 Type2And3Butterfly2.new).reports, (Type2And3Butterfly2.rejects_dst3 Type2And3Butterfly2.new).reports⟩
  | butterfly3 => exact ⟨.inl (Type2And3Butterfly3.rejects_dst2 Type2And3Butterfly3.new).reports, (Type2And3Butterfly3.rejects_dst3 Type2And3Butterfly3.new).reports⟩
  | butterfly4 => exact ⟨.inl (Type2And3Butterfly4.rejects_dst2 Type2And3Butterfly4.new).reports, (Type2And3Butterfly4.rejects_dst3 Type2And3Butterfly4.new).reports⟩
  | butterfly8 => exact ⟨.inl (Type2And3Butterfly8.rejects_dst2 Type2And3Butterfly8.new).reports, (Type2And3Butterfly8.rejects_dst3 Type2And3Butterfly8.new).reports⟩
  | butterfly16 => exact ⟨.inl (Type2And3Butterfly16.rejects_dst2 Type2And3Butterfly16.new).reports, (Type2And3Butterfly16.rejects_dst3 Type2And3Butterfly16.new).reports⟩
  | fft hf h => exact ⟨.inl (Type2And3ConvertToFft.rejects_dst2 _).reports, (Type2And3ConvertToFft.rejects_dst3 _).reports⟩
  | splitRadix hh hq sh sq h =>
    obtain ⟨h1, h2, h3, rfl⟩ := Type2And3SplitRadix.new_shape h
    rename_i half quarter
    have hl := Type2And3SplitRadix.inst_len quarter.len half quarter
    have a := Type2And3SplitRadix.reports_dst2 quarter.len half quarter
    have b := Type2And3SplitRadix.reports_dst3 quarter.len half quarter
    rw [← hl] at a b
    exact ⟨.inr a, b⟩

/-! ### Instances built with the constructors -/

/-- Every method but DST2, of every instance: the message of a rejected call names the wrong size. -/
theorem C85_made (h : Method FftSane k p n s) (hk : k ≠ .dst2) : Reports p n s := by
  by_cases he : k.eager
  · cases h with
    | dst2 h => exact absurd rfl hk
    | dst3 h hn => exact h.reports.2
    | _ => exact absurd he id
  · exact (h.rejects he).reports

/-- DST2: likewise, except that a split radix instance given too short a buffer panics with an index out of bounds. -/
theorem C85_made_dst2 (h : Method FftSane .dst2 p n s) : Reports p n s ∨ ReportsLong p n s := by
  cases h with
  | dst2 h => exact h.reports.1

/-! ### Planned instances -/

/-- Planned instances: all transforms and lengths, but DST2 of a power of two from 32 on. -/
theorem C85_planned (hf : PlanFftSane planFft) (h : Planned planFft calls k p n s) (hk : k = .dst2 → ¬ ∃ j, n = 2 ^ (j + 5)) : Reports p n s := by
  by_cases he : k = .dst2
  · subst he
    exact (C28_planned_partial hf h (hk rfl)).reports
  · exact C85_made (h.sane hf) he

/-- DST2 of a power of two from 32 on: the message names the wrong size, except that too short a buffer gives an index out of bounds. -/
theorem C85_planned_dst2 (hf : PlanFftShape planFft) {j : Nat} (h : Planned planFft calls .dst2 p (2 ^ (j + 5)) s) : ReportsLong p (2 ^ (j + 5)) s := by
  generalize hn : 2 ^ (j + 5) = n at h ⊢
  cases h with
  | @dst2 n a s' h =>
    have e := Yields.canon (fun W => planDct2_yields n) h
    subst hn
    obtain ⟨q, half, quarter, e4, ho⟩ := canon23_pow hf j
    rw [ho] at e; injection e with e
    have hl := Type2And3SplitRadix.inst_len q half quarter
    rw [← e, ← e4]
    have a := Type2And3SplitRadix.reports_dst2 q half quarter
    nth_rw 2 [← hl] at a
    exact a

/-! ### MDCT -/

/-- The message of a rejected MDCT or IMDCT call names the first buffer with a wrong size, or the size of scratch. -/
theorem C85_mdct_made {win : List T} {o : MdctObj T} (h : MadeMdct FftSane win o) (hn : 1 ≤ o.len) :
    (∀ a b m, ¬ ValidMdct o.len o.scratchLen a b m → ∃ m', o.mdct a b m = .panic
      (if a.length ≠ o.len then .mdctLen 1 o.len a.length else if b.length ≠ o.len then .mdctLen 2 o.len b.length
       else if m.buf.length ≠ o.len then .mdctLen 3 o.len m.buf.length else .scratchLen o.scratchLen m.scr.length) m') ∧
    (∀ x m, ¬ ValidImdct o.len o.scratchLen x m → ∃ m', o.imdct x m = .panic
      (if x.length ≠ o.len then .mdctLen 1 o.len x.length else if m.outA.length ≠ o.len then .mdctLen 2 o.len m.outA.length
       else if m.outB.length ≠ o.len then .mdctLen 3 o.len m.outB.length else .scratchLen o.scratchLen m.scr.length) m') :=
  ⟨fun a b m hv => ⟨_, (C28_mdct_made h hn).1 a b m hv⟩, fun x m hv => ⟨_, (C28_mdct_made h hn).2 x m hv⟩⟩

theorem C85_mdct_planned (hf : PlanFftSane planFft) {w : Nat → List T} {o : MdctObj T} (h : PlannedMdct planFft calls n w o) (hn : 1 ≤ n) :
    (∀ a b m, ¬ ValidMdct n o.scratchLen a b m → ∃ m', o.mdct a b m = .panic
      (if a.length ≠ n then .mdctLen 1 n a.length else if b.length ≠ n then .mdctLen 2 n b.length
       else if m.buf.length ≠ n then .mdctLen 3 n m.buf.length else .scratchLen o.scratchLen m.scr.length) m') ∧
    (∀ x m, ¬ ValidImdct n o.scratchLen x m → ∃ m', o.imdct x m = .panic
      (if x.length ≠ n then .mdctLen 1 n x.length else if m.outA.length ≠ n then .mdctLen 2 n m.outA.length
       else if m.outB.length ≠ n then .mdctLen 3 n m.outB.length else .scratchLen o.scratchLen m.scr.length) m') :=
  ⟨fun a b m hv => ⟨_, (C28_mdct_planned hf h hn).1 a b m hv⟩, fun x m hv => ⟨_, (C28_mdct_planned hf h hn).2 x m hv⟩⟩

/-! ### Concrete cases -/

/-- A planned DCT2 of length 12, given 11 elements, and a planned DST2 of length 64, given 63 elements and given 65. -/
example (hf : PlanFftSane planFft) : ∃ p s p' s', Planned planFft [] .dct2 p 12 s ∧ Planned planFft [] .dst2 p' (2 ^ (1 + 5)) s' ∧
    (∃ m', p ⟨List.replicate 11 0, []⟩ = .panic (.bufferLen 12 11) m') ∧
    (∃ m', p' ⟨List.replicate 63 0, []⟩ = .panic .index m') ∧
    ∃ m', p' ⟨List.replicate 65 0, []⟩ = .panic (.bufferLen 64 65) m' := by
  obtain ⟨p, s, h⟩ := planned_exists hf.shape [] .dct2 (n := 12) (by norm_num)
  obtain ⟨p', s', h'⟩ := planned_exists hf.shape [] .dst2 (n := 2 ^ (1 + 5)) (by norm_num)
  refine ⟨p, s, p', s', h, h', ?_, ?_, ?_⟩
  · exact C85_planned hf h (by rintro ⟨⟩) _ (by rintro ⟨h1, -⟩; simp at h1)
  · exact C85_planned_dst2 hf.shape h' ⟨List.replicate 63 0, []⟩ (by rintro ⟨h1, -⟩; simp at h1)
  · exact C85_planned_dst2 hf.shape h' ⟨List.replicate 65 0, []⟩ (by rintro ⟨h1, -⟩; simp at h1)

end RustDct
