import Verif.Instances
import Verif.Proofs.Canon
/-!
# Every instance of the crate: totality, scratch independence, rejection of wrong sizes, reported length

For every element type (floats included).
-/

set_option linter.all false

namespace RustDct

section
variable {T : Type} {F : Type} [F64 F] [DctNum T F]

/-- A method that does what is expected of it, apart from the values it computes. -/
structure Meth (p : Proc T) (n s : Nat) : Prop where
  total : ∃ C, RunsV p n s C
  rejects : Rejects p n s

/-- As `Meth`, for the methods that change the buffer before they look at the sizes. -/
structure MethP (p : Proc T) (n s : Nat) : Prop where
  total : ∃ C, RunsV p n s C
  panics : Panics p n s

/-- As `Meth`, for the methods whose result depends on what scratch contained. -/
structure MethG (p : Proc T) (n s : Nat) : Prop where
  total : ∃ C, RunsG p n s C
  rejects : Rejects p n s

theorem RunsV.toG {p : Proc T} {n s : Nat} {C : (Nat → T) → Nat → T} (h : RunsV p n s C) : RunsG p n s (fun _ => C) := by
  intro f g extra
  obtain ⟨scr', h1, h2, h3⟩ := h f (vec s g ++ extra) (by simp)
  refine ⟨scr'.take s, ?_, ?_⟩
  · rw [h1]
    congr 2
    have : (vec s g ++ extra).drop s = extra := by simp
    rw [this] at h3
    rw [← h3, List.take_append_drop]
  · simp at h2 ⊢; omega

theorem Meth.toG {p : Proc T} {n s : Nat} (h : Meth p n s) : MethG p n s :=
  ⟨h.total.elim fun _ hC => ⟨_, hC.toG⟩, h.rejects⟩
theorem Meth.toP {p : Proc T} {n s : Nat} (h : Meth p n s) : MethP p n s := ⟨h.total, h.rejects.panics⟩

theorem map_ok {α β : Type} {e : Except Err α} {f : α → β} {y : β} (h : e.map f = .ok y) : ∃ x, e = .ok x ∧ f x = y := by
  cases e with
  | error => cases h
  | ok x => exact ⟨x, rfl, by injection h⟩

/-! ### The naive structs -/

theorem Dct1Naive.new_shape {n : Nat} {x : Dct1Naive T} (h : Dct1Naive.new n = .ok x) : 2 ≤ n ∧ ∃ w, x = ⟨vec ((n - 1) * 2) w⟩ := by
  unfold Dct1Naive.new at h
  by_cases h1 : n = 1
  · simp [h1] at h
  · by_cases h0 : n = 0
    · simp [h0, csub] at h
    · simp only [if_neg h1, csub_ok (show 1 ≤ n by omega), ok_bind] at h
      injection h with h
      exact ⟨by omega, _, h.symm⟩

theorem Dct1Naive.len_vec {n : Nat} (hn : 2 ≤ n) {w} : Dct1Naive.len (⟨vec ((n - 1) * 2) w⟩ : Dct1Naive T) = n := by
  simp only [Dct1Naive.len, length_vec]; omega

theorem Dct1Naive.rejects_dct1 (self : Dct1Naive T) : Rejects self.dct1 self.len self.scratchLen := by
  unfold Dct1Naive.dct1
  exact rejects_validateBuffers _ _ _

theorem Dct1Naive.meth_dct1 {n : Nat} {x : Dct1Naive T} (h : Dct1Naive.new n = .ok x) : Meth x.dct1 n x.scratchLen := by
  obtain ⟨hd, w, rfl⟩ := Dct1Naive.new_shape h
  have e := Dct1Naive.len_vec hd (w := w)
  have e' : Dct1Naive.scratchLen ⟨vec ((n - 1) * 2) w⟩ = n := e
  have r := Dct1Naive.rejects_dct1 (⟨vec ((n - 1) * 2) w⟩ : Dct1Naive T)
  rw [e, e'] at r
  rw [e']
  exact ⟨⟨_, Dct1Naive.runs_dct1 hd w⟩, r⟩

theorem Dct1Naive.len_new {n : Nat} {x : Dct1Naive T} (h : Dct1Naive.new n = .ok x) : x.len = n := by
  obtain ⟨hd, w, rfl⟩ := Dct1Naive.new_shape h
  exact Dct1Naive.len_vec hd

theorem Dst1Naive.new_shape {n : Nat} {x : Dst1Naive T} (h : Dst1Naive.new n = .ok x) : 0 ≤ n ∧ ∃ w, x = ⟨vec ((n + 1) * 2) w⟩ := by
  unfold Dst1Naive.new at h
  injection h with h
  exact ⟨by omega, _, h.symm⟩

theorem Dst1Naive.len_vec {n : Nat} (hn : 0 ≤ n) {w} : Dst1Naive.len (⟨vec ((n + 1) * 2) w⟩ : Dst1Naive T) = n := by
  simp only [Dst1Naive.len, length_vec]; omega

theorem Dst1Naive.rejects_dst1 (self : Dst1Naive T) : Rejects self.dst1 self.len self.scratchLen := by
  unfold Dst1Naive.dst1
  exact rejects_validateBuffers _ _ _

theorem Dst1Naive.meth_dst1 {n : Nat} {x : Dst1Naive T} (h : Dst1Naive.new n = .ok x) : Meth x.dst1 n x.scratchLen := by
  obtain ⟨hd, w, rfl⟩ := Dst1Naive.new_shape h
  have e := Dst1Naive.len_vec hd (w := w)
  have e' : Dst1Naive.scratchLen ⟨vec ((n + 1) * 2) w⟩ = n := e
  have r := Dst1Naive.rejects_dst1 (⟨vec ((n + 1) * 2) w⟩ : Dst1Naive T)
  rw [e, e'] at r
  rw [e']
  exact ⟨⟨_, Dst1Naive.runs_dst1 w⟩, r⟩

theorem Dst1Naive.len_new {n : Nat} {x : Dst1Naive T} (h : Dst1Naive.new n = .ok x) : x.len = n := by
  obtain ⟨hd, w, rfl⟩ := Dst1Naive.new_shape h
  exact Dst1Naive.len_vec hd

theorem Type2And3Naive.new_shape {n : Nat} {x : Type2And3Naive T} (h : Type2And3Naive.new n = .ok x) : 0 ≤ n ∧ ∃ w, x = ⟨vec (n * 4) w⟩ := by
  unfold Type2And3Naive.new at h
  injection h with h
  exact ⟨by omega, _, h.symm⟩

theorem Type2And3Naive.len_vec {n : Nat} (hn : 0 ≤ n) {w} : Type2And3Naive.len (⟨vec (n * 4) w⟩ : Type2And3Naive T) = n := by
  simp only [Type2And3Naive.len, length_vec]; omega

theorem Type2And3Naive.rejects_dct2 (self : Type2And3Naive T) : Rejects self.dct2 self.len self.scratchLen := by
  unfold Type2And3Naive.dct2
  exact rejects_validateBuffers _ _ _

theorem Type2And3Naive.meth_dct2 {n : Nat} {x : Type2And3Naive T} (h : Type2And3Naive.new n = .ok x) : Meth x.dct2 n x.scratchLen := by
  obtain ⟨hd, w, rfl⟩ := Type2And3Naive.new_shape h
  have e := Type2And3Naive.len_vec hd (w := w)
  have e' : Type2And3Naive.scratchLen ⟨vec (n * 4) w⟩ = n := e
  have r := Type2And3Naive.rejects_dct2 (⟨vec (n * 4) w⟩ : Type2And3Naive T)
  rw [e, e'] at r
  rw [e']
  exact ⟨⟨_, Type2And3Naive.runs_dct2 w⟩, r⟩

theorem Type2And3Naive.rejects_dst2 (self : Type2And3Naive T) : Rejects self.dst2 self.len self.scratchLen := by
  unfold Type2And3Naive.dst2
  exact rejects_validateBuffers _ _ _

theorem Type2And3Naive.meth_dst2 {n : Nat} {x : Type2And3Naive T} (h : Type2And3Naive.new n = .ok x) : Meth x.dst2 n x.scratchLen := by
  obtain ⟨hd, w, rfl⟩ := Type2And3Naive.new_shape h
  have e := Type2And3Naive.len_vec hd (w := w)
  have e' : Type2And3Naive.scratchLen ⟨vec (n * 4) w⟩ = n := e
  have r := Type2And3Naive.rejects_dst2 (⟨vec (n * 4) w⟩ : Type2And3Naive T)
  rw [e, e'] at r
  rw [e']
  exact ⟨⟨_, Type2And3Naive.runs_dst2 w⟩, r⟩

theorem Type2And3Naive.rejects_dct3 (self : Type2And3Naive T) : Rejects self.dct3 self.len self.scratchLen := by
  unfold Type2And3Naive.dct3
  exact rejects_validateBuffers _ _ _

theorem Type2And3Naive.meth_dct3 {n : Nat} {x : Type2And3Naive T} (h : Type2And3Naive.new n = .ok x) (hn : 1 ≤ n) : Meth x.dct3 n x.scratchLen := by
  obtain ⟨hd, w, rfl⟩ := Type2And3Naive.new_shape h
  have e := Type2And3Naive.len_vec hd (w := w)
  have e' : Type2And3Naive.scratchLen ⟨vec (n * 4) w⟩ = n := e
  have r := Type2And3Naive.rejects_dct3 (⟨vec (n * 4) w⟩ : Type2And3Naive T)
  rw [e, e'] at r
  rw [e']
  exact ⟨⟨_, Type2And3Naive.runs_dct3 hn w⟩, r⟩

theorem Type2And3Naive.rejects_dst3 (self : Type2And3Naive T) : Rejects self.dst3 self.len self.scratchLen := by
  unfold Type2And3Naive.dst3
  exact rejects_validateBuffers _ _ _

theorem Type2And3Naive.meth_dst3 {n : Nat} {x : Type2And3Naive T} (h : Type2And3Naive.new n = .ok x) (hn : 1 ≤ n) : Meth x.dst3 n x.scratchLen := by
  obtain ⟨hd, w, rfl⟩ := Type2And3Naive.new_shape h
  have e := Type2And3Naive.len_vec hd (w := w)
  have e' : Type2And3Naive.scratchLen ⟨vec (n * 4) w⟩ = n := e
  have r := Type2And3Naive.rejects_dst3 (⟨vec (n * 4) w⟩ : Type2And3Naive T)
  rw [e, e'] at r
  rw [e']
  exact ⟨⟨_, Type2And3Naive.runs_dst3 hn w⟩, r⟩

theorem Type2And3Naive.len_new {n : Nat} {x : Type2And3Naive T} (h : Type2And3Naive.new n = .ok x) : x.len = n := by
  obtain ⟨hd, w, rfl⟩ := Type2And3Naive.new_shape h
  exact Type2And3Naive.len_vec hd

theorem Type4Naive.new_shape {n : Nat} {x : Type4Naive T} (h : Type4Naive.new n = .ok x) : 0 ≤ n ∧ ∃ w, x = ⟨vec (n * 4) w⟩ := by
  unfold Type4Naive.new at h
  injection h with h
  exact ⟨by omega, _, h.symm⟩

theorem Type4Naive.len_vec {n : Nat} (hn : 0 ≤ n) {w} : Type4Naive.len (⟨vec (n * 4) w⟩ : Type4Naive T) = n := by
  simp only [Type4Naive.len, length_vec]; omega

theorem Type4Naive.rejects_dct4 (self : Type4Naive T) : Rejects self.dct4 self.len self.scratchLen := by
  unfold Type4Naive.dct4
  exact rejects_validateBuffers _ _ _

theorem Type4Naive.meth_dct4 {n : Nat} {x : Type4Naive T} (h : Type4Naive.new n = .ok x) : Meth x.dct4 n x.scratchLen := by
  obtain ⟨hd, w, rfl⟩ := Type4Naive.new_shape h
  have e := Type4Naive.len_vec hd (w := w)
  have e' : Type4Naive.scratchLen ⟨vec (n * 4) w⟩ = n := e
  have r := Type4Naive.rejects_dct4 (⟨vec (n * 4) w⟩ : Type4Naive T)
  rw [e, e'] at r
  rw [e']
  exact ⟨⟨_, Type4Naive.runs_dct4 w⟩, r⟩

theorem Type4Naive.rejects_dst4 (self : Type4Naive T) : Rejects self.dst4 self.len self.scratchLen := by
  unfold Type4Naive.dst4
  exact rejects_validateBuffers _ _ _

theorem Type4Naive.meth_dst4 {n : Nat} {x : Type4Naive T} (h : Type4Naive.new n = .ok x) : Meth x.dst4 n x.scratchLen := by
  obtain ⟨hd, w, rfl⟩ := Type4Naive.new_shape h
  have e := Type4Naive.len_vec hd (w := w)
  have e' : Type4Naive.scratchLen ⟨vec (n * 4) w⟩ = n := e
  have r := Type4Naive.rejects_dst4 (⟨vec (n * 4) w⟩ : Type4Naive T)
  rw [e, e'] at r
  rw [e']
  exact ⟨⟨_, Type4Naive.runs_dst4 w⟩, r⟩

theorem Type4Naive.len_new {n : Nat} {x : Type4Naive T} (h : Type4Naive.new n = .ok x) : x.len = n := by
  obtain ⟨hd, w, rfl⟩ := Type4Naive.new_shape h
  exact Type4Naive.len_vec hd

theorem Dct5Naive.new_shape {n : Nat} {x : Dct5Naive T} (h : Dct5Naive.new n = .ok x) : 1 ≤ n ∧ ∃ w, x = ⟨vec (n * 2 - 1) w⟩ := by
  unfold Dct5Naive.new at h
  by_cases h0 : n = 0
  · simp [h0, csub] at h
  · simp (disch := omega) only [csub_ok, ok_bind] at h
    injection h with h
    exact ⟨by omega, _, h.symm⟩

theorem Dct5Naive.len_vec {n : Nat} (hn : 1 ≤ n) {w} : Dct5Naive.len (⟨vec (n * 2 - 1) w⟩ : Dct5Naive T) = n := by
  simp only [Dct5Naive.len, length_vec]; omega

theorem Dct5Naive.rejects_dct5 (self : Dct5Naive T) : Rejects self.dct5 self.len self.scratchLen := by
  unfold Dct5Naive.dct5
  exact rejects_validateBuffers _ _ _

theorem Dct5Naive.meth_dct5 {n : Nat} {x : Dct5Naive T} (h : Dct5Naive.new n = .ok x) : Meth x.dct5 n x.scratchLen := by
  obtain ⟨hd, w, rfl⟩ := Dct5Naive.new_shape h
  have e := Dct5Naive.len_vec hd (w := w)
  have e' : Dct5Naive.scratchLen ⟨vec (n * 2 - 1) w⟩ = n := e
  have r := Dct5Naive.rejects_dct5 (⟨vec (n * 2 - 1) w⟩ : Dct5Naive T)
  rw [e, e'] at r
  rw [e']
  exact ⟨⟨_, Dct5Naive.runs_dct5 hd w⟩, r⟩

theorem Dct5Naive.len_new {n : Nat} {x : Dct5Naive T} (h : Dct5Naive.new n = .ok x) : x.len = n := by
  obtain ⟨hd, w, rfl⟩ := Dct5Naive.new_shape h
  exact Dct5Naive.len_vec hd

theorem Dst5Naive.new_shape {n : Nat} {x : Dst5Naive T} (h : Dst5Naive.new n = .ok x) : 0 ≤ n ∧ ∃ w, x = ⟨vec (n * 2 + 1) w⟩ := by
  unfold Dst5Naive.new at h
  injection h with h
  exact ⟨by omega, _, h.symm⟩

theorem Dst5Naive.len_vec {n : Nat} (hn : 0 ≤ n) {w} : Dst5Naive.len (⟨vec (n * 2 + 1) w⟩ : Dst5Naive T) = n := by
  simp only [Dst5Naive.len, length_vec]; omega

theorem Dst5Naive.rejects_dst5 (self : Dst5Naive T) : Rejects self.dst5 self.len self.scratchLen := by
  unfold Dst5Naive.dst5
  exact rejects_validateBuffers _ _ _

theorem Dst5Naive.meth_dst5 {n : Nat} {x : Dst5Naive T} (h : Dst5Naive.new n = .ok x) : Meth x.dst5 n x.scratchLen := by
  obtain ⟨hd, w, rfl⟩ := Dst5Naive.new_shape h
  have e := Dst5Naive.len_vec hd (w := w)
  have e' : Dst5Naive.scratchLen ⟨vec (n * 2 + 1) w⟩ = n := e
  have r := Dst5Naive.rejects_dst5 (⟨vec (n * 2 + 1) w⟩ : Dst5Naive T)
  rw [e, e'] at r
  rw [e']
  exact ⟨⟨_, Dst5Naive.runs_dst5 w⟩, r⟩

theorem Dst5Naive.len_new {n : Nat} {x : Dst5Naive T} (h : Dst5Naive.new n = .ok x) : x.len = n := by
  obtain ⟨hd, w, rfl⟩ := Dst5Naive.new_shape h
  exact Dst5Naive.len_vec hd

theorem Dct6And7Naive.new_shape {n : Nat} {x : Dct6And7Naive T} (h : Dct6And7Naive.new n = .ok x) : 1 ≤ n ∧ ∃ w, x = ⟨vec (n * 4 - 2) w⟩ := by
  unfold Dct6And7Naive.new at h
  by_cases h0 : n = 0
  · simp [h0, csub] at h
  · simp (disch := omega) only [csub_ok, ok_bind] at h
    injection h with h
    exact ⟨by omega, _, h.symm⟩

theorem Dct6And7Naive.len_vec {n : Nat} (hn : 1 ≤ n) {w} : Dct6And7Naive.len (⟨vec (n * 4 - 2) w⟩ : Dct6And7Naive T) = n := by
  simp only [Dct6And7Naive.len, length_vec]; omega

theorem Dct6And7Naive.rejects_dct6 (self : Dct6And7Naive T) : Rejects self.dct6 self.len self.scratchLen := by
  unfold Dct6And7Naive.dct6
  exact rejects_validateBuffers _ _ _

theorem Dct6And7Naive.meth_dct6 {n : Nat} {x : Dct6And7Naive T} (h : Dct6And7Naive.new n = .ok x) : Meth x.dct6 n x.scratchLen := by
  obtain ⟨hd, w, rfl⟩ := Dct6And7Naive.new_shape h
  have e := Dct6And7Naive.len_vec hd (w := w)
  have e' : Dct6And7Naive.scratchLen ⟨vec (n * 4 - 2) w⟩ = n := e
  have r := Dct6And7Naive.rejects_dct6 (⟨vec (n * 4 - 2) w⟩ : Dct6And7Naive T)
  rw [e, e'] at r
  rw [e']
  exact ⟨⟨_, Dct6And7Naive.runs_dct6 hd w⟩, r⟩

theorem Dct6And7Naive.rejects_dct7 (self : Dct6And7Naive T) : Rejects self.dct7 self.len self.scratchLen := by
  unfold Dct6And7Naive.dct7
  exact rejects_validateBuffers _ _ _

theorem Dct6And7Naive.meth_dct7 {n : Nat} {x : Dct6And7Naive T} (h : Dct6And7Naive.new n = .ok x) : Meth x.dct7 n x.scratchLen := by
  obtain ⟨hd, w, rfl⟩ := Dct6And7Naive.new_shape h
  have e := Dct6And7Naive.len_vec hd (w := w)
  have e' : Dct6And7Naive.scratchLen ⟨vec (n * 4 - 2) w⟩ = n := e
  have r := Dct6And7Naive.rejects_dct7 (⟨vec (n * 4 - 2) w⟩ : Dct6And7Naive T)
  rw [e, e'] at r
  rw [e']
  exact ⟨⟨_, Dct6And7Naive.runs_dct7 hd w⟩, r⟩

theorem Dct6And7Naive.len_new {n : Nat} {x : Dct6And7Naive T} (h : Dct6And7Naive.new n = .ok x) : x.len = n := by
  obtain ⟨hd, w, rfl⟩ := Dct6And7Naive.new_shape h
  exact Dct6And7Naive.len_vec hd

theorem Dst6And7Naive.new_shape {n : Nat} {x : Dst6And7Naive T} (h : Dst6And7Naive.new n = .ok x) : 0 ≤ n ∧ ∃ w, x = ⟨vec (n * 4 + 2) w⟩ := by
  unfold Dst6And7Naive.new at h
  injection h with h
  exact ⟨by omega, _, h.symm⟩

theorem Dst6And7Naive.len_vec {n : Nat} (hn : 0 ≤ n) {w} : Dst6And7Naive.len (⟨vec (n * 4 + 2) w⟩ : Dst6And7Naive T) = n := by
  simp only [Dst6And7Naive.len, length_vec]; omega

theorem Dst6And7Naive.rejects_dst6 (self : Dst6And7Naive T) : Rejects self.dst6 self.len self.scratchLen := by
  unfold Dst6And7Naive.dst6
  exact rejects_validateBuffers _ _ _

theorem Dst6And7Naive.meth_dst6 {n : Nat} {x : Dst6And7Naive T} (h : Dst6And7Naive.new n = .ok x) : Meth x.dst6 n x.scratchLen := by
  obtain ⟨hd, w, rfl⟩ := Dst6And7Naive.new_shape h
  have e := Dst6And7Naive.len_vec hd (w := w)
  have e' : Dst6And7Naive.scratchLen ⟨vec (n * 4 + 2) w⟩ = n := e
  have r := Dst6And7Naive.rejects_dst6 (⟨vec (n * 4 + 2) w⟩ : Dst6And7Naive T)
  rw [e, e'] at r
  rw [e']
  exact ⟨⟨_, Dst6And7Naive.runs_dst6 w⟩, r⟩

theorem Dst6And7Naive.rejects_dst7 (self : Dst6And7Naive T) : Rejects self.dst7 self.len self.scratchLen := by
  unfold Dst6And7Naive.dst7
  exact rejects_validateBuffers _ _ _

theorem Dst6And7Naive.meth_dst7 {n : Nat} {x : Dst6And7Naive T} (h : Dst6And7Naive.new n = .ok x) : Meth x.dst7 n x.scratchLen := by
  obtain ⟨hd, w, rfl⟩ := Dst6And7Naive.new_shape h
  have e := Dst6And7Naive.len_vec hd (w := w)
  have e' : Dst6And7Naive.scratchLen ⟨vec (n * 4 + 2) w⟩ = n := e
  have r := Dst6And7Naive.rejects_dst7 (⟨vec (n * 4 + 2) w⟩ : Dst6And7Naive T)
  rw [e, e'] at r
  rw [e']
  exact ⟨⟨_, Dst6And7Naive.runs_dst7 w⟩, r⟩

theorem Dst6And7Naive.len_new {n : Nat} {x : Dst6And7Naive T} (h : Dst6And7Naive.new n = .ok x) : x.len = n := by
  obtain ⟨hd, w, rfl⟩ := Dst6And7Naive.new_shape h
  exact Dst6And7Naive.len_vec hd

theorem Dct8Naive.new_shape {n : Nat} {x : Dct8Naive T} (h : Dct8Naive.new n = .ok x) : 0 ≤ n ∧ ∃ w, x = ⟨vec (n * 4 + 2) w⟩ := by
  unfold Dct8Naive.new at h
  injection h with h
  exact ⟨by omega, _, h.symm⟩

theorem Dct8Naive.len_vec {n : Nat} (hn : 0 ≤ n) {w} : Dct8Naive.len (⟨vec (n * 4 + 2) w⟩ : Dct8Naive T) = n := by
  simp only [Dct8Naive.len, length_vec]; omega

theorem Dct8Naive.rejects_dct8 (self : Dct8Naive T) : Rejects self.dct8 self.len self.scratchLen := by
  unfold Dct8Naive.dct8
  exact rejects_validateBuffers _ _ _

theorem Dct8Naive.meth_dct8 {n : Nat} {x : Dct8Naive T} (h : Dct8Naive.new n = .ok x) : Meth x.dct8 n x.scratchLen := by
  obtain ⟨hd, w, rfl⟩ := Dct8Naive.new_shape h
  have e := Dct8Naive.len_vec hd (w := w)
  have e' : Dct8Naive.scratchLen ⟨vec (n * 4 + 2) w⟩ = n := e
  have r := Dct8Naive.rejects_dct8 (⟨vec (n * 4 + 2) w⟩ : Dct8Naive T)
  rw [e, e'] at r
  rw [e']
  exact ⟨⟨_, Dct8Naive.runs_dct8 w⟩, r⟩

theorem Dct8Naive.len_new {n : Nat} {x : Dct8Naive T} (h : Dct8Naive.new n = .ok x) : x.len = n := by
  obtain ⟨hd, w, rfl⟩ := Dct8Naive.new_shape h
  exact Dct8Naive.len_vec hd

theorem Dst8Naive.new_shape {n : Nat} {x : Dst8Naive T} (h : Dst8Naive.new n = .ok x) : 1 ≤ n ∧ ∃ w, x = ⟨vec (n * 4 - 2) w⟩ := by
  unfold Dst8Naive.new at h
  by_cases h0 : n = 0
  · simp [h0, csub] at h
  · simp (disch := omega) only [csub_ok, ok_bind] at h
    injection h with h
    exact ⟨by omega, _, h.symm⟩

theorem Dst8Naive.len_vec {n : Nat} (hn : 1 ≤ n) {w} : Dst8Naive.len (⟨vec (n * 4 - 2) w⟩ : Dst8Naive T) = n := by
  simp only [Dst8Naive.len, length_vec]; omega

theorem Dst8Naive.rejects_dst8 (self : Dst8Naive T) : Rejects self.dst8 self.len self.scratchLen := by
  unfold Dst8Naive.dst8
  exact rejects_validateBuffers _ _ _

theorem Dst8Naive.meth_dst8 {n : Nat} {x : Dst8Naive T} (h : Dst8Naive.new n = .ok x) : Meth x.dst8 n x.scratchLen := by
  obtain ⟨hd, w, rfl⟩ := Dst8Naive.new_shape h
  have e := Dst8Naive.len_vec hd (w := w)
  have e' : Dst8Naive.scratchLen ⟨vec (n * 4 - 2) w⟩ = n := e
  have r := Dst8Naive.rejects_dst8 (⟨vec (n * 4 - 2) w⟩ : Dst8Naive T)
  rw [e, e'] at r
  rw [e']
  exact ⟨⟨_, Dst8Naive.runs_dst8 hd w⟩, r⟩

theorem Dst8Naive.len_new {n : Nat} {x : Dst8Naive T} (h : Dst8Naive.new n = .ok x) : x.len = n := by
  obtain ⟨hd, w, rfl⟩ := Dst8Naive.new_shape h
  exact Dst8Naive.len_vec hd

/-! ### The FFT-based structs -/

theorem Dct1ConvertToFft.new_shape {fft : Fft T} {x : Dct1ConvertToFft T} (h : Dct1ConvertToFft.new fft = .ok x) :
    fft.len % 2 = 0 ∧ fft.direction = .forward ∧ x = Dct1ConvertToFft.inst fft := by
  unfold Dct1ConvertToFft.new at h
  split at h
  · cases h
  · split at h
    · cases h
    · rename_i h1 h2
      injection h with h
      exact ⟨by simpa using h1, by simpa using h2, h.symm⟩

theorem Dst1ConvertToFft.new_shape {fft : Fft T} {x : Dst1ConvertToFft T} (h : Dst1ConvertToFft.new fft = .ok x) :
    fft.len % 2 = 0 ∧ fft.direction = .forward ∧ 1 < fft.len ∧ x = Dst1ConvertToFft.inst fft := by
  unfold Dst1ConvertToFft.new at h
  split at h
  · cases h
  · split at h
    · cases h
    · rename_i h1 h2
      rcases Nat.lt_or_ge 1 fft.len with h3 | h3
      · rw [csub_ok (by omega)] at h
        injection h with h
        exact ⟨by simpa using h1, by simpa using h2, h3, h.symm⟩
      · exfalso
        have : ¬ 1 ≤ fft.len / 2 := by omega
        simp only [csub, if_neg this, error_bind] at h
        cases h

theorem Type2And3ConvertToFft.new_shape {fft : Fft T} {x : Type2And3ConvertToFft T} (h : Type2And3ConvertToFft.new fft = .ok x) :
    fft.direction = .forward ∧ x = Type2And3ConvertToFft.inst fft := by
  have hd : fft.direction = .forward := by
    by_contra hd
    simp [Type2And3ConvertToFft.new, hd] at h
  rw [Type2And3ConvertToFft.new_eq hd] at h
  injection h with h
  exact ⟨hd, h.symm⟩

theorem Type4ConvertToFftOdd.new_shape {fft : Fft T} {x : Type4ConvertToFftOdd T} (h : Type4ConvertToFftOdd.new fft = .ok x) :
    fft.len % 2 = 1 ∧ fft.direction = .forward ∧ x = Type4ConvertToFftOdd.inst fft := by
  unfold Type4ConvertToFftOdd.new at h
  split at h
  · cases h
  · split at h
    · cases h
    · rename_i h1 h2
      injection h with h
      exact ⟨by simpa using h2, by simpa using h1, h.symm⟩

theorem Dst6And7ConvertToFft.new_shape {fft : Fft T} {x : Dst6And7ConvertToFft T} (h : Dst6And7ConvertToFft.new fft = .ok x) :
    fft.len % 2 = 1 ∧ fft.direction = .forward ∧ x = Dst6And7ConvertToFft.inst fft := by
  unfold Dst6And7ConvertToFft.new at h
  split at h
  · cases h
  · split at h
    · cases h
    · rename_i h1 h2
      have h1 : fft.len % 2 = 1 := by simpa using h1
      rw [csub_ok (by omega)] at h
      injection h with h
      exact ⟨h1, by simpa using h2, h.symm⟩

/-! ### The composed structs -/

theorem Type2And3SplitRadix.new_shape {half quarter : Obj23 T} {x : Type2And3SplitRadix T}
    (h : Type2And3SplitRadix.new half quarter = .ok x) :
    half.len = 2 * quarter.len ∧ 1 ≤ quarter.len ∧ isPowerOfTwo (4 * quarter.len) = true ∧
      x = Type2And3SplitRadix.inst quarter.len half quarter := by
  have h' := h
  unfold Type2And3SplitRadix.new at h
  dsimp only at h
  split at h
  · cases h
  · split at h
    · cases h
    · rename_i h1 h2
      have h2 : half.len = 2 * quarter.len := by
        have := of_not_not h2; omega
      have h1 := of_not_not h1
      rw [h2, show 2 * quarter.len * 2 = 4 * quarter.len by omega] at h1
      rw [Type2And3SplitRadix.new_eq h2 rfl h1.1] at h'
      injection h' with h'
      exact ⟨h2, by omega, h1.1, h'.symm⟩

theorem Type4ConvertToType3Even.rejects_dct4 (self : Type4ConvertToType3Even T) : Rejects self.dct4 self.len self.scratchLen := by
  unfold Type4ConvertToType3Even.dct4
  exact rejects_validateBuffers _ _ _

theorem Type4ConvertToType3Even.rejects_dst4 (self : Type4ConvertToType3Even T) : Rejects self.dst4 self.len self.scratchLen := by
  unfold Type4ConvertToType3Even.dst4
  exact rejects_validateBuffers _ _ _

theorem Type2And3SplitRadix.ok23 {half quarter : Obj23 T} {q : Nat} (hq : 1 ≤ q) (hs : half.scratchLen ≤ 4 * q)
    (qs : quarter.scratchLen ≤ 4 * q) (Ph : Ok23 (2 * q) half) (Pq : Ok23 q quarter) :
    Ok23 (4 * q) (Type2And3SplitRadix.inst q half quarter).toObj := by
  have es : (Type2And3SplitRadix.inst q half quarter).toObj.scratchLen = 4 * q := Type2And3SplitRadix.inst_len q half quarter
  obtain ⟨C2h, c2h⟩ := Ph.dct2
  obtain ⟨C2q, c2q⟩ := Pq.dct2
  obtain ⟨C3h, c3h⟩ := Ph.dct3 (by omega)
  obtain ⟨C3q, c3q⟩ := Pq.dct3 (by omega)
  have d2 := Type2And3SplitRadix.dct2_inst (by omega) (by omega) (by omega) c2h.weak c2q.weak
  have d3 := Type2And3SplitRadix.dct3_inst (by omega) (by omega) (by omega) c3h.weak c3q.weak
  constructor
  · exact Type2And3SplitRadix.inst_len q half quarter
  all_goals rw [es]
  · exact ⟨_, d2⟩
  · exact ⟨_, Type2And3SplitRadix.dst2_inst d2⟩
  · exact fun _ => ⟨_, d3⟩
  · exact fun _ => ⟨_, Type2And3SplitRadix.dst3_inst d3⟩
  · exact Type2And3SplitRadix.rejects_dct2 q half quarter
  · exact Type2And3SplitRadix.rejects_dct3 q half quarter
  · exact Type2And3SplitRadix.panics_dst2 q half quarter
  · exact Type2And3SplitRadix.panics_dst3 q half quarter

/-! ### Every instance -/

theorem MadeDct1.meth {o : Obj1 T} (h : MadeDct1 FftSane o) (hn : 2 ≤ o.len) : Meth o.run o.len o.scratchLen := by
  cases h with
  | naive h =>
    have e := Dct1Naive.len_new h
    change Meth _ (Dct1Naive.len _) _
    rw [e]
    exact Dct1Naive.meth_dct1 h
  | fft hf h =>
    obtain ⟨h1, h2, rfl⟩ := Dct1ConvertToFft.new_shape h
    obtain ⟨G, hG⟩ := hf.runs
    exact ⟨⟨_, Dct1ConvertToFft.runs hG hn (by simp only [Dct1ConvertToFft.toObj, Dct1ConvertToFft.inst] at *; omega)⟩,
      Dct1ConvertToFft.rejects_dct1 _⟩

theorem MadeDst1.meth {o : Obj1 T} (h : MadeDst1 FftSane o) : MethG o.run o.len o.scratchLen := by
  cases h with
  | naive h =>
    have e := Dst1Naive.len_new h
    change MethG _ (Dst1Naive.len _) _
    rw [e]
    exact (Dst1Naive.meth_dst1 h).toG
  | fft hf h =>
    obtain ⟨h1, h2, h3, rfl⟩ := Dst1ConvertToFft.new_shape h
    obtain ⟨G, hG⟩ := hf.runs
    exact ⟨⟨_, Dst1ConvertToFft.runs hG (by simp only [Dst1ConvertToFft.toObj, Dst1ConvertToFft.inst] at *; omega)⟩,
      Dst1ConvertToFft.rejects_dst1 _⟩

theorem Made23.ok {o : Obj23 T} (h : Made23 FftSane o) : Ok23 o.len o := by
  induction h with
  | @naive n x h =>
    have e := Type2And3Naive.len_new h
    change Ok23 (Type2And3Naive.len _) _
    rw [e]
    have a := Type2And3Naive.meth_dct2 h
    have b := Type2And3Naive.meth_dst2 h
    have es : x.toObj.scratchLen = x.len := rfl
    refine ⟨e, a.total, b.total, fun hn => (Type2And3Naive.meth_dct3 h hn).total, fun hn => (Type2And3Naive.meth_dst3 h hn).total,
      a.rejects, ?_, b.rejects.panics, ?_⟩
    · have := Type2And3Naive.rejects_dct3 x
      rw [e] at this; exact this
    · have := (Type2And3Naive.rejects_dst3 x).panics
      rw [e] at this; exact this
  | butterfly2 => exact ⟨rfl, Type2And3Butterfly2.total_dct2, Type2And3Butterfly2.total_dst2, fun _ => Type2And3Butterfly2.total_dct3, fun _ => Type2And3Butterfly2.total_dst3,
      Type2And3Butterfly2.rejects_dct2 Type2And3Butterfly2.new, Type2And3Butterfly2.rejects_dct3 Type2And3Butterfly2.new, (Type2And3Butterfly2.rejects_dst2 Type2And3Butterfly2.new).panics, (Type2And3Butterfly2.rejects_dst3 Type2And3Butterfly2.new).panics⟩
  | butterfly3 => exact ⟨rfl, Type2And3Butterfly3.total_dct2, Type2And3Butterfly3.total_dst2, fun _ => Type2And3Butterfly3.total_dct3, fun _ => Type2And3Butterfly3.total_dst3,
      Type2And3Butterfly3.rejects_dct2 Type2And3Butterfly3.new, Type2And3Butterfly3.rejects_dct3 Type2And3Butterfly3.new, (Type2And3Butterfly3.rejects_dst2 Type2And3Butterfly3.new).panics, (Type2And3Butterfly3.rejects_dst3 Type2And3Butterfly3.new).panics⟩
  | butterfly4 => exact ⟨rfl, Type2And3Butterfly4.total_dct2, Type2And3Butterfly4.total_dst2, fun _ => Type2And3Butterfly4.total_dct3, fun _ => Type2And3Butterfly4.total_dst3,
      Type2And3Butterfly4.rejects_dct2 Type2And3Butterfly4.new, Type2And3Butterfly4.rejects_dct3 Type2And3Butterfly4.new, (Type2And3Butterfly4.rejects_dst2 Type2And3Butterfly4.new).panics, (Type2And3Butterfly4.rejects_dst3 Type2And3Butterfly4.new).panics⟩
  | butterfly8 => exact ⟨rfl, Type2And3Butterfly8.total_dct2, Type2And3Butterfly8.total_dst2, fun _ => Type2And3Butterfly8.total_dct3, fun _ => Type2And3Butterfly8.total_dst3,
      Type2And3Butterfly8.rejects_dct2 Type2And3Butterfly8.new, Type2And3Butterfly8.rejects_dct3 Type2And3Butterfly8.new, (Type2And3Butterfly8.rejects_dst2 Type2And3Butterfly8.new).panics, (Type2And3Butterfly8.rejects_dst3 Type2And3Butterfly8.new).panics⟩
  | butterfly16 => exact ⟨rfl, Type2And3Butterfly16.total_dct2, Type2And3Butterfly16.total_dst2, fun _ => Type2And3Butterfly16.total_dct3, fun _ => Type2And3Butterfly16.total_dst3,
      Type2And3Butterfly16.rejects_dct2 Type2And3Butterfly16.new, Type2And3Butterfly16.rejects_dct3 Type2And3Butterfly16.new, (Type2And3Butterfly16.rejects_dst2 Type2And3Butterfly16.new).panics, (Type2And3Butterfly16.rejects_dst3 Type2And3Butterfly16.new).panics⟩
  | fft hf h =>
    obtain ⟨h1, rfl⟩ := Type2And3ConvertToFft.new_shape h
    exact Type2And3ConvertToFft.ok23 (Type2And3ConvertToFft.len_inst _).symm hf
  | splitRadix hh hq sh sq h ih iq =>
    obtain ⟨h1, h2, h3, rfl⟩ := Type2And3SplitRadix.new_shape h
    rw [h1] at ih sh sq
    have := Type2And3SplitRadix.ok23 h2 (by omega) (by omega) ih iq
    rwa [← this.len] at this

theorem Made4.meth {o : Obj4 T} (h : Made4 FftSane o) (hn : 1 ≤ o.len) :
    Meth o.dct4 o.len o.scratchLen ∧ Meth o.dst4 o.len o.scratchLen := by
  cases h with
  | naive h =>
    have e := Type4Naive.len_new h
    change Meth _ (Type4Naive.len _) _ ∧ Meth _ (Type4Naive.len _) _
    rw [e]
    exact ⟨Type4Naive.meth_dct4 h, Type4Naive.meth_dst4 h⟩
  | fft hf h =>
    obtain ⟨h1, h2, rfl⟩ := Type4ConvertToFftOdd.new_shape h
    obtain ⟨G, hG⟩ := hf.runs
    exact ⟨⟨⟨_, Type4ConvertToFftOdd.runs_dct4 hG h1 rfl⟩, Type4ConvertToFftOdd.rejects_dct4 _⟩,
      ⟨⟨_, Type4ConvertToFftOdd.runs_dst4 hG h1 rfl⟩, Type4ConvertToFftOdd.rejects_dst4 _⟩⟩
  | @type3 inner x hi h =>
    rw [Type4ConvertToType3Even.new_eq rfl] at h
    injection h with h
    subst h
    have e := Type4ConvertToType3Even.inst_len inner.len inner
    have e' : (Type4ConvertToType3Even.inst inner.len inner).toObj.len = 2 * inner.len := e
    have r1 := Type4ConvertToType3Even.rejects_dct4 (Type4ConvertToType3Even.inst inner.len inner)
    have r2 := Type4ConvertToType3Even.rejects_dst4 (Type4ConvertToType3Even.inst inner.len inner)
    rw [e] at r1 r2
    rw [e'] at hn ⊢
    have ok := hi.ok
    obtain ⟨C, hC⟩ := ok.dct3 (by omega)
    obtain ⟨S, hS⟩ := ok.dst3 (by omega)
    exact ⟨⟨⟨_, Type4ConvertToType3Even.dct4_inst (by omega) hC.weak hS.weak⟩, r1⟩,
      ⟨⟨_, Type4ConvertToType3Even.dst4_inst (by omega) hC.weak hS.weak⟩, r2⟩⟩

theorem MadeDct5.meth {o : Obj1 T} (h : MadeDct5 o) : Meth o.run o.len o.scratchLen := by
  cases h with
  | naive h =>
    have e := Dct5Naive.len_new h
    change Meth _ (Dct5Naive.len _) _
    rw [e]
    exact Dct5Naive.meth_dct5 h

theorem MadeDst5.meth {o : Obj1 T} (h : MadeDst5 o) : Meth o.run o.len o.scratchLen := by
  cases h with
  | naive h =>
    have e := Dst5Naive.len_new h
    change Meth _ (Dst5Naive.len _) _
    rw [e]
    exact Dst5Naive.meth_dst5 h

theorem MadeDct8.meth {o : Obj1 T} (h : MadeDct8 o) : Meth o.run o.len o.scratchLen := by
  cases h with
  | naive h =>
    have e := Dct8Naive.len_new h
    change Meth _ (Dct8Naive.len _) _
    rw [e]
    exact Dct8Naive.meth_dct8 h

theorem MadeDst8.meth {o : Obj1 T} (h : MadeDst8 o) : Meth o.run o.len o.scratchLen := by
  cases h with
  | naive h =>
    have e := Dst8Naive.len_new h
    change Meth _ (Dst8Naive.len _) _
    rw [e]
    exact Dst8Naive.meth_dst8 h

theorem MadeDct67.meth {o : Obj67 T} (h : MadeDct67 o) : Meth o.t6 o.len o.scratchLen ∧ Meth o.t7 o.len o.scratchLen := by
  cases h with
  | naive h =>
    have e := Dct6And7Naive.len_new h
    change Meth _ (Dct6And7Naive.len _) _ ∧ Meth _ (Dct6And7Naive.len _) _
    rw [e]
    exact ⟨Dct6And7Naive.meth_dct6 h, Dct6And7Naive.meth_dct7 h⟩

theorem MadeDst67.meth {o : Obj67 T} (h : MadeDst67 FftSane o) :
    MethG o.t6 o.len o.scratchLen ∧ MethG o.t7 o.len o.scratchLen := by
  cases h with
  | naive h =>
    have e := Dst6And7Naive.len_new h
    change MethG _ (Dst6And7Naive.len _) _ ∧ MethG _ (Dst6And7Naive.len _) _
    rw [e]
    exact ⟨(Dst6And7Naive.meth_dst6 h).toG, (Dst6And7Naive.meth_dst7 h).toG⟩
  | @fft fft x hf h =>
    obtain ⟨h1, h2, rfl⟩ := Dst6And7ConvertToFft.new_shape h
    obtain ⟨G, hG⟩ := hf.runs
    have e : fft.len = (Dst6And7ConvertToFft.inst fft).toObj.len * 2 + 1 := by
      simp only [Dst6And7ConvertToFft.toObj, Dst6And7ConvertToFft.inst]; omega
    exact ⟨⟨⟨_, Dst6And7ConvertToFft.runs_dst6 hG e⟩, Dst6And7ConvertToFft.rejects_dst6 _⟩,
      ⟨⟨_, Dst6And7ConvertToFft.runs_dst7 hG e⟩, Dst6And7ConvertToFft.rejects_dst7 _⟩⟩

end
end RustDct
