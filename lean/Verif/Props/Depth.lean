import Verif.Depth
import Verif.Props.Planner
import Verif.Proofs.MadeMdct
import Verif.Proofs.Memory
/-!
# C79: recursion is at most logarithmic in the length
-/

set_option linter.all false

namespace RustDct

section
variable {T : Type} {F : Type} [F64 F] [DctNum T F] {planFft : Nat → Fft T}

theorem log_four {q : Nat} (hq : 1 ≤ q) : Nat.log 2 (4 * q) = Nat.log 2 (2 * q) + 1 := by
  rw [show 4 * q = 2 * q * 2 by omega, Nat.log_mul_base (by norm_num) (by omega)]

/-! ### Processing -/

/-- Every instance of types 2 and 3 made with the public constructors, however nested: the calls of inner instances are at most `log₂ len` deep. -/
theorem C79_made23 {okFft : Fft T → Prop} {o : Obj23 T} (h : Made23 okFft o) : ∃ k ≤ Nat.log 2 o.len, Depth23 o k := by
  induction h with
  | naive h => exact ⟨0, Nat.zero_le _, .naive _⟩
  | butterfly2 => exact ⟨0, Nat.zero_le _, .butterfly2 _⟩
  | butterfly3 => exact ⟨0, Nat.zero_le _, .butterfly3 _⟩
  | butterfly4 => exact ⟨1, Nat.le_log_of_pow_le (by norm_num) (Nat.le_of_ble_eq_true rfl), .butterfly4 _⟩
  | butterfly8 => exact ⟨2, Nat.le_log_of_pow_le (by norm_num) (Nat.le_of_ble_eq_true rfl), .butterfly8 _⟩
  | butterfly16 => exact ⟨3, Nat.le_log_of_pow_le (by norm_num) (Nat.le_of_ble_eq_true rfl), .butterfly16 _⟩
  | fft hf h => exact ⟨0, Nat.zero_le _, .fft _⟩
  | @splitRadix half quarter x hh hq sh sq h ih iq =>
    obtain ⟨e, hq1, -, rfl⟩ := Type2And3SplitRadix.new_shape h
    obtain ⟨a, ha, Ha⟩ := ih
    obtain ⟨b, hb, Hb⟩ := iq
    refine ⟨_, ?_, .splitRadix _ Ha Hb⟩
    have l : (Type2And3SplitRadix.inst quarter.len half quarter).toObj.len = 4 * quarter.len := by
      show (vec _ _).length * 4 = _
      rw [length_vec, Nat.mul_comm]
    rw [l, log_four hq1]
    have : Nat.log 2 quarter.len ≤ Nat.log 2 (2 * quarter.len) := Nat.log_mono_right (by omega)
    rw [e] at ha
    have : max a b ≤ Nat.log 2 (2 * quarter.len) := max_le ha (hb.trans this)
    omega

theorem C79_made4 {okFft : Fft T → Prop} {o : Obj4 T} (h : Made4 okFft o) : ∃ k ≤ Nat.log 2 o.len + 1, Depth4 o k := by
  cases h with
  | naive h => exact ⟨0, Nat.zero_le _, .naive _⟩
  | fft hf h => exact ⟨0, Nat.zero_le _, .odd _⟩
  | @type3 inner x hi h =>
    obtain ⟨k, hk, hw⟩ := C79_made23 hi
    rw [Type4ConvertToType3Even.new_eq rfl] at h
    injection h with h
    subst h
    refine ⟨_, ?_, .even _ hw⟩
    have l : (Type4ConvertToType3Even.inst inner.len inner).toObj.len = inner.len * 2 := by
      show (vec _ _).length * 2 = _
      rw [length_vec]
    rw [l]
    have : Nat.log 2 inner.len ≤ Nat.log 2 (inner.len * 2) := Nat.log_mono_right (by omega)
    omega

theorem C79_madeMdct {okFft : Fft T → Prop} {win : List T} {o : MdctObj T} (h : MadeMdct okFft win o) : ∃ k ≤ Nat.log 2 o.len + 2, DepthMdct o k := by
  cases h with
  | naive h => exact ⟨0, Nat.zero_le _, .naive _⟩
  | viaDct4 hi h =>
    obtain ⟨k, hk, hw⟩ := C79_made4 hi
    obtain ⟨-, -, rfl⟩ := MdctViaDct4.new_shape h
    refine ⟨_, ?_, .viaDct4 _ hw⟩
    rw [Nat.add_comm 1 k]
    exact Nat.succ_le_succ hk

/-- What the planner returns: at most `log₂ n` levels for types 2 and 3. -/
theorem C79_planned23 (hf : PlanFftShape planFft) (n : Nat) : Plans planFft (planDct2 planFft n) fun o => ∃ k ≤ Nat.log 2 n, Depth23 o k := fun calls => by
  have := planDct2_yields (planFft := planFft) (W := UsedWindow calls) n _ (after_inv calls)
  obtain ⟨o, h1, h2, h3⟩ := canon23_made hf n
  cases hm : planDct2 planFft n (plannerAfter planFft calls) with
  | error e s' => rw [hm, h1] at this; cases this.1
  | ok a s' =>
    rw [hm, h1] at this
    injection this.1 with e
    have := C79_made23 h2
    rw [h3, e] at this
    exact ⟨a, s', rfl, this⟩

theorem C79_planned4 (hf : PlanFftShape planFft) (n : Nat) : Plans planFft (planDct4 planFft n) fun o => ∃ k ≤ Nat.log 2 n + 1, Depth4 o k := fun calls => by
  have := planDct4_yields (planFft := planFft) (W := UsedWindow calls) n _ (after_inv calls)
  obtain ⟨o, h1, h2, h3⟩ := canon4_made hf n
  cases hm : planDct4 planFft n (plannerAfter planFft calls) with
  | error e s' => rw [hm, h1] at this; cases this.1
  | ok a s' =>
    rw [hm, h1] at this
    injection this.1 with e
    have := C79_made4 h2
    rw [h3, e] at this
    exact ⟨a, s', rfl, this⟩

theorem C79_plannedMdct (hf : PlanFftShape planFft) {n : Nat} {w : Nat → List T} {calls : List (PlanCall T)} {a : Arc (MdctObj T)} {s' : Planner T}
    (h : planMdct planFft n w (plannerAfter planFft calls) = .ok a s') : ∃ k ≤ Nat.log 2 n + 2, DepthMdct a.val k := by
  have := planMdct_run (planFft := planFft) (W := UsedWindow (calls ++ [.mdct n w])) n (w := w) (by unfold UsedWindow; simp) (plannerAfter planFft calls)
    (foldl_inv (planFft := planFft) (W := UsedWindow (calls ++ [.mdct n w])) calls (fun m v hv => by unfold UsedWindow; simp [hv]) (Inv.new 0)).1
  rw [h] at this
  obtain ⟨⟨w', -, hc⟩, -⟩ := this
  unfold canonMdct at hc
  obtain ⟨i, h1, h2, h3⟩ := canon4_made hf n
  rw [h1] at hc
  obtain ⟨x, hx, hx'⟩ := map_ok (show (MdctViaDct4.new i w').map MdctViaDct4.toObj = .ok a.val from hc)
  rw [← hx']
  obtain ⟨k, hk, hw⟩ := C79_made4 h2
  obtain ⟨-, -, rfl⟩ := MdctViaDct4.new_shape hx
  refine ⟨_, ?_, .viaDct4 _ hw⟩
  rw [Nat.add_comm 1 k, ← h3]
  exact Nat.succ_le_succ hk

/-! ### Planning -/

theorem planDct2In_eq (frames len : Nat) : (planDct2In planFft (frames + 1) len : PlanM T _) = cachePlan (fun s => s.dct23Cache len)
    (fun s a => { s with dct23Cache := insertCache s.dct23Cache len a }) (planNewDct2In planFft frames len) := by
  rw [planDct2In]
  unfold cachePlan
  congr 1
  funext s
  dsimp only
  split <;> (rename_i h; rw [h])

/-- A stack with room for `log₂ len + 1` nested calls is enough to plan any length: the planner then does the same as with an unbounded stack. -/
theorem C79_planning (len : Nat) {frames : Nat} (h : Nat.log 2 len + 1 ≤ frames) (s : Planner T) : planDct2In planFft frames len s = planDct2 planFft len s := by
  suffices e : planDct2In planFft frames len = planDct2 planFft len by rw [e]
  induction len using Nat.strongRecOn generalizing frames with
  | ind len ih =>
    obtain ⟨f, rfl⟩ : ∃ f, frames = f + 1 := ⟨frames - 1, by omega⟩
    rw [planDct2In_eq, planDct2_eq]
    congr 1
    rw [planNewDct2In, planNewDct2]
    by_cases hb : dct2Butterflies.contains len = true
    · rw [if_pos hb, if_pos hb]
    rw [if_neg hb, if_neg hb]
    by_cases hp : isPowerOfTwo len = true ∧ len > 2
    · rw [if_pos hp, dif_pos hp]
      have l2 : Nat.log 2 (len / 2) + 1 ≤ f := by
        have : Nat.log 2 len = Nat.log 2 (len / 2) + 1 := Nat.log_of_one_lt_of_le (by norm_num) (by omega)
        omega
      have l4 : Nat.log 2 (len / 4) ≤ Nat.log 2 (len / 2) := Nat.log_mono_right (by omega)
      rw [ih (len / 2) (by omega) l2, ih (len / 4) (by omega) (by omega)]
    · rw [if_neg hp, dif_neg hp]

/-- With one frame less than the bound it may fail: the bound is reached up to the smallest butterflies. -/
theorem C79_planning_needs : ∃ e, answer (planDct2In (fun m => (dftFft m 0 : Fft T)) 1 32 (Planner.new 0)) = .error e := by
  refine ⟨.assertion, ?_⟩
  rw [planDct2In_eq, cachePlan_run, show (Planner.new 0 : Planner T).dct23Cache 32 = none from rfl, planNewDct2In, if_neg (by decide), if_pos (by decide), planDct2In]
  rfl

/-! ### Non-vacuity -/

example (s : Planner T) : planDct2In planFft 21 (2 ^ 20) s = planDct2 planFft (2 ^ 20) s :=
  C79_planning _ (by rw [Nat.log_pow (by norm_num)]) s

example (calls : List (PlanCall T)) : ∃ a s', planDct2 (fun m => (dftFft m 0 : Fft T)) (2 ^ 20) (plannerAfter (fun m => dftFft m 0) calls) = .ok a s' ∧ ∃ k ≤ 20, Depth23 a.val k := by
  obtain ⟨a, s', e, k, hk, h⟩ := C79_planned23 (planFft := fun m => (dftFft m 0 : Fft T)) (fun m => ⟨rfl, rfl⟩) (2 ^ 20) calls
  rw [Nat.log_pow (by norm_num)] at hk
  exact ⟨a, s', e, k, hk, h⟩

end
end RustDct
