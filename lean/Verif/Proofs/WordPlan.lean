import Verif.WordHistory
import Verif.Proofs.PlannerInv
/-!
# What the planner's caches contain after any history on a machine with bounded `usize`

The same as `Verif/Proofs/PlannerInv.lean`, for the planner of `Verif/Model/WordPlan.lean`.
-/

set_option linter.all false

namespace RustDct

variable {T : Type} {F : Type} [F64 F] [DctNum T F]

section
variable (M : Target) (planFft : Nat → Fft T)

def canonDct1On (len : Nat) : Except Err (Obj1 T) :=
  if len < 10 then (Dct1Naive.newOn M len).map (Dct1Naive.toObjOn M.toMachine)
  else do
    let lenM1 ← M.sub len 1
    let fftLen ← M.arith (lenM1 * 2)
    (Dct1ConvertToFft.newOn M (planFft fftLen)).map Dct1ConvertToFft.toObj

def canon23On (len : Nat) : Except Err (Obj23 T) :=
  if dct2Butterflies.contains len then canonBfly len
  else if _h : isPowerOfTwo len = true ∧ len > 2 then do
    let half ← canon23On (len / 2)
    let quarter ← canon23On (len / 4)
    (Type2And3SplitRadix.newOn M half quarter).map (Type2And3SplitRadix.toObjOn M.toMachine)
  else (Type2And3ConvertToFft.newOn M (planFft len)).map (Type2And3ConvertToFft.toObjOn M.toMachine)
termination_by len

def canon4On (len : Nat) : Except Err (Obj4 T) :=
  if len % 2 = 0 then
    if len < 6 then (Type4Naive.newOn M len).map (Type4Naive.toObjOn M.toMachine)
    else do
      let inner ← canon23On M planFft (len / 2)
      (Type4ConvertToType3Even.newOn M inner).map (Type4ConvertToType3Even.toObjOn M.toMachine)
  else if len < 7 then (Type4Naive.newOn M len).map (Type4Naive.toObjOn M.toMachine)
  else (Type4ConvertToFftOdd.newOn M (planFft len)).map (Type4ConvertToFftOdd.toObjOn M.toMachine)

def canonDst1On (len : Nat) : Except Err (Obj1 T) :=
  if len < 25 then (Dst1Naive.newOn M len).map (Dst1Naive.toObjOn M.toMachine)
  else do
    let lenP1 ← M.arith (len + 1)
    let fftLen ← M.arith (lenP1 * 2)
    (Dst1ConvertToFft.newOn M (planFft fftLen)).map Dst1ConvertToFft.toObj

def canonDst6On (len : Nat) : Except Err (Obj67 T) :=
  if len < 45 then (Dst6And7Naive.newOn M len).map (Dst6And7Naive.toObjOn M.toMachine)
  else do
    let double ← M.arith (len * 2)
    let fftLen ← M.arith (double + 1)
    (Dst6And7ConvertToFft.newOn M (planFft fftLen)).map (Dst6And7ConvertToFft.toObjOn M.toMachine)

def canonMdctOn (len : Nat) (windowFn : Nat → List T) : Except Err (MdctObj T) := do
  let inner ← canon4On M planFft len
  (MdctViaDct4.newOn M inner windowFn).map MdctViaDct4.toObj

def canonDct5On (len : Nat) : Except Err (Obj1 T) := (Dct5Naive.newOn M len).map (Dct5Naive.toObjOn M.toMachine)
def canonDct6On (len : Nat) : Except Err (Obj67 T) := (Dct6And7Naive.newOn M len).map (Dct6And7Naive.toObjOn M.toMachine)
def canonDct8On (len : Nat) : Except Err (Obj1 T) := (Dct8Naive.newOn M len).map (Dct8Naive.toObjOn M.toMachine)
def canonDst5On (len : Nat) : Except Err (Obj1 T) := (Dst5Naive.newOn M len).map (Dst5Naive.toObjOn M.toMachine)
def canonDst8On (len : Nat) : Except Err (Obj1 T) := (Dst8Naive.newOn M len).map (Dst8Naive.toObjOn M.toMachine)

/-- Every cached instance is what planning its length without a cache gives, for a window of `W` in the case of MDCTs. -/
structure InvOn (W : Nat → (Nat → List T) → Prop) (s : Planner T) : Prop where
  dct1 : ∀ n a, s.dct1Cache n = some a → canonDct1On M planFft n = .ok a.val
  dst1 : ∀ n a, s.dst1Cache n = some a → canonDst1On M planFft n = .ok a.val
  dct23 : ∀ n a, s.dct23Cache n = some a → canon23On M planFft n = .ok a.val
  dct4 : ∀ n a, s.dct4Cache n = some a → canon4On M planFft n = .ok a.val
  dct5 : ∀ n a, s.dct5Cache n = some a → canonDct5On M n = .ok a.val
  dst5 : ∀ n a, s.dst5Cache n = some a → canonDst5On M n = .ok a.val
  dct6 : ∀ n a, s.dct6Cache n = some a → canonDct6On M n = .ok a.val
  dst6 : ∀ n a, s.dst6Cache n = some a → canonDst6On M planFft n = .ok a.val
  dct8 : ∀ n a, s.dct8Cache n = some a → canonDct8On M n = .ok a.val
  dst8 : ∀ n a, s.dst8Cache n = some a → canonDst8On M n = .ok a.val
  mdct : ∀ n a, s.mdctCache n = some a → ∃ w, W n w ∧ canonMdctOn M planFft n w = .ok a.val

/-- Running `m` in a state with the invariant gives `r` and keeps the invariant. -/
def Gives (W : Nat → (Nat → List T) → Prop) {α : Type} (m : PlanM T (Arc α)) (r : Except Err α) : Prop :=
  ∀ s, InvOn M planFft W s →
    match m s with
    | .ok a s' => r = .ok a.val ∧ InvOn M planFft W s'
    | .error e s' => r = .error e ∧ InvOn M planFft W s'
end

variable {M : Target} {planFft : Nat → Fft T} {W : Nat → (Nat → List T) → Prop}

theorem InvOn.new (i : Nat) : InvOn M planFft W (Planner.new i : Planner T) := by
  constructor <;> (intro n a h; cases h)

theorem InvOn.mono {W' : Nat → (Nat → List T) → Prop} (h : ∀ n w, W n w → W' n w) {s : Planner T} (hs : InvOn M planFft W s) : InvOn M planFft W' s :=
  { hs with mdct := fun n a e => by obtain ⟨w, h1, h2⟩ := hs.mdct n a e; exact ⟨w, h n w h1, h2⟩ }

theorem orPlan_run {α : Type} (look : Planner T → Option (Arc α)) (store : Planner T → Arc α → Planner T) (mk : PlanM T (Arc α)) (s : Planner T) :
    orPlan look store mk s = match look s with
      | some a => .ok a s
      | none => match mk s with
        | .ok r s' => .ok r (store s' r)
        | .error e s' => .error e s' := cachePlan_run look store mk s

theorem arcNew_gives {α : Type} (x : Except Err α) : Gives M planFft W (arcNew x : PlanM T (Arc α)) x := by
  intro s hs
  cases x with
  | error e => exact ⟨rfl, hs⟩
  | ok v => exact ⟨rfl, ⟨hs.dct1, hs.dst1, hs.dct23, hs.dct4, hs.dct5, hs.dst5, hs.dct6, hs.dst6, hs.dct8, hs.dst8, hs.mdct⟩⟩

theorem Gives.orPlan {α : Type} {look : Planner T → Option (Arc α)} {store : Planner T → Arc α → Planner T} {mk : PlanM T (Arc α)} {r : Except Err α}
    (h : Gives M planFft W mk r) (hlook : ∀ s a, InvOn M planFft W s → look s = some a → r = .ok a.val)
    (hstore : ∀ s a, InvOn M planFft W s → r = .ok a.val → InvOn M planFft W (store s a)) : Gives M planFft W (orPlan look store mk) r := by
  intro s hs
  rw [orPlan_run]
  cases hl : look s with
  | some a => exact ⟨hlook s a hs hl, hs⟩
  | none =>
    have := h s hs
    dsimp only
    cases hm : mk s with
    | error e s' => rw [hm] at this; exact this
    | ok a s' => rw [hm] at this; exact ⟨this.1, hstore s' a this.2 this.1⟩

theorem Gives.bind {α β : Type} {m : PlanM T (Arc α)} {r : Except Err α} {k : Arc α → PlanM T (Arc β)} {q : α → Except Err β}
    (h : Gives M planFft W m r) (h2 : ∀ a, Gives M planFft W (k a) (q a.val)) : Gives M planFft W (m >>= k) (r >>= q) := by
  intro s hs
  rw [bind_run]
  have h1 := h s hs
  cases hm : m s with
  | error e s' => rw [hm] at h1; obtain ⟨r1, r2⟩ := h1; subst r1; exact ⟨rfl, r2⟩
  | ok a s' =>
    rw [hm] at h1
    obtain ⟨r1, r2⟩ := h1
    subst r1
    have h3 := h2 a s' r2
    dsimp only
    cases hk : k a s' with
    | error e s2 => rw [hk] at h3; exact h3
    | ok b s2 => rw [hk] at h3; exact h3

theorem planDct1On_gives (n : Nat) : Gives M planFft W (planDct1On M planFft n) (canonDct1On M planFft n) :=
  Gives.orPlan (arcNew_gives _) (fun s a hs e => hs.dct1 n a e)
    (fun s a hs e => { hs with dct1 := insertCache_inv (P := fun n o => canonDct1On M planFft n = .ok o) hs.dct1 e })

theorem planDst1On_gives (n : Nat) : Gives M planFft W (planDst1On M planFft n) (canonDst1On M planFft n) :=
  Gives.orPlan (arcNew_gives _) (fun s a hs e => hs.dst1 n a e)
    (fun s a hs e => { hs with dst1 := insertCache_inv (P := fun n o => canonDst1On M planFft n = .ok o) hs.dst1 e })

theorem planDst6On_gives (n : Nat) : Gives M planFft W (planDst6On M planFft n) (canonDst6On M planFft n) :=
  Gives.orPlan (arcNew_gives _) (fun s a hs e => hs.dst6 n a e)
    (fun s a hs e => { hs with dst6 := insertCache_inv (P := fun n o => canonDst6On M planFft n = .ok o) hs.dst6 e })

theorem planDct5On_gives (n : Nat) : Gives M planFft W (planDct5On M n) (canonDct5On M n) :=
  Gives.orPlan (arcNew_gives _) (fun s a hs e => hs.dct5 n a e)
    (fun s a hs e => { hs with dct5 := insertCache_inv (P := fun n o => canonDct5On M n = .ok o) hs.dct5 e })

theorem planDct6On_gives (n : Nat) : Gives M planFft W (planDct6On M n) (canonDct6On M n) :=
  Gives.orPlan (arcNew_gives _) (fun s a hs e => hs.dct6 n a e)
    (fun s a hs e => { hs with dct6 := insertCache_inv (P := fun n o => canonDct6On M n = .ok o) hs.dct6 e })

theorem planDct8On_gives (n : Nat) : Gives M planFft W (planDct8On M n) (canonDct8On M n) :=
  Gives.orPlan (arcNew_gives _) (fun s a hs e => hs.dct8 n a e)
    (fun s a hs e => { hs with dct8 := insertCache_inv (P := fun n o => canonDct8On M n = .ok o) hs.dct8 e })

theorem planDst5On_gives (n : Nat) : Gives M planFft W (planDst5On M n) (canonDst5On M n) :=
  Gives.orPlan (arcNew_gives _) (fun s a hs e => hs.dst5 n a e)
    (fun s a hs e => { hs with dst5 := insertCache_inv (P := fun n o => canonDst5On M n = .ok o) hs.dst5 e })

theorem planDst8On_gives (n : Nat) : Gives M planFft W (planDst8On M n) (canonDst8On M n) :=
  Gives.orPlan (arcNew_gives _) (fun s a hs e => hs.dst8 n a e)
    (fun s a hs e => { hs with dst8 := insertCache_inv (P := fun n o => canonDst8On M n = .ok o) hs.dst8 e })

theorem planDct2Butterfly_gives (n : Nat) : Gives M planFft W (planDct2Butterfly n) (canonBfly n) := by
  unfold planDct2Butterfly canonBfly
  iterate 5 (split; · exact arcNew_gives _)
  exact fun s hs => ⟨rfl, hs⟩

theorem planDct2On_gives (n : Nat) : Gives M planFft W (planDct2On M planFft n) (canon23On M planFft n) := by
  induction n using Nat.strongRecOn with
  | ind n ih =>
    rw [planDct2On]
    refine Gives.orPlan ?_ (fun s a hs e => hs.dct23 n a e)
      (fun s a hs e => { hs with dct23 := insertCache_inv (P := fun n o => canon23On M planFft n = .ok o) hs.dct23 e })
    rw [planNewDct2On, canon23On]
    split
    · exact planDct2Butterfly_gives n
    split
    · next h1 h2 =>
      exact Gives.bind (ih (n / 2) (by omega)) fun a => Gives.bind (ih (n / 4) (by omega)) fun b => arcNew_gives _
    · exact arcNew_gives _

theorem planDct4On_gives (n : Nat) : Gives M planFft W (planDct4On M planFft n) (canon4On M planFft n) := by
  refine Gives.orPlan ?_ (fun s a hs e => hs.dct4 n a e)
    (fun s a hs e => { hs with dct4 := insertCache_inv (P := fun n o => canon4On M planFft n = .ok o) hs.dct4 e })
  unfold planNewDct4On canon4On
  split
  · split
    · exact arcNew_gives _
    · exact Gives.bind (planDct2On_gives _) fun a => arcNew_gives _
  · split <;> exact arcNew_gives _

/-- `plan_mdct`: a cached instance, made for whatever window, or a new one. -/
theorem planMdctOn_run (n : Nat) {w : Nat → List T} (hw : W n w) (s : Planner T) (hs : InvOn M planFft W s) :
    match planMdctOn M planFft n w s with
    | .ok a s' => (∃ w', W n w' ∧ canonMdctOn M planFft n w' = .ok a.val) ∧ InvOn M planFft W s'
    | .error e s' => canonMdctOn M planFft n w = .error e ∧ InvOn M planFft W s' := by
  unfold planMdctOn
  rw [orPlan_run]
  cases hl : s.mdctCache n with
  | some a => exact ⟨hs.mdct n a hl, hs⟩
  | none =>
    have := Gives.bind (planDct4On_gives (M := M) (planFft := planFft) (W := W) n)
      (k := fun a => arcNew ((MdctViaDct4.newOn M a.val w).map MdctViaDct4.toObj)) (q := fun a => (MdctViaDct4.newOn M a w).map MdctViaDct4.toObj)
      (fun a => arcNew_gives _) s hs
    dsimp only
    cases hm : (planDct4On M planFft n >>= fun a => arcNew ((MdctViaDct4.newOn M a.val w).map MdctViaDct4.toObj)) s with
    | error e s' => rw [hm] at this; exact this
    | ok a s' =>
      rw [hm] at this
      exact ⟨⟨w, hw, this.1⟩, { this.2 with mdct := insertCache_inv (P := fun n o => ∃ w, W n w ∧ canonMdctOn M planFft n w = .ok o) this.2.mdct ⟨w, hw, this.1⟩ }⟩

theorem Gives.keeps {α : Type} {m : PlanM T (Arc α)} {r : Except Err α} (h : Gives M planFft W m r) {s : Planner T} (hs : InvOn M planFft W s) :
    InvOn M planFft W (finalState (m s)) := by
  have := h s hs
  cases hm : m s <;> (rw [hm] at this; exact this.2)

theorem runOn_inv (c : PlanCall T) (hc : ∀ n w, c = .mdct n w → W n w) {s : Planner T} (hs : InvOn M planFft W s) : InvOn M planFft W (c.runOn M planFft s) := by
  cases c with
  | dct1 n => exact (planDct1On_gives n).keeps hs
  | dct2 n => exact (planDct2On_gives n).keeps hs
  | dct3 n => exact (planDct2On_gives n).keeps hs
  | dct4 n => exact (planDct4On_gives n).keeps hs
  | dct5 n => exact (planDct5On_gives n).keeps hs
  | dct6 n => exact (planDct6On_gives n).keeps hs
  | dct7 n => exact (planDct6On_gives n).keeps hs
  | dct8 n => exact (planDct8On_gives n).keeps hs
  | dst1 n => exact (planDst1On_gives n).keeps hs
  | dst2 n => exact (planDct2On_gives n).keeps hs
  | dst3 n => exact (planDct2On_gives n).keeps hs
  | dst4 n => exact (planDct4On_gives n).keeps hs
  | dst5 n => exact (planDst5On_gives n).keeps hs
  | dst6 n => exact (planDst6On_gives n).keeps hs
  | dst7 n => exact (planDst6On_gives n).keeps hs
  | dst8 n => exact (planDst8On_gives n).keeps hs
  | mdct n w =>
    have := planMdctOn_run n (hc n w rfl) s hs
    change InvOn M planFft W (finalState (planMdctOn M planFft n w s))
    cases hm : planMdctOn M planFft n w s <;> (rw [hm] at this; exact this.2)

theorem afterOn_inv (calls : List (PlanCall T)) : InvOn M planFft (fun n w => PlanCall.mdct n w ∈ calls) (plannerAfterOn M planFft calls) := by
  suffices h : ∀ (cs : List (PlanCall T)) (s : Planner T), (∀ c ∈ cs, c ∈ calls) → InvOn M planFft (fun n w => PlanCall.mdct n w ∈ calls) s →
      InvOn M planFft (fun n w => PlanCall.mdct n w ∈ calls) (cs.foldl (fun s c => c.runOn M planFft s) s) from
    h calls _ (fun _ h => h) (InvOn.new 0)
  intro cs
  induction cs with
  | nil => exact fun s _ hs => hs
  | cons c cs ih =>
    intro s hc hs
    exact ih _ (fun d hd => hc d (List.mem_cons_of_mem _ hd)) (runOn_inv c (fun n w e => e ▸ hc c (by simp)) hs)

/-- What a planner method returns after any history is what it returns without a cache. -/
theorem Gives.canon {α : Type} {m : PlanM T (Arc α)} {r : Except Err α} (h : ∀ W, Gives M planFft W m r) {calls : List (PlanCall T)} {a : Arc α} {s'}
    (e : m (plannerAfterOn M planFft calls) = .ok a s') : r = .ok a.val := by
  have := h _ _ (afterOn_inv calls)
  rw [e] at this
  exact this.1

end RustDct
