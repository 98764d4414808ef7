import Verif.Proofs.WordPlan
import Verif.Proofs.WordProcess
/-!
# Planned instances on a machine: their methods agree with the methods with unbounded `usize`

`canonXMid` is what planning without a cache gives if constructors and planner have the arithmetic of the machine and the methods have unbounded
`usize`.
-/

set_option linter.all false

namespace RustDct

variable {T : Type} {F : Type} [F64 F] [DctNum T F]

section
variable (M : Target) (planFft : Nat → Fft T)

def canonDct1Mid (len : Nat) : Except Err (Obj1 T) :=
  if len < 10 then (Dct1Naive.newOn M len).map Dct1Naive.toObj
  else do
    let lenM1 ← M.sub len 1
    let fftLen ← M.arith (lenM1 * 2)
    (Dct1ConvertToFft.newOn M (planFft fftLen)).map Dct1ConvertToFft.toObj

def canon23Mid (len : Nat) : Except Err (Obj23 T) :=
  if dct2Butterflies.contains len then canonBfly len
  else if _h : isPowerOfTwo len = true ∧ len > 2 then do
    let half ← canon23Mid (len / 2)
    let quarter ← canon23Mid (len / 4)
    (Type2And3SplitRadix.newOn M half quarter).map Type2And3SplitRadix.toObj
  else (Type2And3ConvertToFft.newOn M (planFft len)).map Type2And3ConvertToFft.toObj
termination_by len

def canon4Mid (len : Nat) : Except Err (Obj4 T) :=
  if len % 2 = 0 then
    if len < 6 then (Type4Naive.newOn M len).map Type4Naive.toObj
    else do
      let inner ← canon23Mid M planFft (len / 2)
      (Type4ConvertToType3Even.newOn M inner).map Type4ConvertToType3Even.toObj
  else if len < 7 then (Type4Naive.newOn M len).map Type4Naive.toObj
  else (Type4ConvertToFftOdd.newOn M (planFft len)).map Type4ConvertToFftOdd.toObj

def canonDst1Mid (len : Nat) : Except Err (Obj1 T) :=
  if len < 25 then (Dst1Naive.newOn M len).map Dst1Naive.toObj
  else do
    let lenP1 ← M.arith (len + 1)
    let fftLen ← M.arith (lenP1 * 2)
    (Dst1ConvertToFft.newOn M (planFft fftLen)).map Dst1ConvertToFft.toObj

def canonDst6Mid (len : Nat) : Except Err (Obj67 T) :=
  if len < 45 then (Dst6And7Naive.newOn M len).map Dst6And7Naive.toObj
  else do
    let double ← M.arith (len * 2)
    let fftLen ← M.arith (double + 1)
    (Dst6And7ConvertToFft.newOn M (planFft fftLen)).map Dst6And7ConvertToFft.toObj

def canonMdctMid (len : Nat) (windowFn : Nat → List T) : Except Err (MdctObj T) := do
  let inner ← canon4Mid M planFft len
  (MdctViaDct4.newOn M inner windowFn).map MdctViaDct4.toObj

def canonDct5Mid (len : Nat) : Except Err (Obj1 T) := (Dct5Naive.newOn M len).map Dct5Naive.toObj
def canonDct6Mid (len : Nat) : Except Err (Obj67 T) := (Dct6And7Naive.newOn M len).map Dct6And7Naive.toObj
def canonDct8Mid (len : Nat) : Except Err (Obj1 T) := (Dct8Naive.newOn M len).map Dct8Naive.toObj
def canonDst5Mid (len : Nat) : Except Err (Obj1 T) := (Dst5Naive.newOn M len).map Dst5Naive.toObj
def canonDst8Mid (len : Nat) : Except Err (Obj1 T) := (Dst8Naive.newOn M len).map Dst8Naive.toObj

end

/-- Both fail with the same error or both succeed with related results. -/
def Both {α β : Type} (R : α → β → Prop) : Except Err α → Except Err β → Prop
  | .ok x, .ok y => R x y
  | .error e, .error e' => e = e'
  | _, _ => False

variable {M : Target} {planFft : Nat → Fft T} {n : Nat}

theorem Both.bind {α β γ δ : Type} {R : α → β → Prop} {Q : γ → δ → Prop} {a : Except Err α} {b : Except Err β} {f : α → Except Err γ} {g : β → Except Err δ}
    (h : Both R a b) (k : ∀ x y, R x y → Both Q (f x) (g y)) : Both Q (a >>= f) (b >>= g) := by
  cases a with
  | error e => cases b with
    | error e' => exact h
    | ok y => cases h
  | ok x => cases b with
    | error e' => cases h
    | ok y => exact k x y h

theorem Both.map {α β γ δ : Type} {R : α → β → Prop} {Q : γ → δ → Prop} {a : Except Err α} {b : Except Err β} {f : α → γ} {g : β → δ}
    (h : Both R a b) (k : ∀ x y, R x y → Q (f x) (g y)) : Both Q (a.map f) (b.map g) := by
  cases a with
  | error e => cases b with
    | error e' => exact h
    | ok y => cases h
  | ok x => cases b with
    | error e' => cases h
    | ok y => exact k x y h

theorem Both.self {α : Type} {R : α → α → Prop} {a : Except Err α} (h : ∀ x, a = .ok x → R x x) : Both R a a := by
  cases a with
  | error e => rfl
  | ok x => exact h x rfl

theorem Both.mono {α β : Type} {R Q : α → β → Prop} {a : Except Err α} {b : Except Err β} (h : Both R a b) (k : ∀ x y, R x y → Q x y) : Both Q a b := by
  cases a with
  | error e => cases b with
    | error e' => exact h
    | ok y => cases h
  | ok x => cases b with
    | error e' => cases h
    | ok y => exact k x y h

theorem Both.left {α β : Type} {R : α → β → Prop} {a : Except Err α} {b : Except Err β} (h : Both R a b) {y : β} (hb : b = .ok y) : ∃ x, a = .ok x ∧ R x y := by
  subst hb
  cases a with
  | error e => cases h
  | ok x => exact ⟨x, rfl, h⟩

theorem Both.right {α β : Type} {R : α → β → Prop} {a : Except Err α} {b : Except Err β} (h : Both R a b) {x : α} (ha : a = .ok x) : ∃ y, b = .ok y ∧ R x y := by
  subst ha
  cases b with
  | error e => cases h
  | ok y => exact ⟨y, rfl, h⟩

theorem of_bind_ok {α β : Type} {x : Except Err α} {f : α → Except Err β} {o : β} (h : (x >>= f) = .ok o) : ∃ a, x = .ok a ∧ f a = .ok o := by
  cases x with
  | error e => cases h
  | ok a => exact ⟨a, rfl, h⟩

theorem collect_length {α : Type} {w k : Nat} {g : Nat → α} {l : List α} (h : M.collect w k g = .ok l) : k * w ≤ M.maxVec ∧ l.length = k := by
  unfold Target.collect at h
  split at h
  · cases h; exact ⟨‹_›, by simp⟩
  · cases h

macro "table" h:ident : tactic => `(tactic| (
  repeat (obtain ⟨_, _, $h⟩ := of_bind_ok $h)
  cases $h:ident
  have := collect_length (by assumption)
  simp only
  omega))

theorem Dct1Naive.newOn_table {o : Dct1Naive T} (h : Dct1Naive.newOn M n = .ok o) : o.twiddles.length ≤ M.maxVec := by
  unfold Dct1Naive.newOn at h
  split at h
  · cases h
  table h

theorem Dst1Naive.newOn_table {o : Dst1Naive T} (h : Dst1Naive.newOn M n = .ok o) : o.twiddles.length ≤ M.maxVec := by
  unfold Dst1Naive.newOn at h
  table h

theorem Type2And3Naive.newOn_table {o : Type2And3Naive T} (h : Type2And3Naive.newOn M n = .ok o) : o.twiddles.length ≤ M.maxVec := by
  unfold Type2And3Naive.newOn at h
  table h

theorem Type4Naive.newOn_table {o : Type4Naive T} (h : Type4Naive.newOn M n = .ok o) : o.twiddles.length ≤ M.maxVec := by
  unfold Type4Naive.newOn at h
  table h

theorem Dct5Naive.newOn_table {o : Dct5Naive T} (h : Dct5Naive.newOn M n = .ok o) : o.twiddles.length ≤ M.maxVec := by
  unfold Dct5Naive.newOn at h
  table h

theorem Dst5Naive.newOn_table {o : Dst5Naive T} (h : Dst5Naive.newOn M n = .ok o) : o.twiddles.length ≤ M.maxVec := by
  unfold Dst5Naive.newOn at h
  table h

theorem Dct6And7Naive.newOn_table {o : Dct6And7Naive T} (h : Dct6And7Naive.newOn M n = .ok o) : o.twiddles.length ≤ M.maxVec := by
  unfold Dct6And7Naive.newOn at h
  table h

theorem Dst6And7Naive.newOn_table {o : Dst6And7Naive T} (h : Dst6And7Naive.newOn M n = .ok o) : o.twiddles.length ≤ M.maxVec := by
  unfold Dst6And7Naive.newOn at h
  table h

theorem Dct8Naive.newOn_table {o : Dct8Naive T} (h : Dct8Naive.newOn M n = .ok o) : o.twiddles.length ≤ M.maxVec := by
  unfold Dct8Naive.newOn at h
  table h

theorem Dst8Naive.newOn_table {o : Dst8Naive T} (h : Dst8Naive.newOn M n = .ok o) : o.twiddles.length ≤ M.maxVec := by
  unfold Dst8Naive.newOn at h
  table h

theorem Type2And3ConvertToFft.newOn_table {fft : Fft T} {o : Type2And3ConvertToFft T} (h : Type2And3ConvertToFft.newOn M fft = .ok o) :
    o.twiddles.length ≤ M.maxVec := by
  unfold Type2And3ConvertToFft.newOn at h
  split at h
  · cases h
  · dsimp only at h
    obtain ⟨_, -, h⟩ := of_bind_ok h
    split at h <;>
    · obtain ⟨x, -, h⟩ := of_bind_ok h
      obtain ⟨t, ht, h⟩ := of_bind_ok h
      obtain ⟨y, -, h⟩ := of_bind_ok h
      cases h
      have := collect_length ht
      simp only
      omega

/-- What is asked of the machine and the length. -/
def Target.Holds (M : Target) (n : Nat) : Prop := M.Realistic ∧ n ≤ M.maxVec

/-- The same length and scratch length, and methods that agree. -/
def Obj1.Like (M : Target) (P : Prop) (p q : Obj1 T) : Prop := q.len = p.len ∧ q.scratchLen = p.scratchLen ∧ (P → p.Agrees M.toMachine q)
def Obj23.Like (M : Target) (P : Prop) (p q : Obj23 T) : Prop := q.len = p.len ∧ q.scratchLen = p.scratchLen ∧ (P → p.Agrees M.toMachine q)
def Obj4.Like (M : Target) (P : Prop) (p q : Obj4 T) : Prop := q.len = p.len ∧ q.scratchLen = p.scratchLen ∧ (P → p.Agrees M.toMachine q)
def Obj67.Like (M : Target) (P : Prop) (p q : Obj67 T) : Prop := q.len = p.len ∧ q.scratchLen = p.scratchLen ∧ (P → p.Agrees M.toMachine q)
def MdctObj.Like (M : Target) (P : Prop) (p q : MdctObj T) : Prop := q.len = p.len ∧ q.scratchLen = p.scratchLen ∧ (P → p.Agrees M.toMachine q)

theorem Outcome.Agrees.refl {α : Type} {N : Machine} (a : Outcome α) : a.Agrees N a := .inl rfl

theorem Obj1.Like.refl {P : Prop} (p : Obj1 T) : p.Like M P p := ⟨rfl, rfl, fun _ => ⟨rfl, rfl, fun _ => .inl rfl⟩⟩
theorem Obj23.Like.refl {P : Prop} (p : Obj23 T) : p.Like M P p := ⟨rfl, rfl, fun _ => ⟨rfl, rfl, fun _ => .inl rfl, fun _ => .inl rfl, fun _ => .inl rfl, fun _ => .inl rfl⟩⟩

theorem Dct1Naive.mid : Both (Obj1.Like M M.Realistic) ((Dct1Naive.newOn M n).map Dct1Naive.toObj) ((Dct1Naive.newOn M n).map (Dct1Naive.toObjOn (T := T) M.toMachine)) :=
  Both.map (Both.self (R := fun x y => x = y ∧ x.twiddles.length ≤ M.maxVec) fun x h => ⟨rfl, Dct1Naive.newOn_table h⟩)
    fun x y ⟨e, h⟩ => e ▸ ⟨rfl, rfl, fun r => ⟨rfl, rfl, Dct1Naive.dct1On_agrees r.large r.room h⟩⟩

theorem Dst1Naive.mid : Both (Obj1.Like M M.Realistic) ((Dst1Naive.newOn M n).map Dst1Naive.toObj) ((Dst1Naive.newOn M n).map (Dst1Naive.toObjOn (T := T) M.toMachine)) :=
  Both.map (Both.self (R := fun x y => x = y ∧ x.twiddles.length ≤ M.maxVec) fun x h => ⟨rfl, Dst1Naive.newOn_table h⟩)
    fun x y ⟨e, h⟩ => e ▸ ⟨rfl, rfl, fun r => ⟨rfl, rfl, Dst1Naive.dst1On_agrees r.large r.room h⟩⟩

theorem Dct5Naive.mid : Both (Obj1.Like M M.Realistic) ((Dct5Naive.newOn M n).map Dct5Naive.toObj) ((Dct5Naive.newOn M n).map (Dct5Naive.toObjOn (T := T) M.toMachine)) :=
  Both.map (Both.self (R := fun x y => x = y ∧ x.twiddles.length ≤ M.maxVec) fun x h => ⟨rfl, Dct5Naive.newOn_table h⟩)
    fun x y ⟨e, h⟩ => e ▸ ⟨rfl, rfl, fun r => ⟨rfl, rfl, Dct5Naive.dct5On_agrees r.large r.room h⟩⟩

theorem Dst5Naive.mid : Both (Obj1.Like M M.Realistic) ((Dst5Naive.newOn M n).map Dst5Naive.toObj) ((Dst5Naive.newOn M n).map (Dst5Naive.toObjOn (T := T) M.toMachine)) :=
  Both.map (Both.self (R := fun x y => x = y ∧ x.twiddles.length ≤ M.maxVec) fun x h => ⟨rfl, Dst5Naive.newOn_table h⟩)
    fun x y ⟨e, h⟩ => e ▸ ⟨rfl, rfl, fun r => ⟨rfl, rfl, Dst5Naive.dst5On_agrees r.large r.room h⟩⟩

theorem Dct8Naive.mid : Both (Obj1.Like M M.Realistic) ((Dct8Naive.newOn M n).map Dct8Naive.toObj) ((Dct8Naive.newOn M n).map (Dct8Naive.toObjOn (T := T) M.toMachine)) :=
  Both.map (Both.self (R := fun x y => x = y ∧ x.twiddles.length ≤ M.maxVec) fun x h => ⟨rfl, Dct8Naive.newOn_table h⟩)
    fun x y ⟨e, h⟩ => e ▸ ⟨rfl, rfl, fun r => ⟨rfl, rfl, Dct8Naive.dct8On_agrees r.large r.room h⟩⟩

theorem Dst8Naive.mid : Both (Obj1.Like M M.Realistic) ((Dst8Naive.newOn M n).map Dst8Naive.toObj) ((Dst8Naive.newOn M n).map (Dst8Naive.toObjOn (T := T) M.toMachine)) :=
  Both.map (Both.self (R := fun x y => x = y ∧ x.twiddles.length ≤ M.maxVec) fun x h => ⟨rfl, Dst8Naive.newOn_table h⟩)
    fun x y ⟨e, h⟩ => e ▸ ⟨rfl, rfl, fun r => ⟨rfl, rfl, Dst8Naive.dst8On_agrees r.large r.room h⟩⟩

theorem Dct6And7Naive.mid : Both (Obj67.Like M M.Realistic) ((Dct6And7Naive.newOn M n).map Dct6And7Naive.toObj) ((Dct6And7Naive.newOn M n).map (Dct6And7Naive.toObjOn (T := T) M.toMachine)) :=
  Both.map (Both.self (R := fun x y => x = y ∧ x.twiddles.length ≤ M.maxVec) fun x h => ⟨rfl, Dct6And7Naive.newOn_table h⟩)
    fun x y ⟨e, h⟩ => e ▸ ⟨rfl, rfl, fun r => ⟨rfl, rfl, Dct6And7Naive.dct6On_agrees r.large r.room h, Dct6And7Naive.dct7On_agrees r.large r.room h⟩⟩

theorem Dst6And7Naive.mid : Both (Obj67.Like M M.Realistic) ((Dst6And7Naive.newOn M n).map Dst6And7Naive.toObj) ((Dst6And7Naive.newOn M n).map (Dst6And7Naive.toObjOn (T := T) M.toMachine)) :=
  Both.map (Both.self (R := fun x y => x = y ∧ x.twiddles.length ≤ M.maxVec) fun x h => ⟨rfl, Dst6And7Naive.newOn_table h⟩)
    fun x y ⟨e, h⟩ => e ▸ ⟨rfl, rfl, fun r => ⟨rfl, rfl, Dst6And7Naive.dst6On_agrees r.large r.room h, Dst6And7Naive.dst7On_agrees r.large r.room h⟩⟩

theorem Type4Naive.mid : Both (Obj4.Like M M.Realistic) ((Type4Naive.newOn M n).map Type4Naive.toObj) ((Type4Naive.newOn M n).map (Type4Naive.toObjOn (T := T) M.toMachine)) :=
  Both.map (Both.self (R := fun x y => x = y ∧ x.twiddles.length ≤ M.maxVec) fun x h => ⟨rfl, Type4Naive.newOn_table h⟩)
    fun x y ⟨e, h⟩ => e ▸ ⟨rfl, rfl, fun r => ⟨rfl, rfl, Type4Naive.dct4On_agrees r.large r.room h, Type4Naive.dst4On_agrees r.large r.room h⟩⟩

theorem Type2And3ConvertToFft.mid {fft : Fft T} : Both (Obj23.Like M M.Realistic) ((Type2And3ConvertToFft.newOn M fft).map Type2And3ConvertToFft.toObj)
    ((Type2And3ConvertToFft.newOn M fft).map (Type2And3ConvertToFft.toObjOn M.toMachine)) :=
  Both.map (Both.self (R := fun x y => x = y ∧ x.twiddles.length ≤ M.maxVec) fun x h => ⟨rfl, Type2And3ConvertToFft.newOn_table h⟩)
    fun x y ⟨e, h⟩ => e ▸ ⟨rfl, rfl, fun r => ⟨rfl, rfl, Type2And3ConvertToFft.dct2On_agrees r.large r.room h, Type2And3ConvertToFft.dct3On_agrees r.large r.room h,
      Type2And3ConvertToFft.dst2On_agrees r.large r.room h, Type2And3ConvertToFft.dst3On_agrees r.large r.room h⟩⟩

theorem Type4ConvertToFftOdd.mid {fft : Fft T} : Both (Obj4.Like M (M.Holds fft.len)) ((Type4ConvertToFftOdd.newOn M fft).map Type4ConvertToFftOdd.toObj)
    ((Type4ConvertToFftOdd.newOn M fft).map (Type4ConvertToFftOdd.toObjOn M.toMachine)) :=
  Both.map (Both.self (R := fun x y => x = y ∧ x.len = fft.len) fun x h => ⟨rfl, by
    unfold Type4ConvertToFftOdd.newOn at h
    split at h
    · cases h
    · split at h
      · cases h
      · obtain ⟨l, hl, h⟩ := of_bind_ok h
        cases h; rfl⟩)
    fun x y ⟨e, h⟩ => e ▸ ⟨rfl, rfl, fun r => ⟨rfl, rfl, Type4ConvertToFftOdd.dct4On_agrees r.1.large r.1.room (h ▸ r.2), Type4ConvertToFftOdd.dst4On_agrees r.1.large r.1.room (h ▸ r.2)⟩⟩

theorem Dst6And7ConvertToFft.mid {fft : Fft T} : Both (Obj67.Like M (M.Realistic ∧ fft.len ≤ 2 * M.maxVec + 1)) ((Dst6And7ConvertToFft.newOn M fft).map Dst6And7ConvertToFft.toObj)
    ((Dst6And7ConvertToFft.newOn M fft).map (Dst6And7ConvertToFft.toObjOn M.toMachine)) :=
  Both.map (Both.self (R := fun x y => x = y ∧ 2 * x.len < fft.len) fun x h => ⟨rfl, by
    unfold Dst6And7ConvertToFft.newOn at h
    split at h
    · cases h
    · split at h
      · cases h
      · obtain ⟨l, hl, h⟩ := of_bind_ok h
        obtain ⟨k, -, h⟩ := of_bind_ok h
        cases h
        unfold Machine.sub at hl
        rw [if_pos (by omega)] at hl
        cases hl
        simp only
        omega⟩)
    fun x y ⟨e, h⟩ => e ▸ ⟨rfl, rfl, fun r => ⟨rfl, rfl, Dst6And7ConvertToFft.dst6On_agrees r.1.large r.1.room (by omega), Dst6And7ConvertToFft.dst7On_agrees r.1.large r.1.room (by omega)⟩⟩

theorem Type2And3SplitRadix.mid {half quarter half' quarter' : Obj23 T} (h1 : half.Like M M.Realistic half') (h2 : quarter.Like M M.Realistic quarter') :
    Both (Obj23.Like M M.Realistic) ((Type2And3SplitRadix.newOn M half quarter).map Type2And3SplitRadix.toObj)
      ((Type2And3SplitRadix.newOn M half' quarter').map (Type2And3SplitRadix.toObjOn M.toMachine)) := by
  have key : Both (fun t u : Type2And3SplitRadix T => u.twiddles = t.twiddles ∧ t.twiddles.length ≤ M.maxVec ∧ t.halfDct = half ∧ u.halfDct = half' ∧
      t.quarterDct = quarter ∧ u.quarterDct = quarter') (Type2And3SplitRadix.newOn M half quarter) (Type2And3SplitRadix.newOn M half' quarter') := by
    unfold Type2And3SplitRadix.newOn
    rw [h1.1, h2.1]
    dsimp only
    refine Both.bind (Both.self (R := Eq) fun _ _ => rfl) ?_
    rintro len _ rfl
    split
    · rfl
    refine Both.bind (Both.self (R := Eq) fun _ _ => rfl) ?_
    rintro q _ rfl
    split
    · rfl
    refine Both.bind (Both.self (R := Eq) fun _ _ => rfl) ?_
    rintro _ _ rfl
    split <;>
    · refine Both.bind (Both.self (R := Eq) fun _ _ => rfl) ?_
      rintro f _ rfl
      refine Both.bind (Both.self (R := fun x y => x = y ∧ x.length ≤ M.maxVec) fun x h => ⟨rfl, by have := collect_length h; omega⟩) ?_
      rintro t _ ⟨rfl, h⟩
      exact ⟨rfl, h, rfl, rfl, rfl, rfl⟩
  refine Both.map key ?_
  rintro t u ⟨ht, hl, e1, e2, e3, e4⟩
  subst e1 e2 e3 e4
  have hlen : u.len = t.len := by unfold Type2And3SplitRadix.len; rw [ht]
  refine ⟨hlen, hlen, fun r => ⟨hlen, hlen, ?_, ?_, ?_, ?_⟩⟩
  · exact Type2And3SplitRadix.dct2On_agrees r.large r.room hl ht (h1.2.2 r) (h2.2.2 r)
  · exact Type2And3SplitRadix.dct3On_agrees r.large r.room hl ht (h1.2.2 r) (h2.2.2 r)
  · exact Type2And3SplitRadix.dst2On_agrees r.large r.room hl ht (h1.2.2 r) (h2.2.2 r)
  · exact Type2And3SplitRadix.dst3On_agrees r.large r.room hl ht (h1.2.2 r) (h2.2.2 r)

theorem Type4ConvertToType3Even.mid {inner inner' : Obj23 T} (h1 : inner.Like M M.Realistic inner') :
    Both (Obj4.Like M M.Realistic) ((Type4ConvertToType3Even.newOn M inner).map Type4ConvertToType3Even.toObj)
      ((Type4ConvertToType3Even.newOn M inner').map (Type4ConvertToType3Even.toObjOn M.toMachine)) := by
  have key : Both (fun t u : Type4ConvertToType3Even T => u.twiddles = t.twiddles ∧ u.scratchLen = t.scratchLen ∧ t.twiddles.length ≤ M.maxVec ∧ t.innerDct = inner ∧
      u.innerDct = inner') (Type4ConvertToType3Even.newOn M inner) (Type4ConvertToType3Even.newOn M inner') := by
    unfold Type4ConvertToType3Even.newOn
    rw [h1.1, h1.2.1]
    dsimp only
    refine Both.bind (Both.self (R := Eq) fun _ _ => rfl) ?_
    rintro len _ rfl
    refine Both.bind (Both.self (R := Eq) fun _ _ => rfl) ?_
    rintro _ _ rfl
    split <;>
    · refine Both.bind (Both.self (R := Eq) fun _ _ => rfl) ?_
      rintro f _ rfl
      refine Both.bind (Both.self (R := fun x y => x = y ∧ x.length ≤ M.maxVec) fun x h => ⟨rfl, by have := collect_length h; omega⟩) ?_
      rintro t _ ⟨rfl, h⟩
      split <;>
      · refine Both.bind (Both.self (R := Eq) fun _ _ => rfl) ?_
        rintro f _ rfl
        exact ⟨rfl, rfl, h, rfl, rfl⟩
  refine Both.map key ?_
  rintro t u ⟨ht, hs, hl, e1, e2⟩
  subst e1 e2
  have hlen : u.len = t.len := by unfold Type4ConvertToType3Even.len; rw [ht]
  refine ⟨hlen, hs, fun r => ⟨hlen, hs, ?_, ?_⟩⟩
  · exact Type4ConvertToType3Even.dct4On_agrees r.large r.room hl ht hs (h1.2.2 r)
  · exact Type4ConvertToType3Even.dst4On_agrees r.large r.room hl ht hs (h1.2.2 r)

theorem MdctViaDct4.mid {P : Prop} {inner inner' : Obj4 T} (h1 : inner.Like M P inner') (w : Nat → List T) :
    Both (MdctObj.Like M P) ((MdctViaDct4.newOn M inner w).map MdctViaDct4.toObj) ((MdctViaDct4.newOn M inner' w).map MdctViaDct4.toObj) := by
  have key : Both (fun t u : MdctViaDct4 T => u.window = t.window ∧ u.scratchLen = t.scratchLen ∧ t.dct = inner ∧ u.dct = inner')
      (MdctViaDct4.newOn M inner w) (MdctViaDct4.newOn M inner' w) := by
    unfold MdctViaDct4.newOn
    rw [h1.1, h1.2.1]
    dsimp only
    split
    · rfl
    refine Both.bind (Both.self (R := Eq) fun _ _ => rfl) ?_
    rintro d _ rfl
    split
    · rfl
    refine Both.bind (Both.self (R := Eq) fun _ _ => rfl) ?_
    rintro f _ rfl
    exact ⟨rfl, rfl, rfl, rfl⟩
  refine Both.map key ?_
  rintro t u ⟨hw, hs, e1, e2⟩
  subst e1 e2
  exact ⟨h1.1, hs, fun r => MdctViaDct4.agrees hw hs (h1.2.2 r)⟩

/-! ### Planning without a cache -/

theorem canonDct1_mid : Both (Obj1.Like M M.Realistic) (canonDct1Mid M planFft n) (canonDct1On M planFft n) := by
  unfold canonDct1Mid canonDct1On
  split
  · exact Dct1Naive.mid
  · exact Both.self fun x _ => .refl x

theorem canonDst1_mid : Both (Obj1.Like M M.Realistic) (canonDst1Mid M planFft n) (canonDst1On M planFft n) := by
  unfold canonDst1Mid canonDst1On
  split
  · exact Dst1Naive.mid
  · exact Both.self fun x _ => .refl x

theorem canonDst6_mid (hf : PlanFftShape planFft) : Both (Obj67.Like M (M.Holds n)) (canonDst6Mid M planFft n) (canonDst6On M planFft n) := by
  unfold canonDst6Mid canonDst6On
  split
  · exact Dst6And7Naive.mid.mono fun x y h => ⟨h.1, h.2.1, fun r => h.2.2 r.1⟩
  · refine Both.bind (Both.self (R := fun x y => x = y ∧ (M.Holds n → x = n * 2)) fun x h => ⟨rfl, fun r => ?_⟩) ?_
    · have := r.1.room
      have := r.2
      rw [show M.arith (n * 2) = .ok (n * 2) from if_pos (by omega)] at h
      cases h; rfl
    rintro x _ ⟨rfl, hx⟩
    refine Both.bind (Both.self (R := fun y z => y = z ∧ (M.Holds n → y = x + 1)) fun y h => ⟨rfl, fun r => ?_⟩) ?_
    · have := r.1.room
      have := r.1.large
      have := r.2
      have := hx r
      rw [show M.arith (x + 1) = .ok (x + 1) from if_pos (by omega)] at h
      cases h; rfl
    rintro y _ ⟨rfl, hy⟩
    refine Dst6And7ConvertToFft.mid.mono fun p q h => ⟨h.1, h.2.1, fun r => h.2.2 ⟨r.1, ?_⟩⟩
    rw [(hf _).1, hy r, hx r]
    have := r.2
    omega

theorem canonDct5_mid : Both (Obj1.Like M M.Realistic) (canonDct5Mid (T := T) M n) (canonDct5On M n) := Dct5Naive.mid
theorem canonDct6_mid : Both (Obj67.Like M M.Realistic) (canonDct6Mid (T := T) M n) (canonDct6On M n) := Dct6And7Naive.mid
theorem canonDct8_mid : Both (Obj1.Like M M.Realistic) (canonDct8Mid (T := T) M n) (canonDct8On M n) := Dct8Naive.mid
theorem canonDst5_mid : Both (Obj1.Like M M.Realistic) (canonDst5Mid (T := T) M n) (canonDst5On M n) := Dst5Naive.mid
theorem canonDst8_mid : Both (Obj1.Like M M.Realistic) (canonDst8Mid (T := T) M n) (canonDst8On M n) := Dst8Naive.mid

theorem canon23_mid (n : Nat) : Both (Obj23.Like M M.Realistic) (canon23Mid M planFft n) (canon23On M planFft n) := by
  induction n using Nat.strongRecOn with
  | ind n ih =>
    rw [canon23Mid, canon23On]
    split
    · exact Both.self fun x _ => .refl x
    split
    · exact Both.bind (ih (n / 2) (by omega)) fun a a' ha => Both.bind (ih (n / 4) (by omega)) fun b b' hb => Type2And3SplitRadix.mid ha hb
    · exact Type2And3ConvertToFft.mid

theorem canon4_mid (hf : PlanFftShape planFft) : Both (Obj4.Like M (M.Holds n)) (canon4Mid M planFft n) (canon4On M planFft n) := by
  unfold canon4Mid canon4On
  split
  · split
    · exact Type4Naive.mid.mono fun x y h => ⟨h.1, h.2.1, fun r => h.2.2 r.1⟩
    · exact (Both.bind (canon23_mid _) fun a a' ha => Type4ConvertToType3Even.mid ha).mono fun x y h => ⟨h.1, h.2.1, fun r => h.2.2 r.1⟩
  · split
    · exact Type4Naive.mid.mono fun x y h => ⟨h.1, h.2.1, fun r => h.2.2 r.1⟩
    · exact Type4ConvertToFftOdd.mid.mono fun x y h => ⟨h.1, h.2.1, fun r => h.2.2 ⟨r.1, by rw [(hf _).1]; exact r.2⟩⟩

theorem canonMdct_mid (hf : PlanFftShape planFft) (w : Nat → List T) :
    Both (MdctObj.Like M (M.Holds n)) (canonMdctMid M planFft n w) (canonMdctOn M planFft n w) :=
  Both.bind (canon4_mid hf) fun a a' ha => MdctViaDct4.mid ha w

end RustDct
