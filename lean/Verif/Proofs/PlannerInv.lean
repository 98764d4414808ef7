import Verif.Model.Planner
/-!
# What the planner's caches contain after any history

`canonX` is the result of planning without any cache.  The invariant `Inv` says that every cached instance is the
one `canonX` builds for its length; all planner methods keep it, return what `canonX` says and never drop or replace
a cached instance.
-/

set_option linter.all false

namespace RustDct

section
variable {T : Type} {F : Type} [F64 F] [DctNum T F]

section
variable (planFft : Nat → Fft T)

def canonDct1 (len : Nat) : Except Err (Obj1 T) :=
  if len < 10 then (Dct1Naive.new len).map Dct1Naive.toObj
  else (Dct1ConvertToFft.new (planFft ((len - 1) * 2))).map Dct1ConvertToFft.toObj

def canonBfly (len : Nat) : Except Err (Obj23 T) :=
  if len = 2 then .ok (Type2And3Butterfly2.new (T := T)).toObj
  else if len = 3 then .ok (Type2And3Butterfly3.new (T := T)).toObj
  else if len = 4 then .ok (Type2And3Butterfly4.new (T := T)).toObj
  else if len = 8 then .ok (Type2And3Butterfly8.new (T := T)).toObj
  else if len = 16 then .ok (Type2And3Butterfly16.new (T := T)).toObj
  else .error .assertion

def canon23 (len : Nat) : Except Err (Obj23 T) :=
  if dct2Butterflies.contains len then canonBfly len
  else if _h : isPowerOfTwo len = true ∧ len > 2 then do
    let half ← canon23 (len / 2)
    let quarter ← canon23 (len / 4)
    (Type2And3SplitRadix.new half quarter).map Type2And3SplitRadix.toObj
  else (Type2And3ConvertToFft.new (planFft len)).map Type2And3ConvertToFft.toObj
termination_by len

def canon4 (len : Nat) : Except Err (Obj4 T) :=
  if len % 2 = 0 then
    if len < 6 then (Type4Naive.new len).map Type4Naive.toObj
    else do
      let inner ← canon23 planFft (len / 2)
      (Type4ConvertToType3Even.new inner).map Type4ConvertToType3Even.toObj
  else if len < 7 then (Type4Naive.new len).map Type4Naive.toObj
  else (Type4ConvertToFftOdd.new (planFft len)).map Type4ConvertToFftOdd.toObj

def canonDst1 (len : Nat) : Except Err (Obj1 T) :=
  if len < 25 then (Dst1Naive.new len).map Dst1Naive.toObj
  else (Dst1ConvertToFft.new (planFft ((len + 1) * 2))).map Dst1ConvertToFft.toObj

def canonDst6 (len : Nat) : Except Err (Obj67 T) :=
  if len < 45 then (Dst6And7Naive.new len).map Dst6And7Naive.toObj
  else (Dst6And7ConvertToFft.new (planFft (len * 2 + 1))).map Dst6And7ConvertToFft.toObj

def canonMdct (len : Nat) (windowFn : Nat → List T) : Except Err (MdctObj T) := do
  let inner ← canon4 planFft len
  (MdctViaDct4.new inner windowFn).map MdctViaDct4.toObj
end

def canonDct5 (len : Nat) : Except Err (Obj1 T) := (Dct5Naive.new len).map Dct5Naive.toObj
def canonDct6 (len : Nat) : Except Err (Obj67 T) := (Dct6And7Naive.new len).map Dct6And7Naive.toObj
def canonDct8 (len : Nat) : Except Err (Obj1 T) := (Dct8Naive.new len).map Dct8Naive.toObj
def canonDst5 (len : Nat) : Except Err (Obj1 T) := (Dst5Naive.new len).map Dst5Naive.toObj
def canonDst8 (len : Nat) : Except Err (Obj1 T) := (Dst8Naive.new len).map Dst8Naive.toObj

/-- Every cached instance is what planning its length without a cache gives; `W len w` says which window functions
may have been used for a cached MDCT of length `len`. -/
structure Inv (planFft : Nat → Fft T) (W : Nat → (Nat → List T) → Prop) (s : Planner T) : Prop where
  dct1 : ∀ n a, s.dct1Cache n = some a → canonDct1 planFft n = .ok a.val
  dst1 : ∀ n a, s.dst1Cache n = some a → canonDst1 planFft n = .ok a.val
  dct23 : ∀ n a, s.dct23Cache n = some a → canon23 planFft n = .ok a.val
  dct4 : ∀ n a, s.dct4Cache n = some a → canon4 planFft n = .ok a.val
  dct5 : ∀ n a, s.dct5Cache n = some a → canonDct5 n = .ok a.val
  dst5 : ∀ n a, s.dst5Cache n = some a → canonDst5 n = .ok a.val
  dct6 : ∀ n a, s.dct6Cache n = some a → canonDct6 n = .ok a.val
  dst6 : ∀ n a, s.dst6Cache n = some a → canonDst6 planFft n = .ok a.val
  dct8 : ∀ n a, s.dct8Cache n = some a → canonDct8 n = .ok a.val
  dst8 : ∀ n a, s.dst8Cache n = some a → canonDst8 n = .ok a.val
  mdct : ∀ n a, s.mdctCache n = some a → ∃ w, W n w ∧ canonMdct planFft n w = .ok a.val
  closed : ∀ n, s.dct23Cache n ≠ none → dct2Butterflies.contains n = false → isPowerOfTwo n = true → n > 2 →
    s.dct23Cache (n / 2) ≠ none ∧ s.dct23Cache (n / 4) ≠ none

/-- Nothing that was cached is dropped or replaced. -/
structure Grows (s s' : Planner T) : Prop where
  dct1 : ∀ n a, s.dct1Cache n = some a → s'.dct1Cache n = some a
  dst1 : ∀ n a, s.dst1Cache n = some a → s'.dst1Cache n = some a
  dct23 : ∀ n a, s.dct23Cache n = some a → s'.dct23Cache n = some a
  dct4 : ∀ n a, s.dct4Cache n = some a → s'.dct4Cache n = some a
  dct5 : ∀ n a, s.dct5Cache n = some a → s'.dct5Cache n = some a
  dst5 : ∀ n a, s.dst5Cache n = some a → s'.dst5Cache n = some a
  dct6 : ∀ n a, s.dct6Cache n = some a → s'.dct6Cache n = some a
  dst6 : ∀ n a, s.dst6Cache n = some a → s'.dst6Cache n = some a
  dct8 : ∀ n a, s.dct8Cache n = some a → s'.dct8Cache n = some a
  dst8 : ∀ n a, s.dst8Cache n = some a → s'.dst8Cache n = some a
  mdct : ∀ n a, s.mdctCache n = some a → s'.mdctCache n = some a
  nextId : s.nextId ≤ s'.nextId

theorem Grows.refl (s : Planner T) : Grows s s := by
  constructor <;> first | exact fun _ _ h => h | exact Nat.le_refl _

theorem Grows.trans {a b c : Planner T} (h : Grows a b) (k : Grows b c) : Grows a c :=
  ⟨fun n x e => k.dct1 n x (h.dct1 n x e), fun n x e => k.dst1 n x (h.dst1 n x e), fun n x e => k.dct23 n x (h.dct23 n x e),
   fun n x e => k.dct4 n x (h.dct4 n x e), fun n x e => k.dct5 n x (h.dct5 n x e), fun n x e => k.dst5 n x (h.dst5 n x e),
   fun n x e => k.dct6 n x (h.dct6 n x e), fun n x e => k.dst6 n x (h.dst6 n x e), fun n x e => k.dct8 n x (h.dct8 n x e),
   fun n x e => k.dst8 n x (h.dst8 n x e), fun n x e => k.mdct n x (h.mdct n x e), Nat.le_trans h.nextId k.nextId⟩

variable {planFft : Nat → Fft T} {W : Nat → (Nat → List T) → Prop}

theorem Inv.new (i : Nat) : Inv planFft W (Planner.new i : Planner T) := by
  constructor <;> intro n <;> simp [Planner.new]

theorem Inv.mono {W' : Nat → (Nat → List T) → Prop} (h : ∀ n w, W n w → W' n w) {s : Planner T} (hs : Inv planFft W s) : Inv planFft W' s :=
  { hs with mdct := fun n a e => let ⟨w, h1, h2⟩ := hs.mdct n a e; ⟨w, h n w h1, h2⟩ }

/-- Running `m` on a planner satisfying the invariant gives the result `r`, keeps the invariant and all cached
instances; on success the result is found by `look` afterwards. -/
def Yields (planFft : Nat → Fft T) (W : Nat → (Nat → List T) → Prop) {α : Type} (m : PlanM T (Arc α)) (r : Except Err α)
    (post : Planner T → Planner T → Arc α → Prop) : Prop :=
  ∀ s, Inv planFft W s →
    match m s with
    | .ok a s' => r = .ok a.val ∧ Inv planFft W s' ∧ Grows s s' ∧ post s s' a
    | .error e s' => r = .error e ∧ Inv planFft W s' ∧ Grows s s'

/-- The cache-or-build pattern shared by all planner methods. -/
def cachePlan {α : Type} (look : Planner T → Option (Arc α)) (store : Planner T → Arc α → Planner T) (mk : PlanM T (Arc α)) : PlanM T (Arc α) := do
  match look (← get) with
  | some a => return a
  | none =>
    let result ← mk
    modify fun s => store s result
    return result

theorem cachePlan_run {α : Type} (look : Planner T → Option (Arc α)) (store : Planner T → Arc α → Planner T) (mk : PlanM T (Arc α)) (s : Planner T) :
    cachePlan look store mk s = match look s with
      | some a => .ok a s
      | none => match mk s with
        | .ok r s' => .ok r (store s' r)
        | .error e s' => .error e s' := by
  unfold cachePlan
  simp only [bind, EStateM.bind, get, getThe, MonadStateOf.get, EStateM.get]
  cases h : look s with
  | some a => rfl
  | none =>
    simp only [h, bind, EStateM.bind]
    cases mk s <;> rfl

theorem arcNew_yields {α : Type} (x : Except Err α) : Yields planFft W (arcNew x : PlanM T (Arc α)) x
    (fun s s' a => s' = { s with nextId := s.nextId + 1 } ∧ a.id = s.nextId) := by
  intro s hs
  cases x with
  | error e => exact ⟨rfl, hs, Grows.refl s⟩
  | ok v =>
    refine ⟨rfl, ?_, ?_, rfl, rfl⟩
    · exact ⟨hs.dct1, hs.dst1, hs.dct23, hs.dct4, hs.dct5, hs.dst5, hs.dct6, hs.dst6, hs.dct8, hs.dst8, hs.mdct, hs.closed⟩
    · exact { Grows.refl s with nextId := Nat.le_succ _ }

theorem Yields.cached {α : Type} {look : Planner T → Option (Arc α)} {store : Planner T → Arc α → Planner T} {mk : PlanM T (Arc α)} {r : Except Err α}
    {post : Planner T → Planner T → Arc α → Prop}
    (h : Yields planFft W mk r post)
    (hlook : ∀ s a, Inv planFft W s → look s = some a → r = .ok a.val)
    (hstore : ∀ s0 s a, post s0 s a → look s0 = none → Grows s0 s → Inv planFft W s → r = .ok a.val →
      Inv planFft W (store s a) ∧ Grows s0 (store s a) ∧ look (store s a) = some a) :
    Yields planFft W (cachePlan look store mk) r (fun s s' a => look s' = some a) := by
  intro s hs
  rw [cachePlan_run]
  cases hl : look s with
  | some a => exact ⟨hlook s a hs hl, hs, Grows.refl s, hl⟩
  | none =>
    have := h s hs
    dsimp only
    cases hm : mk s with
    | error e s' => rw [hm] at this; exact this
    | ok a s' =>
      rw [hm] at this
      obtain ⟨h1, h2, h3, h4⟩ := this
      obtain ⟨h5, h6, h7⟩ := hstore s s' a h4 hl h3 h2 h1
      exact ⟨h1, h5, h6, h7⟩

theorem insertCache_self {α : Type} (c : Nat → Option α) (k : Nat) (v : α) : insertCache c k v k = some v := by simp [insertCache]
theorem insertCache_ne {α : Type} (c : Nat → Option α) {k j : Nat} (v : α) (h : j ≠ k) : insertCache c k v j = c j := by simp [insertCache, h]

theorem insertCache_inv {α : Type} {c : Nat → Option (Arc α)} {k : Nat} {v : Arc α} {P : Nat → α → Prop}
    (h : ∀ n a, c n = some a → P n a.val) (hv : P k v.val) : ∀ n a, insertCache c k v n = some a → P n a.val := by
  intro n a e
  by_cases hn : n = k
  · subst hn; rw [insertCache_self] at e; injection e with e; subst e; exact hv
  · rw [insertCache_ne _ _ hn] at e; exact h n a e

theorem insertCache_grows {α : Type} {c0 c : Nat → Option (Arc α)} {k : Nat} {v : Arc α} (h0 : c0 k = none) (h : ∀ n a, c0 n = some a → c n = some a) :
    ∀ n a, c0 n = some a → insertCache c k v n = some a := by
  intro n a e
  by_cases hn : n = k
  · subst hn; rw [h0] at e; cases e
  · rw [insertCache_ne _ _ hn]; exact h n a e

/-! ### The individual methods -/

theorem Yields.weaken {α : Type} {m : PlanM T (Arc α)} {r : Except Err α} {post post' : Planner T → Planner T → Arc α → Prop}
    (h : Yields planFft W m r post) (hp : ∀ s s' a, post s s' a → post' s s' a) : Yields planFft W m r post' := by
  intro s hs
  have := h s hs
  cases hm : m s with
  | error e s' => rw [hm] at this; exact this
  | ok a s' => rw [hm] at this; exact ⟨this.1, this.2.1, this.2.2.1, hp _ _ _ this.2.2.2⟩

/-- No cache is touched. -/
def NoStore {α : Type} (s s' : Planner T) (_a : Arc α) : Prop := s' = { s with nextId := s'.nextId }

theorem arcNew_yields' {α : Type} (x : Except Err α) : Yields planFft W (arcNew x : PlanM T (Arc α)) x (fun _ _ _ => True) :=
  (arcNew_yields x).weaken fun _ _ _ _ => trivial

/-- Unfold both sides and compare case by case. -/
macro "plan_cached" n:ident : tactic => `(tactic| (
  unfold $n cachePlan
  congr 1
  funext s
  dsimp only
  split <;> (rename_i h; rw [h])))

theorem planDct1_eq (len : Nat) : (planDct1 planFft len : PlanM T _) = cachePlan (fun s => s.dct1Cache len)
    (fun s a => { s with dct1Cache := insertCache s.dct1Cache len a }) (planNewDct1 planFft len) := by
  plan_cached planDct1

theorem planDct1_yields (len : Nat) : Yields planFft W (planDct1 planFft len) (canonDct1 planFft len) (fun _ s' a => s'.dct1Cache len = some a) := by
  rw [planDct1_eq]
  refine Yields.cached (post := fun _ _ _ => True) ?_ (fun s a hs e => hs.dct1 len a e) ?_
  · unfold planNewDct1 canonDct1; split <;> exact arcNew_yields' _
  · intro s0 s a _ hl hg hi hr
    exact ⟨{ hi with dct1 := insertCache_inv (P := fun n o => canonDct1 planFft n = .ok o) hi.dct1 hr }, { hg with dct1 := insertCache_grows hl hg.dct1 }, insertCache_self _ _ _⟩

theorem planDst1_eq (len : Nat) : (planDst1 planFft len : PlanM T _) = cachePlan (fun s => s.dst1Cache len)
    (fun s a => { s with dst1Cache := insertCache s.dst1Cache len a }) (planNewDst1 planFft len) := by
  plan_cached planDst1

theorem planDst1_yields (len : Nat) : Yields planFft W (planDst1 planFft len) (canonDst1 planFft len) (fun _ s' a => s'.dst1Cache len = some a) := by
  rw [planDst1_eq]
  refine Yields.cached (post := fun _ _ _ => True) ?_ (fun s a hs e => hs.dst1 len a e) ?_
  · unfold planNewDst1 canonDst1; split <;> exact arcNew_yields' _
  · intro s0 s a _ hl hg hi hr
    exact ⟨{ hi with dst1 := insertCache_inv (P := fun n o => canonDst1 planFft n = .ok o) hi.dst1 hr }, { hg with dst1 := insertCache_grows hl hg.dst1 }, insertCache_self _ _ _⟩

theorem planDst6_eq (len : Nat) : (planDst6 planFft len : PlanM T _) = cachePlan (fun s => s.dst6Cache len)
    (fun s a => { s with dst6Cache := insertCache s.dst6Cache len a }) (planNewDst6 planFft len) := by
  plan_cached planDst6

theorem planDst6_yields (len : Nat) : Yields planFft W (planDst6 planFft len) (canonDst6 planFft len) (fun _ s' a => s'.dst6Cache len = some a) := by
  rw [planDst6_eq]
  refine Yields.cached (post := fun _ _ _ => True) ?_ (fun s a hs e => hs.dst6 len a e) ?_
  · unfold planNewDst6 canonDst6; split <;> exact arcNew_yields' _
  · intro s0 s a _ hl hg hi hr
    exact ⟨{ hi with dst6 := insertCache_inv (P := fun n o => canonDst6 planFft n = .ok o) hi.dst6 hr }, { hg with dst6 := insertCache_grows hl hg.dst6 }, insertCache_self _ _ _⟩

theorem planDct5_eq (len : Nat) : (planDct5 len : PlanM T _) = cachePlan (fun s => s.dct5Cache len)
    (fun s a => { s with dct5Cache := insertCache s.dct5Cache len a }) (arcNew ((Dct5Naive.new len).map Dct5Naive.toObj)) := by
  plan_cached planDct5

theorem planDct5_yields (len : Nat) : Yields planFft W (planDct5 len) (canonDct5 len) (fun _ s' a => s'.dct5Cache len = some a) := by
  rw [planDct5_eq]
  refine Yields.cached (post := fun _ _ _ => True) ?_ (fun s a hs e => hs.dct5 len a e) ?_
  · exact arcNew_yields' _
  · intro s0 s a _ hl hg hi hr
    exact ⟨{ hi with dct5 := insertCache_inv (P := fun n o => canonDct5 n = .ok o) hi.dct5 hr }, { hg with dct5 := insertCache_grows hl hg.dct5 }, insertCache_self _ _ _⟩

theorem planDct6_eq (len : Nat) : (planDct6 len : PlanM T _) = cachePlan (fun s => s.dct6Cache len)
    (fun s a => { s with dct6Cache := insertCache s.dct6Cache len a }) (arcNew ((Dct6And7Naive.new len).map Dct6And7Naive.toObj)) := by
  plan_cached planDct6

theorem planDct6_yields (len : Nat) : Yields planFft W (planDct6 len) (canonDct6 len) (fun _ s' a => s'.dct6Cache len = some a) := by
  rw [planDct6_eq]
  refine Yields.cached (post := fun _ _ _ => True) ?_ (fun s a hs e => hs.dct6 len a e) ?_
  · exact arcNew_yields' _
  · intro s0 s a _ hl hg hi hr
    exact ⟨{ hi with dct6 := insertCache_inv (P := fun n o => canonDct6 n = .ok o) hi.dct6 hr }, { hg with dct6 := insertCache_grows hl hg.dct6 }, insertCache_self _ _ _⟩

theorem planDct8_eq (len : Nat) : (planDct8 len : PlanM T _) = cachePlan (fun s => s.dct8Cache len)
    (fun s a => { s with dct8Cache := insertCache s.dct8Cache len a }) (arcNew ((Dct8Naive.new len).map Dct8Naive.toObj)) := by
  plan_cached planDct8

theorem planDct8_yields (len : Nat) : Yields planFft W (planDct8 len) (canonDct8 len) (fun _ s' a => s'.dct8Cache len = some a) := by
  rw [planDct8_eq]
  refine Yields.cached (post := fun _ _ _ => True) ?_ (fun s a hs e => hs.dct8 len a e) ?_
  · exact arcNew_yields' _
  · intro s0 s a _ hl hg hi hr
    exact ⟨{ hi with dct8 := insertCache_inv (P := fun n o => canonDct8 n = .ok o) hi.dct8 hr }, { hg with dct8 := insertCache_grows hl hg.dct8 }, insertCache_self _ _ _⟩

theorem planDst5_eq (len : Nat) : (planDst5 len : PlanM T _) = cachePlan (fun s => s.dst5Cache len)
    (fun s a => { s with dst5Cache := insertCache s.dst5Cache len a }) (arcNew ((Dst5Naive.new len).map Dst5Naive.toObj)) := by
  plan_cached planDst5

theorem planDst5_yields (len : Nat) : Yields planFft W (planDst5 len) (canonDst5 len) (fun _ s' a => s'.dst5Cache len = some a) := by
  rw [planDst5_eq]
  refine Yields.cached (post := fun _ _ _ => True) ?_ (fun s a hs e => hs.dst5 len a e) ?_
  · exact arcNew_yields' _
  · intro s0 s a _ hl hg hi hr
    exact ⟨{ hi with dst5 := insertCache_inv (P := fun n o => canonDst5 n = .ok o) hi.dst5 hr }, { hg with dst5 := insertCache_grows hl hg.dst5 }, insertCache_self _ _ _⟩

theorem planDst8_eq (len : Nat) : (planDst8 len : PlanM T _) = cachePlan (fun s => s.dst8Cache len)
    (fun s a => { s with dst8Cache := insertCache s.dst8Cache len a }) (arcNew ((Dst8Naive.new len).map Dst8Naive.toObj)) := by
  plan_cached planDst8

theorem planDst8_yields (len : Nat) : Yields planFft W (planDst8 len) (canonDst8 len) (fun _ s' a => s'.dst8Cache len = some a) := by
  rw [planDst8_eq]
  refine Yields.cached (post := fun _ _ _ => True) ?_ (fun s a hs e => hs.dst8 len a e) ?_
  · exact arcNew_yields' _
  · intro s0 s a _ hl hg hi hr
    exact ⟨{ hi with dst8 := insertCache_inv (P := fun n o => canonDst8 n = .ok o) hi.dst8 hr }, { hg with dst8 := insertCache_grows hl hg.dst8 }, insertCache_self _ _ _⟩

/-! ### Types 2 and 3: mutual recursion -/

theorem planDct2_eq (len : Nat) : (planDct2 planFft len : PlanM T _) = cachePlan (fun s => s.dct23Cache len)
    (fun s a => { s with dct23Cache := insertCache s.dct23Cache len a }) (planNewDct2 planFft len) := by
  rw [planDct2]
  unfold cachePlan
  congr 1
  funext s
  dsimp only
  split <;> (rename_i h; rw [h])

/-- The half- and quarter-size instances a split-radix step needs are cached. -/
def SubsCached (len : Nat) (s : Planner T) : Prop :=
  dct2Butterflies.contains len = false → isPowerOfTwo len = true → len > 2 → s.dct23Cache (len / 2) ≠ none ∧ s.dct23Cache (len / 4) ≠ none

theorem closed_insert {s : Planner T} (hi : Inv planFft W s) {len : Nat} {a : Arc (Obj23 T)} (hp : SubsCached len s) :
    ∀ n, insertCache s.dct23Cache len a n ≠ none → dct2Butterflies.contains n = false → isPowerOfTwo n = true → n > 2 →
      insertCache s.dct23Cache len a (n / 2) ≠ none ∧ insertCache s.dct23Cache len a (n / 4) ≠ none := by
  have key : ∀ m, s.dct23Cache m ≠ none → insertCache s.dct23Cache len a m ≠ none := by
    intro m hm
    unfold insertCache
    split
    · simp
    · exact hm
  intro n h1 h2 h3 h4
  by_cases hn : n = len
  · subst hn
    have := hp h2 h3 h4
    exact ⟨key _ this.1, key _ this.2⟩
  · rw [insertCache_ne _ _ hn] at h1
    have := hi.closed n h1 h2 h3 h4
    exact ⟨key _ this.1, key _ this.2⟩

theorem bind_run {α β : Type} (m : PlanM T α) (k : α → PlanM T β) (s : Planner T) :
    (m >>= k) s = match m s with
      | .ok a s' => k a s'
      | .error e s' => .error e s' := by
  simp only [bind, EStateM.bind]
  cases m s <;> rfl

theorem Yields.bind {α β : Type} {m : PlanM T (Arc α)} {r : Except Err α} {k : Arc α → PlanM T (Arc β)} {q : α → Except Err β}
    {post : Planner T → Planner T → Arc α → Prop} {post2 : Planner T → Planner T → Arc β → Prop} {post3 : Planner T → Planner T → Arc β → Prop}
    (h : Yields planFft W m r post) (h2 : ∀ a, Yields planFft W (k a) (q a.val) post2)
    (hp : ∀ s s1 s2 a b, post s s1 a → Grows s1 s2 → post2 s1 s2 b → post3 s s2 b) : Yields planFft W (m >>= k) (r >>= q) post3 := by
  intro s hs
  rw [bind_run]
  have h1 := h s hs
  cases hm : m s with
  | error e s' => rw [hm] at h1; obtain ⟨r1, r2, r3⟩ := h1; subst r1; exact ⟨rfl, r2, r3⟩
  | ok a s' =>
    rw [hm] at h1
    obtain ⟨r1, r2, r3, r4⟩ := h1
    subst r1
    have h3 := h2 a s' r2
    dsimp only
    cases hk : k a s' with
    | error e s2 => rw [hk] at h3; obtain ⟨q1, q2, q3⟩ := h3; exact ⟨q1, q2, r3.trans q3⟩
    | ok b s2 => rw [hk] at h3; obtain ⟨q1, q2, q3, q4⟩ := h3; exact ⟨q1, q2, r3.trans q3, hp _ _ _ _ _ r4 q3 q4⟩

theorem planDct2Butterfly_yields (len : Nat) : Yields planFft W (planDct2Butterfly len) (canonBfly len) (fun _ _ _ => True) := by
  unfold planDct2Butterfly canonBfly
  by_cases h2 : len = 2
  · rw [if_pos h2, if_pos h2]; exact arcNew_yields' _
  rw [if_neg h2, if_neg h2]
  by_cases h3 : len = 3
  · rw [if_pos h3, if_pos h3]; exact arcNew_yields' _
  rw [if_neg h3, if_neg h3]
  by_cases h4 : len = 4
  · rw [if_pos h4, if_pos h4]; exact arcNew_yields' _
  rw [if_neg h4, if_neg h4]
  by_cases h8 : len = 8
  · rw [if_pos h8, if_pos h8]; exact arcNew_yields' _
  rw [if_neg h8, if_neg h8]
  by_cases h16 : len = 16
  · rw [if_pos h16, if_pos h16]; exact arcNew_yields' _
  rw [if_neg h16, if_neg h16]
  intro s hs
  exact ⟨rfl, hs, Grows.refl s⟩

theorem planDct2_of_new {len : Nat} (h : Yields planFft W (planNewDct2 planFft len) (canon23 planFft len) (fun _ s' _ => SubsCached len s')) :
    Yields planFft W (planDct2 planFft len) (canon23 planFft len) (fun _ s' a => s'.dct23Cache len = some a) := by
  rw [planDct2_eq]
  refine Yields.cached h (fun s a hs e => hs.dct23 len a e) ?_
  intro s0 s a hsub hl hg hi hr
  exact ⟨{ hi with dct23 := insertCache_inv (P := fun n o => canon23 planFft n = .ok o) hi.dct23 hr, closed := closed_insert hi hsub },
    { hg with dct23 := insertCache_grows hl hg.dct23 }, insertCache_self _ _ _⟩

theorem planNewDct2_yields (len : Nat) : Yields planFft W (planNewDct2 planFft len) (canon23 planFft len) (fun _ s' _ => SubsCached len s') := by
  induction len using Nat.strongRecOn with
  | ind len ih =>
    rw [planNewDct2, canon23]
    split
    · next h => exact (planDct2Butterfly_yields len).weaken fun _ _ _ _ hb => by rw [h] at hb; cases hb
    split
    · next h1 h2 =>
      have ha := planDct2_of_new (ih (len / 2) (by omega))
      have hb := planDct2_of_new (ih (len / 4) (by omega))
      refine Yields.bind (post := fun _ s' a => s'.dct23Cache (len / 2) = some a)
        (post2 := fun _ s' b => s'.dct23Cache (len / 4) ≠ none) ha (fun a => ?_) ?_
      · refine Yields.bind (post := fun _ s' a => s'.dct23Cache (len / 4) = some a) (post2 := fun _ _ _ => True) hb (fun b => arcNew_yields' _) ?_
        intro s s1 s2 x y hx hg _
        rw [hg.dct23 _ _ hx]; simp
      · intro s s1 s2 x y hx hg hy _ _ _
        exact ⟨by rw [hg.dct23 _ _ hx]; simp, hy⟩
    · next h1 h2 =>
      refine (arcNew_yields' _).weaken fun _ _ _ _ _ h3 h4 => absurd ⟨h3, h4⟩ h2

theorem planDct2_yields (len : Nat) : Yields planFft W (planDct2 planFft len) (canon23 planFft len) (fun _ s' a => s'.dct23Cache len = some a) :=
  planDct2_of_new (planNewDct2_yields len)

theorem planDct4_eq (len : Nat) : (planDct4 planFft len : PlanM T _) = cachePlan (fun s => s.dct4Cache len)
    (fun s a => { s with dct4Cache := insertCache s.dct4Cache len a }) (planNewDct4 planFft len) := by
  plan_cached planDct4

theorem planDct4_yields (len : Nat) : Yields planFft W (planDct4 planFft len) (canon4 planFft len) (fun _ s' a => s'.dct4Cache len = some a) := by
  rw [planDct4_eq]
  refine Yields.cached (post := fun _ _ _ => True) ?_ (fun s a hs e => hs.dct4 len a e) ?_
  · unfold planNewDct4 canon4 planDct3
    split
    · split
      · exact arcNew_yields' _
      · exact Yields.bind (post2 := fun _ _ _ => True) (planDct2_yields _) (fun a => arcNew_yields' _) (fun _ _ _ _ _ _ _ _ => trivial)
    · split
      · exact arcNew_yields' _
      · exact arcNew_yields' _
  · intro s0 s a _ hl hg hi hr
    exact ⟨{ hi with dct4 := insertCache_inv (P := fun n o => canon4 planFft n = .ok o) hi.dct4 hr }, { hg with dct4 := insertCache_grows hl hg.dct4 }, insertCache_self _ _ _⟩

theorem planMdct_eq (len : Nat) (w : Nat → List T) : (planMdct planFft len w : PlanM T _) = cachePlan (fun s => s.mdctCache len)
    (fun s a => { s with mdctCache := insertCache s.mdctCache len a }) (planNewMdct planFft len w) := by
  plan_cached planMdct

theorem planNewMdct_yields (len : Nat) (w : Nat → List T) : Yields planFft W (planNewMdct planFft len w) (canonMdct planFft len w) (fun _ _ _ => True) :=
  Yields.bind (post2 := fun _ _ _ => True) (planDct4_yields _) (fun a => arcNew_yields' _) (fun _ _ _ _ _ _ _ _ => trivial)

/-- `plan_mdct`: a cached instance, made for whatever window, or a new one. -/
theorem planMdct_run (len : Nat) {w : Nat → List T} (hw : W len w) (s : Planner T) (hs : Inv planFft W s) :
    match planMdct planFft len w s with
    | .ok a s' => (∃ w', W len w' ∧ canonMdct planFft len w' = .ok a.val) ∧ Inv planFft W s' ∧ Grows s s' ∧ s'.mdctCache len = some a ∧
        (s.mdctCache len = none → canonMdct planFft len w = .ok a.val)
    | .error e s' => canonMdct planFft len w = .error e ∧ Inv planFft W s' ∧ Grows s s' := by
  rw [planMdct_eq, cachePlan_run]
  cases hl : s.mdctCache len with
  | some a => exact ⟨hs.mdct len a hl, hs, Grows.refl s, hl, fun h => by simp at h⟩
  | none =>
    have := planNewMdct_yields (planFft := planFft) (W := W) len w s hs
    dsimp only
    cases hm : planNewMdct planFft len w s with
    | error e s' => rw [hm] at this; exact this
    | ok a s' =>
      rw [hm] at this
      obtain ⟨h1, h2, h3, _⟩ := this
      refine ⟨⟨w, hw, h1⟩, { h2 with mdct := ?_ }, { h3 with mdct := insertCache_grows hl h3.mdct }, insertCache_self _ _ _, fun _ => h1⟩
      exact insertCache_inv (P := fun n o => ∃ w, W n w ∧ canonMdct planFft n w = .ok o) h2.mdct ⟨w, hw, h1⟩

end
end RustDct
