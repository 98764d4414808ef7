import Verif.Model.InnerPanic
import Verif.FftPanics
/-!
# Vocabulary for C91: what memory holds after a panic inside an inner instance
-/

set_option linter.all false

namespace RustDct

variable {T F : Type}

/-- Every valid call returns, or panics with an error of `panicked`.  In the second case the slices have the lengths they had, scratch that was not asked for is
untouched, and from position `c` on the caller's buffer holds what `before` makes of the input. -/
def KeepsTail (c : Nat) (before : List T → List T) (panicked : Err → Prop) (q : Proc T) (n s : Nat) : Prop :=
  ∀ m, ValidCall n s m →
    (∃ m', q m = .ok m' ∧ m'.buf.length = n ∧ m'.scr.length = m.scr.length ∧ m'.scr.drop s = m.scr.drop s) ∨
    ∃ e m', panicked e ∧ q m = .panic e (some m') ∧ m'.buf.length = n ∧ m'.scr.length = m.scr.length ∧ m'.scr.drop s = m.scr.drop s ∧
      m'.buf.drop c = (before m.buf).drop c

/-- `x0, -x1, x2, -x3, …` -/
def alternate [Neg T] (l : List T) : List T := l.mapIdx fun i x => if i % 2 = 1 then -x else x

/-- `b` is `a`, except that `b` may know the contents of memory at a panic where `a` does not. -/
structure Obj23.Records (a b : Obj23 T) : Prop where
  dct2 : ∀ m, RustDct.Records (a.dct2 m) (b.dct2 m)
  dct3 : ∀ m, RustDct.Records (a.dct3 m) (b.dct3 m)
  dst2 : ∀ m, RustDct.Records (a.dst2 m) (b.dst2 m)
  dst3 : ∀ m, RustDct.Records (a.dst3 m) (b.dst3 m)

/-- The same for type 4. -/
structure Obj4.Records (a b : Obj4 T) : Prop where
  dct4 : ∀ m, RustDct.Records (a.dct4 m) (b.dct4 m)
  dst4 : ∀ m, RustDct.Records (a.dst4 m) (b.dst4 m)

/-- All four methods return from valid calls, or panic with an error of `panicked` and all slices have the lengths they had. -/
structure Obj23.KeepsShape (panicked : Err → Prop) (o : Obj23 T) : Prop where
  dct2 : RustDct.KeepsShape panicked o.dct2 o.len o.scratchLen
  dct3 : RustDct.KeepsShape panicked o.dct3 o.len o.scratchLen
  dst2 : RustDct.KeepsShape panicked o.dst2 o.len o.scratchLen
  dst3 : RustDct.KeepsShape panicked o.dst3 o.len o.scratchLen

variable [F64 F] [DctNum T F]

/-- Instances of types 2 and 3 that a user puts together: any instance of their own, with the memory it leaves at a panic, and split radix instances on top of
others, to any depth.  The second object is the first one with recorded memory. -/
inductive Composed23 (panicked : Err → Prop) : Obj23 T → Obj23 T → Prop
  | base {o o' : Obj23 T} (hl : o'.len = o.len) (hs : o'.scratchLen = o.scratchLen) (hr : o.Records o') (hk : o'.KeepsShape panicked) : Composed23 panicked o o'
  | split {a a' b b' : Obj23 T} {x : Type2And3SplitRadix T} (ha : Composed23 panicked a a') (hb : Composed23 panicked b b')
      (hx : Type2And3SplitRadix.new a b = .ok x) (hsa : a.scratchLen ≤ 2 * a.len) (hsb : b.scratchLen ≤ 4 * b.len) :
      Composed23 panicked x.toObj (x.toObjTrk a' b')

end RustDct
