import Verif.Model.Num
/-!
# Threads sharing one instance

A small-step model of several threads that call methods of one shared instance at the same time.  It is not part of /repo; it is
the setting in which the `Sync + Send` bounds of the public traits (src/lib.rs:31, 49, ...) are meant to be used.

The methods take `&self` and no struct of the crate has a field with interior mutability, so a call can read the shared
instance but not change it; the slices are `&mut`, so no other thread can see them during the call.  Both facts are guaranteed by the
Rust compiler (safe code apart from the casts and unchecked accesses covered by C40 and C45); here they are what allows a method
to be a function `call : A → R` from what the thread passes to what it gets back.  A call is not atomic: it begins with
one event and ends with another, with any events of other threads in between.
-/

namespace RustDct

/-- What one thread has done: its finished calls, first call first, with what it passed and got back (possibly a panic, which the
thread may catch), and the call it is in, if any. -/
structure Thread (A R : Type) where
  log : List (A × R)
  running : Option A

/-- Events of a schedule: a thread begins its next call, or the call it is in ends. -/
inductive Event
  | start (t : Nat)
  | finish (t : Nat)

/-- The thread an event belongs to. -/
def Event.thread : Event → Nat
  | .start t => t
  | .finish t => t

variable {A R : Type}

/-- The effect of an event on its own thread.  `client` is the program of the thread: what it passes to its next call, depending
on everything it got back so far, or `none` if it has finished.  Events that cannot happen (beginning a call inside a call,
ending one outside) have no effect. -/
def Thread.step (call : A → R) (client : List (A × R) → Option A) (th : Thread A R) : Event → Thread A R
  | .start _ => match th.running with
    | some _ => th
    | none => { th with running := client th.log }
  | .finish _ => match th.running with
    | some a => { log := th.log ++ [(a, call a)], running := none }
    | none => th

/-- The effect of an event on all threads. -/
def worldStep (call : A → R) (client : Nat → List (A × R) → Option A) (w : Nat → Thread A R) (e : Event) : Nat → Thread A R :=
  fun t => if t = e.thread then (w t).step call (client t) e else w t

/-- All threads after a schedule, starting before anyone's first call. -/
def afterSchedule (call : A → R) (client : Nat → List (A × R) → Option A) (es : List Event) : Nat → Thread A R :=
  es.foldl (worldStep call client) (fun _ => ⟨[], none⟩)

/-- The program `client` run alone, sequentially, for at most `k` calls: the log of its calls. -/
def alone (call : A → R) (client : List (A × R) → Option A) : Nat → List (A × R)
  | 0 => []
  | k + 1 => match client (alone call client k) with
    | none => alone call client k
    | some a => alone call client k ++ [(a, call a)]

end RustDct
