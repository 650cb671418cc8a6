import Verif.Model.Sync
/-
The end of a universe: its destructor (/repo/src/FungeUniverse.cpp:53-70) among the threads of Model/Sync, and which objects have been deleted. Simplifications: those of
Model/Sync; nobody outside of the universe uses it any more when its destructor is called (no thread is in `wait`, none adds or kills IPs but the IPs themselves); the numbers of
IPs are those of objects, so that no two of them are the same even if memory is used again.
-/
namespace Funge

/-- Where the destructor is (/repo/src/FungeUniverse.cpp:53-70): not called; before `killAll` has the mutex (54); in `killAll` (54); at the join of the scheduler and the lock (55-57); at the loop over
`threads` (58-62), which does not take anything out of it; at the loop over `runners` (63-67), with what is left in it; at the end. -/
inductive DtorAt
  | away | kill | killing | join
  | threads (l : List Nat)
  | runners (l : List Nat)
  | done
  deriving DecidableEq, Repr

/-- A universe and its objects: `added`, all the runners it was ever given (`addRunner`, `transferRunner`, /repo/src/FungeUniverse.cpp:85-104), `deleted`, those that have been deleted
(/repo/src/FungeUniverse.cpp:65, 139), `joined`, the `std::thread`s of runners that have been joined and deleted (/repo/src/FungeUniverse.cpp:60-61, 115-119). The three are not in the source. -/
structure Life where
  s : Sync
  dtor : DtorAt := .away
  added : List Nat := []
  deleted : List Nat := []
  joined : List Nat := []

namespace Life

/-- Is an IP of this universe executing an instruction: the scheduler is in `tick` (/repo/src/FungeUniverse.cpp:129), or, with native threads, a thread has not ended. -/
def inTick (s : Sync) : Prop := (s.native = false ∧ ∃ r, s.sched = .busy r) ∨ (s.native = true ∧ ∃ r ∈ s.threads, s.alive r = true)

/-- Who can take a step. Before the destructor is called: everybody. Then: the scheduler, the IPs, and a thread that adds or kills IPs, if it has the mutex or is one of the IPs. When the
destructor has the mutex (/repo/src/FungeUniverse.cpp:57): IPs with threads of their own. -/
def Permits (w : Life) : Sync.Actor → Prop
  | .sched => w.dtor = .away ∨ w.dtor = .kill ∨ w.dtor = .killing ∨ w.dtor = .join
  | .ip _ => True
  | .adder | .killer => w.dtor = .away ∨ ((w.dtor = .kill ∨ w.dtor = .killing ∨ w.dtor = .join) ∧ (w.s.owner ≠ .free ∨ inTick w.s))
  | .waiter _ | .spurious _ => w.dtor = .away

/-- The runner the scheduler deletes in its step from here (/repo/src/FungeUniverse.cpp:137-139). -/
def reaps (a : Sync.Actor) (s : Sync) : List Nat :=
  match a, s.sched with
  | .sched, .remove r => if s.native = false ∧ s.alive r = false then [r] else []
  | _, _ => []

/-- The thread the scheduler deletes in its step from here (/repo/src/FungeUniverse.cpp:119). -/
def reapsThread (a : Sync.Actor) (s : Sync) : List Nat :=
  match a, s.sched with
  | .sched, .remove r => if s.native = true then [r] else []
  | _, _ => []

/-- The runner that is added in a step (/repo/src/FungeUniverse.cpp:90, 102). -/
def adds (a : Sync.Actor) (s s' : Sync) : List Nat := if a = .adder then s'.runners.drop s.runners.length else []

/-- One step of one thread. -/
inductive Step : Life → Life → Prop
  /-- A step of Model/Sync. -/
  | other (w : Life) (a : Sync.Actor) (s' : Sync) : w.Permits a → Sync.Step a w.s s' → (∀ r ∈ adds a w.s s', r ∉ w.added) →
      Step w { w with
        s := s'
        added := adds a w.s s' ++ w.added
        deleted := reaps a w.s ++ w.deleted
        joined := reapsThread a w.s ++ w.joined
        dtor := if w.dtor = .killing ∧ s'.owner = .free then .join else w.dtor }
  /-- The call of the destructor (/repo/src/FungeUniverse.cpp:53). -/
  | call (w : Life) : w.dtor = .away → (∀ k, w.s.wait k = .away ∨ w.s.wait k = .returned) → Step w { w with dtor := .kill }
  /-- /repo/src/FungeUniverse.cpp:54, 161. -/
  | kill (w : Life) : w.dtor = .kill → w.s.owner = .free → Step w { w with s := { w.s with owner := .killing }, dtor := .killing }
  /-- /repo/src/FungeUniverse.cpp:55-57. -/
  | join (w : Life) : w.dtor = .join → w.s.sched = .done → w.s.owner = .free → Step w { w with dtor := .threads w.s.threads }
  /-- /repo/src/FungeUniverse.cpp:59-61; undefined if the thread has been deleted before. -/
  | joinThread (w : Life) (r : Nat) (t : List Nat) : w.dtor = .threads (r :: t) → r ∉ w.joined → w.s.alive r = false → Step w { w with joined := r :: w.joined }
  /-- /repo/src/FungeUniverse.cpp:58. -/
  | noThreads (w : Life) : w.dtor = .threads [] → Step w { w with dtor := .runners w.s.runners }
  /-- /repo/src/FungeUniverse.cpp:64-66; undefined if the runner has been deleted before. -/
  | deleteRunner (w : Life) (r : Nat) (t : List Nat) : w.dtor = .runners (r :: t) → r ∉ w.deleted → Step w { w with deleted := r :: w.deleted, dtor := .runners t }
  /-- /repo/src/FungeUniverse.cpp:63, 69. -/
  | finish (w : Life) : w.dtor = .runners [] → Step w { w with dtor := .done }

/-- What a universe can come to. -/
inductive Reachable (native : Bool) : Life → Prop
  | start : Reachable native { s := { native := native } }
  | step {w w' : Life} : Reachable native w → Step w w' → Reachable native w'

/-- A thread is about to use an object that has been deleted: the scheduler, a runner (/repo/src/FungeUniverse.cpp:128-134); the destructor, a thread or a runner (/repo/src/FungeUniverse.cpp:60, 65);
`killAll`, a runner (/repo/src/FungeUniverse.cpp:163-165). -/
def Undefined (w : Life) : Prop :=
  (w.s.native = false ∧ ∃ r, (w.s.sched = .busy r ∨ w.s.sched = .relock r ∨ w.s.sched = .remove r) ∧ r ∈ w.deleted) ∨
  (w.s.native = true ∧ ∃ r, (w.s.sched = .busy r ∨ w.s.sched = .relock r ∨ w.s.sched = .remove r) ∧ r ∈ w.joined) ∨
  (∃ r t, w.dtor = .threads (r :: t) ∧ r ∈ w.joined) ∨ (∃ r t, w.dtor = .runners (r :: t) ∧ r ∈ w.deleted) ∨
  (w.s.owner = .killing ∧ ∃ r ∈ w.s.runners, r ∈ w.deleted)

end Life
end Funge
