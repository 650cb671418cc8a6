/-
How the threads around a universe work together (/repo/src/FungeUniverse.cpp:85-177, /repo/src/util/include/FungeSem.h): its scheduler, the threads that add IPs,
those that kill the universe, those that wait for it, and with native threads the IPs themselves. One step of the transition system is what a thread does between two
points at which others can come in between. Simplifications: what an IP does is reduced to whether it goes on; an IP that transfers itself to another universe stops, for
this one, and one that comes from another is a new one; the semaphore's own mutex makes `release` and one test of `acquire` single steps (a spurious wake-up inside `acquire` only repeats
the test); unsynchronised accesses to `running` are taken to be atomic.
-/
namespace Funge

/-- Who holds `mutex` (/repo/src/include/FungeUniverse.h:137), and how far they are: `addRunner` or `transferRunner` before the push, before the release and before the unlock
(/repo/src/FungeUniverse.cpp:96-103, 87-91); `killAll` before it stops the runners, before the release, the notification and the unlock (/repo/src/FungeUniverse.cpp:161-168);
`wait` (/repo/src/FungeUniverse.cpp:152-153). -/
inductive Owner
  | free | sched
  | adding | added | signalled
  | killing | killed | killSignalled | killNotified
  | waiter (k : Nat)
  deriving DecidableEq, Repr

/-- Where the scheduler is (/repo/src/FungeUniverse.cpp:106-149): at the test of `running` (107), in `acquire` (108), asleep in it (/repo/src/util/include/FungeSem.h:29), before the
lock (110, 123), at the test of the inner loop (111, 124), in `tick` of a runner or `join` of a thread (115, 128-130), before the lock after it (116, 131), at the removal (118, 133-143),
at the notification (140, 143), at the end. -/
inductive SchedAt
  | top | acquire | asleep | lock | loop
  | busy (r : Nat) | relock (r : Nat) | remove (r : Nat) | notify
  | done
  deriving DecidableEq, Repr

/-- Where a thread that calls `wait` is (/repo/src/FungeUniverse.cpp:151-154): not there, about to lock, holding the lock, asleep, returned. -/
inductive WaitAt
  | away | wants | holds | asleep | returned
  deriving DecidableEq, Repr

/-- The shared state: members of `FungeUniverse` (/repo/src/include/FungeUniverse.h:127-138), and where each thread is. `alive r` tells whether the IP `r` goes on. -/
structure Sync where
  native : Bool
  running : Bool := true
  runners : List Nat := []
  threads : List Nat := []
  alive : Nat → Bool := fun _ => false
  sem : Bool := false
  owner : Owner := .free
  sched : SchedAt := .top
  wait : Nat → WaitAt := fun _ => .away

namespace Sync

/-- `FungeUniverse::isRunning` (/repo/src/FungeUniverse.cpp:171-177). -/
def isRunning (s : Sync) : Bool := s.running && !(if s.native then s.threads.isEmpty else s.runners.isEmpty)

/-- The list the inner loop of the scheduler works on (/repo/src/FungeUniverse.cpp:111, 124). -/
def queue (s : Sync) : List Nat := if s.native then s.threads else s.runners

/-- `semaphore.release()` (/repo/src/util/include/FungeSem.h:20-24). -/
def release (s : Sync) : Sync := { s with sem := true, sched := if s.sched = .asleep then .acquire else s.sched }

/-- `cv.notify_all()` (/repo/src/FungeUniverse.cpp:140, 143, 168). -/
def notifyAll (s : Sync) : Sync := { s with wait := fun k => if s.wait k = .asleep then .wants else s.wait k }

/-- Which thread takes a step; `spurious` is a wake-up of `cv.wait` without notification. No counterpart in the source. -/
inductive Actor
  | sched | adder | killer | waiter (k : Nat) | ip (r : Nat) | spurious (k : Nat)
  deriving DecidableEq, Repr

/-- One step of one thread. -/
inductive Step : Actor → Sync → Sync → Prop
  /-- /repo/src/FungeUniverse.cpp:107. -/
  | top (s : Sync) : s.sched = .top → Step .sched s { s with sched := if s.running then .acquire else .done }
  /-- /repo/src/util/include/FungeSem.h:28, 31. -/
  | acquired (s : Sync) : s.sched = .acquire → s.sem = true → Step .sched s { s with sem := false, sched := .lock }
  /-- /repo/src/util/include/FungeSem.h:28-29. -/
  | sleep (s : Sync) : s.sched = .acquire → s.sem = false → Step .sched s { s with sched := .asleep }
  /-- /repo/src/FungeUniverse.cpp:110, 123. -/
  | lock (s : Sync) : s.sched = .lock → s.owner = .free → Step .sched s { s with owner := .sched, sched := .loop }
  /-- /repo/src/FungeUniverse.cpp:111-114, 124-127. -/
  | front (s : Sync) (r : Nat) (t : List Nat) : s.sched = .loop → s.queue = r :: t → Step .sched s { s with owner := .free, sched := .busy r }
  /-- /repo/src/FungeUniverse.cpp:111, 121, 124, 146. -/
  | empty (s : Sync) : s.sched = .loop → s.queue = [] → Step .sched s { s with owner := .free, sched := .top }
  /-- The end of `tick` (/repo/src/FungeUniverse.cpp:128-130). -/
  | ticked (s : Sync) (r : Nat) : s.sched = .busy r → s.native = false → Step .sched s { s with sched := .relock r }
  /-- The end of `join`, which waits for the thread of the IP to end (/repo/src/FungeUniverse.cpp:115). -/
  | joined (s : Sync) (r : Nat) : s.sched = .busy r → s.native = true → s.alive r = false → Step .sched s { s with sched := .relock r }
  /-- /repo/src/FungeUniverse.cpp:116, 131. -/
  | relock (s : Sync) (r : Nat) : s.sched = .relock r → s.owner = .free → Step .sched s { s with owner := .sched, sched := .remove r }
  /-- /repo/src/FungeUniverse.cpp:133-136. -/
  | requeue (s : Sync) (r : Nat) : s.sched = .remove r → s.native = false → s.alive r = true →
      Step .sched s { s with runners := s.runners.tail ++ [r], sched := .loop }
  /-- /repo/src/FungeUniverse.cpp:133, 137-139, 142. -/
  | reap (s : Sync) (r : Nat) : s.sched = .remove r → s.native = false → s.alive r = false →
      Step .sched s { s with runners := s.runners.tail, sched := .notify }
  /-- /repo/src/FungeUniverse.cpp:140, 143. -/
  | notify (s : Sync) : s.sched = .notify → Step .sched s { s.notifyAll with sched := .loop }
  /-- /repo/src/FungeUniverse.cpp:118-119. -/
  | popThread (s : Sync) (r : Nat) : s.sched = .remove r → s.native = true → Step .sched s { s with threads := s.threads.tail, sched := .loop }
  /-- /repo/src/FungeUniverse.cpp:87, 96. -/
  | addLock (s : Sync) : s.owner = .free → Step .adder s { s with owner := .adding }
  /-- /repo/src/FungeUniverse.cpp:88-90, 97-102; the IP is a new one. -/
  | addPush (s : Sync) (r : Nat) : s.owner = .adding → r ∉ s.runners → r ∉ s.threads →
      Step .adder s { s with
        runners := s.runners ++ [r]
        threads := if s.native then s.threads ++ [r] else s.threads
        alive := fun k => if k = r then true else s.alive k
        owner := .added }
  /-- /repo/src/FungeUniverse.cpp:91, 103. -/
  | addRelease (s : Sync) : s.owner = .added → Step .adder s { s.release with owner := .signalled }
  /-- /repo/src/FungeUniverse.cpp:92, 104. -/
  | addUnlock (s : Sync) : s.owner = .signalled → Step .adder s { s with owner := .free }
  /-- /repo/src/FungeUniverse.cpp:161. -/
  | killLock (s : Sync) : s.owner = .free → Step .killer s { s with owner := .killing }
  /-- /repo/src/FungeUniverse.cpp:162-166. -/
  | killStop (s : Sync) : s.owner = .killing →
      Step .killer s { s with alive := fun k => if k ∈ s.runners then false else s.alive k, running := false, owner := .killed }
  /-- /repo/src/FungeUniverse.cpp:167. -/
  | killRelease (s : Sync) : s.owner = .killed → Step .killer s { s.release with owner := .killSignalled }
  /-- /repo/src/FungeUniverse.cpp:168. -/
  | killNotify (s : Sync) : s.owner = .killSignalled → Step .killer s { s.notifyAll with owner := .killNotified }
  /-- /repo/src/FungeUniverse.cpp:169. -/
  | killUnlock (s : Sync) : s.owner = .killNotified → Step .killer s { s with owner := .free }
  /-- A call of `wait` (/repo/src/FungeUniverse.cpp:151). -/
  | waitCall (s : Sync) (k : Nat) : s.wait k = .away → Step (.waiter k) s { s with wait := fun i => if i = k then .wants else s.wait i }
  /-- /repo/src/FungeUniverse.cpp:152, 153 (locking, or locking again after a wake-up). -/
  | waitLock (s : Sync) (k : Nat) : s.wait k = .wants → s.owner = .free →
      Step (.waiter k) s { s with wait := fun i => if i = k then .holds else s.wait i, owner := .waiter k }
  /-- /repo/src/FungeUniverse.cpp:153-154: the universe is not running. -/
  | waitReturn (s : Sync) (k : Nat) : s.wait k = .holds → s.owner = .waiter k → s.isRunning = false →
      Step (.waiter k) s { s with wait := fun i => if i = k then .returned else s.wait i, owner := .free }
  /-- /repo/src/FungeUniverse.cpp:153: the universe is running. -/
  | waitSleep (s : Sync) (k : Nat) : s.wait k = .holds → s.owner = .waiter k → s.isRunning = true →
      Step (.waiter k) s { s with wait := fun i => if i = k then .asleep else s.wait i, owner := .free }
  /-- A wake-up of the waiting thread without notification (/repo/src/FungeUniverse.cpp:153). -/
  | spurious (s : Sync) (k : Nat) : s.wait k = .asleep → Step (.spurious k) s { s with wait := fun i => if i = k then .wants else s.wait i }
  /-- An IP stops (/repo/src/InstructionPointer.cpp:116) or leaves for another universe. -/
  | stops (s : Sync) (r : Nat) : Step (.ip r) s { s with alive := fun k => if k = r then false else s.alive k }

/-- Some thread takes a step. -/
def Next (s s' : Sync) : Prop := ∃ a, Step a s s'

/-- The states a universe can come to, whatever the interleaving, from its construction (/repo/src/FungeUniverse.cpp:13-31, 33-51). -/
inductive Reachable (native : Bool) : Sync → Prop
  | start : Reachable native { native := native }
  | step {s s' : Sync} : Reachable native s → Next s s' → Reachable native s'

end Sync
end Funge
