/-
Which shared variables the functions of a universe and of the multiverse use, and under which lock (/repo/src/FungeUniverse.cpp, /repo/src/FungeMultiverse.cpp). A function is the list of what it does to
locks and shared variables, in the order of the source; everything else it does is left out. Threads run such lists, and any of them can be next. Simplifications: all threads are there from the beginning
(a thread that is started later can be one that starts running later); `cv.wait` unlocks and locks again any number of times; a variable is a member of the class as a whole: the list `runners`, not its elements,
the table `universes`, not the universes.
-/
namespace Funge
namespace Access

/-- The mutex of a universe (/repo/src/include/FungeUniverse.h:137), of the multiverse (/repo/src/include/FungeMultiverse.h:77), and of a stack (/repo/src/include/Stack.h:93). -/
inductive Mutex | universe | multiverse | stack
  deriving DecidableEq, Repr

/-- Shared variables: members of `FungeUniverse` (/repo/src/include/FungeUniverse.h:127-134) and of `FungeMultiverse` (/repo/src/include/FungeMultiverse.h:76), and
of `Stack` (/repo/src/include/Stack.h:90-92). -/
inductive Shared | running | exitcode | threads | runners | field | universes | mode | values | ops
  deriving DecidableEq, Repr

/-- What a thread does. No counterpart in the source. -/
inductive Ev
  | lock (m : Mutex) | unlock (m : Mutex) | read (x : Shared) | write (x : Shared)
  deriving DecidableEq, Repr

/-- `FungeUniverse::addRunner` (/repo/src/FungeUniverse.cpp:95-104). -/
def addRunner (native : Bool) : List Ev :=
  [.lock .universe] ++ (if native then [.write .threads] else []) ++ [.write .runners, .unlock .universe]

/-- `FungeUniverse::transferRunner` (/repo/src/FungeUniverse.cpp:85-93), for a runner of another universe. -/
def transferRunner : List Ev := [.lock .universe, .write .runners, .unlock .universe]

/-- `FungeUniverse::isRunning` (/repo/src/FungeUniverse.cpp:171-177). -/
def isRunning (native : Bool) : List Ev := [.read .runners] ++ (if native then [.read .threads] else []) ++ [.read .running]

/-- `FungeUniverse::wait` (/repo/src/FungeUniverse.cpp:151-154); `k` times it finds the universe running. -/
def wait (native : Bool) (k : Nat) : List Ev :=
  [.lock .universe] ++ (List.replicate k (isRunning native ++ [.unlock .universe, .lock .universe])).flatten ++ isRunning native ++ [.unlock .universe]

/-- `FungeUniverse::killAll` (/repo/src/FungeUniverse.cpp:160-169). -/
def killAll : List Ev := [.lock .universe, .write .exitcode, .read .runners, .write .running, .unlock .universe]

/-- `FungeUniverse::get` (/repo/src/FungeUniverse.cpp:156-158). -/
def get : List Ev := [.read .exitcode]

/-- `FungeUniverse::getRunner` (/repo/src/FungeUniverse.cpp:207-214), for the instructions of IIPC. -/
def getRunner : List Ev := [.read .runners]

/-- `FungeUniverse::updateMode` (/repo/src/FungeUniverse.cpp:258-262), for the instructions of MODE, DBUG and FISH, and `u` of *><>. -/
def updateMode : List Ev := [.read .runners]

/-- One turn of the inner loop of `FungeUniverse::operator()` (/repo/src/FungeUniverse.cpp:111-120, 124-145), from the test of the loop on; in between, without the lock, `tick` does what the instruction does,
and `join` waits. -/
def turn (native : Bool) (tick : List Ev) : List Ev :=
  if native then [.read .threads, .unlock .universe, .lock .universe, .write .threads]
  else [.read .runners, .unlock .universe] ++ tick ++ [.lock .universe, .write .runners]

/-- One turn of the outer loop of `FungeUniverse::operator()` (/repo/src/FungeUniverse.cpp:107-148), with the given turns of the inner loop; without the test of `running` in line 107. -/
def round (native : Bool) (ticks : List (List Ev)) : List Ev :=
  [.lock .universe] ++ (ticks.map (turn native)).flatten ++ [if native then .read .threads else .read .runners, .unlock .universe]

/-- The destructor (/repo/src/FungeUniverse.cpp:53-70), with `n` threads and `m` runners left. -/
def destroy (n m : Nat) : List Ev :=
  killAll ++ [.lock .universe] ++ List.replicate n (.write .threads) ++ List.replicate m (.write .runners) ++ [.unlock .universe]

/-- `FungeMultiverse::create` (/repo/src/FungeMultiverse.cpp:32-46, 48-61); the name was taken `k` times. -/
def create (k : Nat) : List Ev :=
  [.lock .multiverse] ++ List.replicate (k + 1) (.read .universes) ++ [.write .universes, .unlock .multiverse]

/-- `FungeMultiverse::size` and `operator[]` (/repo/src/FungeMultiverse.cpp:88-93, 102-104), for the instructions of MVRS. -/
def lookup : List Ev := [.read .universes]

/-- `FungeMultiverse::waitAll` (/repo/src/FungeMultiverse.cpp:63-80), one universe of one round, which was found running `k` times. -/
def waitAll (native : Bool) (k : Nat) : List Ev := [.read .universes] ++ isRunning native ++ wait native k ++ [.read .universes]

/-- `Field::put` (/repo/src/Field.cpp:248-298). -/
def put : List Ev := [.write .field]

/-- `Field::get` (/repo/src/Field.cpp:308-319). -/
def fetch : List Ev := [.read .field]

/-- `Stack::pop` (/repo/src/Stack.cpp:30-44). -/
def pop : List Ev := [.lock .stack, .read .values, .read .mode, .write .values, .write .ops, .unlock .stack]

/-- `Stack::peek` (/repo/src/Stack.cpp:46-57), and `Stack::get` (/repo/src/Stack.cpp:84-104). -/
def peek : List Ev := [.lock .stack, .read .values, .read .mode, .read .values, .unlock .stack]

/-- `Stack::push` (/repo/src/Stack.cpp:59-68). -/
def push : List Ev := [.lock .stack, .read .mode, .write .values, .write .ops, .unlock .stack]

/-- `Stack::clear` (/repo/src/Stack.cpp:70-74). -/
def clear : List Ev := [.lock .stack, .write .values, .write .ops, .unlock .stack]

/-- `Stack::size` (/repo/src/Stack.cpp:76-78). -/
def size : List Ev := [.read .values]

/-- `Stack::age` (/repo/src/Stack.cpp:80-82), for D of IIPC. -/
def age : List Ev := [.read .ops]

/-- `Stack::setMode` (/repo/src/Stack.cpp:110-112). -/
def setMode : List Ev := [.write .mode]

/-- The functions that take the lock for all they do with the lists, and what an IP or the scheduler does by calling them. -/
inductive Call (native : Bool) : List Ev → Prop
  | add : Call native (addRunner native)
  | transfer : Call native transferRunner
  | wait (k : Nat) : Call native (wait native k)
  | kill : Call native killAll
  | destroy (n m : Nat) : Call native (destroy n m)
  | create (k : Nat) : Call native (create k)
  | pop : Call native pop
  | peek : Call native peek
  | push : Call native push
  | clear : Call native clear
  /-- Line 107 of /repo/src/FungeUniverse.cpp. -/
  | test : Call native [.read .running]
  | nothing : Call native []
  | then {a b : List Ev} : Call native a → Call native b → Call native (a ++ b)
  | round (ticks : List (List Ev)) : (∀ t ∈ ticks, Call native t) → Call native (round native ticks)

/-- The threads, each with what it is still to do, and who holds the locks. -/
structure Threads where
  todo : Nat → List Ev
  owner : Mutex → Option Nat := fun _ => none

/-- A function changed in one place. No counterpart in the source. -/
def upd {α β : Type} [DecidableEq α] (f : α → β) (a : α) (b : β) : α → β := fun k => if k = a then b else f k

/-- A thread does what is next; it gets a lock only if nobody holds it. -/
inductive Step : Threads → Threads → Prop
  | lock (s : Threads) (i : Nat) (m : Mutex) (t : List Ev) : s.todo i = .lock m :: t → s.owner m = none → Step s ⟨upd s.todo i t, upd s.owner m (some i)⟩
  | unlock (s : Threads) (i : Nat) (m : Mutex) (t : List Ev) : s.todo i = .unlock m :: t → Step s ⟨upd s.todo i t, upd s.owner m none⟩
  | read (s : Threads) (i : Nat) (x : Shared) (t : List Ev) : s.todo i = .read x :: t → Step s ⟨upd s.todo i t, s.owner⟩
  | write (s : Threads) (i : Nat) (x : Shared) (t : List Ev) : s.todo i = .write x :: t → Step s ⟨upd s.todo i t, s.owner⟩

/-- Some steps. -/
inductive Steps : Threads → Threads → Prop
  | refl (s) : Steps s s
  | snoc {a b c} : Steps a b → Step b c → Steps a c

/-- A data race on `x`: two threads can use it at the same moment, one of them to change it. -/
def Race (s : Threads) (x : Shared) : Prop :=
  ∃ i j t t', i ≠ j ∧ s.todo i = .write x :: t ∧ (s.todo j = .write x :: t' ∨ s.todo j = .read x :: t')

end Access
end Funge
