import Verif.Model.Finger.Text
/-
The debugger (/repo/src/FungeDebugger.cpp) and its prompt (/repo/src/Defunge.cpp). It sees an execution as a sequence of events: each time round the loop
of `FungeRunner::tick` it is told of the instruction about to be executed, and it is told of errors, of software breakpoints and of writes to the field.
-/
namespace Funge

/-- `enum State` (/repo/src/include/FungeDebugger.h:32-38). -/
inductive DState
  | start | run | step | brk | ended
  deriving DecidableEq, Repr

/-- `struct Thread` (/repo/src/include/FungeDebugger.h:44-48) without the pointer to the runner, which is known by its id. The default values are those of a
value-initialised element, as made by `threads[id]`. Simplification: the pointer of an element made that way is null, and of an IP
that has ended dangling; the prompt can select such a thread, which is left out. -/
structure DThread where
  backtrace : List Vec := []
  state : DState := .start
  deriving DecidableEq, Repr

/-- `class FungeDebugger` (/repo/src/include/FungeDebugger.h:18-64); the map of threads as a function. -/
structure Dbg where
  breakpoints : List Vec := []
  watchpoints : List Vec := []
  threads : Nat → Option DThread := fun _ => none
  last : Nat := 0

/-- `std::set<Vector>::contains` (/repo/src/FungeDebugger.cpp:43, 75): an element neither less nor greater. -/
def setContains (l : List Vec) (v : Vec) : Bool := l.any fun w => !w.lt v && !v.lt w

namespace Dbg

/-- `threads[id]` (/repo/src/FungeDebugger.cpp:45). -/
def thread (d : Dbg) (id : Nat) : DThread := (d.threads id).getD {}

/-- Assigning to `threads[id]` (/repo/src/FungeDebugger.cpp:45). -/
def setThread (d : Dbg) (id : Nat) (t : DThread) : Dbg := { d with threads := fun k => if k = id then some t else d.threads k }

/-- `threads[id].state = s` (/repo/src/FungeDebugger.cpp:45, 59, 68, 76, 105, /repo/src/Defunge.cpp:181, 199). -/
def setState (d : Dbg) (id : Nat) (s : DState) : Dbg := d.setThread id { d.thread id with state := s }

/-- `FungeDebugger::addBreakpoint` (/repo/src/FungeDebugger.cpp:87-92). -/
def addBreakpoint (d : Dbg) (v : Vec) : Dbg := if v.size > 0 then { d with breakpoints := setInsert d.breakpoints v } else d

/-- `FungeDebugger::addWatchpoint` (/repo/src/FungeDebugger.cpp:94-102); that the field has the debugger as an observer from the first one on is part of the
event `write`. -/
def addWatchpoint (d : Dbg) (v : Vec) : Dbg := if v.size > 0 then { d with watchpoints := setInsert d.watchpoints v } else d

end Dbg

/-- The commands of the prompt (/repo/src/Defunge.cpp:27-76), already read: `run`, `quit`, `step`, `thread n`, `setpos v`, `break v`, `watch v`; `other` stands for
the commands that only print or change the delta, and for lines that are not commands. Simplification: `universe name`, which turns to another
debugger, is left out. -/
inductive Cmd
  | run | quit | step | thread (id : Nat) | setpos (v : Vec) | brk (v : Vec) | watch (v : Vec) | other
  deriving DecidableEq, Repr

/-- What is left after an event: the debugger, the commands not yet typed, whether the prompt was shown, whether the universes were killed, and the
positions set by the user. No counterpart in the source. -/
structure Stop where
  d : Dbg
  cmds : List Cmd
  stopped : Bool := true
  killed : Bool := false
  moved : List (Nat × Vec) := []

/-- The loop of `Defunge::debug` (/repo/src/Defunge.cpp:96-123) with `runner` the id of the selected one: `runCommand` 174-183, `quitCommand` 185-190, `stepCommand`
192-201, `threadCommand` 258-286, `setposCommand` 317-328, `breakCommand` 382-394, `watchCommand` 396-408. At the end of the input it prompts for ever. -/
def prompt (d : Dbg) (runner : Nat) (moved : List (Nat × Vec)) : List Cmd → Except Fault Stop
  | [] => .error .fuel
  | .run :: t => .ok { d := d.setState runner .run, cmds := t, moved := moved }
  | .quit :: t => .ok { d := d, cmds := t, killed := true, moved := moved }
  | .step :: t => .ok { d := d.setState runner .step, cmds := t, moved := moved }
  | .thread id :: t => prompt d (if (d.threads id).isSome then id else runner) moved t
  | .setpos v :: t => prompt d runner (moved ++ [(runner, v)]) t
  | .brk v :: t => prompt (d.addBreakpoint v) runner moved t
  | .watch v :: t => prompt (d.addWatchpoint v) runner moved t
  | .other :: t => prompt d runner moved t

/-- `Defunge::debug` (/repo/src/Defunge.cpp:79-124). -/
def Dbg.debug (d : Dbg) (runner : Nat) (cmds : List Cmd) : Except Fault Stop :=
  match (d.thread d.last).state with
  | .run => .ok { d := d, cmds := cmds, stopped := false }
  | _ => prompt d runner [] cmds

/-- `MAX_BACKTRACE` and the two statements that use it (/repo/src/include/FungeDebugger.h:40-42, /repo/src/FungeDebugger.cpp:48-51). -/
def pushBack (l : List Vec) (pos : Vec) : List Vec := pos :: (if l.length ≥ 10 then l.dropLast else l)

/-- Entering a new thread (/repo/src/FungeDebugger.cpp:31-39). -/
def Dbg.meet (d : Dbg) (id : Nat) : Dbg :=
  match d.threads id with
  | none => d.setThread id {}
  | some _ => d

/-- The part of `FungeDebugger::tick` before the prompt (/repo/src/FungeDebugger.cpp:30-51), in debug mode. -/
def Dbg.arrive (d : Dbg) (id : Nat) (pos : Vec) : Dbg :=
  let d := { d.meet id with last := id }
  let d := if setContains d.breakpoints pos then d.setState id .brk else d
  d.setThread id { d.thread id with backtrace := pushBack (d.thread id).backtrace pos }

/-- What the debugger is told. `on` is whether `FUNGE_MODE_DEBUG` is set. -/
inductive DEvent
  /-- `FungeDebugger::tick` (/repo/src/FungeDebugger.cpp:27-54), called at /repo/src/FungeRunner.cpp:135. -/
  | tick (on : Bool) (id : Nat) (pos : Vec)
  /-- `FungeDebugger::swbreak` (/repo/src/FungeDebugger.cpp:55-62), called at /repo/src/fingerprint/FingerprintDBUG.cpp:29. -/
  | swbreak (on : Bool) (id : Nat)
  /-- `FungeDebugger::trap` (/repo/src/FungeDebugger.cpp:64-71), called at /repo/src/FungeRunner.cpp:148. -/
  | trap (on : Bool) (id : Nat)
  /-- `FungeDebugger::debugWrite` (/repo/src/FungeDebugger.cpp:73-85), an observer of the field. -/
  | write (on : Bool) (pos : Vec)
  /-- `FungeDebugger::endThread` (/repo/src/FungeDebugger.cpp:104-106), called at /repo/src/FungeUniverse.cpp:138. -/
  | ended (id : Nat)
  deriving DecidableEq, Repr

/-- What the debugger does when told (/repo/src/FungeDebugger.cpp:27-106). -/
def Dbg.event (d : Dbg) (cmds : List Cmd) : DEvent → Except Fault Stop
  | .tick true id pos => (d.arrive id pos).debug id cmds
  | .swbreak true id => (d.setState d.last .brk).debug id cmds
  | .trap true id => (d.setState d.last .brk).debug id cmds
  | .write true pos => if setContains d.watchpoints pos then (d.setState d.last .brk).debug d.last cmds else .ok { d := d, cmds := cmds, stopped := false }
  | .ended id => .ok { d := d.setState id .ended, cmds := cmds, stopped := false }
  | _ => .ok { d := d, cmds := cmds, stopped := false }

/-- A sequence of events (no counterpart in the source); for each of them what was left after it, in order. -/
def Dbg.trace (d : Dbg) (cmds : List Cmd) : List DEvent → Except Fault (List Stop)
  | [] => .ok []
  | e :: t =>
    match d.event cmds e with
    | .error f => .error f
    | .ok s =>
      match s.d.trace s.cmds t with
      | .error f => .error f
      | .ok l => .ok (s :: l)

end Funge
