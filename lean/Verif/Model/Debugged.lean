import Verif.Model.Defunge
import Verif.Model.Run
/-
A universe with interpreted threads while the debugger watches it: where the scheduler, the loop of `FungeRunner::tick` and the field call the debugger, and what a session at
the prompt does to the running program.
-/
namespace Funge
open Exec

/-- The debugger of a universe and the prompt, next to the running program (/repo/src/include/FungeDebugger.h:18-64, /repo/src/include/Defunge.h:34-37).
`on` is `FUNGE_MODE_DEBUG`; simplification: kept apart from the other bits of the mode, the program does not switch it (`D` and `E` of DBUG are not modelled). `name` is the
name of the universe, `breaks` and `watches` the points set at the prompt; those set by the program with DBUG are in `Glob`. `others` are the other universes, `away` the IPs in
them; simplification: they stand still. `greeting` is what `intro` will show (/repo/src/FungeDebugger.cpp:108-118), `shown` what has been shown. `junk` is the value of the
uninitialised variable in `operator>>`. `shared` is whether the prompt reads the input of the program, as it does; `typed` are the lines it reads otherwise, in a variant of the code
that theorems compare with. -/
structure Debug where
  on : Bool := true
  name : List Int := []
  breaks : List Vec := []
  watches : List Vec := []
  threads : List Defunge.Entry := []
  last : Nat := 0
  others : List Defunge.Home := []
  away : List Defunge.Seen := []
  greeting : List Int := []
  shown : List Int := []
  junk : Int := 0
  shared : Bool := true
  typed : List (List Int) := []

/-- The lines `std::getline` will give one after the other (/repo/src/Defunge.cpp:100). -/
def inputLines : List Int → List (List Int)
  | [] => []
  | c :: t => if c = 10 then [] :: inputLines t else match inputLines t with
    | [] => [[c]]
    | l :: r => (c :: l) :: r

/-- What is left of the input after `std::getline` has taken `k` lines (/repo/src/Defunge.cpp:100). -/
def afterLines : Nat → List Int → List Int
  | 0, l => l
  | k + 1, l => afterLines k ((l.dropWhile (· != 10)).drop 1)

namespace Debug

/-- A breakpoint or watchpoint set by the program or at the prompt; both are in the same `std::set` (/repo/src/include/FungeDebugger.h:54-55). -/
def points (byProgram atPrompt : List Vec) : List Vec := byProgram.foldl (fun l v => Defunge.setAdd v l) atPrompt

/-- A runner as the prompt sees it (/repo/src/include/FungeRunner.h). -/
def seen (name : List Int) (r : Runner) : Defunge.Seen := ⟨r.id, name, r.ip, r.ss⟩

/-- What the prompt has access to (/repo/src/Defunge.cpp:79-82). -/
def world (s : St) (d : Debug) : Defunge.World where
  unis := { name := d.name, field := s.g.field, hover := hasMode s.g.cfg.mode modeHover, breakpoints := points s.g.breakpoints d.breaks,
            watchpoints := points s.g.watchpoints d.watches, threads := d.threads, last := d.last } :: d.others
  alive := (s.cur :: s.rest).map (seen d.name) ++ d.away
  dbg := d.name
  runner := none
  out := d.shown

/-- The IPs as the prompt has left them (/repo/src/Defunge.cpp:312, 325); the runners are in the same order. -/
def moved : List Runner → List Defunge.Seen → List Runner
  | r :: rs, q :: qs => { r with ip := q.ip } :: moved rs qs
  | rs, _ => rs

/-- The running program after a session: the IPs, and `quit` (/repo/src/Defunge.cpp:185-190). -/
def back (s : St) (w : Defunge.World) : St :=
  let s := match moved (s.cur :: s.rest) w.alive with
    | r :: rs => { s with cur := r, rest := rs }
    | [] => s
  if w.killed then match killAll 1 s with
    | .ok (_, s) => s
    | .error _ => s
  else s

/-- The debugger after a session. -/
def kept (d : Debug) (n : Nat) (w : Defunge.World) : Debug :=
  match w.unis with
  | u :: t => { d with breaks := u.breakpoints, watches := u.watchpoints, threads := u.threads, last := u.last, others := t, away := w.alive.drop n, shown := w.out }
  | [] => d

/-- A call of `Defunge::debug` (/repo/src/Defunge.cpp:79-124). The prompt reads lines from `std::cin`, which is also the input of the program (line 100). -/
def session (s : St) (d : Debug) (run : Nat) : Except Fault (St × Debug) :=
  let l := if d.shared then inputLines s.g.inp else d.typed
  match Defunge.debug s.g.fuel d.junk (world s d) d.name run l with
  | .error e => .error e
  | .ok (w, rest) =>
    let s' := back s w
    let d' := kept d (s.rest.length + 1) w
    if d.shared then .ok ({ s' with g := { s'.g with inp := afterLines (l.length - rest.length) s.g.inp } }, d')
    else .ok (s', { d' with typed := rest })

/-- `std::cout <<` (/repo/src/FungeDebugger.cpp:38, 44, 58, 67, 78-81). -/
def say (d : Debug) (t : List Int) : Debug := { d with shown := d.shown ++ t }

/-- `intro` (/repo/src/FungeDebugger.cpp:108-118). -/
def intro (d : Debug) : Debug := { (d.say d.greeting) with greeting := [] }

/-- `threads[id]` of an element that is there (/repo/src/FungeDebugger.cpp:48-51). -/
def onEntry (d : Debug) (id : Nat) (f : Defunge.Entry → Defunge.Entry) : Debug := { d with threads := d.threads.map fun t => if t.id = id then f t else t }

/-- `threads.insert` of a new element in the order of the ids (/repo/src/FungeDebugger.cpp:33-37). -/
def insert (e : Defunge.Entry) : List Defunge.Entry → List Defunge.Entry
  | [] => [e]
  | t :: ts => if e.id < t.id then e :: t :: ts else t :: insert e ts

/-- `FungeDebugger::tick` before the prompt (/repo/src/FungeDebugger.cpp:29-51). -/
def arrive (s : St) (d : Debug) : Debug :=
  let d := d.intro
  let id := s.cur.id
  let d := if d.threads.any (·.id == id) then d
    else { (d.say (Defunge.lit "New IP " ++ decimal id ++ [10])) with threads := insert { id := id, runner := some id } d.threads }
  let d := { d with last := id }
  let d := if setContains (points s.g.breakpoints d.breaks) s.cur.ip.pos then
      { (d.say (Defunge.lit "Breakpoint " ++ printVec s.cur.ip.pos ++ [10])) with threads := Defunge.setState d.threads id .brk }
    else d
  d.onEntry id fun t => { t with backtrace := pushBack t.backtrace s.cur.ip.pos }

/-- `FungeDebugger::tick` (/repo/src/FungeDebugger.cpp:27-54). -/
def tick (s : St) (d : Debug) : Except Fault (St × Debug) :=
  if d.on then session s (arrive s d) s.cur.id else .ok (s, d)

/-- `FungeDebugger::trap` (/repo/src/FungeDebugger.cpp:64-71). -/
def trap (s : St) (d : Debug) : Except Fault (St × Debug) :=
  if d.on then
    let d := d.intro.say (Defunge.lit "Exception Trapped " ++ printVec s.cur.ip.pos ++ [10])
    session s { d with threads := Defunge.setState d.threads d.last .brk } s.cur.id
  else .ok (s, d)

/-- `FungeDebugger::debugWrite` (/repo/src/FungeDebugger.cpp:73-85) for one cell, with the value it had and the value it gets. -/
def write (s : St) (d : Debug) (pos : Vec) (old new : Int) : Except Fault (St × Debug) :=
  if d.on && setContains (points s.g.watchpoints d.watches) pos then
    let d := { d with threads := Defunge.setState d.threads d.last .brk }
    match (d.threads.find? (·.id == d.last)).bind (·.runner) with
    | none => .error .nullDeref
    | some run =>
      session s (d.intro.say (Defunge.lit "Watchpoint " ++ printVec pos ++ [10] ++ Defunge.lit "Old value = (" ++ decimal old ++ Defunge.lit ") \"" ++ [toChar old] ++
        Defunge.lit "\"\n" ++ Defunge.lit "New value = (" ++ decimal new ++ Defunge.lit ") \"" ++ [toChar new] ++ Defunge.lit "\"\n")) run
  else .ok (s, d)

/-- The cells an instruction writes, one after the other (/repo/src/Field.cpp:289-297). Simplification: `FungeDebugger::debugWrite` is called during the instruction, with the field as
it is then; here after it. -/
def writes (s : St) (d : Debug) : List (Vec × Int × Int) → Except Fault (St × Debug)
  | [] => .ok (s, d)
  | (pos, old, new) :: t =>
    match write s d pos old new with
    | .error e => .error e
    | .ok (s, d) => writes s d t

/-- `FungeDebugger::endThread` (/repo/src/FungeDebugger.cpp:104-106); the runner is deleted afterwards (/repo/src/FungeUniverse.cpp:139), so that its element of `threads` dangles. -/
def endThread (d : Debug) (id : Nat) : Debug := { d with threads := Defunge.setState d.threads id .ended }

end Debug

/-- The instruction at the IP (/repo/src/FungeRunner.cpp:136-137). -/
def execHere : Exec Err := do
  let i ← ipGet
  let fuel ← getFuel
  execute fuel i

/-- The end of a round of the loop of `FungeRunner::tick` (/repo/src/FungeRunner.cpp:156-158). -/
def goOn (e : Err) : Exec Err :=
  if e = .none ∨ e = .skip then do
    ipNext
    pure e
  else pure e

/-- One round of the loop of `FungeRunner::tick` without the debugger (/repo/src/FungeRunner.cpp:134-158). -/
def oneRound : Exec Err := do
  let e ← execHere
  let e ← afterExec e
  goOn e

/-- Whether the switch of `FungeRunner::tick` calls the debugger and the error handler (/repo/src/FungeRunner.cpp:138-155). -/
def Err.trapped : Err → Bool
  | .none | .skip | .block => false
  | _ => true

/-- One round of the loop of `FungeRunner::tick` with the debugger (/repo/src/FungeRunner.cpp:134-158). `ws s s'` are the cells written by an instruction that leads from `s` to `s'`, which
the model of the instructions does not record. -/
def Debug.round (ws : St → St → List (Vec × Int × Int)) (s : St) (d : Debug) : Except Fault (Err × St × Debug) :=
  match Debug.tick s d with
  | .error f => .error f
  | .ok (s, d) =>
    match execHere s with
    | .error f => .error f
    | .ok (e, s') =>
      match Debug.writes s' d (ws s s') with
      | .error f => .error f
      | .ok (s', d) =>
        match (if e.trapped then Debug.trap s' d else .ok (s', d)) with
        | .error f => .error f
        | .ok (s', d) =>
          match afterExec e s' with
          | .error f => .error f
          | .ok (e, s') =>
            match goOn e s' with
            | .error f => .error f
            | .ok (e, s') => .ok (e, s', d)

/-- `FungeRunner::tick` with the debugger (/repo/src/FungeRunner.cpp:132-160). The first argument bounds the number of rounds. -/
def Debug.tickLoop (ws : St → St → List (Vec × Int × Int)) : Nat → St → Debug → Except Fault (St × Debug)
  | 0, _, _ => .error .fuel
  | n + 1, s, d =>
    match Debug.round ws s d with
    | .error f => .error f
    | .ok (e, s, d) => if e = .skip then Debug.tickLoop ws n s d else .ok (s, d)

/-- One iteration of the inner loop of `FungeUniverse::operator()` with the debugger (/repo/src/FungeUniverse.cpp:124-145). -/
def Debug.turn (ws : St → St → List (Vec × Int × Int)) (u : Univ) (d : Debug) : Except Fault (Univ × Debug) :=
  match u.runners with
  | [] => .ok (u, d)
  | r :: rest =>
    match (if r.ip.stopped then .ok (⟨r, rest, u.g⟩, d) else Debug.tickLoop ws u.g.fuel ⟨r, rest, u.g⟩ d) with
    | .error e => .error e
    | .ok (s, d) => .ok (if s.cur.ip.stopped then (⟨s.rest, s.g⟩, d.endThread s.cur.id) else (⟨s.rest ++ [s.cur], s.g⟩, d))

/-- `n` iterations of that loop (/repo/src/FungeUniverse.cpp:124-145). -/
def Debug.turns (ws : St → St → List (Vec × Int × Int)) : Nat → Univ → Debug → Except Fault (Univ × Debug)
  | 0, u, d => .ok (u, d)
  | n + 1, u, d =>
    match Debug.turn ws u d with
    | .error e => .error e
    | .ok (u, d) => Debug.turns ws n u d

end Funge
