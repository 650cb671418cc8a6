import Verif.Model.Debugger
import Verif.Model.VecIO
/-
The debugger's prompt (/repo/src/Defunge.cpp): reading a line, and what each command shows and changes.
-/
namespace Funge.Defunge
open Funge

/-- The characters of a literal of the source (no counterpart in the source). -/
def lit (s : String) : List Int := s.toList.map fun c => (c.toNat : Int)

/-- `FungeRunner` as far as the prompt uses it (/repo/src/include/FungeRunner.h): id, universe, IP and stacks. -/
structure Seen where
  id : Nat
  uni : List Int
  ip : IP
  ss : StackStack

/-- An element of `threads` (/repo/src/include/FungeDebugger.h:44-48, 56). The pointer to the runner is `none` if null (an element made by `threads[id]`), else the id of
the runner it was taken from. -/
structure Entry where
  id : Nat
  runner : Option Nat
  backtrace : List Vec := []
  state : DState := .start

/-- `FungeUniverse` and its `FungeDebugger` as far as the prompt uses them (/repo/src/include/FungeUniverse.h, /repo/src/include/FungeDebugger.h:18-64). `threads` is in
the order of the ids, as in a `std::map`; `hover` is `isMode(FUNGE_MODE_HOVER)`. -/
structure Home where
  name : List Int
  field : Field
  hover : Bool := false
  breakpoints : List Vec := []
  watchpoints : List Vec := []
  threads : List Entry := []
  last : Nat := 0

/-- The multiverse while the prompt is shown. `unis` are the universes in the order in which the `unordered_map` gives them, `alive` the runners that have not been
deleted, `dbg` the universe of `debugger`, `runner` the pointer `runner` as in `Entry` (/repo/src/include/Defunge.h:34-37), `out` what has been shown so far. -/
structure World where
  unis : List Home
  alive : List Seen
  dbg : List Int
  runner : Option Nat
  killed : Bool := false
  out : List Int := []

/-- `enum Error` (/repo/src/include/Defunge.h:26-30). -/
inductive Verdict
  | ok | brk | noThread
  deriving DecidableEq, Repr

/-- What an access through a pointer to a runner gives: undefined for a null pointer and for a runner that has been deleted (/repo/src/FungeUniverse.cpp:139). -/
def World.deref (w : World) : Option Nat → Except Fault Seen
  | none => .error .nullDeref
  | some i => match w.alive.find? (·.id == i) with
    | some r => .ok r
    | none => .error .dangling

/-- The universe with a name; pointers to universes stay valid until the end of the program. -/
def World.home (w : World) (name : List Int) : Except Fault Home :=
  match w.unis.find? (·.name == name) with
  | some u => .ok u
  | none => .error .dangling

/-- `std::cout <<` (/repo/src/Defunge.cpp:97). -/
def World.say (w : World) (t : List Int) : World := { w with out := w.out ++ t }

/-- Changing a universe (/repo/src/Defunge.cpp:389). -/
def World.setHome (w : World) (u : Home) : World := { w with unis := w.unis.map fun v => if v.name == u.name then u else v }

/-- Changing a runner (/repo/src/Defunge.cpp:312, 325). -/
def World.setSeen (w : World) (r : Seen) : World := { w with alive := w.alive.map fun q => if q.id == r.id then r else q }

/-- `iss >> cmd` for a string (/repo/src/Defunge.cpp:104, 437): the characters up to white space. -/
def word (is : IStream) : List Int × IStream :=
  if is.failed then ([], is)
  else match IStream.skip is.rest with
    | [] => ([], ⟨[], true⟩)
    | l => (l.takeWhile (!IStream.isSpace ·), ⟨l.dropWhile (!IStream.isSpace ·), false⟩)

/-- `10 * v + d` over the digits in front (/repo/src/Defunge.cpp:211). -/
def number (v : Nat) : List Int → Nat × List Int
  | [] => (v, [])
  | c :: t => if 48 ≤ c ∧ c ≤ 57 then number (v * 10 + (c - 48).toNat) t else (v, c :: t)

/-- The digits behind the sign (/repo/src/Defunge.cpp:211): no digit is a failure that gives 0, too large a number a failure that gives the largest, a minus sign
negates modulo 2^64. -/
def unsigned (neg : Bool) : List Int → Nat × IStream
  | c :: t =>
    if 48 ≤ c ∧ c ≤ 57 then
      match number 0 (c :: t) with
      | (v, rest) => if v ≥ 18446744073709551616 then (18446744073709551615, ⟨rest, true⟩)
        else (if neg && v != 0 then 18446744073709551616 - v else v, ⟨rest, false⟩)
    else (0, ⟨c :: t, true⟩)
  | [] => (0, ⟨[], true⟩)

/-- `iss >> c` for a `size_t` (/repo/src/Defunge.cpp:211, 221, 268): at the end of the line `c` keeps its value. -/
def size (is : IStream) (c : Nat) : Nat × IStream :=
  if is.failed then (c, is)
  else match IStream.skip is.rest with
    | [] => (c, ⟨[], true⟩)
    | x :: t => if x = 45 then unsigned true t else if x = 43 then unsigned false t else unsigned false (x :: t)

/-- `printIP(r)` (/repo/src/Defunge.cpp:126-129). The id is that of `r`, the position that of the member `runner`. -/
def printIP (w : World) (r : Seen) : Except Fault World := do
  let q ← w.deref w.runner
  let u ← w.home q.uni
  pure (w.say (decimal r.id ++ lit ": " ++ printVec q.ip.pos ++ lit " \"" ++ [toChar (u.field.get q.ip.pos)] ++ lit "\"\n"))

/-- The loop over the threads in `printField` (/repo/src/Defunge.cpp:138-144): is there one at `pos`? It stops at the first one. -/
def anyAt (w : World) (pos : Vec) : List Entry → Except Fault Bool
  | [] => .ok false
  | t :: ts => do
    let r ← w.deref t.runner
    if r.ip.pos.eqv pos then pure true else anyAt w pos ts

/-- `ip != nullptr && pos == ip->getPos()` (/repo/src/Defunge.cpp:157). -/
def isAt (pos : Vec) : Option Vec → Bool
  | some p => pos.eqv p
  | none => false

/-- One cell in `printField` (/repo/src/Defunge.cpp:136-164). -/
def printCell (w : World) (dbg : Home) (field : Field) (center : Vec) (ip : Option Vec) (pos : Vec) : Except Fault (List Int) := do
  let a ← anyAt w pos dbg.threads
  let b := setContains dbg.breakpoints pos
  let c := setContains dbg.watchpoints pos
  let d := pos.eqv center
  let e := isAt pos ip
  pure ((if a then lit "\x1b[43;1m" else []) ++ (if b then lit "\x1b[41;1m" else []) ++ (if c then lit "\x1b[34;1m" else []) ++ (if d then lit "\x1b[4m" else []) ++
    (if e then lit "\x1b[42;1m" else []) ++ [toChar (field.get pos)] ++ (if a || b || c || d || e then lit "\x1b[0m" else []))

/-- The loop of `printField` (/repo/src/Defunge.cpp:135-171), with `d0` and `d1` for `dim[0]` and `dim[1]`. -/
def fieldLoop (w : World) (dbg : Home) (field : Field) (center start stop : Vec) (d0 d1 : Nat) (ip : Option Vec) : Nat → Vec → List Int → Except Fault (List Int)
  | 0, _, _ => .error .fuel
  | n + 1, pos, out =>
    if pos.le stop then do
      let t ← printCell w dbg field center ip pos
      let pos := pos.set d0 (pos.get d0 + 1)
      if pos.get d0 > stop.get d0 then
        let pos := pos.set d1 (pos.get d1 + 1)
        let pos := pos.set d0 (start.get d0)
        fieldLoop w dbg field center start stop d0 d1 ip n pos (out ++ t ++ lit "\n")
      else fieldLoop w dbg field center start stop d0 d1 ip n pos (out ++ t)
    else .ok out

/-- `printField` (/repo/src/Defunge.cpp:131-172). A negative dimension becomes a huge index, for which `set` cannot allocate: an exception. -/
def printField (fuel : Nat) (w : World) (dbg : Home) (field : Field) (center size dim : Vec) (ip : Option Vec) : Except Fault World :=
  if dim.get 0 < 0 ∨ dim.get 1 < 0 then .error .exception
  else do
    let t ← fieldLoop w dbg field center (center.sub size) (center.add size) (dim.get 0).toNat (dim.get 1).toNat ip fuel (center.sub size) []
    pure (w.say t)

/-- One line of `peek` (/repo/src/Defunge.cpp:214-218): from the element popped last to the one popped first. -/
def peekLine (s : Stack) : Nat → List Int
  | 0 => []
  | i + 1 => decimal (s.get (i + 1)) ++ lit " " ++ peekLine s i

/-- The lines of `peek` (/repo/src/Defunge.cpp:213-219). -/
def peekAll : List Stack → List Int
  | [] => []
  | s :: t => lit "[0] " ++ peekLine s s.size ++ lit "\n" ++ peekAll t

/-- `peekCommand` (/repo/src/Defunge.cpp:203-226). -/
def peek (w : World) (is : IStream) : Except Fault (Verdict × World) :=
  if w.runner.isNone then .ok (.noThread, w)
  else do
    let r ← w.deref w.runner
    let (c, is) := size is 0
    if c = 0 then pure (.ok, w.say (peekAll r.ss.stacks))
    else
      let (s, _) := size is 0
      let st ← r.ss.at' s
      pure (.ok, w.say (decimal (st.get c) ++ lit "\n"))

/-- The lines of `backtrace` (/repo/src/Defunge.cpp:298-300). -/
def traceLines (f : Field) : Nat → List Vec → List Int
  | _, [] => []
  | i, b :: t => lit "#" ++ decimal i ++ lit "  " ++ printVec b ++ lit " \"" ++ [toChar (f.get b)] ++ lit "\"\n" ++ traceLines f (i + 1) t

/-- The lines of `thread` (/repo/src/Defunge.cpp:273-284). -/
def threadLines (tid : Nat) : World → List Entry → Except Fault World
  | w, [] => .ok w
  | w, t :: ts =>
    if t.state ≠ .ended then
      match w.runner with
      | none => do
        let w := w.say (lit "  ")
        let r ← w.deref t.runner
        let w ← printIP w r
        threadLines tid w ts
      | some _ => do
        let r ← w.deref t.runner
        let w := w.say (if r.id = tid then lit "* " else lit "  ")
        let w ← printIP w r
        threadLines tid w ts
    else threadLines tid (w.say (lit "  " ++ decimal t.id ++ lit ": end\n")) ts

/-- `threadCommand` (/repo/src/Defunge.cpp:258-286). -/
def thread (w : World) (is : IStream) : Except Fault (Verdict × World) := do
  let u ← w.home w.dbg
  let tid ← (match w.runner with
    | some i => do let r ← w.deref (some i); pure r.id
    | none => pure 0)
  let (n, _) := size is tid
  let (tid, w) := match u.threads.find? (·.id == n) with
    | some t => (n, { w with runner := t.runner })
    | none => (tid, w)
  let w ← threadLines tid w u.threads
  pure (.ok, w)

/-- `s = {3,3}` and `d = {0,1}` for arguments left out (/repo/src/Defunge.cpp:345-352, 368-377). -/
def orElse (v d : Vec) : Vec := if v.size = 0 then d else v

/-- `v = ip->getPos()` for a position left out (/repo/src/Defunge.cpp:341-343). -/
def orPos (v : Vec) : Option Vec → Vec
  | some p => orElse v p
  | none => v

/-- `getCommand` (/repo/src/Defunge.cpp:330-357). `c` is the value of the uninitialised variable in `operator>>`. -/
def get (fuel : Nat) (c : Int) (w : World) (is : IStream) : Except Fault (Verdict × World) := do
  let u ← w.home w.dbg
  let ip ← (match w.runner with
    | some i => do let r ← w.deref (some i); pure (some r.ip.pos)
    | none => pure none)
  let (v, is) ← readVec fuel c is
  let v := orPos v ip
  let (s, is) ← readVec fuel c is
  let (d, _) ← readVec fuel c is
  let w ← printField fuel w u u.field v (orElse s (Vec.ofList [3, 3])) (orElse d (Vec.ofList [0, 1])) ip
  pure (.ok, w)

/-- `listCommand` (/repo/src/Defunge.cpp:359-380). -/
def list (fuel : Nat) (c : Int) (w : World) (is : IStream) : Except Fault (Verdict × World) :=
  if w.runner.isNone then .ok (.noThread, w)
  else do
    let u ← w.home w.dbg
    let r ← w.deref w.runner
    let f ← w.home r.uni
    let (s, is) ← readVec fuel c is
    let (d, _) ← readVec fuel c is
    let w ← printField fuel w u f.field r.ip.pos (orElse s (Vec.ofList [3, 3])) (orElse d (Vec.ofList [0, 1])) (some r.ip.pos)
    pure (.ok, w)

/-- `threads[tid].state = s` (/repo/src/Defunge.cpp:181, 199), for a thread that may not be in the map. -/
def setState (l : List Entry) (id : Nat) (s : DState) : List Entry :=
  match l with
  | [] => [{ id := id, runner := none, state := s }]
  | t :: ts => if t.id = id then { t with state := s } :: ts else if id < t.id then { id := id, runner := none, state := s } :: t :: ts else t :: setState ts id s

/-- `runCommand` and `stepCommand` (/repo/src/Defunge.cpp:174-183, 192-201). -/
def resume (s : DState) (w : World) : Except Fault (Verdict × World) :=
  if w.runner.isNone then .ok (.noThread, w)
  else do
    let u ← w.home w.dbg
    let r ← w.deref w.runner
    pure (.brk, w.setHome { u with threads := setState u.threads r.id s })

/-- `setdeltaCommand` and `setposCommand` (/repo/src/Defunge.cpp:304-328). Simplification: the observers of the delta (fingerprint NFUN) are left out. -/
def setIP (fuel : Nat) (c : Int) (isPos : Bool) (w : World) (is : IStream) : Except Fault (Verdict × World) :=
  if w.runner.isNone then .ok (.noThread, w)
  else do
    let (v, _) ← readVec fuel c is
    let r ← w.deref w.runner
    let u ← w.home r.uni
    if isPos then
      let w := w.setSeen { r with ip := r.ip.setPos v }
      let r ← w.deref w.runner
      let w ← printIP w r
      pure (.ok, w)
    else
      let w := w.setSeen { r with ip := r.ip.setDelta u.hover v }
      let r ← w.deref w.runner
      pure (.ok, w.say (lit "Delta " ++ printVec r.ip.delta ++ lit "\n"))

/-- `std::set<Vector>::insert` (/repo/src/FungeDebugger.cpp:90, 100), in order, nothing if there is an equivalent element. -/
def setAdd (v : Vec) : List Vec → List Vec
  | [] => [v]
  | b :: t => if v.lt b then v :: b :: t else if b.lt v then b :: setAdd v t else b :: t

/-- The lines of `break` and `watch` (/repo/src/Defunge.cpp:390-392, 404-406). -/
def pointLines (what : List Int) : List Vec → List Int
  | [] => []
  | v :: t => what ++ printVec v ++ lit "\n" ++ pointLines what t

/-- `breakCommand` and `watchCommand` (/repo/src/Defunge.cpp:382-408) with `FungeDebugger::addBreakpoint` and `addWatchpoint` (/repo/src/FungeDebugger.cpp:87-102). -/
def addPoint (fuel : Nat) (c : Int) (isBreak : Bool) (w : World) (is : IStream) : Except Fault (Verdict × World) := do
  let u ← w.home w.dbg
  let (v, _) ← readVec fuel c is
  if isBreak then
    let l := if v.size > 0 then setAdd v u.breakpoints else u.breakpoints
    pure (.ok, (w.setHome { u with breakpoints := l }).say (pointLines (lit "Breakpoint ") l))
  else
    let l := if v.size > 0 then setAdd v u.watchpoints else u.watchpoints
    pure (.ok, (w.setHome { u with watchpoints := l }).say (pointLines (lit "Watchpoint ") l))

/-- `readCommand` (/repo/src/Defunge.cpp:410-421). -/
def read (fuel : Nat) (c : Int) (w : World) (is : IStream) : Except Fault (Verdict × World) := do
  let u ← w.home w.dbg
  let (v, _) ← readVec fuel c is
  pure (.ok, w.say (lit "Value = (" ++ decimal (u.field.get v) ++ lit ") \"" ++ [toChar (u.field.get v)] ++ lit "\"\n"))

/-- The lines of `universe` (/repo/src/Defunge.cpp:447-454). -/
def uniLines (cur : List Int) : List Home → List Int
  | [] => []
  | u :: t => (if cur = u.name then lit "* " else lit "  ") ++ u.name ++ lit "\n" ++ uniLines cur t

/-- Turning to another universe (/repo/src/Defunge.cpp:433-444); `threads[id]` makes an element without a runner if there is none. -/
def turnTo (w : World) (name : List Int) : World :=
  match w.unis.find? (·.name == name) with
  | none => w
  | some u =>
    if u.threads.isEmpty then { w with dbg := name, runner := none }
    else match u.threads.find? (·.id == u.last) with
      | some t => { w with dbg := name, runner := t.runner }
      | none => { (w.setHome { u with threads := setState u.threads u.last .start }) with dbg := name, runner := none }

/-- `universeCommand` (/repo/src/Defunge.cpp:423-455). -/
def «universe» (w : World) (is : IStream) : Except Fault (Verdict × World) :=
  let (name, _) := word is
  let w := if name ≠ [] then turnTo w name else w
  .ok (.ok, w.say (uniLines w.dbg w.unis))

/-- `deltaCommand`, `storageCommand` and `positionCommand` (/repo/src/Defunge.cpp:228-256), by what they show. -/
def showing (f : Seen → Except Fault World) (w : World) : Except Fault (Verdict × World) :=
  if w.runner.isNone then .ok (.noThread, w)
  else do
    let r ← w.deref w.runner
    let w ← f r
    pure (.ok, w)

/-- `backtraceCommand` (/repo/src/Defunge.cpp:288-302); `threads[tid]` makes an element if there is none. -/
def backtrace (w : World) : Except Fault (Verdict × World) :=
  if w.runner.isNone then .ok (.noThread, w)
  else do
    let u ← w.home w.dbg
    let r ← w.deref w.runner
    let h ← w.home r.uni
    let w := w.say (lit "Backtrace\n")
    match u.threads.find? (·.id == r.id) with
    | some t => pure (.ok, w.say (traceLines h.field 0 t.backtrace))
    | none => pure (.ok, w.setHome { u with threads := setState u.threads r.id .start })

/-- The functions of the prompt (/repo/src/include/Defunge.h:46-62). -/
inductive Func
  | run | quit | step | peek | delta | storage | position | thread | backtrace | setdelta | setpos | get | list | brk | watch | read | universe
  deriving DecidableEq, Repr

/-- `cmdMap` (/repo/src/Defunge.cpp:27-76). -/
def cmdMap : List (String × Func) :=
  [("run", .run), ("r", .run), ("continue", .run), ("con", .run), ("c", .run), ("quit", .quit), ("q", .quit), ("step", .step), ("stp", .step), ("s", .step),
   ("peek", .peek), ("p", .peek), ("delta", .delta), ("dir", .delta), ("d", .delta), ("storage", .storage), ("position", .position), ("pos", .position),
   ("thread", .thread), ("t", .thread), ("backtrace", .backtrace), ("bt", .backtrace), ("setdelta", .setdelta), ("setpos", .setpos), ("get", .get), ("g", .get),
   ("list", .list), ("l", .list), ("break", .brk), ("bp", .brk), ("watch", .watch), ("wp", .watch), ("read", .read), ("universe", .universe), ("u", .universe)]

/-- The call through `cmdMap[cmd]` (/repo/src/Defunge.cpp:107-108). -/
def call (fuel : Nat) (c : Int) (w : World) (is : IStream) : Func → Except Fault (Verdict × World)
  | .run => resume .run w
  | .quit => .ok (.brk, { w with killed := true })
  | .step => resume .step w
  | .peek => peek w is
  | .delta => showing (fun r => .ok (w.say (lit "Delta " ++ printVec r.ip.delta ++ lit "\n"))) w
  | .storage => showing (fun r => .ok (w.say (lit "Storage " ++ printVec r.ip.storage ++ lit "\n"))) w
  | .position => showing (fun r => printIP w r) w
  | .thread => thread w is
  | .backtrace => backtrace w
  | .setdelta => setIP fuel c false w is
  | .setpos => setIP fuel c true w is
  | .get => get fuel c w is
  | .list => list fuel c w is
  | .brk => addPoint fuel c true w is
  | .watch => addPoint fuel c false w is
  | .read => read fuel c w is
  | .universe => «universe» w is

/-- One line at the prompt (/repo/src/Defunge.cpp:97-122); the verdict `brk` ends the loop. -/
def line (fuel : Nat) (c : Int) (w : World) (l : List Int) : Except Fault (Verdict × World) :=
  let w := w.say (lit "\x1b[33m(defunge)\x1b[0m ")
  let (cmd, is) := word ⟨l, false⟩
  match cmdMap.find? fun p => lit p.1 == cmd with
  | none => .ok (.ok, w)
  | some p => match call fuel c w is p.2 with
    | .ok (.noThread, w) => .ok (.ok, w.say (lit "No thread.\n"))
    | r => r

/-- The loop of `debug` (/repo/src/Defunge.cpp:96-123) over the lines of the input; what is left of them when it ends. At the end of the input every line is empty and
the loop does not end. -/
def lines (fuel : Nat) (c : Int) : World → List (List Int) → Except Fault (World × List (List Int))
  | _, [] => .error .fuel
  | w, l :: t => match line fuel c w l with
    | .ok (.brk, w) => .ok (w, t)
    | .ok (_, w) => lines fuel c w t
    | .error e => .error e

/-- `debug` (/repo/src/Defunge.cpp:79-124), called with a debugger and a runner. -/
def debug (fuel : Nat) (c : Int) (w : World) (dbg : List Int) (run : Nat) (l : List (List Int)) : Except Fault (World × List (List Int)) := do
  let w := { w with dbg := dbg, runner := some run }
  let u ← w.home dbg
  let (state, w) := match u.threads.find? (·.id == u.last) with
    | some t => (t.state, w)
    | none => (.start, w.setHome { u with threads := setState u.threads u.last .start })
  match state with
  | .run => pure (w, l)
  | _ => do
    let r ← w.deref w.runner
    let w ← printIP w r
    lines fuel c w l

end Funge.Defunge
