import Verif.Model.Stack
import Verif.Model.VecRange
import Verif.Model.IP
/-
The state an instruction works on: the runner (`FungeRunner`), the other runners of the universe, and what they share
(`FungeUniverse`, `Field`, the process' input, output and environment); and the monad instructions are written in.
-/
namespace Funge

/-- `FungeString` (/repo/src/include/funge_types.h:58-62). -/
inductive StrStyle | multispace | sgml | c
  deriving DecidableEq, Repr

/-- `FungeConfig` (/repo/src/include/FungeConfig.h:26-66) and its default values. Strings are lists of `char` values.
`cells` is part of the field and `threads` of the scheduler model. -/
structure Cfg where
  name : List Int := []
  args : List (List Int) := []
  env : List (List Int) := []
  fingerprints : List Nat := []
  dims : Nat := 0
  standard : Int := 0
  topo : Topo := .lahey
  strings : StrStyle := .sgml
  mode : Nat := 0
  concurrent : Bool := true
  execute : Bool := true
  filesystem : Bool := true
  fingerprint : Bool := true
  inverthl : Bool := false
  deriving DecidableEq, Repr

/-- The built-in fingerprints (/repo/src/FingerprintStrategy.cpp:67-95). -/
inductive Fp
  | BASE | BITW | BOOL | CPLI | DBUG | DIRF | FING | FISH | FIXP | FPDP | FPRT | FPSP | FRTH | HRTI | IIPC | JSTR
  | LONG | MODE | MVRS | NFUN | ORTH | PERL | REFC | STRN | SUBR | TOYS
  deriving DecidableEq, Repr

/-- The functions bound in the semantics table: one constructor per `instruction…` method. Lines are those of the
`pushSemantic` calls. -/
inductive Op
  -- /repo/src/Unefunge93Strategy.cpp:20-60
  | skip | push (n : Int) | west | east | stop | trampoline | ifEW | goAway | not | rem | mul | add | sub | div | gt
  | pop | dup | swap | numIn | charIn | string | numOut | charOut | get | put
  -- /repo/src/Befunge93Strategy.cpp:16-18
  | north | south | ifNS
  -- /repo/src/Befunge98Strategy.cpp:16-18
  | left | right | compare
  -- /repo/src/Trefunge98Strategy.cpp:17-19
  | high | low | ifHL
  -- /repo/src/Unefunge98Strategy.cpp:34-64
  | sysInfo | noop | jumpOver | jumpForward | reflect | absolute | iterate | quit | thread | clear | under | beginBlock
  | endBlock | fileIn | fileOut | execute | fetch | store | load | unload
  -- /repo/src/FishStrategy.cpp:24-89
  | fSkip | fPush (n : Int) | fRight | fLeft | fDown | fUp | fMirror1 | fMirror2 | fMirrorVert | fMirrorHori
  | fMirrorAll | fRandom | fTrampoline | fConditional | fJump | fAdd | fSub | fMult | fDiv | fModu | fEqual | fGreater
  | fLess | fString (q : Int) | fDuplicate | fRemove | fSwap2 | fSwap3 | fLength | fShiftLeft | fShiftRight | fReverse
  | fCreateStack | fRemoveStack | fOutChar | fOutInt | fIn | fRegister | fGet | fPut | fEnd
  -- /repo/src/StarfishStrategy.cpp:22-36
  | sFisherman | sCall | sReturn | sDive | sRise | sIncrement | sDecrement | sFile | sSleep | sHour | sMinute | sSecond
  -- /repo/src/Fingerprint.cpp:26-30
  | fing (f : Fp) (c : Int)
  -- /repo/src/fingerprint/FingerprintFING.cpp:87-90
  | fingReflect
  deriving DecidableEq, Repr

/-- `FungeSemantic` (/repo/src/include/FungeSemantic.h:13-41). -/
structure Sem where
  op : Op
  movement : Bool := false
  deriving DecidableEq, Repr

/-- The strategies a runner can load (/repo/src/FungeRunner.cpp:85-115). -/
inductive Strat | une93 | une98 | be93 | be98 | tre98 | fish | starfish
  deriving DecidableEq, Repr

/-- Which `errorHandler` is set (/repo/src/Unefunge93Strategy.cpp:62, /repo/src/FishStrategy.cpp:91). -/
inductive Handler | null | funge | fish
  deriving DecidableEq, Repr

/-- `class FungeRunner` (/repo/src/include/FungeRunner.h) together with the members of its two states
(/repo/src/include/FungeStateString.h:24-25, /repo/src/include/FungeStateNormal.h), of its `FingerprintStrategy`
(/repo/src/include/FingerprintStrategy.h), of its `FishStrategy`/`StarfishStrategy`, and of the fingerprint objects that
have any (SUBR, IIPC, FISH, HRTI). The stack is owned by the runner (simplification: the sharing with a `.fl`
library runner, /repo/src/FungeRunner.cpp:40-56, is not modelled). Other runners are referred to by id. `home` is the name of the universe whose field
the strategies refer to (/repo/src/FungeStrategy.cpp:14), if it is not the one the runner is in; only `Model/Mvrs` gives it a value. -/
structure Runner where
  id : Nat := 0
  ss : StackStack := {}
  ip : IP := {}
  parent : Option Nat := none
  strats : List Strat := []
  handler : Handler := .null
  sems : Int → List Sem := fun _ => []
  inString : Bool := false
  strEnd : Int := 34
  strPrev : Int := 0
  loaded : List Nat := []
  available : List Nat := []
  subrOffset : Bool := false
  iipcAge : Nat := 0
  iipcDormant : Bool := false
  fishUp : Bool := true
  fishCache : Vec := Vec.ofList [1, 0]
  hrtiMark : Int := 0
  starUp : Bool := true
  starCache : Vec := Vec.ofList [1, 0]
  regs : List (Bool × Int) := []
  file : Option (List Int) := none
  filepath : List Int := []
  home : Option (List Int) := none

/-- The effects a program has outside the interpreter, in the order they happen. `out` is what is written to `std::cout`
(/repo/src/Unefunge93Strategy.cpp:241-255), `system` a call of `system()` (/repo/src/Unefunge98Strategy.cpp:288), the others
touch the file system (/repo/src/Unefunge98Strategy.cpp:240-282, /repo/src/StarfishStrategy.cpp:92-122,
/repo/src/fingerprint/FingerprintDIRF.cpp:17-44). -/
inductive Eff
  | out (bytes : List Int)
  | system (cmd : List Int)
  | openRead (path : List Int)
  | openWrite (path : List Int)
  | writeFile (path bytes : List Int)
  | chdir (path : List Int)
  | mkdir (path : List Int)
  | rmdir (path : List Int)
  deriving DecidableEq, Repr

/-- Arithmetic on `double` given by bit pattern, as used by ><> (/repo/src/FishStrategy.cpp:199-267, 454-489). The model does not
fix it: theorems hold for every such structure and say which laws they need. `toI64` is `none` where the conversion is
undefined. `fn f c args` is what letter `c` of fingerprint `f` (FPDP, FPSP, FIXP, CPLI) computes with `<cmath>`, `none` where a conversion
to an integer is undefined; `cdiv` is the division of CPLI rounded to integers (/repo/src/fingerprint/FingerprintCPLI.cpp:22-28); `shown` is `std::fixed`
with six decimals (/repo/src/fingerprint/include/FingerprintFloat.h:96), `parse` is `std::stod` (line 105), which throws for `none`; and `fmt` is `snprintf`
(/repo/src/fingerprint/FingerprintFPRT.cpp): a fault where the format does not fit the argument, `none` for a negative result. -/
structure FloatOps where
  ofInt : Int → Int
  toI64 : Int → Option Int
  add : Int → Int → Int
  sub : Int → Int → Int
  mul : Int → Int → Int
  div : Int → Int → Int
  isZero : Int → Bool
  eq : Int → Int → Bool
  lt : Int → Int → Bool
  text : Int → List Int
  fn : Fp → Int → List Int → Option Int := fun _ _ _ => none
  cdiv : Int × Int → Int × Int → Option (Int × Int) := fun _ _ => none
  shown : Fp → Int → List Int := fun _ _ => []
  parse : List Int → Option Int := fun _ => none
  fmt : Int → List Int → List Int → Except Fault (Option (List Int)) := fun _ _ _ => .ok none

/-- The number library of LONG (`bigint<uint64_t>`, /repo/src/fingerprint/include/FingerprintLONG.h:10, 22-23), which is not part of the repository. A number
is given by its two words, `high()` and `low()`. Like `FloatOps`, the model does not fix it; the default is a number that ignores everything. -/
structure LongOps where
  ofInt : Int → Int × Int := fun _ => (0, 0)
  add : Int × Int → Int × Int → Int × Int := fun _ _ => (0, 0)
  mul : Int × Int → Int × Int → Int × Int := fun _ _ => (0, 0)
  div : Int × Int → Int × Int → Int × Int := fun _ _ => (0, 0)
  rem : Int × Int → Int × Int → Int × Int := fun _ _ => (0, 0)
  neg : Int × Int → Int × Int := fun _ => (0, 0)
  shl : Int × Int → Int → Int × Int := fun _ _ => (0, 0)
  shr : Int × Int → Int → Int × Int := fun _ _ => (0, 0)
  isNeg : Int × Int → Bool := fun _ => false
  isZero : Int × Int → Bool := fun _ => false
  text : Int × Int → List Int := fun _ => []

/-- What the runners of a universe share: `FungeUniverse` (/repo/src/include/FungeUniverse.h), the static members
`FungeRunner::count` (/repo/src/FungeRunner.cpp:20) and `FingerprintREFC::refc_map`
(/repo/src/fingerprint/FingerprintREFC.cpp:12), the process' standard input and effects, and the answers of the environment:
`orc` are successive random numbers, times and exit codes, `files` and `dirs` the results of opening files and testing directories,
all indexed by the counter `asked`. `flt` and `lng` are the arithmetic of floating point and of long numbers. `fuel` bounds loops that need not end. -/
structure Glob where
  field : Field := Field.new 2 false
  cfg : Cfg := {}
  running : Bool := true
  exitcode : Int := 0
  nextId : Nat := 0
  refc : List (Int × Vec) := []
  breakpoints : List Vec := []
  watchpoints : List Vec := []
  inp : List Int := []
  eff : List Eff := []
  orc : Nat → Int := fun _ => 0
  files : Nat → Option (List Int) := fun _ => none
  dirs : Nat → Bool := fun _ => false
  asked : Nat := 0
  flt : FloatOps
  lng : LongOps := {}
  fuel : Nat := 0

/-- A universe while one of its runners is being ticked: `cur` is `runners.front()`, `rest` the others in order
(/repo/src/FungeUniverse.cpp:125-131). -/
structure St where
  cur : Runner
  rest : List Runner := []
  g : Glob

/-- Instructions: functions that read and change the state, or fault. No counterpart in the source. -/
def Exec (α : Type) : Type := St → Except Fault (α × St)

namespace Exec

/-- Returning a value (no counterpart in the source). -/
def ret {α : Type} (a : α) : Exec α := fun s => .ok (a, s)

/-- Sequencing (no counterpart in the source). -/
def seq {α β : Type} (m : Exec α) (f : α → Exec β) : Exec β := fun s =>
  match m s with
  | .ok (a, s') => f a s'
  | .error e => .error e

instance : Monad Exec where
  pure := ret
  bind := seq

/-- Undefined behaviour, an uncaught exception, or out of fuel (no counterpart in the source). -/
def fault {α : Type} (e : Fault) : Exec α := fun _ => .error e

/-- Reading the state (no counterpart in the source). -/
def get : Exec St := fun s => .ok (s, s)

/-- Changing the state (no counterpart in the source). -/
def modify (f : St → St) : Exec Unit := fun s => .ok ((), f s)

/-- Changing the current runner (no counterpart in the source). -/
def modCur (f : Runner → Runner) : Exec Unit := modify fun s => { s with cur := f s.cur }

/-- Changing what the runners share (no counterpart in the source). -/
def modG (f : Glob → Glob) : Exec Unit := modify fun s => { s with g := f s.g }

/-- A computation that may fault (no counterpart in the source). -/
def lift {α : Type} (x : Except Fault α) : Exec α := fun s =>
  match x with
  | .ok a => .ok (a, s)
  | .error e => .error e

/-- An effect outside the interpreter. -/
def emit (e : Eff) : Exec Unit := modG fun g => { g with eff := g.eff ++ [e] }

/-- The next answer of the environment: a random number, the time, an exit code. -/
def ask : Exec Int := fun s => .ok (s.g.orc s.g.asked, { s with g := { s.g with asked := s.g.asked + 1 } })

/-- The next answer of the environment to opening a file. -/
def askFile : Exec (Option (List Int)) := fun s =>
  .ok (s.g.files s.g.asked, { s with g := { s.g with asked := s.g.asked + 1 } })

/-- The next answer of the environment to asking whether a directory exists. -/
def askDir : Exec Bool := fun s => .ok (s.g.dirs s.g.asked, { s with g := { s.g with asked := s.g.asked + 1 } })

end Exec
open Exec

/-- Running a method of the stack `at(x)` (/repo/src/StackStack.cpp:42-44). -/
def onStack {α : Type} (x : Nat) (f : Stack → α × Stack) : Exec α := fun s =>
  match s.cur.ss.at' x with
  | .error e => .error e
  | .ok st => .ok ((f st).1, { s with cur := { s.cur with ss := s.cur.ss.setAt x (f st).2 } })

/-- A method of `StackStack::top()` (/repo/src/StackStack.cpp:34-36). -/
def onTop {α : Type} (f : Stack → α × Stack) : Exec α := fun s => onStack s.cur.ss.select f s

/-- A method of `StackStack::second()` (/repo/src/StackStack.cpp:38-40). -/
def onSecond {α : Type} (f : Stack → α × Stack) : Exec α := fun s => onStack (s.cur.ss.select + 1) f s

/-- `stack.top().pop()` (/repo/src/Stack.cpp:30-44). -/
def popTop : Exec Int := onTop Stack.pop
/-- `stack.second().pop()` (/repo/src/Stack.cpp:30-44). -/
def popSecond : Exec Int := onSecond Stack.pop
/-- `stack.top().push(v)` (/repo/src/Stack.cpp:59-68). -/
def pushTop (v : Int) : Exec Unit := onTop fun st => ((), st.push v)
/-- `stack.second().push(v)` (/repo/src/Stack.cpp:59-68). -/
def pushSecond (v : Int) : Exec Unit := onSecond fun st => ((), st.push v)
/-- `stack.top().size()` (/repo/src/Stack.cpp:76-78). -/
def sizeTop : Exec Nat := onTop fun st => (st.size, st)
/-- `stack.second().size()` (/repo/src/Stack.cpp:76-78). -/
def sizeSecond : Exec Nat := onSecond fun st => (st.size, st)
/-- `stack.top().get(n)` (/repo/src/Stack.cpp:84-108). -/
def getTop (n : Nat) : Exec Int := onTop fun st => (st.get n, st)
/-- `stack.top().clear()` (/repo/src/Stack.cpp:70-74). -/
def clearTop : Exec Unit := onTop fun st => ((), st.clear)

/-- A method of the `StackStack` that may fault. -/
def onStacks (f : StackStack → Except Fault StackStack) : Exec Unit := fun s =>
  match f s.cur.ss with
  | .error e => .error e
  | .ok ss => .ok ((), { s with cur := { s.cur with ss := ss } })

/-- Pop `n` values; the first popped comes first (the loops filling `trans[]`/`pops[]`, e.g.
/repo/src/Unefunge98Strategy.cpp:189-191). -/
def popN (pop : Exec Int) : Nat → Exec (List Int)
  | 0 => pure []
  | n + 1 => do
    let x ← pop
    let r ← popN pop n
    pure (x :: r)

/-- Push the values of a list in order. -/
def pushAll (push : Int → Exec Unit) : List Int → Exec Unit
  | [] => pure ()
  | x :: r => do
    push x
    pushAll push r

/-- `FungeUniverse::dimensions()` (/repo/src/FungeUniverse.cpp:216-221). -/
def getDims : Exec Nat := fun s => .ok (s.g.cfg.dims, s)

/-- `runner.isMode(m)` (/repo/src/FungeRunner.cpp:211-213). -/
def isMode (m : Nat) : Exec Bool := fun s => .ok (hasMode s.g.cfg.mode m, s)

/-- `pushVector` (/repo/src/util/FungeUtilities.cpp:14-23) onto the stack `push` pushes to. -/
def pushVectorOn (push : Int → Exec Unit) (v : Vec) : Exec Unit := do
  let d ← getDims
  pushAll push ((List.range d).map v.get)

/-- `pushVector(runner, v)` (/repo/src/util/FungeUtilities.cpp:14-23). -/
def pushVector (v : Vec) : Exec Unit := pushVectorOn pushTop v

/-- The loop of `popVector` (/repo/src/util/FungeUtilities.cpp:31-33, 42-44). -/
def popVectorLoop (pop : Exec Int) : Nat → Vec → Exec Vec
  | 0, v => pure v
  | i + 1, v => do
    let x ← pop
    popVectorLoop pop i (v.set i x)

/-- `popVector(runner, stack)` (/repo/src/util/FungeUtilities.cpp:25-35). -/
def popVectorOn (pop : Exec Int) : Exec Vec := do
  let d ← getDims
  popVectorLoop pop d Vec.empty

/-- `popVector(runner)` (/repo/src/util/FungeUtilities.cpp:25-35). -/
def popVector : Exec Vec := popVectorOn popTop

/-- `pushString(stack.top(), str)` (/repo/src/util/FungeUtilities.cpp:48-55); returns the number of pushes. -/
def pushString (str : List Int) : Exec Nat := do
  pushTop 0
  pushAll pushTop str.reverse
  pure (str.length + 1)

/-- The loop of `popString` (/repo/src/util/FungeUtilities.cpp:59-61). The stack has a finite number of values and an empty stack
pops 0, so `size + 1` iterations are enough (see `popString_fuel`). -/
def popStringLoop : Nat → List Int → Exec (List Int)
  | 0, _ => fault .fuel
  | n + 1, acc => do
    let c ← popTop
    if c = 0 then pure acc.reverse else popStringLoop n (toChar c :: acc)

/-- `popString(stack.top())` (/repo/src/util/FungeUtilities.cpp:57-63). -/
def popString : Exec (List Int) := do
  let n ← sizeTop
  popStringLoop (n + 1) []

/-- `FungeStrategy::random` (/repo/src/FungeStrategy.cpp:23-26): `std::uniform_int_distribution<int>` needs `min ≤ max`. -/
def random (lo hi : Int) : Exec Int := do
  let lo := toInt lo
  let hi := toInt hi
  if lo ≤ hi then
    let r ← ask
    pure (lo + r % (hi - lo + 1))
  else fault .badRandom

/-- `ip.getPos()` (/repo/src/InstructionPointer.cpp:124-126). -/
def ipPos : Exec Vec := fun s => .ok (s.cur.ip.pos, s)
/-- `ip.getDelta()` (/repo/src/InstructionPointer.cpp:128-130). -/
def ipDelta : Exec Vec := fun s => .ok (s.cur.ip.delta, s)
/-- `ip.getStorage()` (/repo/src/InstructionPointer.cpp:132-134). -/
def ipStorage : Exec Vec := fun s => .ok (s.cur.ip.storage, s)

/-- `ip.next()` (/repo/src/InstructionPointer.cpp:53-80). -/
def ipNext : Exec Unit := fun s =>
  match s.cur.ip.next s.g.cfg.dims s.g.cfg.topo s.g.field with
  | .error e => .error e
  | .ok ip => .ok ((), { s with cur := { s.cur with ip := ip } })

/-- Some method of the instruction pointer. -/
def onIP (f : IP → IP) : Exec Unit := modCur fun r => { r with ip := f r.ip }

/-- `field.get(v)` (/repo/src/Field.cpp, `Field::get`). -/
def fieldGet (v : Vec) : Exec Int := fun s => .ok (s.g.field.get v, s)

/-- `field.put(v, i)` (/repo/src/Field.cpp, `Field::put`). -/
def fieldPut (v : Vec) (i : Int) : Exec Unit := modG fun g => { g with field := g.field.put v i }

/-- `ip.get()` (/repo/src/InstructionPointer.cpp:36-38). -/
def ipGet : Exec Int := fun s => .ok (s.g.field.get s.cur.ip.pos, s)

/-- `ip.put(i)` (/repo/src/InstructionPointer.cpp:40-42). -/
def ipPut (i : Int) : Exec Unit := modify fun s => { s with g := { s.g with field := s.g.field.put s.cur.ip.pos i } }

/-- The observers of the delta: `fishermanChange` of the FISH fingerprint (/repo/src/fingerprint/FingerprintFISH.cpp:17, 146-150)
and of Starfish (/repo/src/StarfishStrategy.cpp:38, 158-162). -/
def notifyDelta (r : Runner) : Runner :=
  let d := r.ip.delta
  if d.get 0 ≠ 0 ∧ d.get 1 = 0 then
    { r with
      fishCache := if 0x46495348 ∈ r.available then d else r.fishCache
      starCache := if Strat.starfish ∈ r.strats then d else r.starCache }
  else r

/-- `ip.setDelta(v)` with its observers (/repo/src/InstructionPointer.cpp:86-98). -/
def setDelta (v : Vec) : Exec Unit := do
  let h ← isMode modeHover
  modCur fun r => notifyDelta { r with ip := r.ip.setDelta h v }

/-- `FungeRunner::push` (/repo/src/FungeRunner.cpp:166-172): the first strategy pushes, ><> as a `double`
(/repo/src/FungeStrategy.cpp:28-31, /repo/src/FishStrategy.cpp:498-501). -/
def runnerPush (n : Int) : Exec Unit := fun s =>
  match s.cur.strats with
  | [] => .ok ((), s)
  | .fish :: _ => pushTop (s.g.flt.ofInt n) s
  | .starfish :: _ => pushTop (s.g.flt.ofInt n) s
  | _ :: _ => pushTop n s

/-- `FungeUniverse::killAll` (/repo/src/FungeUniverse.cpp:160-169). -/
def killAll (code : Int) : Exec Unit := modify fun s =>
  { s with
    cur := { s.cur with ip := s.cur.ip.stop }
    rest := s.rest.map fun r => { r with ip := r.ip.stop }
    g := { s.g with exitcode := code, running := false } }

/-- `FungeUniverse::updateMode` (/repo/src/FungeUniverse.cpp:258-262), after the mode word became `m`. -/
def setModeWord (m : Nat) : Exec Unit := modify fun s =>
  { s with
    cur := { s.cur with ss := s.cur.ss.setMode m }
    rest := s.rest.map fun r => { r with ss := r.ss.setMode m }
    g := { s.g with cfg := { s.g.cfg with mode := m } } }

/-- `FungeUniverse::setMode` (/repo/src/FungeUniverse.cpp:235-238). -/
def universeSetMode (m : Nat) : Exec Unit := fun s => setModeWord (s.g.cfg.mode ||| m) s
/-- `FungeUniverse::clearMode` (/repo/src/FungeUniverse.cpp:240-243). -/
def universeClearMode (m : Nat) : Exec Unit := fun s => setModeWord (s.g.cfg.mode &&& (0xFFFFFFFF ^^^ m)) s
/-- `FungeUniverse::toggleMode` (/repo/src/FungeUniverse.cpp:245-248). -/
def universeToggleMode (m : Nat) : Exec Unit := fun s => setModeWord (s.g.cfg.mode ^^^ m) s

/-- Decimal digits of a natural number, most significant first, in front of `acc` (`operator<<` of a `std::ostream`). -/
def decLoop : Nat → Nat → List Int → List Int
  | 0, _, acc => acc
  | fuel + 1, n, acc =>
    if n / 10 = 0 then ((48 + n % 10 : Nat) : Int) :: acc
    else decLoop fuel (n / 10) (((48 + n % 10 : Nat) : Int) :: acc)

/-- What `std::cout << x` writes for an integer, and `std::to_string` (e.g. /repo/src/Unefunge93Strategy.cpp:253). -/
def decimal (x : Int) : List Int :=
  if x < 0 then 45 :: decLoop (x.natAbs + 1) x.natAbs [] else decLoop (x.natAbs + 1) x.natAbs []

/-- `getchar()` (/repo/src/Unefunge93Strategy.cpp:198); `none` is `EOF`. -/
def getChar : Exec (Option Int) := fun s =>
  match s.g.inp with
  | [] => .ok (none, s)
  | c :: t => .ok (some c, { s with g := { s.g with inp := t } })

/-- `ungetc(c, stdin)` (/repo/src/Unefunge93Strategy.cpp:215). -/
def ungetChar (c : Int) : Exec Unit := modG fun g => { g with inp := c :: g.inp }

/-- `pushSemantic` (/repo/src/FungeStateNormal.cpp:19-25). -/
def Runner.pushSem (r : Runner) (i : Int) (s : Sem) : Runner :=
  { r with sems := fun j => if j = i then s :: r.sems i else r.sems j }

/-- `popSemantic` (/repo/src/FungeStateNormal.cpp:27-35): the semantic removed, if any. -/
def Runner.popSem (r : Runner) (i : Int) : Option Sem × Runner :=
  ((r.sems i).head?, { r with sems := fun j => if j = i then (r.sems i).tail else r.sems j })

/-- `getSemantic` (/repo/src/FungeStateNormal.cpp:37-44). -/
def Runner.getSem (r : Runner) (i : Int) : Option Sem := (r.sems i).head?

end Funge
