import Verif.Model.Finger.Float
/-
Executing an instruction, one tick of a runner, and the scheduler of the universe.
-/
namespace Funge
open Exec

/-- `Fingerprint::execute`, per fingerprint (/repo/src/Fingerprint.cpp:26-30 binds it). -/
def fpRun (f : Fp) (c : Int) : Exec Err :=
  match f with
  | .BASE => baseRun c
  | .BITW => bitwRun c
  | .BOOL => boolRun c
  | .CPLI => cpliRun c
  | .DBUG => dbugRun c
  | .DIRF => dirfRun c
  | .FING => fingRun c
  | .FISH => fishRun c
  | .FIXP => fixpRun c
  | .FPDP => fpdpRun c
  | .FPRT => fprtRun c
  | .FPSP => fpspRun c
  | .FRTH => frthRun c
  | .HRTI => hrtiRun c
  | .IIPC => iipcRun c
  | .JSTR => jstrRun c
  | .LONG => longRun c
  | .MODE => modeRun c
  | .MVRS => mvrsRun c
  | .NFUN => nfunRun c
  | .ORTH => orthRun c
  | .PERL => perlRun c
  | .REFC => refcRun c
  | .STRN => strnRun c
  | .SUBR => subrRun c
  | .TOYS => toysRun c

/-- `FungeSemantic::operator()` (/repo/src/include/FungeSemantic.h:28-30): calls the function bound. `exec` is `runner.execute`, which `k` calls. -/
def runOp (exec : Int → Exec Err) : Op → Exec Err
  -- /repo/src/Unefunge93Strategy.cpp:65-67
  | .skip => pure .skip
  | .push n => iPush n
  | .west => iGo (Vec.ofList [-1])
  | .east => iGo (Vec.ofList [1])
  | .stop => iStop
  | .trampoline => iTrampoline
  | .ifEW => iIf (Vec.ofList [1]) (Vec.ofList [-1])
  | .goAway => iGoAway
  | .not => iNot
  | .rem => iBin remOp
  | .mul => iBin mulOp
  | .add => iBin addOp
  | .sub => iBin subOp
  | .div => iBin divOp
  | .gt => iBin gtOp
  | .pop => iPop
  | .dup => iDup
  | .swap => iSwap
  | .numIn => iNumIn
  | .charIn => iCharIn
  | .string => iString 34
  | .numOut => iNumOut
  | .charOut => iCharOut
  | .get => iGet
  | .put => iPut
  | .north => iGo (Vec.ofList [0, -1])
  | .south => iGo (Vec.ofList [0, 1])
  | .ifNS => iIf (Vec.ofList [0, 1]) (Vec.ofList [0, -1])
  | .left => iLeft
  | .right => iRight
  | .compare => iCompare
  | .high => iHigh
  | .low => iLow
  | .ifHL => iIf (Vec.ofList [0, 0, 1]) (Vec.ofList [0, 0, -1])
  | .sysInfo => iSysInfo
  -- /repo/src/Unefunge98Strategy.cpp:77-79
  | .noop => pure .none
  | .jumpOver => iJumpOver
  | .jumpForward => iJumpForward
  | .reflect => iReflect
  | .absolute => iAbsolute
  | .iterate => iIterate exec
  | .quit => iQuit
  | .thread => iThread
  | .clear => iClear
  | .under => iUnder
  | .beginBlock => iBegin
  | .endBlock => iEnd
  | .fileIn => iFileIn
  | .fileOut => iFileOut
  | .execute => iExecute
  | .fetch => iFetch
  | .store => iStore
  | .load => iLoad
  | .unload => iUnload
  -- /repo/src/FishStrategy.cpp:96-98
  | .fSkip => pure .skip
  | .fPush n => fiPush n
  -- /repo/src/FishStrategy.cpp:106-124
  | .fRight => iGo (Vec.ofList [1, 0])
  | .fLeft => iGo (Vec.ofList [-1, 0])
  | .fDown => iGo (Vec.ofList [0, 1])
  | .fUp => iGo (Vec.ofList [0, -1])
  | .fMirror1 => fiMirror1
  | .fMirror2 => fiMirror2
  | .fMirrorVert => fiMirrorVert
  | .fMirrorHori => fiMirrorHori
  | .fMirrorAll => fiMirrorAll
  -- /repo/src/FishStrategy.cpp:166-182
  | .fRandom => iGoAway
  | .fTrampoline => iTrampoline
  | .fConditional => fiConditional
  | .fJump => fiJump
  | .fAdd => fiBin fun fl => fl.add
  | .fSub => fiBin fun fl => fl.sub
  | .fMult => fiBin fun fl => fl.mul
  | .fDiv => fiDiv
  | .fModu => fiModu
  -- /repo/src/FishStrategy.cpp:245-267
  | .fEqual => fiBin fun fl y x => fl.ofInt (if fl.eq y x then 1 else 0)
  | .fGreater => fiBin fun fl y x => fl.ofInt (if fl.lt x y then 1 else 0)
  | .fLess => fiBin fun fl y x => fl.ofInt (if fl.lt y x then 1 else 0)
  -- /repo/src/FishStrategy.cpp:269-272
  | .fString q => iString q
  | .fDuplicate => fiDuplicate
  | .fRemove => fiRemove
  | .fSwap2 => fiSwap2
  | .fSwap3 => fiSwap3
  | .fLength => fiLength
  | .fShiftLeft => fiShiftLeft
  | .fShiftRight => fiShiftRight
  | .fReverse => fiReverse
  | .fCreateStack => fiCreateStack
  | .fRemoveStack => fiRemoveStack
  | .fOutChar => fiOutChar
  | .fOutInt => fiOutInt
  | .fIn => fiIn
  | .fRegister => fiRegister
  | .fGet => fiGet
  | .fPut => fiPut
  -- /repo/src/FishStrategy.cpp:431-434
  | .fEnd => iStop
  | .sFisherman => siFisherman
  | .sCall => siCall
  | .sReturn => siReturn
  | .sDive => siDive
  | .sRise => siRise
  | .sIncrement => siSelect StackStack.increment
  | .sDecrement => siSelect StackStack.decrement
  | .sFile => siFile
  | .sSleep => siSleep
  | .sHour => siTime
  | .sMinute => siTime
  | .sSecond => siTime
  | .fing f c => fpRun f c
  -- /repo/src/fingerprint/FingerprintFING.cpp:87-90
  | .fingReflect => iReflect

/-- `FungeStateNormal::execute` (/repo/src/FungeStateNormal.cpp:46-58). -/
def execNormal (exec : Int → Exec Err) (i : Int) : Exec Err := fun s =>
  match s.cur.getSem i with
  | none => .ok (.unimp, s)
  | some sem =>
    if hasMode s.g.cfg.mode modeDive && !sem.movement then .ok (.skip, s)
    else runOp exec sem.op s

/-- `isspace(x)` of an `inst_t` (/repo/src/FungeStateString.cpp:68): the argument becomes an `int`, and must then be an `unsigned char` or EOF. -/
def isSpace (x : Int) : Exec Bool :=
  if -1 ≤ toInt x ∧ toInt x ≤ 255 then pure (isSpaceByte (toInt x)) else fault .ctype

/-- The switch of `FungeStateString::escape` (/repo/src/FungeStateString.cpp:21-54). -/
def escapeCode (i : Int) : Int :=
  if i = 48 then 0 else if i = 97 then 7 else if i = 98 then 8 else if i = 116 then 9 else if i = 110 then 10
  else if i = 118 then 11 else if i = 102 then 12 else if i = 114 then 13 else if i = 101 then 27 else i

/-- The `STRING_SGML` case (/repo/src/FungeStateString.cpp:67-74). -/
def execSGML (i : Int) : Exec Err := do
  let a ← isSpace i
  let s ← get
  let skip ← (if a then isSpace s.cur.strPrev else pure false : Exec Bool)
  if skip then pure .skip
  else do
    runnerPush i
    modCur fun r => { r with strPrev := i }
    pure .none

/-- The `STRING_C` case (/repo/src/FungeStateString.cpp:75-82). -/
def execC (i : Int) : Exec Err := do
  if i = 92 then do
    ipNext
    let c ← ipGet
    runnerPush (escapeCode c)
  else runnerPush i
  pure .none

/-- `FungeStateString::execute` (/repo/src/FungeStateString.cpp:58-88). -/
def execString (i : Int) : Exec Err := do
  let s ← get
  if i = s.cur.strEnd then do
    modCur fun r => { r with strPrev := 0, inString := false }
    pure .none
  else
    match s.g.cfg.strings with
    | .multispace => do
      runnerPush i
      pure .none
    | .sgml => execSGML i
    | .c => execC i

/-- `FungeRunner::execute` (/repo/src/FungeRunner.cpp:162-164). `k` makes it recursive; the first argument bounds the depth. -/
def execute : Nat → Int → Exec Err
  | 0, _ => fault .fuel
  | n + 1, i => fun s => if s.cur.inString then execString i s else execNormal (execute n) i s

/-- `errorHandler(err)` of the strategies, or the default (/repo/src/FungeRunner.cpp:149-153, /repo/src/Unefunge93Strategy.cpp:271-289,
/repo/src/FishStrategy.cpp:503-523); the error code afterwards. -/
def handle (e : Err) : Exec Err := do
  let s ← get
  match s.cur.handler with
  | .funge => do
    onIP IP.reflect
    ipNext
    pure e
  | .fish => do
    let dive ← isMode modeDive
    if e = .unimp ∧ dive then pure .none
    else do
      killAll 1
      pure e
  | .null => do
    ipNext
    pure e

/-- The switch of `FungeRunner::tick` (/repo/src/FungeRunner.cpp:138-155). -/
def afterExec (e : Err) : Exec Err :=
  match e with
  | .none | .skip | .block => pure e
  | _ => handle e

/-- `FungeRunner::tick` (/repo/src/FungeRunner.cpp:132-160). Simplification: the debugger is off (`FUNGE_MODE_DEBUG` is not set), its calls do
nothing. The first argument bounds the number of iterations. -/
def tickLoop : Nat → Exec Unit
  | 0 => fault .fuel
  | n + 1 => do
    let i ← ipGet
    let fuel ← getFuel
    let e ← execute fuel i
    let e ← afterExec e
    if e = .none ∨ e = .skip then ipNext else pure ()
    if e = .skip then tickLoop n else pure ()

/-- `FungeRunner::tick` (/repo/src/FungeRunner.cpp:132-160). -/
def tick : Exec Unit := do
  let n ← getFuel
  tickLoop n

/-- A universe between two turns of its scheduler: the runners in order (/repo/src/include/FungeUniverse.h). -/
structure Univ where
  runners : List Runner
  g : Glob

/-- One iteration of the inner loop of `FungeUniverse::operator()` with interpreted threads (/repo/src/FungeUniverse.cpp:124-145). Simplification:
a runner that transfers itself to another universe (MVRS) is not modelled. -/
def Univ.turn (u : Univ) : Except Fault Univ :=
  match u.runners with
  | [] => .ok u
  | r :: rest =>
    match (if r.ip.stopped then .ok ((), ⟨r, rest, u.g⟩) else tick ⟨r, rest, u.g⟩) with
    | .error e => .error e
    | .ok (_, s) => .ok ⟨if s.cur.ip.stopped then s.rest else s.rest ++ [s.cur], s.g⟩

/-- `n` iterations of that loop (/repo/src/FungeUniverse.cpp:124-145). -/
def Univ.turns : Nat → Univ → Except Fault Univ
  | 0, u => .ok u
  | n + 1, u =>
    match u.turn with
    | .error e => .error e
    | .ok u' => Univ.turns n u'

end Funge
