import Verif.Model.Semantics
/-
The instructions of the Funge-93 and Funge-98 strategies. Messages on `std::cerr` are not modelled.
-/
namespace Funge
open Exec

/-- `g.fuel`, the bound on loops that need not end (no counterpart in the source). -/
def getFuel : Exec Nat := fun s => .ok (s.g.fuel, s)

/-- The configuration of the universe (`FungeUniverse::allow…`, /repo/src/FungeUniverse.cpp:264-282). -/
def getCfg : Exec Cfg := fun s => .ok (s.g.cfg, s)

/-- `x.c_str()` handed to the system: the string up to its first NUL (/repo/src/Unefunge98Strategy.cpp:247, 271, 288). -/
def cstr (l : List Int) : List Int := l.takeWhile (· ≠ 0)

/-! ### Funge-93 -/

/-- `Unefunge93Strategy::instructionPush` and `Unefunge98Strategy::instructionPush`
(/repo/src/Unefunge93Strategy.cpp:69-72, /repo/src/Unefunge98Strategy.cpp:67-70). -/
def iPush (n : Int) : Exec Err := do
  pushTop n
  pure .none

/-- An instruction that sets the delta: `instructionWest`, `instructionEast`, `instructionNorth`, `instructionSouth`
(/repo/src/Unefunge93Strategy.cpp:74-82, /repo/src/Befunge93Strategy.cpp:21-29). -/
def iGo (v : Vec) : Exec Err := do
  setDelta v
  pure .none

/-- `instructionStop` (/repo/src/Unefunge93Strategy.cpp:84-87). -/
def iStop : Exec Err := do
  onIP IP.stop
  pure .none

/-- `instructionTrampoline` (/repo/src/Unefunge93Strategy.cpp:89-92). -/
def iTrampoline : Exec Err := do
  ipNext
  pure .none

/-- The three `instructionIf` (/repo/src/Unefunge93Strategy.cpp:94-101, /repo/src/Befunge93Strategy.cpp:31-38,
/repo/src/Trefunge98Strategy.cpp:40-47): the direction for zero, and the one for any other value. -/
def iIf (zero other : Vec) : Exec Err := do
  let x ← popTop
  if x = 0 then setDelta zero else setDelta other
  pure .none

/-- `instructionGoAway` (/repo/src/Unefunge93Strategy.cpp:103-114); `r` lies in `0 … 2*dims-1`, so `r&1` is `r%2` and `r>>1` is `r/2`. -/
def iGoAway : Exec Err := do
  let d ← getDims
  let r ← random 0 (toI64 (2 * (d : Int) - 1))
  if r % 2 = 1 then setDelta (Vec.empty.set (r / 2).toNat (-1)) else setDelta (Vec.empty.set (r / 2).toNat 1)
  pure .none

/-- `instructionNot` (/repo/src/Unefunge93Strategy.cpp:116-119). -/
def iNot : Exec Err := do
  let x ← popTop
  pushTop (if x = 0 then 1 else 0)
  pure .none

/-- A binary instruction: pops `a`, then `b`, pushes `f b a`, which may fault. -/
def iBin (f : Int → Int → Except Fault Int) : Exec Err := do
  let a ← popTop
  let b ← popTop
  let r ← lift (f b a)
  pushTop r
  pure .none

/-- `b % a` with 0 for `a = 0` (/repo/src/Unefunge93Strategy.cpp:121-130); `INT64_MIN % -1` is undefined. -/
def remOp (b a : Int) : Except Fault Int :=
  if a = 0 then .ok 0 else if b = i64Min ∧ a = -1 then .error .overflow else .ok (b.tmod a)

/-- `b * a` (/repo/src/Unefunge93Strategy.cpp:132-137). -/
def mulOp (b a : Int) : Except Fault Int := ck (b * a)
/-- `b + a` (/repo/src/Unefunge93Strategy.cpp:139-144). -/
def addOp (b a : Int) : Except Fault Int := ck (b + a)
/-- `b - a` (/repo/src/Unefunge93Strategy.cpp:146-151). -/
def subOp (b a : Int) : Except Fault Int := ck (b - a)
/-- `b / a` with 0 for `a = 0` (/repo/src/Unefunge93Strategy.cpp:153-162); `INT64_MIN / -1` is undefined. -/
def divOp (b a : Int) : Except Fault Int := if a = 0 then .ok 0 else ck (b.tdiv a)
/-- `b > a` (/repo/src/Unefunge93Strategy.cpp:164-173). -/
def gtOp (b a : Int) : Except Fault Int := .ok (if b > a then 1 else 0)

/-- `instructionPop` (/repo/src/Unefunge93Strategy.cpp:175-178). -/
def iPop : Exec Err := do
  let _ ← popTop
  pure .none

/-- `instructionDuplicate` (/repo/src/Unefunge93Strategy.cpp:180-185). -/
def iDup : Exec Err := do
  let x ← popTop
  pushTop x
  pushTop x
  pure .none

/-- `instructionSwap` (/repo/src/Unefunge93Strategy.cpp:187-193). -/
def iSwap : Exec Err := do
  let a ← popTop
  let b ← popTop
  pushTop a
  pushTop b
  pure .none

/-- The second loop of `instructionNumIn` (/repo/src/Unefunge93Strategy.cpp:208-214) with `c :: rest` still to be read; the number and the rest
with `c` put back, `none` for end of file. -/
def numDigits (num : Int) : List Int → Except Fault (Option (Int × List Int))
  | [] => .ok none
  | c :: rest =>
    if 48 ≤ c ∧ c ≤ 57 then
      match ck (num * 10 + (c - 48)) with
      | .error e => .error e
      | .ok n => numDigits n rest
    else .ok (some (num, c :: rest))

/-- `instructionNumIn` (/repo/src/Unefunge93Strategy.cpp:195-218). The first loop drops everything before a digit. -/
def iNumIn : Exec Err := do
  let s ← get
  let r ← lift (numDigits 0 (s.g.inp.dropWhile fun c => c < 48 ∨ c > 57))
  match r with
  | none =>
    modG fun g => { g with inp := [] }
    pure .unspec
  | some (n, rest) =>
    modG fun g => { g with inp := rest }
    pushTop n
    pure .none

/-- `instructionCharIn` (/repo/src/Unefunge93Strategy.cpp:220-234). -/
def iCharIn : Exec Err := do
  let q ← getChar
  match q with
  | none => pure .unspec
  | some q =>
    if q = 13 then
      let q ← getChar
      match q with
      | none => pure .unspec
      | some q =>
        pushTop q
        pure .none
    else
      pushTop q
      pure .none

/-- `runner.setState(runner.getStringState(q))` (/repo/src/FungeRunner.cpp:174-185). -/
def enterString (q : Int) : Exec Unit := modCur fun r => { r with inString := true, strEnd := q }

/-- `instructionString` (/repo/src/Unefunge93Strategy.cpp:236-239). -/
def iString (q : Int) : Exec Err := do
  enterString q
  pure .none

/-- `instructionCharOut` (/repo/src/Unefunge93Strategy.cpp:241-249). -/
def iCharOut : Exec Err := do
  let x ← popTop
  emit (.out [if x = 10 then 10 else toChar x])
  pure .none

/-- `instructionNumOut` (/repo/src/Unefunge93Strategy.cpp:251-255). -/
def iNumOut : Exec Err := do
  let x ← popTop
  emit (.out (decimal (toInt x) ++ [32]))
  pure .none

/-- `instructionGet` (/repo/src/Unefunge93Strategy.cpp:257-262). -/
def iGet : Exec Err := do
  let st ← ipStorage
  let v ← popVector
  let x ← fieldGet (v.add st)
  pushTop x
  pure .none

/-- `instructionPut` (/repo/src/Unefunge93Strategy.cpp:264-269). -/
def iPut : Exec Err := do
  let st ← ipStorage
  let v ← popVector
  let x ← popTop
  fieldPut (v.add st) x
  pure .none

/-! ### Befunge-98 and Trefunge-98 -/

/-- `if(runner.isMode(FUNGE_MODE_SWITCH)) ip.put(c);` (e.g. /repo/src/Befunge98Strategy.cpp:23-25). -/
def switchPut (c : Int) : Exec Unit := do
  let b ← isMode modeSwitch
  if b then ipPut c else pure ()

/-- `Befunge98Strategy::instructionLeft` (/repo/src/Befunge98Strategy.cpp:21-27). -/
def iLeft : Exec Err := do
  onIP IP.left
  switchPut 93
  pure .none

/-- `Befunge98Strategy::instructionRight` (/repo/src/Befunge98Strategy.cpp:29-35). -/
def iRight : Exec Err := do
  onIP IP.right
  switchPut 91
  pure .none

/-- `Befunge98Strategy::instructionCompare` (/repo/src/Befunge98Strategy.cpp:37-46). -/
def iCompare : Exec Err := do
  let b ← popTop
  let a ← popTop
  if a < b then onIP IP.left else if a > b then onIP IP.right else pure ()
  pure .none

/-- `Trefunge98Strategy::instructionHigh` (/repo/src/Trefunge98Strategy.cpp:22-29). -/
def iHigh : Exec Err := do
  let c ← getCfg
  if c.inverthl then setDelta (Vec.ofList [0, 0, -1]) else setDelta (Vec.ofList [0, 0, 1])
  pure .none

/-- `Trefunge98Strategy::instructionLow` (/repo/src/Trefunge98Strategy.cpp:31-38). -/
def iLow : Exec Err := do
  let c ← getCfg
  if c.inverthl then setDelta (Vec.ofList [0, 0, 1]) else setDelta (Vec.ofList [0, 0, -1])
  pure .none

/-! ### Funge-98 -/

/-- `do{ ip.next(); }while(ip.get() != ';');` (/repo/src/Unefunge98Strategy.cpp:82-84). -/
def untilSemi : Nat → Exec Unit
  | 0 => fault .fuel
  | n + 1 => do
    ipNext
    let c ← ipGet
    if c = 59 then pure () else untilSemi n

/-- `instructionJumpOver` (/repo/src/Unefunge98Strategy.cpp:81-86). -/
def iJumpOver : Exec Err := do
  let n ← getFuel
  untilSemi n
  pure .skip

/-- `n` times `ip.next()` (/repo/src/Unefunge98Strategy.cpp:93-95). -/
def ipNextN : Nat → Exec Unit
  | 0 => pure ()
  | n + 1 => do
    ipNext
    ipNextN n

/-- `instructionJumpForward` (/repo/src/Unefunge98Strategy.cpp:88-100); `std::abs(INT_MIN)` is undefined. -/
def iJumpForward : Exec Err := do
  let x ← popTop
  let j := toInt x
  if j = -2147483648 then fault .overflow
  else do
    if j < 0 then onIP IP.reflect else pure ()
    ipNextN j.natAbs
    if j < 0 then onIP IP.reflect else pure ()
    pure .none

/-- `instructionReflect` (/repo/src/Unefunge98Strategy.cpp:102-105). -/
def iReflect : Exec Err := do
  onIP IP.reflect
  pure .none

/-- `instructionAbsolute` (/repo/src/Unefunge98Strategy.cpp:107-111). -/
def iAbsolute : Exec Err := do
  let v ← popVector
  setDelta v
  pure .none

/-- `do{ ip.next(); c = ip.get(); }while(c != ';');` with `char c` (/repo/src/Unefunge98Strategy.cpp:119-122). -/
def untilSemiChar : Nat → Exec Unit
  | 0 => fault .fuel
  | n + 1 => do
    ipNext
    let c ← ipGet
    if toChar c = 59 then pure () else untilSemiChar n

/-- The search loop of `instructionIterate` (/repo/src/Unefunge98Strategy.cpp:117-129): the character found. -/
def iterSearch : Nat → Int → Exec Int
  | 0, _ => fault .fuel
  | n + 1, c =>
    if c = 59 then do
      untilSemiChar n
      ipNext
      let c ← ipGet
      iterSearch n (toChar c)
    else if c = 32 then do
      ipNext
      let c ← ipGet
      iterSearch n (toChar c)
    else pure c

/-- `for(int i = 0; i < k; i++) runner.execute(c);` (/repo/src/Unefunge98Strategy.cpp:132-134): results are ignored. -/
def iterRun (exec : Int → Exec Err) (c : Int) : Nat → Exec Unit
  | 0 => pure ()
  | n + 1 => do
    let _ ← exec c
    iterRun exec c n

/-- `instructionIterate` (/repo/src/Unefunge98Strategy.cpp:113-139). -/
def iIterate (exec : Int → Exec Err) : Exec Err := do
  let v ← ipPos
  ipNext
  let c ← ipGet
  let n ← getFuel
  let c ← iterSearch n (toChar c)
  onIP (·.setPos v)
  let x ← popTop
  let k := toInt x
  iterRun exec c k.toNat
  if k = 0 then ipNext else pure ()
  pure .none

/-- `instructionQuit` (/repo/src/Unefunge98Strategy.cpp:141-146). -/
def iQuit : Exec Err := do
  let r ← popTop
  killAll (toInt r)
  pure .none

/-- `FungeUniverse::cloneRunner` and `addRunner` (/repo/src/FungeUniverse.cpp:72-74, 95-104). -/
def cloneCur : Exec Unit := fun s =>
  match s.cur.clone s.g s.g.nextId with
  | .error e => .error e
  | .ok r => .ok ((), { s with rest := s.rest ++ [r], g := { s.g with nextId := s.g.nextId + 1 } })

/-- `instructionThread` (/repo/src/Unefunge98Strategy.cpp:148-156). -/
def iThread : Exec Err := do
  let c ← getCfg
  if c.concurrent then
    cloneCur
    pure .none
  else pure .notavail

/-- `instructionClear` (/repo/src/Unefunge98Strategy.cpp:158-161). -/
def iClear : Exec Err := do
  clearTop
  pure .none

/-- `stack.size()` (/repo/src/StackStack.cpp:80-82). -/
def numStacks : Exec Nat := fun s => .ok (s.cur.ss.size, s)

/-- `n` times: pop from one stack, push onto another (/repo/src/Unefunge98Strategy.cpp:168-171, 173-176). -/
def moveN (pop : Exec Int) (push : Int → Exec Unit) : Nat → Exec Unit
  | 0 => pure ()
  | n + 1 => do
    let x ← pop
    push x
    moveN pop push n

/-- `instructionUnder` (/repo/src/Unefunge98Strategy.cpp:163-182); `-INT64_MIN` is undefined. -/
def iUnder : Exec Err := do
  let sz ← numStacks
  if sz > 1 then
    let n ← popTop
    if n > 0 then moveN popSecond pushTop n.toNat
    else if n = i64Min then fault .overflow
    else moveN popTop pushSecond (-n).toNat
    pure .none
  else pure .unspec

/-- `instructionBegin` (/repo/src/Unefunge98Strategy.cpp:184-208). Simplification: the array `trans[n]` on the machine stack always fits. -/
def iBegin : Exec Err := do
  let n ← popTop
  onStacks fun ss => .ok ss.push
  if n > 0 then do
    let trans ← popN popSecond n.toNat
    pushAll pushTop trans.reverse
  else if n = i64Min then fault .overflow
  else pushAll pushSecond (List.replicate (-n).toNat 0)
  let st ← ipStorage
  pushVectorOn pushSecond st
  onIP fun ip => ip.setStorage (ip.pos.add ip.delta)
  switchPut 125
  pure .none

/-- `instructionEnd` (/repo/src/Unefunge98Strategy.cpp:210-238). Simplification: the array `trans[n]` on the machine stack always fits. -/
def iEnd : Exec Err := do
  let sz ← numStacks
  if sz > 1 then
    let n ← popTop
    let v ← popVectorOn popSecond
    onIP (·.setStorage v)
    if n > 0 then do
      let trans ← popN popTop n.toNat
      pushAll pushSecond trans.reverse
    else if n = i64Min then fault .overflow
    else do
      let _ ← popN popSecond (-n).toNat
      pure ()
    onStacks StackStack.pop
    switchPut 123
    pure .none
  else
    switchPut 123
    pure .unspec

/-- `instructionFileIn` (/repo/src/Unefunge98Strategy.cpp:240-260). The environment answers whether the file opens and with which bytes;
`flags & 1` is `flags % 2`. -/
def iFileIn : Exec Err := do
  let c ← getCfg
  if c.filesystem then
    let path ← popString
    let flags ← popTop
    let va ← popVector
    let st ← ipStorage
    let va := va.add st
    emit (.openRead (cstr path))
    let file ← askFile
    match file with
    | some bytes =>
      let s ← get
      let r := s.g.field.parse va (flags % 2 = 1) bytes
      modG fun g => { g with field := r.2 }
      pushVector r.1
      pushVector va
      pure .none
    | none => pure .unspec
  else pure .notavail

/-- `instructionFileOut` (/repo/src/Unefunge98Strategy.cpp:262-282). -/
def iFileOut : Exec Err := do
  let c ← getCfg
  if c.filesystem then
    let path ← popString
    let flags ← popTop
    let va ← popVector
    let st ← ipStorage
    let va := va.add st
    let vb ← popVector
    emit (.openWrite (cstr path))
    let file ← askFile
    match file with
    | some _ =>
      let s ← get
      match s.g.field.dump s.g.fuel va vb (flags % 2 = 0) with
      | none => fault .fuel
      | some bytes =>
        emit (.writeFile (cstr path) bytes)
        pure .none
    | none => pure .unspec
  else pure .notavail

/-- `instructionExecute` (/repo/src/Unefunge98Strategy.cpp:284-295). -/
def iExecute : Exec Err := do
  let c ← getCfg
  if c.execute then
    let sys ← popString
    emit (.system (cstr sys))
    let code ← ask
    pushTop (toInt code)
    pure .none
  else pure .notavail

/-- `instructionFetch` (/repo/src/Unefunge98Strategy.cpp:297-301). -/
def iFetch : Exec Err := do
  ipNext
  let c ← ipGet
  pushTop (toInt c)
  pure .none

/-- `instructionStore` (/repo/src/Unefunge98Strategy.cpp:303-307). -/
def iStore : Exec Err := do
  ipNext
  let x ← popTop
  ipPut (toChar (toInt x))
  pure .none

/-- `fingerprint = (fingerprint << 8) + stack.top().pop()` on `uint64_t`, `count` times
(/repo/src/Unefunge98Strategy.cpp:313-316, 338-341). -/
def popFingerprint : Nat → Int → Exec Int
  | 0, acc => pure acc
  | n + 1, acc => do
    let x ← popTop
    popFingerprint n ((acc * 256 + x) % 18446744073709551616)

/-- `instructionLoad` (/repo/src/Unefunge98Strategy.cpp:309-332). -/
def iLoad : Exec Err := do
  let c ← getCfg
  let ret ← (if c.fingerprint then do
      let count ← popTop
      let fp ← popFingerprint count.toNat 0
      let s ← get
      match s.cur.loadFp fp.toNat with
      | some r =>
        modCur fun _ => r
        pushTop (toI64 fp)
        pushTop 1
        pure Err.none
      | none => pure Err.unspec
    else pure Err.notavail : Exec Err)
  switchPut 41
  pure ret

/-- `instructionUnload` (/repo/src/Unefunge98Strategy.cpp:334-354). -/
def iUnload : Exec Err := do
  let c ← getCfg
  let ret ← (if c.fingerprint then do
      let count ← popTop
      let fp ← popFingerprint count.toNat 0
      let s ← get
      match s.cur.unloadFp fp.toNat with
      | some r =>
        modCur fun _ => r
        pure Err.none
      | none => pure Err.unspec
    else pure Err.notavail : Exec Err)
  switchPut 40
  pure ret

/-- Pushing the strings of a list, the last one first (/repo/src/Unefunge98Strategy.cpp:365-367, 374-376); the number of pushes. -/
def pushStrings : List (List Int) → Exec Nat
  | [] => pure 0
  | x :: r => do
    let a ← pushStrings r
    let b ← pushString x
    pure (a + b)

/-- `stack.at(i).size()` (/repo/src/Unefunge98Strategy.cpp:380). -/
def sizeAt (i : Nat) : Exec Nat := onStack i fun st => (st.size, st)

/-- The sizes of the stacks below the top one, bottommost first (/repo/src/Unefunge98Strategy.cpp:379-381): `n` counts down from
`stack.size()-1`. -/
def pushSizes : Nat → Exec Unit
  | 0 => pure ()
  | n + 1 => do
    let z ← sizeAt (n + 1)
    pushTop z
    pushSizes n

/-- The flags cell of `y` (/repo/src/Unefunge98Strategy.cpp:422-431, /repo/src/include/funge_types.h:21-27). -/
def envFlags (c : Cfg) : Int :=
  16 + (if c.concurrent then 1 else 0) + (if c.execute then 8 else 0) + (if c.filesystem then 6 else 0)

/-- `n` times `stack.top().pop()` (/repo/src/Unefunge98Strategy.cpp:435-437). -/
def dropN : Nat → Exec Unit
  | 0 => pure ()
  | n + 1 => do
    let _ ← popTop
    dropN n

/-- `pushSysInfo` (/repo/src/Unefunge98Strategy.cpp:356-440). The time and the date are what the environment answers. -/
def pushSysInfo (num : Int) : Exec Unit := do
  let d ← getDims
  let tsize ← sizeTop
  let c ← getCfg
  pushTop 0
  pushTop 0
  let p1 ← pushStrings c.env
  pushTop 0
  pushTop 0
  let p2 ← pushStrings c.args
  let n ← numStacks
  pushSizes (n - 1)
  pushTop tsize
  pushTop n
  let time ← ask
  pushTop time
  let date ← ask
  pushTop date
  let s ← get
  pushAll pushTop ((List.range d).map fun i => s.g.field.max i - s.g.field.min i)
  pushAll pushTop ((List.range d).map fun i => s.g.field.min i)
  pushVector s.cur.ip.storage
  pushVector s.cur.ip.delta
  pushVector s.cur.ip.pos
  pushTop 0
  pushTop s.cur.id
  pushTop d
  pushTop 47
  pushTop 1
  pushTop 1
  pushTop 0x464e2b2b
  pushTop 8
  pushTop (envFlags c)
  let pushes := 2 + p1 + 2 + p2 + (n - 1) + 1 + 1 + 2 + d + d + d + d + d + 9
  if num > 0 then
    let val ← getTop num.toNat
    dropN pushes
    pushTop val
  else pure ()

/-- `instructionSysInfo` (/repo/src/Unefunge98Strategy.cpp:72-75). -/
def iSysInfo : Exec Err := do
  let n ← popTop
  pushSysInfo (toInt n)
  pure .none

end Funge
