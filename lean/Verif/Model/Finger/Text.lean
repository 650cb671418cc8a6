import Verif.Model.Finger.Basic
/-
The fingerprints BASE, STRN, IIPC, PERL, DIRF, DBUG, MVRS (only `N`).
-/
namespace Funge
open Exec

/-! ### BASE -/

/-- `digit_map` (/repo/src/fingerprint/FingerprintBASE.cpp:13-18): digits and capitals without I, L, O, U. -/
def digitMap : List Int :=
  [48, 49, 50, 51, 52, 53, 54, 55, 56, 57,
   65, 66, 67, 68, 69, 70, 71, 72, 74, 75,
   77, 78, 80, 81, 82, 83, 84, 86, 87, 88,
   89, 90]

/-- `base36` (/repo/src/fingerprint/FingerprintBASE.cpp:20-25). -/
def base36 : List Int := (List.range 10).map (fun i : Nat => (48 + i : Int)) ++ (List.range 26).map (fun i : Nat => (65 + i : Int))

/-- `base58` (/repo/src/fingerprint/FingerprintBASE.cpp:28-35): no `0`, `I`, `O`, `l`. -/
def base58 : List Int :=
  (List.range 9).map (fun i : Nat => (49 + i : Int)) ++
  ((List.range 26).map (fun i : Nat => (65 + i : Int))).filter (fun c => c ≠ 73 ∧ c ≠ 79) ++
  ((List.range 26).map (fun i : Nat => (97 + i : Int))).filter (fun c => c ≠ 108)

/-- `base64` (/repo/src/fingerprint/FingerprintBASE.cpp:37-42). -/
def base64 : List Int :=
  (List.range 26).map (fun i : Nat => (65 + i : Int)) ++ (List.range 26).map (fun i : Nat => (97 + i : Int)) ++
  (List.range 10).map (fun i : Nat => (48 + i : Int)) ++ [43, 47]

/-- `base85` (/repo/src/fingerprint/FingerprintBASE.cpp:45-53); `{` (123) occurs twice. -/
def base85 : List Int :=
  (List.range 10).map (fun i : Nat => (48 + i : Int)) ++ (List.range 26).map (fun i : Nat => (65 + i : Int)) ++
  (List.range 26).map (fun i : Nat => (97 + i : Int)) ++
  [33, 35, 36, 37, 38, 40, 41, 42, 43, 45, 59, 60, 61, 62, 63, 64, 94, 95, 96, 123, 124, 123, 126]

/-- `base_map.find(base)` (/repo/src/fingerprint/FingerprintBASE.cpp:59-62, 117). -/
def baseMap (base : Nat) : Option (List Int) :=
  if base = 36 then some base36 else if base = 58 then some base58 else if base = 64 then some base64
  else if base = 85 then some base85 else none

/-- Reading `table[digit]` (/repo/src/fingerprint/FingerprintBASE.cpp:115, 119): undefined outside the table. -/
def tableAt (t : List Int) (digit : Int) : Except Fault (List Int) :=
  if digit < 0 then .error .outOfRange
  else match t[digit.toNat]? with
    | some c => .ok [c]
    | none => .error .outOfRange

/-- What `printBase` writes for one digit (/repo/src/fingerprint/FingerprintBASE.cpp:114-126). -/
def digitText (base : Nat) (low : Bool) (digit : Int) : Except Fault (List Int) :=
  if base ≤ 32 then tableAt digitMap digit
  else match baseMap base with
    | some t => tableAt t digit
    | none => .ok (decimal digit ++ if low then [] else [44])

/-- `FingerprintBASE::printBase` (/repo/src/fingerprint/FingerprintBASE.cpp:108-127): what it writes. The recursion ends because `base > 1`; the fuel
given by `printNum` is enough (`printBase_fuel`). -/
def printBase (base : Nat) : Nat → Int → Bool → Except Fault (List Int)
  | 0, _, _ => .error .fuel
  | n + 1, num, low =>
    let digit := num.tmod base
    let next := num.tdiv base
    match (if next > 0 then printBase base n next false else .ok []) with
    | .error e => .error e
    | .ok pre =>
      match digitText base low digit with
      | .error e => .error e
      | .ok d => .ok (pre ++ d)

/-- Conversion to `unsigned int` (the parameter `base`, /repo/src/fingerprint/FingerprintBASE.cpp:97, 129). -/
def toU32 (x : Int) : Nat := (x % 4294967296).toNat

/-- `FingerprintBASE::printNum` (/repo/src/fingerprint/FingerprintBASE.cpp:97-106). Output written before a fault is lost in the model. -/
def printNum (num : Int) (base : Nat) : Exec Unit := do
  let out ← lift (if base > 1 then printBase base (num.natAbs + 1) num true else .ok (List.replicate num.toNat 48))
  emit (.out (out ++ [32]))

/-- `B H O` (/repo/src/fingerprint/FingerprintBASE.cpp:68-75, 86-89). -/
def basePrint (base : Nat) : Exec Err := do
  let a ← popTop
  printNum a base
  pure .none

/-- `N` (/repo/src/fingerprint/FingerprintBASE.cpp:81-85). -/
def basePrintN : Exec Err := do
  let b ← popTop
  let a ← popTop
  printNum a (toU32 b)
  pure .none

/-- `isspace` in the "C" locale for a character in its range. -/
def isSpaceByte (c : Int) : Bool := c = 32 ∨ (9 ≤ c ∧ c ≤ 13)

/-- `toupper` (/repo/src/fingerprint/FingerprintBASE.cpp:145). -/
def upperByte (c : Int) : Int := if 97 ≤ c ∧ c ≤ 122 then c - 32 else c

/-- The search loop of `readBase` from index `i` (/repo/src/fingerprint/FingerprintBASE.cpp:147-153): `n` indices are left to look at. Reading past the
table is undefined. -/
def findDigit (c : Int) : Nat → Nat → Except Fault (Option Nat)
  | 0, _ => .ok none
  | n + 1, i =>
    match digitMap[i]? with
    | none => .error .outOfRange
    | some d => if d = c then .ok (some i) else findDigit c n (i + 1)

/-- `FingerprintBASE::readBase` (/repo/src/fingerprint/FingerprintBASE.cpp:141-159): the new value of `*num`. `digit` is taken before the string is made
upper case; `str[0]` of an empty string is NUL. -/
def readBase (base : Nat) (num : Int) : List Int → Except Fault Int
  | [] =>
    match findDigit 0 (base + 1) 0 with
    | .error e => .error e
    | .ok _ => .ok num
  | c :: rest =>
    match findDigit c (base + 1) 0 with
    | .error e => .error e
    | .ok none => .ok num
    | .ok (some i) =>
      match ck (num * base) with
      | .error e => .error e
      | .ok p => match rest with
        | [] => .ok (toI64 (p + i))
        | c' :: rest' => readBase base (toI64 (p + i)) (upperByte c' :: rest'.map upperByte)
termination_by l => l.length
decreasing_by simp

/-- `std::cin >> str` (/repo/src/fingerprint/FingerprintBASE.cpp:131): the next word of the input and what is left. -/
def readWord (inp : List Int) : List Int × List Int :=
  let l := inp.dropWhile isSpaceByte
  (l.takeWhile fun c => !isSpaceByte c, l.dropWhile fun c => !isSpaceByte c)

/-- The first call of `readBase` (/repo/src/fingerprint/FingerprintBASE.cpp:136, 145): `toupper` of a negative `char` other than `EOF` is undefined. It
is applied to the whole word; the calls that follow see the same characters, in upper case. -/
def readDigits (base : Nat) (str : List Int) : Except Fault Int :=
  if str.all (fun c => -1 ≤ toChar c) then readBase base 0 str else .error .ctype

/-- `FingerprintBASE::readNum` (/repo/src/fingerprint/FingerprintBASE.cpp:129-139). -/
def readNum (base : Nat) : Exec Int := do
  let s ← get
  let w := readWord s.g.inp
  modG fun g => { g with inp := w.2 }
  if base ≤ 1 then pure w.1.length
  else if base ≤ 32 then lift (readDigits base w.1)
  else pure 0

/-- `I` (/repo/src/fingerprint/FingerprintBASE.cpp:76-80). -/
def baseRead : Exec Err := do
  let b ← popTop
  let i ← readNum (toU32 b)
  pushTop i
  pure .none

/-- `FingerprintBASE::execute` (/repo/src/fingerprint/FingerprintBASE.cpp:65-95). -/
def baseRun : Int → Exec Err
  | 66 => basePrint 2
  | 72 => basePrint 16
  | 73 => baseRead
  | 78 => basePrintN
  | 79 => basePrint 8
  | _ => pure .unimp

/-! ### STRN -/

/-- `pushString(stack.top(), str)` as a statement. -/
def pushStr (str : List Int) : Exec Unit := do
  let _ ← pushString str
  pure ()

/-- `A` (/repo/src/fingerprint/FingerprintSTRN.cpp:19-23). -/
def strnAppend : Exec Err := do
  let upper ← popString
  let bottom ← popString
  pushStr (upper ++ bottom)
  pure .none

/-- Sign of `std::string::compare` (/repo/src/fingerprint/FingerprintSTRN.cpp:27): characters compare as `unsigned char`, a proper prefix is
smaller. -/
def strCmp : List Int → List Int → Int
  | [], [] => 0
  | [], _ :: _ => -1
  | _ :: _, [] => 1
  | a :: s, b :: t => if a % 256 < b % 256 then -1 else if a % 256 > b % 256 then 1 else strCmp s t

/-- `C` (/repo/src/fingerprint/FingerprintSTRN.cpp:24-28). Only the sign of the result is specified: the environment answers its magnitude. -/
def strnCompare : Exec Err := do
  let upper ← popString
  let bottom ← popString
  let m ← ask
  pushTop (strCmp upper bottom * (m % 2147483647 + 1))
  pure .none

/-- `D` (/repo/src/fingerprint/FingerprintSTRN.cpp:29-32). -/
def strnDisplay : Exec Err := do
  let str ← popString
  emit (.out str)
  pure .none

/-- `upper.substr(upper.find(bottom))`, `none` if it is not found (/repo/src/fingerprint/FingerprintSTRN.cpp:36-38). -/
def strFind (bottom : List Int) : List Int → Option (List Int)
  | [] => if bottom = [] then some [] else none
  | c :: t => if bottom.isPrefixOf (c :: t) then some (c :: t) else strFind bottom t

/-- `F` (/repo/src/fingerprint/FingerprintSTRN.cpp:33-42). -/
def strnFind : Exec Err := do
  let upper ← popString
  let bottom ← popString
  match strFind bottom upper with
  | some r => pushStr r
  | none => pushTop 0
  pure .none

/-- The loop of `G` (/repo/src/fingerprint/FingerprintSTRN.cpp:47-49). -/
def strnGetLoop : Nat → Vec → List Int → Exec (List Int)
  | 0, _, _ => fault .fuel
  | n + 1, va, acc => do
    let c ← fieldGet va
    if c = 0 then pure acc.reverse else strnGetLoop n (va.add (Vec.ofList [1])) (toChar c :: acc)

/-- `G` (/repo/src/fingerprint/FingerprintSTRN.cpp:43-51). -/
def strnGet : Exec Err := do
  let va ← popVector
  let st ← ipStorage
  let n ← getFuel
  let str ← strnGetLoop n (va.add st) []
  pushStr str
  pure .none

/-- `I` (/repo/src/fingerprint/FingerprintSTRN.cpp:52-56): `std::getline` takes everything up to a newline, which is dropped. -/
def strnInput : Exec Err := do
  let s ← get
  modG fun g => { g with inp := (g.inp.dropWhile (· ≠ 10)).drop 1 }
  pushStr ((s.g.inp.takeWhile (· ≠ 10)).map toChar)
  pure .none

/-- `L` (/repo/src/fingerprint/FingerprintSTRN.cpp:57-65). -/
def strnLeft : Exec Err := do
  let n ← popTop
  if n < 0 then pure .unspec
  else do
    let str ← popString
    pushStr (str.take n.toNat)
    pure .none

/-- `M` (/repo/src/fingerprint/FingerprintSTRN.cpp:66-79). -/
def strnMid : Exec Err := do
  let n ← popTop
  let s ← popTop
  if n < 0 ∨ s < 0 then pure .unspec
  else do
    let str ← popString
    if s.toNat > str.length then pure .unspec
    else do
      pushStr ((str.drop s.toNat).take n.toNat)
      pure .none

/-- `N` (/repo/src/fingerprint/FingerprintSTRN.cpp:80-84). -/
def strnLength : Exec Err := do
  let str ← popString
  pushStr str
  pushTop str.length
  pure .none

/-- The loop of `P` (/repo/src/fingerprint/FingerprintSTRN.cpp:89-93). -/
def strnPutLoop : Vec → List Int → Exec Unit
  | va, [] => fieldPut va 0
  | va, c :: t => do
    fieldPut va c
    strnPutLoop (va.add (Vec.ofList [1])) t

/-- `P` (/repo/src/fingerprint/FingerprintSTRN.cpp:85-94). -/
def strnPut : Exec Err := do
  let va ← popVector
  let st ← ipStorage
  let str ← popString
  strnPutLoop (va.add st) str
  pure .none

/-- `R` (/repo/src/fingerprint/FingerprintSTRN.cpp:95-106). -/
def strnRight : Exec Err := do
  let n ← popTop
  if n < 0 then pure .unspec
  else do
    let str ← popString
    let n := if n.toNat > str.length then str.length else n.toNat
    pushStr (str.drop (str.length - n))
    pure .none

/-- `S` (/repo/src/fingerprint/FingerprintSTRN.cpp:107-110). -/
def strnItoa : Exec Err := do
  let n ← popTop
  pushStr (decimal n)
  pure .none

/-- The value of a run of decimal digits (`strtol`). -/
def digitsVal (acc : Int) : List Int → Int
  | [] => acc
  | c :: t => if 48 ≤ c ∧ c ≤ 57 then digitsVal (acc * 10 + (c - 48)) t else acc

/-- `std::stoi` (/repo/src/fingerprint/FingerprintSTRN.cpp:113): leading white space, a sign, digits; an exception if there is no digit or the value does
not fit `int`. -/
def stoi (str : List Int) : Except Fault Int :=
  let l := str.dropWhile isSpaceByte
  let (neg, l) := match l with
    | 45 :: t => (true, t)
    | 43 :: t => (false, t)
    | l => (false, l)
  match l with
  | c :: t =>
    if 48 ≤ c ∧ c ≤ 57 then
      let v := digitsVal 0 (c :: t)
      let v := if neg then -v else v
      if -2147483648 ≤ v ∧ v ≤ 2147483647 then .ok v else .error .exception
    else .error .exception
  | [] => .error .exception

/-- `V` (/repo/src/fingerprint/FingerprintSTRN.cpp:111-114). -/
def strnAtoi : Exec Err := do
  let str ← popString
  let n ← lift (stoi (cstr str))
  pushTop n
  pure .none

/-- `FingerprintSTRN::execute` (/repo/src/fingerprint/FingerprintSTRN.cpp:16-119). -/
def strnRun : Int → Exec Err
  | 65 => strnAppend
  | 67 => strnCompare
  | 68 => strnDisplay
  | 70 => strnFind
  | 71 => strnGet
  | 73 => strnInput
  | 76 => strnLeft
  | 77 => strnMid
  | 78 => strnLength
  | 80 => strnPut
  | 82 => strnRight
  | 83 => strnItoa
  | 86 => strnAtoi
  | _ => pure .unimp

/-! ### IIPC -/

/-- `getStack().top()` of the runner with this id among `l` (/repo/src/FungeUniverse.cpp:207-214); `none` if there is none. -/
def onListTop {α : Type} (id : Int) (f : Stack → α × Stack) : List Runner → Option (Except Fault (α × List Runner))
  | [] => none
  | r :: t =>
    if (r.id : Int) = id then
      match r.ss.at' r.ss.select with
      | .error e => some (.error e)
      | .ok st => some (.ok ((f st).1, { r with ss := r.ss.setAt r.ss.select (f st).2 } :: t))
    else
      match onListTop id f t with
      | none => none
      | some (.error e) => some (.error e)
      | some (.ok (a, t')) => some (.ok (a, r :: t'))

/-- `getUniverse().getRunner(id)` and a method of its top stack (/repo/src/fingerprint/FingerprintIIPC.cpp:38-47); `none` for a null pointer.
While a runner is ticked it is still in the list, so it can find itself. -/
def onRunnerTop {α : Type} (id : Int) (f : Stack → α × Stack) : Exec (Option α) := fun s =>
  if (s.cur.id : Int) = id then
    match onTop f s with
    | .error e => .error e
    | .ok (a, s') => .ok (some a, s')
  else
    match onListTop id f s.rest with
    | none => .ok (none, s)
    | some (.error e) => .error e
    | some (.ok (a, rest)) => .ok (some a, { s with rest := rest })

/-- `A` (/repo/src/fingerprint/FingerprintIIPC.cpp:21-23): the parent of a runner that was not cloned is null, and a parent that has ended is
deleted. -/
def iipcAncestor : Exec Err := do
  let s ← get
  match s.cur.parent with
  | none => fault .nullDeref
  | some p =>
    if (s.cur :: s.rest).any (fun r => r.id = p) then do
      pushTop p
      pure .none
    else fault .dangling

/-- `D` (/repo/src/fingerprint/FingerprintIIPC.cpp:24-37). -/
def iipcDormant : Exec Err := do
  let age ← onTop fun st => (st.age, st)
  let s ← get
  if s.cur.iipcDormant then
    if age ≠ s.cur.iipcAge then do
      modCur fun r => { r with iipcDormant := false }
      pure .none
    else pure .block
  else do
    modCur fun r => { r with iipcAge := age, iipcDormant := true }
    pure .block

/-- `G` (/repo/src/fingerprint/FingerprintIIPC.cpp:38-46). -/
def iipcGet : Exec Err := do
  let id ← popTop
  let r ← onRunnerTop id Stack.pop
  match r with
  | none => pure .unspec
  | some x =>
    pushTop x
    pure .none

/-- `I` (/repo/src/fingerprint/FingerprintIIPC.cpp:47-49). -/
def iipcId : Exec Err := do
  let s ← get
  pushTop s.cur.id
  pure .none

/-- `L` (/repo/src/fingerprint/FingerprintIIPC.cpp:50-58). -/
def iipcLook : Exec Err := do
  let id ← popTop
  let r ← onRunnerTop id fun st => (st.peek, st)
  match r with
  | none => pure .unspec
  | some x =>
    pushTop x
    pure .none

/-- `P` (/repo/src/fingerprint/FingerprintIIPC.cpp:59-68). -/
def iipcPut : Exec Err := do
  let id ← popTop
  let val ← popTop
  let r ← onRunnerTop id fun st => ((), st.push val)
  match r with
  | none => pure .unspec
  | some _ => pure .none

/-- `FingerprintIIPC::execute` (/repo/src/fingerprint/FingerprintIIPC.cpp:18-73). -/
def iipcRun : Int → Exec Err
  | 65 => iipcAncestor
  | 68 => iipcDormant
  | 71 => iipcGet
  | 73 => iipcId
  | 76 => iipcLook
  | 80 => iipcPut
  | _ => pure .unimp

/-! ### PERL -/

/-- `std::quoted` (/repo/src/fingerprint/FingerprintPERL.cpp:49). -/
def quoted (l : List Int) : List Int :=
  [34] ++ l.flatMap (fun c => if c = 34 ∨ c = 92 then [92, c] else [c]) ++ [34]

/-- `FingerprintPERL::perl` (/repo/src/fingerprint/FingerprintPERL.cpp:46-52): `perl -e "exit(eval{…})"`. -/
def perl (code : List Int) : Exec Int := do
  let cmd := [101, 120, 105, 116, 40, 101, 118, 97, 108, 123] ++ code ++ [125, 41]
  emit (.system (cstr ([112, 101, 114, 108, 32, 45, 101, 32] ++ quoted cmd)))
  let r ← ask
  pure (toInt r / 256)

/-- `E` (/repo/src/fingerprint/FingerprintPERL.cpp:21-28). -/
def perlEval : Exec Err := do
  let c ← getCfg
  if c.execute then
    let str ← popString
    let e ← perl str
    pushStr (decimal e)
    pure .none
  else pure .unspec

/-- `I` (/repo/src/fingerprint/FingerprintPERL.cpp:29-36). -/
def perlInt : Exec Err := do
  let c ← getCfg
  if c.execute then
    let str ← popString
    let e ← perl str
    pushTop e
    pure .none
  else pure .unspec

/-- `FingerprintPERL::execute` (/repo/src/fingerprint/FingerprintPERL.cpp:18-44). -/
def perlRun : Int → Exec Err
  | 69 => perlEval
  | 73 => perlInt
  | 83 => iPush 1
  | _ => pure .unimp

/-! ### DIRF -/

/-- `C` (/repo/src/fingerprint/FingerprintDIRF.cpp:20-27). Simplification: changing into a directory that exists succeeds. -/
def dirfChange : Exec Err := do
  let dir ← popString
  let ok ← askDir
  if ok then
    emit (.chdir (cstr dir))
    pure .none
  else pure .unspec

/-- `M` (/repo/src/fingerprint/FingerprintDIRF.cpp:28-31): a failure throws. -/
def dirfMake : Exec Err := do
  let dir ← popString
  emit (.mkdir (cstr dir))
  let ok ← askDir
  if ok then pure .none else fault .exception

/-- `R` (/repo/src/fingerprint/FingerprintDIRF.cpp:32-39): a failure to remove throws. -/
def dirfRemove : Exec Err := do
  let dir ← popString
  let ok ← askDir
  if ok then
    emit (.rmdir (cstr dir))
    let ok ← askDir
    if ok then pure .none else fault .exception
  else pure .unspec

/-- `FingerprintDIRF::execute` (/repo/src/fingerprint/FingerprintDIRF.cpp:17-44). -/
def dirfRun : Int → Exec Err
  | 67 => dirfChange
  | 77 => dirfMake
  | 82 => dirfRemove
  | _ => pure .unimp

/-! ### DBUG and MVRS -/

/-- `std::set<Vector>::insert` (/repo/src/FungeDebugger.cpp:90, 100): an element equivalent to one already there is not inserted. -/
def setInsert (l : List Vec) (v : Vec) : List Vec := if l.any (fun w => w.eqv v) then l else v :: l

/-- `FungeDebugger::addBreakpoint` (/repo/src/FungeDebugger.cpp:87-92). -/
def addBreakpoint (v : Vec) : Exec Unit := modG fun g =>
  if v.size > 0 then { g with breakpoints := setInsert g.breakpoints v } else g

/-- `FungeDebugger::addWatchpoint` (/repo/src/FungeDebugger.cpp:94-102). -/
def addWatchpoint (v : Vec) : Exec Unit := modG fun g =>
  if v.size > 0 then { g with watchpoints := setInsert g.watchpoints v } else g

/-- `A` (/repo/src/fingerprint/FingerprintDBUG.cpp:24-27). -/
def dbugBreak : Exec Err := do
  let v ← popVector
  addBreakpoint v
  pure .none

/-- `W` (/repo/src/fingerprint/FingerprintDBUG.cpp:37-40). -/
def dbugWatch : Exec Err := do
  let v ← popVector
  addWatchpoint v
  pure .none

/-- `FingerprintDBUG::execute` (/repo/src/fingerprint/FingerprintDBUG.cpp:22-45). `B D E` enter the interactive debugger or switch it on or off and are
not modelled. (Nothing binds these instructions: `Fp.activate`.) -/
def dbugRun : Int → Exec Err
  | 65 => dbugBreak
  | 66 | 68 | 69 => fault .unmodelled
  | 87 => dbugWatch
  | _ => pure .unimp

/-- `N` (/repo/src/fingerprint/FingerprintMVRS.cpp:98-100). -/
def mvrsName : Exec Err := do
  let c ← getCfg
  pushStr c.name
  pure .none

/-- `FingerprintMVRS::execute` (/repo/src/fingerprint/FingerprintMVRS.cpp:18-117); all but `N` concern other universes and are not modelled here. -/
def mvrsRun : Int → Exec Err
  | 66 | 67 | 70 | 71 | 74 | 80 => fault .unmodelled
  | 78 => mvrsName
  | _ => pure .unimp

end Funge
