import Verif.Model.Fish
/-
The fingerprints FRTH, BITW, BOOL, CPLI, MODE, FISH, FIXP, HRTI, JSTR, ORTH, NFUN, FING, SUBR, REFC.
-/
namespace Funge
open Exec

/-- `b & a` on `int64_t` (e.g. /repo/src/fingerprint/FingerprintBITW.cpp:20). -/
def andOp (b a : Int) : Except Fault Int := .ok (BitVec.ofInt 64 b &&& BitVec.ofInt 64 a).toInt
/-- `b | a` (e.g. /repo/src/fingerprint/FingerprintBITW.cpp:34). -/
def orOp (b a : Int) : Except Fault Int := .ok (BitVec.ofInt 64 b ||| BitVec.ofInt 64 a).toInt
/-- `b ^ a` (e.g. /repo/src/fingerprint/FingerprintBITW.cpp:44). -/
def xorOp (b a : Int) : Except Fault Int := .ok (BitVec.ofInt 64 b ^^^ BitVec.ofInt 64 a).toInt
/-- `b << a` (e.g. /repo/src/fingerprint/FingerprintBITW.cpp:25): modular since C++20; undefined unless `0 ≤ a < 64`. -/
def shlOp (b a : Int) : Except Fault Int :=
  if 0 ≤ a ∧ a < 64 then .ok (toI64 (b * 2 ^ a.toNat)) else .error .badShift
/-- `b >> a` (e.g. /repo/src/fingerprint/FingerprintBITW.cpp:39): arithmetic since C++20; undefined unless `0 ≤ a < 64`. -/
def shrOp (b a : Int) : Except Fault Int :=
  if 0 ≤ a ∧ a < 64 then .ok (b / 2 ^ a.toNat) else .error .badShift

/-- `push(~pop())` (/repo/src/fingerprint/FingerprintBITW.cpp:27-30). -/
def bitNot : Exec Err := do
  let a ← popTop
  pushTop (-a - 1)
  pure .none

/-- `FingerprintBITW::execute` (/repo/src/fingerprint/FingerprintBITW.cpp:15-50). -/
def bitwRun : Int → Exec Err
  | 65 => iBin andOp
  | 76 => iBin shlOp
  | 78 => bitNot
  | 79 => iBin orOp
  | 82 => iBin shrOp
  | 88 => iBin xorOp
  | _ => pure .unimp

/-- `FingerprintBOOL::execute` (/repo/src/fingerprint/FingerprintBOOL.cpp:15-40). -/
def boolRun : Int → Exec Err
  | 65 => iBin andOp
  | 78 => bitNot
  | 79 => iBin orOp
  | 88 => iBin xorOp
  | _ => pure .unimp

/-! ### FRTH -/

/-- `D` (/repo/src/fingerprint/FingerprintFRTH.cpp:18-21). -/
def frthDepth : Exec Err := do
  let n ← sizeTop
  pushTop n
  pure .none

/-- `L` (/repo/src/fingerprint/FingerprintFRTH.cpp:22-43): `pops` has `count+1` values, the first popped first. `-u` and `count+1` may overflow.
Simplification: the array on the machine stack always fits. -/
def frthRoll : Exec Err := do
  let u ← popTop
  if u = i64Min ∨ u = i64Max then fault .overflow
  else do
    let count := u.natAbs
    let pops ← popN popTop (count + 1)
    if u < 0 then do
      pushTop (pops.headD 0)
      pushAll pushTop pops.tail.reverse
    else do
      pushAll pushTop pops.dropLast.reverse
      pushTop (pops.getLastD 0)
    pure .none

/-- `O` (/repo/src/fingerprint/FingerprintFRTH.cpp:44-50). -/
def frthOver : Exec Err := do
  let b ← popTop
  let a ← popTop
  pushTop a
  pushTop b
  pushTop a
  pure .none

/-- `P` (/repo/src/fingerprint/FingerprintFRTH.cpp:51-59). -/
def frthPick : Exec Err := do
  let u ← popTop
  if u < 0 then pure .unspec
  else if u = i64Max then fault .overflow
  else do
    let x ← getTop (u + 1).toNat
    pushTop x
    pure .none

/-- `R` (/repo/src/fingerprint/FingerprintFRTH.cpp:60-67). -/
def frthRot : Exec Err := do
  let c ← popTop
  let b ← popTop
  let a ← popTop
  pushTop b
  pushTop c
  pushTop a
  pure .none

/-- `FingerprintFRTH::execute` (/repo/src/fingerprint/FingerprintFRTH.cpp:15-72). -/
def frthRun : Int → Exec Err
  | 68 => frthDepth
  | 76 => frthRoll
  | 79 => frthOver
  | 80 => frthPick
  | 82 => frthRot
  | _ => pure .unimp

/-! ### CPLI -/

/-- `popComplex` (/repo/src/fingerprint/FingerprintCPLI.cpp:64-69): real and imaginary part. -/
def popComplex : Exec (Int × Int) := do
  let i ← popTop
  let r ← popTop
  pure (r, i)

/-- `pushComplex` (/repo/src/fingerprint/FingerprintCPLI.cpp:71-74). -/
def pushComplex (r i : Int) : Exec Unit := do
  pushTop r
  pushTop i

/-- `A` (/repo/src/fingerprint/FingerprintCPLI.cpp:17-21). -/
def cpliAdd : Exec Err := do
  let b ← popComplex
  let a ← popComplex
  let r ← lift (ck (a.1 + b.1))
  let i ← lift (ck (a.2 + b.2))
  pushComplex r i
  pure .none

/-- `S` (/repo/src/fingerprint/FingerprintCPLI.cpp:48-52). -/
def cpliSub : Exec Err := do
  let b ← popComplex
  let a ← popComplex
  let r ← lift (ck (a.1 - b.1))
  let i ← lift (ck (a.2 - b.2))
  pushComplex r i
  pure .none

/-- `M` (/repo/src/fingerprint/FingerprintCPLI.cpp:29-33): `std::complex<int64_t>::operator*=` multiplies the four pairs, then subtracts
and adds. -/
def cpliMul : Exec Err := do
  let b ← popComplex
  let a ← popComplex
  let rr ← lift (ck (a.1 * b.1))
  let ii ← lift (ck (a.2 * b.2))
  let r ← lift (ck (rr - ii))
  let ri ← lift (ck (a.1 * b.2))
  let ir ← lift (ck (a.2 * b.1))
  let i ← lift (ck (ri + ir))
  pushComplex r i
  pure .none

/-- `O` (/repo/src/fingerprint/FingerprintCPLI.cpp:34-47). -/
def cpliOut : Exec Err := do
  let a ← popComplex
  let r := a.1
  let i := a.2
  if i = 0 then emit (.out (decimal r ++ [32]))
  else if r = 0 then emit (.out (decimal i ++ [105, 32]))
  else if i < 0 then emit (.out (decimal r ++ decimal i ++ [105, 32]))
  else emit (.out (decimal r ++ [43] ++ decimal i ++ [105, 32]))
  pure .none

/-- A function of `<cmath>` on the arguments of letter `c` of `f`, the result converted to what is pushed (e.g.
/repo/src/fingerprint/FingerprintFIXP.cpp:26-30); undefined if the conversion is. -/
def mathFn (f : Fp) (c : Int) (args : List Int) : Exec Int := do
  let fl ← getFlt
  match fl.fn f c args with
  | some x => pure x
  | none => fault .overflow

/-- `D` (/repo/src/fingerprint/FingerprintCPLI.cpp:22-28, 76-88). -/
def cpliDiv : Exec Err := do
  let b ← popComplex
  let a ← popComplex
  let fl ← getFlt
  match fl.cdiv a b with
  | some q => do
    pushComplex q.1 q.2
    pure .none
  | none => fault .overflow

/-- `V` (/repo/src/fingerprint/FingerprintCPLI.cpp:53-57). -/
def cpliAbs : Exec Err := do
  let a ← popComplex
  let r ← mathFn .CPLI 86 [a.1, a.2]
  pushTop r
  pure .none

/-- `FingerprintCPLI::execute` (/repo/src/fingerprint/FingerprintCPLI.cpp:15-62). -/
def cpliRun : Int → Exec Err
  | 65 => cpliAdd
  | 68 => cpliDiv
  | 77 => cpliMul
  | 79 => cpliOut
  | 83 => cpliSub
  | 86 => cpliAbs
  | _ => pure .unimp

/-! ### MODE -/

/-- An instruction of MODE (/repo/src/fingerprint/FingerprintMODE.cpp:18-29). -/
def modeToggle (m : Nat) : Exec Err := do
  universeToggleMode m
  pure .none

/-- `FingerprintMODE::execute` (/repo/src/fingerprint/FingerprintMODE.cpp:16-34). -/
def modeRun : Int → Exec Err
  | 72 => modeToggle modeHover
  | 73 => modeToggle modeInvert
  | 81 => modeToggle modeQueue
  | 83 => modeToggle modeSwitch
  | _ => pure .unimp

/-! ### FISH -/

/-- `C` (/repo/src/fingerprint/FingerprintFISH.cpp:34-38) and `Z` of ORTH (/repo/src/fingerprint/FingerprintORTH.cpp:74-79). -/
def fgConditional : Exec Err := do
  let x ← popTop
  if x = 0 then ipNext else pure ()
  pure .none

/-- `F` (/repo/src/fingerprint/FingerprintFISH.cpp:44-56). -/
def fgFisherman : Exec Err := do
  let v ← ipDelta
  let s ← get
  if v.get 1 = 0 then
    if s.cur.fishUp then do
      setDelta (Vec.ofList [0, 1])
      modCur fun r => { r with fishUp := false }
    else do
      setDelta (Vec.ofList [0, -1])
      modCur fun r => { r with fishUp := true }
  else setDelta s.cur.fishCache
  pure .none

/-- `L` (/repo/src/fingerprint/FingerprintFISH.cpp:68-78); `temp[len-1]` is out of range for an empty stack. -/
def fgShiftLeft : Exec Err := do
  let len ← sizeTop
  let temp ← popN popTop len
  match temp.getLast? with
  | none => fault .outOfRange
  | some x =>
    pushAll pushTop temp.dropLast.reverse
    pushTop x
    pure .none

/-- `R` (/repo/src/fingerprint/FingerprintFISH.cpp:99-109); `temp[0]` is out of range for an empty stack. -/
def fgShiftRight : Exec Err := do
  let len ← sizeTop
  let temp ← popN popTop len
  match temp with
  | [] => fault .outOfRange
  | x :: r =>
    pushTop x
    pushAll pushTop r.reverse
    pure .none

/-- `S` (/repo/src/fingerprint/FingerprintFISH.cpp:111-120). -/
def fgReverse : Exec Err := do
  let len ← sizeTop
  let temp ← popN popTop len
  pushAll pushTop temp
  pure .none

/-- `T` (/repo/src/fingerprint/FingerprintFISH.cpp:122-129). -/
def fgSwap3 : Exec Err := do
  let x ← popTop
  let y ← popTop
  let z ← popTop
  pushTop x
  pushTop z
  pushTop y
  pure .none

/-- `FingerprintFISH::execute` (/repo/src/fingerprint/FingerprintFISH.cpp:30-144). The mirrors and dive/rise have the same bodies as those of
><> and *><> (/repo/src/FishStrategy.cpp:126-156, /repo/src/StarfishStrategy.cpp:74-82). -/
def fishRun : Int → Exec Err
  | 67 => fgConditional
  | 68 => siSelect StackStack.decrement
  | 70 => fgFisherman
  | 72 => fiMirrorHori
  | 73 => siSelect StackStack.increment
  | 76 => fgShiftLeft
  | 77 => fiMirror2
  | 78 => fiMirror1
  | 79 => siRise
  | 82 => fgShiftRight
  | 83 => fgReverse
  | 84 => fgSwap3
  | 85 => siDive
  | 86 => fiMirrorVert
  | _ => pure .unimp

/-! ### FIXP -/

/-- `D` (/repo/src/fingerprint/FingerprintFIXP.cpp:36-39, 128-131). -/
def fixpRandom : Exec Err := do
  let n ← popTop
  let r ← random 0 n
  pushTop r
  pure .none

/-- `N` (/repo/src/fingerprint/FingerprintFIXP.cpp:50-53). -/
def fixpNeg : Exec Err := do
  let n ← popTop
  let r ← lift (ck (-n))
  pushTop r
  pure .none

/-- `S` (/repo/src/fingerprint/FingerprintFIXP.cpp:75-84). -/
def fixpSign : Exec Err := do
  let n ← popTop
  pushTop (if n > 0 then 1 else if n < 0 then -1 else 0)
  pure .none

/-- `V` (/repo/src/fingerprint/FingerprintFIXP.cpp:95-99). -/
def fixpAbs : Exec Err := do
  let n ← popTop
  let r ← lift (ck (n.natAbs : Int))
  pushTop r
  pure .none

/-- `B C I J P Q T U` (/repo/src/fingerprint/FingerprintFIXP.cpp:26-35, 40-49, 59-68, 85-94). -/
def fixpFn (c : Int) : Exec Err := do
  let n ← popTop
  let r ← mathFn .FIXP c [n]
  pushTop r
  pure .none

/-- `R` (/repo/src/fingerprint/FingerprintFIXP.cpp:69-74). -/
def fixpPow : Exec Err := do
  let b ← popTop
  let a ← popTop
  let r ← mathFn .FIXP 82 [a, b]
  pushTop r
  pure .none

/-- `FingerprintFIXP::execute` (/repo/src/fingerprint/FingerprintFIXP.cpp:19-109). -/
def fixpRun : Int → Exec Err
  | 65 => iBin andOp
  | 66 => fixpFn 66
  | 67 => fixpFn 67
  | 73 => fixpFn 73
  | 74 => fixpFn 74
  | 80 => fixpFn 80
  | 81 => fixpFn 81
  | 82 => fixpPow
  | 84 => fixpFn 84
  | 85 => fixpFn 85
  | 68 => fixpRandom
  | 78 => fixpNeg
  | 79 => iBin orOp
  | 83 => fixpSign
  | 86 => fixpAbs
  | 88 => iBin xorOp
  | _ => pure .unimp

/-! ### HRTI -/

/-- `T` (/repo/src/fingerprint/FingerprintHRTI.cpp:34-41). `std::chrono::steady_clock` counts nanoseconds (libstdc++); the mark is 0, the epoch, if there is
none. -/
def hrtiTimer : Exec Err := do
  let s ← get
  if s.cur.hrtiMark = 0 then pure .unspec
  else do
    let now ← ask
    pushTop ((now - s.cur.hrtiMark).tdiv 1000)
    pure .none

/-- `M` (/repo/src/fingerprint/FingerprintHRTI.cpp:27-29). -/
def hrtiMark : Exec Err := do
  let now ← ask
  modCur fun r => { r with hrtiMark := now }
  pure .none

/-- `E` (/repo/src/fingerprint/FingerprintHRTI.cpp:20-22). -/
def hrtiErase : Exec Err := do
  modCur fun r => { r with hrtiMark := 0 }
  pure .none

/-- `S` (/repo/src/fingerprint/FingerprintHRTI.cpp:30-33): the clock, in microseconds since 1970. -/
def hrtiSecond : Exec Err := do
  let now ← ask
  pushTop (now.tmod 1000000)
  pure .none

/-- `FingerprintHRTI::execute` (/repo/src/fingerprint/FingerprintHRTI.cpp:17-46). `G` (lines 23-26) pushes 1: the period of `std::chrono::steady_clock`
in libstdc++ is one nanosecond. -/
def hrtiRun : Int → Exec Err
  | 69 => hrtiErase
  | 71 => iPush 1
  | 77 => hrtiMark
  | 83 => hrtiSecond
  | 84 => hrtiTimer
  | _ => pure .unimp

/-! ### JSTR -/

/-- The loop of `G` (/repo/src/fingerprint/FingerprintJSTR.cpp:24-27). -/
def jstrGetLoop (vd : Vec) : Nat → Vec → Exec Unit
  | 0, _ => pure ()
  | n + 1, pos => do
    let x ← fieldGet pos
    pushTop x
    jstrGetLoop vd n (pos.add vd)

/-- `G` (/repo/src/fingerprint/FingerprintJSTR.cpp:18-28). -/
def jstrGet : Exec Err := do
  let n ← popTop
  let va ← popVector
  let vd ← popVector
  let st ← ipStorage
  pushTop 0
  jstrGetLoop vd n.toNat (va.add st)
  pure .none

/-- The loop of `P` (/repo/src/fingerprint/FingerprintJSTR.cpp:34-37). -/
def jstrPutLoop (vd : Vec) : Nat → Vec → Exec Unit
  | 0, _ => pure ()
  | n + 1, pos => do
    let x ← popTop
    fieldPut pos x
    jstrPutLoop vd n (pos.add vd)

/-- `P` (/repo/src/fingerprint/FingerprintJSTR.cpp:29-38). -/
def jstrPut : Exec Err := do
  let n ← popTop
  let va ← popVector
  let vd ← popVector
  let st ← ipStorage
  jstrPutLoop vd n.toNat (va.add st)
  pure .none

/-- `FingerprintJSTR::execute` (/repo/src/fingerprint/FingerprintJSTR.cpp:16-43). -/
def jstrRun : Int → Exec Err
  | 71 => jstrGet
  | 80 => jstrPut
  | _ => pure .unimp

/-! ### ORTH -/

/-- `G` (/repo/src/fingerprint/FingerprintORTH.cpp:28-33). -/
def orthGet : Exec Err := do
  let x ← popTop
  let y ← popTop
  let c ← fieldGet (Vec.ofList [x, y])
  pushTop c
  pure .none

/-- `P` (/repo/src/fingerprint/FingerprintORTH.cpp:39-45). -/
def orthPut : Exec Err := do
  let x ← popTop
  let y ← popTop
  let i ← popTop
  fieldPut (Vec.ofList [x, y]) i
  pure .none

/-- `S` (/repo/src/fingerprint/FingerprintORTH.cpp:46-49). -/
def orthOut : Exec Err := do
  let str ← popString
  emit (.out (str ++ [10]))
  pure .none

/-- `V` and `W` (/repo/src/fingerprint/FingerprintORTH.cpp:50-61). -/
def orthDelta (n : Nat) : Exec Err := do
  let x ← popTop
  let d ← ipDelta
  setDelta (d.set n x)
  pure .none

/-- `X` and `Y` (/repo/src/fingerprint/FingerprintORTH.cpp:62-73). -/
def orthPos (n : Nat) : Exec Err := do
  let x ← popTop
  onIP fun ip => ip.setPos (ip.pos.set n x)
  pure .none

/-- `FingerprintORTH::execute` (/repo/src/fingerprint/FingerprintORTH.cpp:16-84). -/
def orthRun : Int → Exec Err
  | 65 => iBin andOp
  | 69 => iBin xorOp
  | 71 => orthGet
  | 79 => iBin orOp
  | 80 => orthPut
  | 83 => orthOut
  | 86 => orthDelta 0
  | 87 => orthDelta 1
  | 88 => orthPos 0
  | 89 => orthPos 1
  | 90 => fgConditional
  | _ => pure .unimp

/-! ### NFUN -/

/-- `if(dimensions() < dim) dimensions(dim);` (/repo/src/fingerprint/FingerprintNFUN.cpp:104-106, /repo/src/FungeUniverse.cpp:216-221). -/
def growDims (dim : Nat) : Exec Unit := modG fun g =>
  if g.cfg.dims < dim then { g with cfg := { g.cfg with dims := dim } } else g

/-- `A C D V` (/repo/src/fingerprint/FingerprintNFUN.cpp:20-31, 72-75). -/
def nfunGo (v : Vec) (dim : Nat) : Exec Err := do
  setDelta v
  growDims dim
  pure .none

/-- `H` and `L` (/repo/src/fingerprint/FingerprintNFUN.cpp:32-39, 48-55): the direction without and with `inverthl`. -/
def nfunHL (v w : Vec) (dim : Nat) : Exec Err := do
  let c ← getCfg
  if c.inverthl then setDelta w else setDelta v
  growDims dim
  pure .none

/-- `I M R` (/repo/src/fingerprint/FingerprintNFUN.cpp:40-47, 56-71). -/
def nfunIf (zero other : Vec) (dim : Nat) : Exec Err := do
  let x ← popTop
  if x = 0 then setDelta zero else setDelta other
  growDims dim
  pure .none

/-- `v.set(n, x)` on an empty vector (/repo/src/fingerprint/FingerprintNFUN.cpp:79-83): a negative `n` becomes a huge index and the allocation throws.
Simplification: no other allocation fails. -/
def axisVec (n x : Int) : Exec Vec :=
  if n < 0 then fault .exception else pure (Vec.empty.set n.toNat x)

/-- `X` (/repo/src/fingerprint/FingerprintNFUN.cpp:76-86). -/
def nfunIfN : Exec Err := do
  let n ← popTop
  let x ← popTop
  let v ← axisVec n (if x = 0 then 1 else -1)
  setDelta v
  growDims n.toNat
  pure .none

/-- `Y` and `Z` (/repo/src/fingerprint/FingerprintNFUN.cpp:87-100). -/
def nfunGoN (d : Int) : Exec Err := do
  let n ← popTop
  let v ← axisVec n d
  setDelta v
  growDims n.toNat
  pure .none

/-- `FingerprintNFUN::execute` (/repo/src/fingerprint/FingerprintNFUN.cpp:17-108); there is no case for `B`. -/
def nfunRun : Int → Exec Err
  | 65 => nfunGo (Vec.ofList [0, 0, 0, -1]) 4
  | 67 => nfunGo (Vec.ofList [0, 0, 0, 0, 0, -1]) 6
  | 68 => nfunGo (Vec.ofList [0, 0, 0, 0, 0, 1]) 6
  | 72 => nfunHL (Vec.ofList [0, 0, 0, 0, 1]) (Vec.ofList [0, 0, 0, 0, -1]) 5
  | 73 => nfunIf (Vec.ofList [0, 0, 0, 1]) (Vec.ofList [0, 0, 0, -1]) 4
  | 76 => nfunHL (Vec.ofList [0, 0, 0, 0, -1]) (Vec.ofList [0, 0, 0, 0, 1]) 5
  | 77 => nfunIf (Vec.ofList [0, 0, 0, 0, 1]) (Vec.ofList [0, 0, 0, 0, -1]) 5
  | 82 => nfunIf (Vec.ofList [0, 0, 0, 0, 0, 1]) (Vec.ofList [0, 0, 0, 0, 0, -1]) 6
  | 86 => nfunGo (Vec.ofList [0, 0, 0, 1]) 4
  | 88 => nfunIfN
  | 89 => nfunGoN (-1)
  | 90 => nfunGoN 1
  | _ => pure .unimp

/-! ### FING -/

/-- `if(a >= 0 && a <= 25) a += 'A'; if(a < 'A' || a > 'Z') …` (/repo/src/fingerprint/FingerprintFING.cpp:20-26): the letter meant. -/
def fingLetter (a : Int) : Option Int :=
  let a := if 0 ≤ a ∧ a ≤ 25 then a + 65 else a
  if 65 ≤ a ∧ a ≤ 90 then some a else none

/-- `new FungeSemantic(instructionReflect)` for a missing semantic (/repo/src/fingerprint/FingerprintFING.cpp:34-39). -/
def semOr (s : Option Sem) : Sem := s.getD ⟨.fingReflect, false⟩

/-- `X` (/repo/src/fingerprint/FingerprintFING.cpp:18-45). -/
def fingSwap : Exec Err := do
  let a ← popTop
  match fingLetter a with
  | none => pure .unspec
  | some a =>
    let b ← popTop
    match fingLetter b with
    | none => pure .unspec
    | some b =>
      modCur fun r =>
        let pa := r.popSem a
        let pb := pa.2.popSem b
        (pb.2.pushSem a (semOr pb.1)).pushSem b (semOr pa.1)
      pure .none

/-- `Y` (/repo/src/fingerprint/FingerprintFING.cpp:46-56). -/
def fingPop : Exec Err := do
  let a ← popTop
  match fingLetter a with
  | none => pure .unspec
  | some a =>
    modCur fun r => (r.popSem a).2
    pure .none

/-- `Z` (/repo/src/fingerprint/FingerprintFING.cpp:57-79). -/
def fingCopy : Exec Err := do
  let dst ← popTop
  match fingLetter dst with
  | none => pure .unspec
  | some dst =>
    let src ← popTop
    match fingLetter src with
    | none => pure .unspec
    | some src =>
      modCur fun r => r.pushSem dst (semOr (r.getSem src))
      pure .none

/-- `FingerprintFING::execute` (/repo/src/fingerprint/FingerprintFING.cpp:15-85). -/
def fingRun : Int → Exec Err
  | 88 => fingSwap
  | 89 => fingPop
  | 90 => fingCopy
  | _ => pure .unimp

/-! ### SUBR -/

/-- `A` and `O` (/repo/src/fingerprint/FingerprintSUBR.cpp:19-21, 48-50). -/
def subrMode (b : Bool) : Exec Err := do
  modCur fun r => { r with subrOffset := b }
  pure .none

/-- `stack_t pops[n]` and the loop filling it (/repo/src/fingerprint/FingerprintSUBR.cpp:25-28, 53-56); an array of negative size is undefined. -/
def subrPops (n : Int) : Exec (List Int) :=
  if n < 0 then fault .outOfRange else popN popTop n.toNat

/-- `va += ip.getPos()` if relative addressing is on (/repo/src/fingerprint/FingerprintSUBR.cpp:34-36). -/
def subrTarget (va : Vec) : Exec Vec := fun s =>
  .ok (if s.cur.subrOffset then va.add s.cur.ip.pos else va, s)

/-- `C` (/repo/src/fingerprint/FingerprintSUBR.cpp:22-39). -/
def subrCall : Exec Err := do
  let n ← popTop
  let va ← popVector
  let pops ← subrPops n
  let p ← ipPos
  pushVector p
  let d ← ipDelta
  pushVector d
  pushAll pushTop pops.reverse
  let va ← subrTarget va
  onIP (·.setPos (va.sub (Vec.ofList [1])))
  setDelta (Vec.ofList [1])
  pure .none

/-- `J` (/repo/src/fingerprint/FingerprintSUBR.cpp:40-47). -/
def subrJump : Exec Err := do
  let va ← popVector
  let va ← subrTarget va
  onIP (·.setPos va)
  setDelta (Vec.ofList [1])
  pure .none

/-- `R` (/repo/src/fingerprint/FingerprintSUBR.cpp:51-64). -/
def subrReturn : Exec Err := do
  let n ← popTop
  let pops ← subrPops n
  let vd ← popVector
  let va ← popVector
  pushAll pushTop pops.reverse
  onIP (·.setPos va)
  setDelta vd
  pure .none

/-- `FingerprintSUBR::execute` (/repo/src/fingerprint/FingerprintSUBR.cpp:17-69). -/
def subrRun : Int → Exec Err
  | 65 => subrMode false
  | 67 => subrCall
  | 74 => subrJump
  | 79 => subrMode true
  | 82 => subrReturn
  | _ => pure .unimp

/-! ### REFC -/

/-- `refc_map.find(r)` (/repo/src/fingerprint/FingerprintREFC.cpp:23, 33). -/
def refcFind (m : List (Int × Vec)) (r : Int) : Option Vec :=
  match m with
  | [] => none
  | (k, v) :: t => if k = r then some v else refcFind t r

/-- The loop choosing a fresh reference (/repo/src/fingerprint/FingerprintREFC.cpp:22-27); `random()` is the POSIX function, it returns a number
in `0 … 2^31-1`. -/
def refcFresh : Nat → Exec Int
  | 0 => fault .fuel
  | n + 1 => do
    let r ← ask
    let r := r % 2147483648
    let s ← get
    match refcFind s.g.refc r with
    | none => pure r
    | some _ => refcFresh n

/-- `R` (/repo/src/fingerprint/FingerprintREFC.cpp:20-30). -/
def refcRef : Exec Err := do
  let v ← popVector
  let n ← getFuel
  let r ← refcFresh n
  modG fun g => { g with refc := (r, v) :: g.refc }
  pushTop r
  pure .none

/-- `D` (/repo/src/fingerprint/FingerprintREFC.cpp:31-38). -/
def refcDeref : Exec Err := do
  let r ← popTop
  let s ← get
  match refcFind s.g.refc r with
  | some v => pushVector v
  | none => pure ()
  pure .none

/-- `FingerprintREFC::execute` (/repo/src/fingerprint/FingerprintREFC.cpp:18-43). -/
def refcRun : Int → Exec Err
  | 82 => refcRef
  | 68 => refcDeref
  | _ => pure .unimp

end Funge
