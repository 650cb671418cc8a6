import Verif.Model.Finger.Toys
/-
The fingerprints FPDP, FPSP, FPRT and LONG. What the arithmetic of floating point and long numbers computes is a parameter of the
model (`FloatOps`, `LongOps`); what is popped, pushed and printed is modelled.
-/
namespace Funge
open Exec

/-! ### FPDP: `FingerprintFloat<double>` -/

/-- `A D M S` of FPDP (/repo/src/fingerprint/include/FingerprintFloat.h:28-33, 44-49, 83-88, 109-114). -/
def fpdpBin (f : FloatOps → Int → Int → Int) : Exec Err := do
  let b ← popTop
  let a ← popTop
  let fl ← getFlt
  pushTop (f fl a b)
  pure .none

/-- `Y` of FPDP (/repo/src/fingerprint/include/FingerprintFloat.h:130-135). -/
def fpdpPow : Exec Err := do
  let y ← popTop
  let x ← popTop
  let r ← mathFn .FPDP 89 [x, y]
  pushTop r
  pure .none

/-- `B C E G H K L N Q T V X` of FPDP (/repo/src/fingerprint/include/FingerprintFloat.h:34-43, 50-54, 59-68, 73-82, 89-93, 98-102, 115-129). -/
def fpdpFn (c : Int) : Exec Err := do
  let n ← popTop
  let r ← mathFn .FPDP c [n]
  pushTop r
  pure .none

/-- `F` of FPDP (/repo/src/fingerprint/include/FingerprintFloat.h:55-58). -/
def fpdpFromInt : Exec Err := do
  let n ← popTop
  let fl ← getFlt
  pushTop (fl.ofInt n)
  pure .none

/-- `I` of FPDP (/repo/src/fingerprint/include/FingerprintFloat.h:69-72). -/
def fpdpToInt : Exec Err := do
  let n ← popTop
  let r ← fishInt n
  pushTop r
  pure .none

/-- `P` of FPDP and FPSP (/repo/src/fingerprint/include/FingerprintFloat.h:94-97); FPSP looks at the low 32 bits of the cell. -/
def floatOut (f : Fp) : Exec Err := do
  let n ← popTop
  let fl ← getFlt
  emit (.out (fl.shown f n ++ [32]))
  pure .none

/-- `R` of FPDP (/repo/src/fingerprint/include/FingerprintFloat.h:103-108): `std::stod` throws for what is no number. -/
def fpdpRead : Exec Err := do
  let str ← popString
  let fl ← getFlt
  match fl.parse str with
  | some r => do
    pushTop r
    pure .none
  | none => fault .exception

/-- `FingerprintFloat<double>::execute` (/repo/src/fingerprint/include/FingerprintFloat.h:26-140). Simplification: `stackToT` and `TToStack` (lines
143-149), which access an object through a pointer to another type, are taken to copy its bytes. -/
def fpdpRun : Int → Exec Err
  | 65 => fpdpBin FloatOps.add
  | 66 => fpdpFn 66
  | 67 => fpdpFn 67
  | 68 => fpdpBin FloatOps.div
  | 69 => fpdpFn 69
  | 70 => fpdpFromInt
  | 71 => fpdpFn 71
  | 72 => fpdpFn 72
  | 73 => fpdpToInt
  | 75 => fpdpFn 75
  | 76 => fpdpFn 76
  | 77 => fpdpBin FloatOps.mul
  | 78 => fpdpFn 78
  | 80 => floatOut .FPDP
  | 81 => fpdpFn 81
  | 82 => fpdpRead
  | 83 => fpdpBin FloatOps.sub
  | 84 => fpdpFn 84
  | 86 => fpdpFn 86
  | 88 => fpdpFn 88
  | 89 => fpdpPow
  | _ => pure .unimp

/-! ### FPSP: `FingerprintFloat<float>` -/

/-- `TToStack` of a `float` (/repo/src/fingerprint/include/FingerprintFloat.h:147-149): reads the eight bytes of a `stack_t` from an object of
four. -/
def fpspToStack : Exec Err := fault .outOfRange

/-- `A D M S Y` of FPSP (/repo/src/fingerprint/include/FingerprintFloat.h:28-33, 44-49, 83-88, 109-114, 130-135). -/
def fpspBin : Exec Err := do
  let _ ← popTop
  let _ ← popTop
  fpspToStack

/-- `B C E F G H K L N Q T V X` of FPSP (/repo/src/fingerprint/include/FingerprintFloat.h:34-43, 50-68, 73-82, 89-93, 98-102, 115-129). -/
def fpspFn : Exec Err := do
  let _ ← popTop
  fpspToStack

/-- `I` of FPSP (/repo/src/fingerprint/include/FingerprintFloat.h:69-72). -/
def fpspToInt : Exec Err := do
  let n ← popTop
  let r ← mathFn .FPSP 73 [n]
  pushTop r
  pure .none

/-- `R` of FPSP (/repo/src/fingerprint/include/FingerprintFloat.h:103-108). -/
def fpspRead : Exec Err := do
  let str ← popString
  let fl ← getFlt
  match fl.parse str with
  | some _ => fpspToStack
  | none => fault .exception

/-- `FingerprintFloat<float>::execute` (/repo/src/fingerprint/include/FingerprintFloat.h:26-140). -/
def fpspRun : Int → Exec Err
  | 65 => fpspBin
  | 66 => fpspFn
  | 67 => fpspFn
  | 68 => fpspBin
  | 69 => fpspFn
  | 70 => fpspFn
  | 71 => fpspFn
  | 72 => fpspFn
  | 73 => fpspToInt
  | 75 => fpspFn
  | 76 => fpspFn
  | 77 => fpspBin
  | 78 => fpspFn
  | 80 => floatOut .FPSP
  | 81 => fpspFn
  | 82 => fpspRead
  | 83 => fpspBin
  | 84 => fpspFn
  | 86 => fpspFn
  | 88 => fpspFn
  | 89 => fpspBin
  | _ => pure .unimp

/-! ### FPRT -/

/-- `snprintf(str, sizeof(str), fmt.c_str(), …)` and what follows it (e.g. /repo/src/fingerprint/FingerprintFPRT.cpp:23-29): the buffer has 1024 bytes, the text
is cut to the 1023 that fit, and to what precedes a zero byte. -/
def fprtPrint (c : Int) (f : List Int) (args : List Int) : Exec Err := do
  let fl ← getFlt
  let r ← lift (fl.fmt c (cstr f) args)
  match r with
  | some text => do
    pushStr (cstr (text.take 1023))
    pure .none
  | none => pure .unspec

/-- `D F I` (/repo/src/fingerprint/FingerprintFPRT.cpp:19-53). -/
def fprtCell (c : Int) : Exec Err := do
  let n ← popTop
  let f ← popString
  fprtPrint c f [n]

/-- `L` (/repo/src/fingerprint/FingerprintFPRT.cpp:54-66): the two cells are packed into one of 64 bits. -/
def fprtLong : Exec Err := do
  let l ← popTop
  let h ← popTop
  let f ← popString
  fprtPrint 76 f [(BitVec.ofInt 64 (h * 2 ^ 32) ||| (BitVec.ofInt 64 l &&& 0xFFFFFFFF)).toInt]

/-- `S` (/repo/src/fingerprint/FingerprintFPRT.cpp:67-77). -/
def fprtStr : Exec Err := do
  let s ← popString
  let f ← popString
  fprtPrint 83 f (cstr s)

/-- `FingerprintFPRT::execute` (/repo/src/fingerprint/FingerprintFPRT.cpp:16-82). -/
def fprtRun : Int → Exec Err
  | 68 => fprtCell 68
  | 70 => fprtCell 70
  | 73 => fprtCell 73
  | 76 => fprtLong
  | 83 => fprtStr
  | _ => pure .unimp

/-! ### LONG -/

/-- The number library in use (no counterpart in the source). -/
def getLng : Exec LongOps := fun s => .ok (s.g.lng, s)

/-- `popLong` (/repo/src/fingerprint/FingerprintLONG.cpp:107-112): high and low word. -/
def popLong : Exec (Int × Int) := do
  let l ← popTop
  let h ← popTop
  pure (h, l)

/-- `pushLong` (/repo/src/fingerprint/FingerprintLONG.cpp:113-116). -/
def pushLong (n : Int × Int) : Exec Unit := do
  pushTop n.1
  pushTop n.2

/-- `A M S` (/repo/src/fingerprint/FingerprintLONG.cpp:18-23, 56-61, 86-91). -/
def longBin (f : LongOps → Int × Int → Int × Int → Int × Int) : Exec Err := do
  let b ← popLong
  let a ← popLong
  let o ← getLng
  pushLong (f o a b)
  pure .none

/-- `D O` (/repo/src/fingerprint/FingerprintLONG.cpp:31-40, 66-75). -/
def longDiv (f : LongOps → Int × Int → Int × Int → Int × Int) : Exec Err := do
  let b ← popLong
  let a ← popLong
  let o ← getLng
  if o.isZero b then pushLong (o.ofInt 0) else pushLong (f o a b)
  pure .none

/-- `B` (/repo/src/fingerprint/FingerprintLONG.cpp:24-30). -/
def longAbs : Exec Err := do
  let a ← popLong
  let o ← getLng
  pushLong (if o.isNeg a then o.neg a else a)
  pure .none

/-- `E` (/repo/src/fingerprint/FingerprintLONG.cpp:41-49). -/
def longExtend : Exec Err := do
  let n ← popTop
  pushLong (if n < 0 then -1 else 0, n)
  pure .none

/-- `L R` (/repo/src/fingerprint/FingerprintLONG.cpp:50-55, 80-85). -/
def longShift (f : LongOps → Int × Int → Int → Int × Int) : Exec Err := do
  let n ← popTop
  let a ← popLong
  let o ← getLng
  pushLong (f o a n)
  pure .none

/-- `N` (/repo/src/fingerprint/FingerprintLONG.cpp:62-65). -/
def longNeg : Exec Err := do
  let a ← popLong
  let o ← getLng
  pushLong (o.neg a)
  pure .none

/-- `P` (/repo/src/fingerprint/FingerprintLONG.cpp:76-79). -/
def longOut : Exec Err := do
  let a ← popLong
  let o ← getLng
  emit (.out (o.text a ++ [32]))
  pure .none

/-- The loop of `Z` (/repo/src/fingerprint/FingerprintLONG.cpp:94-98). -/
def longDigits (o : LongOps) (acc : Int × Int) : List Int → Int × Int
  | [] => acc
  | a :: t => longDigits o (o.add (o.mul acc (o.ofInt 10)) (o.ofInt (a - 48))) t

/-- `Z` (/repo/src/fingerprint/FingerprintLONG.cpp:92-100). -/
def longRead : Exec Err := do
  let str ← popString
  let o ← getLng
  pushLong (longDigits o (o.ofInt 0) str)
  pure .none

/-- `FingerprintLONG::execute` (/repo/src/fingerprint/FingerprintLONG.cpp:16-105). `S` adds, as `A` does. Simplification: `fungelong_t(h, l)` keeps its two
words, and the operations of the library do not fault. -/
def longRun : Int → Exec Err
  | 65 => longBin LongOps.add
  | 66 => longAbs
  | 68 => longDiv LongOps.div
  | 69 => longExtend
  | 76 => longShift LongOps.shl
  | 77 => longBin LongOps.mul
  | 78 => longNeg
  | 79 => longDiv LongOps.rem
  | 80 => longOut
  | 82 => longShift LongOps.shr
  | 83 => longBin LongOps.add
  | 90 => longRead
  | _ => pure .unimp

end Funge
