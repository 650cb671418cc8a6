import Verif.Model.Finger.Text
/-
The fingerprint TOYS (/repo/src/fingerprint/FingerprintTOYS.cpp).
-/
namespace Funge
open Exec

/-- The loop of `sizeToRange` (/repo/src/fingerprint/FingerprintTOYS.cpp:280-289), which re-reads `size.size()`: at axis `d`, at most `n` more; `none`
if an axis is 0. -/
def sizeToRangeLoop : Nat → Nat → Vec → Option Vec
  | 0, _, v => some v
  | n + 1, d, v =>
    if d < v.size then
      let s := v.get d
      if s > 0 then sizeToRangeLoop n (d + 1) (v.set d (s - 1))
      else if s < 0 then sizeToRangeLoop n (d + 1) (v.set d (s + 1))
      else none
    else some v

/-- `sizeToRange` (/repo/src/fingerprint/FingerprintTOYS.cpp:279-291). -/
def sizeToRange (v : Vec) : Option Vec := sizeToRangeLoop v.size 0 v

/-- The vectors a `VectorRange` goes through (/repo/src/fingerprint/FingerprintTOYS.cpp:268-269). -/
def rangeOf (a b : Vec) : Exec (List Vec) := do
  let n ← getFuel
  match (VecRange.new a b).visit n with
  | none => fault .fuel
  | some l => pure l

/-- The body of the loop of `copySpace` over the remaining vectors (/repo/src/fingerprint/FingerprintTOYS.cpp:269-275). -/
def copyLoop (src dest : Vec) (move : Bool) : List Vec → Exec Unit
  | [] => pure ()
  | v :: t => do
    let i ← fieldGet (src.add v)
    fieldPut (dest.add v) i
    if move then fieldPut (src.add v) 32 else pure ()
    copyLoop src dest move t

/-- `copySpace` (/repo/src/fingerprint/FingerprintTOYS.cpp:256-277). -/
def copySpace (src sz dest : Vec) (low move : Bool) : Exec Unit :=
  match sizeToRange sz with
  | none => pure ()
  | some bound => do
    let l ← (if low then rangeOf (Vec.ofList [0]) bound else rangeOf bound (Vec.ofList [0]) : Exec (List Vec))
    copyLoop src dest move l

/-- `A` (/repo/src/fingerprint/FingerprintTOYS.cpp:28-34). -/
def toysGable : Exec Err := do
  let n ← popTop
  let a ← popTop
  pushAll pushTop (List.replicate n.toNat a)
  pure .none

/-- `B` (/repo/src/fingerprint/FingerprintTOYS.cpp:35-40). -/
def toysButterfly : Exec Err := do
  let b ← popTop
  let a ← popTop
  let s ← lift (ck (a + b))
  pushTop s
  let d ← lift (ck (a - b))
  pushTop d
  pure .none

/-- `C K M V` (/repo/src/fingerprint/FingerprintTOYS.cpp:41-46, 99-104, 112-117, 209-214). -/
def toysCopy (low move : Bool) : Exec Err := do
  let dest ← popVector
  let size ← popVector
  let src ← popVector
  copySpace src size dest low move
  pure .none

/-- `D` and `I` (/repo/src/fingerprint/FingerprintTOYS.cpp:47-49, 87-89). -/
def toysInc (d : Int) : Exec Err := do
  let x ← popTop
  let r ← lift (ck (x + d))
  pushTop r
  pure .none

/-- `while(size() > 0) acc = acc ∘ pop()` (/repo/src/fingerprint/FingerprintTOYS.cpp:52-54, 132-134): every pop removes one value. -/
def foldStack (f : Int → Int → Int) : Nat → Int → Exec Int
  | 0, acc => pure acc
  | n + 1, acc => do
    let x ← popTop
    let r ← lift (ck (f acc x))
    foldStack f n r

/-- `E` and `P` (/repo/src/fingerprint/FingerprintTOYS.cpp:50-56, 130-136). -/
def toysFold (f : Int → Int → Int) (unit : Int) : Exec Err := do
  let n ← sizeTop
  let r ← foldStack f n unit
  pushTop r
  pure .none

/-- The loop of `F` (/repo/src/fingerprint/FingerprintTOYS.cpp:62-64). -/
def toysFLoop (dest : Vec) : List Vec → Exec Unit
  | [] => pure ()
  | v :: t => do
    let x ← popTop
    fieldPut (dest.add v) x
    toysFLoop dest t

/-- `F` (/repo/src/fingerprint/FingerprintTOYS.cpp:57-66). -/
def toysPutBlock : Exec Err := do
  let dest ← popVector
  let size ← popVector
  match sizeToRange size with
  | none => pure ()
  | some b => do
    let l ← rangeOf (Vec.ofList [0]) b
    toysFLoop dest l
  pure .none

/-- The loop of `G` (/repo/src/fingerprint/FingerprintTOYS.cpp:72-74). -/
def toysGLoop (src : Vec) : List Vec → Exec Unit
  | [] => pure ()
  | v :: t => do
    let x ← fieldGet (src.add v)
    pushTop x
    toysGLoop src t

/-- `G` (/repo/src/fingerprint/FingerprintTOYS.cpp:67-76). -/
def toysGetBlock : Exec Err := do
  let src ← popVector
  let size ← popVector
  match sizeToRange size with
  | none => pure ()
  | some b => do
    let l ← rangeOf b (Vec.ofList [0])
    toysGLoop src l
  pure .none

/-- `H` (/repo/src/fingerprint/FingerprintTOYS.cpp:77-86); `-INT64_MIN` overflows. -/
def toysShift : Exec Err := do
  let b ← popTop
  let a ← popTop
  let r ← lift (if b > 0 then shlOp a b else if b = i64Min then .error .overflow else shrOp a (-b))
  pushTop r
  pure .none

/-- `J` (/repo/src/fingerprint/FingerprintTOYS.cpp:90-98). -/
def toysColumn : Exec Err := do
  let n ← popTop
  if n = 0 then pure .none
  else do
    let s ← get
    let ymin := s.g.field.min 1
    let ymax := s.g.field.max 1
    let x := s.cur.ip.pos.get 0
    copySpace (Vec.ofList [x, ymin]) (Vec.ofList [1, ymax - ymin + 1]) (Vec.ofList [x, ymin + n]) (n < 0) true
    pure .none

/-- `O` (/repo/src/fingerprint/FingerprintTOYS.cpp:121-129). -/
def toysRow : Exec Err := do
  let n ← popTop
  if n = 0 then pure .none
  else do
    let s ← get
    let xmin := s.g.field.min 0
    let xmax := s.g.field.max 0
    let y := s.cur.ip.pos.get 1
    copySpace (Vec.ofList [xmin, y]) (Vec.ofList [xmax - xmin + 1, 1]) (Vec.ofList [xmin + n, y]) (n < 0) true
    pure .none

/-- `L` and `R` (/repo/src/fingerprint/FingerprintTOYS.cpp:105-111, 144-150): `turn` is `left` or `right`. -/
def toysLook (turn : Vec → Vec) : Exec Err := do
  let d ← ipDelta
  let p ← ipPos
  let a ← fieldGet (p.add (turn d))
  pushTop a
  pure .none

/-- `Q` (/repo/src/fingerprint/FingerprintTOYS.cpp:137-143). -/
def toysTail : Exec Err := do
  let d ← ipDelta
  let p ← ipPos
  let a ← popTop
  fieldPut (p.add d.reverse) a
  pure .none

/-- The loop of `S` (/repo/src/fingerprint/FingerprintTOYS.cpp:157-159). -/
def toysSLoop (dest : Vec) (i : Int) : List Vec → Exec Unit
  | [] => pure ()
  | v :: t => do
    fieldPut (dest.add v) i
    toysSLoop dest i t

/-- `S` (/repo/src/fingerprint/FingerprintTOYS.cpp:151-161). -/
def toysFill : Exec Err := do
  let dest ← popVector
  let size ← popVector
  let i ← popTop
  match sizeToRange size with
  | none => pure ()
  | some b => do
    let l ← rangeOf (Vec.ofList [0]) b
    toysSLoop dest i l
  pure .none

/-- `T` (/repo/src/fingerprint/FingerprintTOYS.cpp:162-175). -/
def toysBranch : Exec Err := do
  let n ← popTop
  let x ← popTop
  let v ← axisVec n (if x = 0 then 1 else -1)
  let d ← getDims
  if (d : Int) > n then do
    setDelta v
    pure .none
  else pure .unspec

/-- The switch of `U` (/repo/src/fingerprint/FingerprintTOYS.cpp:185-205). -/
def toysArrow (r : Int) : Int :=
  if r = 0 then 62 else if r = 1 then 60 else if r = 2 then 118 else if r = 3 then 94 else if r = 4 then 104
  else if r = 5 then 108 else 63

/-- `U` (/repo/src/fingerprint/FingerprintTOYS.cpp:176-208). -/
def toysRandom : Exec Err := do
  let d ← getDims
  let q ← ask
  let r := q % (2 * (min d 3 : Nat) : Int)
  ipPut (toysArrow r)
  setDelta (Vec.empty.set (r / 2).toNat (if r % 2 = 1 then -1 else 1))
  pure .none

/-- `W` (/repo/src/fingerprint/FingerprintTOYS.cpp:215-226). -/
def toysWait : Exec Err := do
  let v ← popVector
  let value ← popTop
  let cell ← fieldGet v
  if cell < value then do
    pushTop value
    pushVector v
    pure .block
  else if cell > value then do
    onIP IP.reflect
    pure .none
  else pure .none

/-- `X`, `Y`, `Z` (/repo/src/fingerprint/FingerprintTOYS.cpp:227-249). -/
def toysStep (n : Nat) : Exec Err := do
  let d ← getDims
  if n = 0 ∨ d > n then do
    onIP fun ip => ip.setPos (ip.pos.set n (ip.pos.get n + 1))
    pure .none
  else pure .unspec

/-- `FingerprintTOYS::execute` (/repo/src/fingerprint/FingerprintTOYS.cpp:25-254). -/
def toysRun : Int → Exec Err
  | 65 => toysGable
  | 66 => toysButterfly
  | 67 => toysCopy true false
  | 68 => toysInc (-1)
  | 69 => toysFold (· + ·) 0
  | 70 => toysPutBlock
  | 71 => toysGetBlock
  | 72 => toysShift
  | 73 => toysInc 1
  | 74 => toysColumn
  | 75 => toysCopy false false
  | 76 => toysLook Vec.left
  | 77 => toysCopy true true
  | 78 => iNot
  | 79 => toysRow
  | 80 => toysFold (· * ·) 1
  | 81 => toysTail
  | 82 => toysLook Vec.right
  | 83 => toysFill
  | 84 => toysBranch
  | 85 => toysRandom
  | 86 => toysCopy false true
  | 87 => toysWait
  | 88 => toysStep 0
  | 89 => toysStep 1
  | 90 => toysStep 2
  | _ => pure .unimp

end Funge
