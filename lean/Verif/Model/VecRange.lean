import Verif.Model.Vec
/-
Model of `VectorRange` (/repo/src/VectorRange.cpp).
-/
namespace Funge

/-- `class VectorRange` (/repo/src/include/VectorRange.h). -/
structure VecRange where
  vbegin : Vec
  vlast : Vec
  vend : Vec
  current : Vec
  deriving DecidableEq, Repr

namespace VecRange

/-- `VectorRange::VectorRange` (/repo/src/VectorRange.cpp:11-22). -/
def new (first last : Vec) : VecRange :=
  { vbegin := first
    vlast := last
    vend := if last.get 0 ≥ first.get 0 then last.set 0 (last.get 0 + 1) else last.set 0 (last.get 0 - 1)
    current := first }

/-- The loop of `VectorRange::operator++` (/repo/src/VectorRange.cpp:38-62): `m` iterations left, at
dimension `i`. -/
def stepLoop (b last e : Vec) : Nat → Nat → Vec → Vec
  | 0, _, cur => cur
  | m + 1, i, cur =>
    let n := if e.get i ≥ b.get i then cur.get i + 1 else cur.get i - 1
    let cur1 := cur.set i n
    if cur1.eqv e then cur1
    else if last.get i ≥ b.get i then
      if n > last.get i then stepLoop b last e m (i + 1) (cur1.set i (b.get i)) else cur1
    else
      if n < last.get i then stepLoop b last e m (i + 1) (cur1.set i (b.get i)) else cur1

/-- `VectorRange::operator++` (/repo/src/VectorRange.cpp:36-64). -/
def step (r : VecRange) : VecRange :=
  { r with current := stepLoop r.vbegin r.vlast r.vend (max r.vbegin.size r.vend.size) 0 r.current }

/-- The loop `for(range.begin(); *range != range.end(); ++range)` (e.g. /repo/src/fingerprint/FingerprintTOYS.cpp:269),
collecting the values of `*range`; `none` if it has not finished within the fuel. -/
def visit : Nat → VecRange → Option (List Vec)
  | 0, _ => none
  | n + 1, r =>
    if r.current.eqv r.vend then some []
    else (visit n r.step).map (r.current :: ·)

end VecRange
end Funge
