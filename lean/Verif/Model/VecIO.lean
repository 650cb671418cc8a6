import Verif.Model.State
/-
Printing and reading vectors (/repo/src/Vector.cpp:159-209).
-/
namespace Funge

/-- The elements of a vector with ", " between them (/repo/src/Vector.cpp:161-166). -/
def printVals : List Int → List Int
  | [] => []
  | [x] => decimal x
  | x :: y :: t => decimal x ++ [44, 32] ++ printVals (y :: t)

/-- `operator<<(std::ostream&, const Vector&)` (/repo/src/Vector.cpp:159-169). -/
def printVec (v : Vec) : List Int := 40 :: printVals v.vals ++ [41]

/-- A `std::istream`: the characters left, and whether it has failed (an extraction met the end). Used by `operator>>` (/repo/src/Vector.cpp:171-209). -/
structure IStream where
  rest : List Int
  failed : Bool := false
  deriving DecidableEq, Repr

namespace IStream

/-- White space of the "C" locale, which `>>` skips (/repo/src/Vector.cpp:174) and `isspace` accepts (/repo/src/Vector.cpp:194). -/
def isSpace (c : Int) : Bool := c == 32 || (9 ≤ c && c ≤ 13)

/-- Skip white space in front of a character (/repo/src/Vector.cpp:174). -/
def skip : List Int → List Int
  | [] => []
  | c :: t => if isSpace c then skip t else c :: t

/-- `is >> c` (/repo/src/Vector.cpp:174, 176, 198): at the end, or on a stream that has failed, `c` keeps its value. -/
def char (is : IStream) (c : Int) : Int × IStream :=
  if is.failed then (c, is)
  else match skip is.rest with
    | [] => (c, ⟨[], true⟩)
    | x :: t => (x, ⟨t, false⟩)

/-- `is.unget()` (/repo/src/Vector.cpp:195, 205), of the character last read, which is `c`; nothing happens on a stream that has failed. -/
def unget (is : IStream) (c : Int) : IStream := if is.failed then is else ⟨c :: is.rest, false⟩

end IStream

/-- `if(neg) v = -v;` (/repo/src/Vector.cpp:184-186, 200-202). -/
def signed (neg : Bool) (v : Int) : Except Fault Int := if neg then ck (-v) else .ok v

/-- The end of the branch on '(' in `operator>>` (/repo/src/Vector.cpp:200-203, 207-208). -/
def readEnd (rhs : Vec) (d : Nat) (v : Int) (neg : Bool) (is : IStream) : Except Fault (Vec × IStream) := do
  let v ← signed neg v
  pure ((rhs.set d v).normalize, is)

/-- The loop of `operator>>` (/repo/src/Vector.cpp:180-199), with `c` the current character. The coordinate `v` is a `dim_t`, whose overflow is undefined; so
is `isdigit` of a negative character other than -1. -/
def readLoop : Nat → Vec → Nat → Int → Bool → Int → IStream → Except Fault (Vec × IStream)
  | 0, _, _, _, _, _, _ => .error .fuel
  | n + 1, rhs, d, v, neg, c, is =>
    if c = 41 then readEnd rhs d v neg is
    else if c < -1 then .error .ctype
    else if 48 ≤ c ∧ c ≤ 57 then do
      let v ← ck (v * 10)
      let v ← ck (v + (c - 48))
      let (c, is) := is.char c
      readLoop n rhs d v neg c is
    else if c = 44 then do
      let v ← signed neg v
      let (c, is) := is.char c
      readLoop n (rhs.set d v) (d + 1) 0 false c is
    else if v = 0 ∧ c = 45 then do
      let (c, is) := is.char c
      readLoop n rhs d v true c is
    else if IStream.isSpace c then do
      let (c, is) := is.char c
      readLoop n rhs d v neg c is
    else readEnd rhs d v neg (is.unget c)

/-- `operator>>(std::istream&, Vector&)` (/repo/src/Vector.cpp:171-209); `c` is the value the uninitialised local variable `c` has (/repo/src/Vector.cpp:173). -/
def readVec (fuel : Nat) (c : Int) (is : IStream) : Except Fault (Vec × IStream) :=
  let (c, is) := is.char c
  if c = 40 then
    let (c, is) := is.char c
    readLoop fuel Vec.empty 0 0 false c is
  else pure (Vec.empty, is.unget c)

end Funge
