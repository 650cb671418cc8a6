import Verif.Model.Basic
/-
Model of `Vector` (/repo/src/Vector.cpp, /repo/src/include/Vector.h).
Coordinate arithmetic is on unbounded `Int` (simplification: the overflow of a coordinate past
±2^63 is modelled in Model/Checked, and C108 says where the two agree).
-/
namespace Funge

/-- `class Vector`: `std::vector<dim_t> values` (/repo/src/include/Vector.h:129). -/
structure Vec where
  vals : List Int
  deriving DecidableEq, Repr

namespace Vec

/-- The loop of `Vector::normalize` (/repo/src/Vector.cpp:44-48) on the reversed list: while there is
more than one value and the last one is 0, drop it. -/
def stripRev : List Int → List Int
  | x :: y :: t => if x = 0 then stripRev (y :: t) else x :: y :: t
  | l => l

/-- `Vector::normalize` (/repo/src/Vector.cpp:44-48). -/
def normalize (v : Vec) : Vec := ⟨(stripRev v.vals.reverse).reverse⟩

/-- `Vector(std::initializer_list)` (/repo/src/Vector.cpp:24-28). -/
def ofList (l : List Int) : Vec := normalize ⟨l⟩

/-- `Vector()` (/repo/src/Vector.cpp:12-16). -/
def empty : Vec := ⟨[]⟩

/-- `Vector::size` (/repo/src/Vector.cpp:50-52). -/
def size (v : Vec) : Nat := v.vals.length

/-- `Vector::get` / `operator[]` (/repo/src/Vector.cpp:54-60, 90-92). -/
def get (v : Vec) (d : Nat) : Int :=
  if h : d < v.vals.length then v.vals[d] else 0

/-- `Vector::set` (/repo/src/Vector.cpp:62-68): pad with zeros up to index `d`, assign, normalize. -/
def set (v : Vec) (d : Nat) (x : Int) : Vec :=
  normalize ⟨(v.vals ++ List.replicate (d + 1 - v.vals.length) 0).set d x⟩

/-- Loop of `Vector::reverse` (/repo/src/Vector.cpp:70-74), which re-reads `values.size()` on each
iteration; the first argument bounds the number of iterations by the initial size (`set` at an
existing index never enlarges the vector). -/
def reverseLoop : Nat → Nat → Vec → Vec
  | 0, _, v => v
  | n + 1, i, v => if i < v.size then reverseLoop n (i + 1) (v.set i (- v.get i)) else v

/-- `Vector::reverse` (/repo/src/Vector.cpp:70-74). -/
def reverse (v : Vec) : Vec := reverseLoop v.size 0 v

/-- `Vector::left` (/repo/src/Vector.cpp:76-81). -/
def left (v : Vec) : Vec := (v.set 0 (v.get 1)).set 1 (- v.get 0)

/-- `Vector::right` (/repo/src/Vector.cpp:83-88). -/
def right (v : Vec) : Vec := (v.set 0 (- v.get 1)).set 1 (v.get 0)

/-- `Vector::operator+=` / `operator+` (/repo/src/Vector.cpp:94-104). -/
def add (v w : Vec) : Vec :=
  (List.range (max v.size w.size)).foldl (fun a i => a.set i (a.get i + w.get i)) v

/-- `Vector::operator-=` / `operator-` (/repo/src/Vector.cpp:106-116). -/
def sub (v w : Vec) : Vec :=
  (List.range (max v.size w.size)).foldl (fun a i => a.set i (a.get i - w.get i)) v

/-- Loop of `Vector::operator<` (/repo/src/Vector.cpp:118-130), from the highest coordinate down. -/
def ltLoop (v w : Vec) : Nat → Bool
  | 0 => false
  | i + 1 =>
    if v.get i > w.get i then false
    else if v.get i < w.get i then true
    else ltLoop v w i

/-- `Vector::operator<` (/repo/src/Vector.cpp:118-130). -/
def lt (v w : Vec) : Bool := ltLoop v w (max v.size w.size)

/-- Loop of `Vector::operator<=` (/repo/src/Vector.cpp:132-144). -/
def leLoop (v w : Vec) : Nat → Bool
  | 0 => true
  | i + 1 =>
    if v.get i > w.get i then false
    else if v.get i < w.get i then true
    else leLoop v w i

/-- `Vector::operator<=` (/repo/src/Vector.cpp:132-144). -/
def le (v w : Vec) : Bool := leLoop v w (max v.size w.size)

/-- `Vector::operator==` (/repo/src/Vector.cpp:146-154). -/
def eqv (v w : Vec) : Bool :=
  (List.range (max v.size w.size)).all (fun i => v.get i == w.get i)

/-- `Vector::hash::operator()` (/repo/src/Vector.cpp:211-217): `hash = (hash << 8) ^ i` on `size_t`, with
`i` converted to unsigned 64 bit. -/
def hash (v : Vec) : BitVec 64 :=
  v.vals.foldl (fun h i => (h <<< 8) ^^^ BitVec.ofInt 64 i) 0

end Vec
end Funge
