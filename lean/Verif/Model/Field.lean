import Verif.Model.Vec
/-
Model of `Field` (/repo/src/Field.cpp): fungespace, its bounds, the loaders and `dump`.
Observers are not part of this structure (they are modelled with the debugger).
`parseBeq` is not here but in `Model/Beq.lean`.
-/
namespace Funge

/-- `class Field` (/repo/src/include/Field.h). `cells` is
`std::unordered_map<Vector, inst_t>` as an association list; keys are compared with `Vector::operator==`.
`charCells` is `cellsize == CELL_CHAR`. -/
structure Field where
  cells : List (Vec × Int) := []
  maxs : List Int := []
  mins : List Int := []
  planes : List Int := []
  dims : Nat := 0
  charCells : Bool := false
  deriving DecidableEq, Repr

namespace Field

/-- `Field::Field(size_t dim, FungeCell csize)` (/repo/src/Field.cpp:40-50). -/
def new (dims : Nat) (charCells : Bool) : Field := { dims := dims, charCells := charCells }

/-- `field.find(p)` (/repo/src/Field.cpp:257, 310). -/
def find (cells : List (Vec × Int)) (p : Vec) : Option Int :=
  match cells with
  | [] => none
  | (k, x) :: t => if k.eqv p then some x else find t p

/-- `field[p] = v` (/repo/src/Field.cpp:293, 295). -/
def store (cells : List (Vec × Int)) (p : Vec) (v : Int) : List (Vec × Int) :=
  match cells with
  | [] => [(p, v)]
  | (k, x) :: t => if k.eqv p then (k, v) :: t else (k, x) :: store t p v

/-- `field.erase(find)` (/repo/src/Field.cpp:259). -/
def erase (cells : List (Vec × Int)) (p : Vec) : List (Vec × Int) :=
  match cells with
  | [] => []
  | (k, x) :: t => if k.eqv p then t else (k, x) :: erase t p

/-- `while(maxs.size() < p.size()) maxs.push_back(0)` (/repo/src/Field.cpp:249-254). -/
def pad (l : List Int) (n : Nat) : List Int := l ++ List.replicate (n - l.length) 0

/-- Scan for the new maximum of axis `i` (/repo/src/Field.cpp:264-270). -/
def scanMax (cells : List (Vec × Int)) (i : Nat) : Int :=
  cells.foldl (fun m kv => if kv.1.get i > m then kv.1.get i else m) i64Min

/-- Scan for the new minimum of axis `i` (/repo/src/Field.cpp:274-280). -/
def scanMin (cells : List (Vec × Int)) (i : Nat) : Int :=
  cells.foldl (fun m kv => if kv.1.get i < m then kv.1.get i else m) i64Max

/-- `Field::put` (/repo/src/Field.cpp:248-298), without the observers. -/
def put (f : Field) (p : Vec) (v : Int) : Field :=
  let maxs := pad f.maxs p.size
  let mins := pad f.mins p.size
  if v = 32 then
    let cells := erase f.cells p
    { f with
      cells := cells
      maxs := maxs.mapIdx (fun i m => if i < p.size ∧ m = p.get i then scanMax cells i else m)
      mins := mins.mapIdx (fun i m => if i < p.size ∧ m = p.get i then scanMin cells i else m) }
  else
    { f with
      cells := store f.cells p (if f.charCells then toChar v else v)
      maxs := maxs.mapIdx (fun i m => if i < p.size ∧ m < p.get i then p.get i else m)
      mins := mins.mapIdx (fun i m => if i < p.size ∧ m > p.get i then p.get i else m) }

/-- `Field::get` / `operator[]` (/repo/src/Field.cpp:308-323). -/
def get (f : Field) (p : Vec) : Int :=
  let ret := match find f.cells p with
    | some x => x
    | none => 32
  if f.charCells then toChar ret else ret

/-- `Field::min` (/repo/src/Field.cpp:232-238). -/
def min (f : Field) (d : Nat) : Int := if h : d < f.mins.length then f.mins[d] else 0

/-- `Field::max` (/repo/src/Field.cpp:240-246). -/
def max (f : Field) (d : Nat) : Int := if h : d < f.maxs.length then f.maxs[d] else 0

/-- `Field::size` (/repo/src/Field.cpp:300-306). -/
def size (f : Field) : Nat := if f.dims = 0 then f.maxs.length else f.dims

/-- Local variables of `Field::parse` (/repo/src/Field.cpp:53-55). -/
structure PState where
  v : Vec
  max : Vec
  last : Int
  f : Field
  deriving DecidableEq, Repr

/-- `Field::increment` (/repo/src/Field.cpp:218-223). -/
def increment (d : Nat) (v max : Vec) : Vec × Vec :=
  let v' := v.set d (v.get d + 1)
  (v', if v'.get d > max.get d then max.set d (v'.get d) else max)

/-- `Field::reset` (/repo/src/Field.cpp:225-230). -/
def reset (d : Nat) (v start max : Vec) : Vec × Vec :=
  let max' := if v.get d > max.get d then max.set d (v.get d) else max
  (v.set d (start.get d), max')

/-- The newline branch of `Field::parse` (/repo/src/Field.cpp:65-68). -/
def parseNewline (start : Vec) (s : PState) : PState :=
  if s.last ≠ 12 ∧ s.last ≠ 11 then
    let (v, m) := increment 1 s.v s.max
    let (v, m) := reset 0 v start m
    { s with v := v, max := m }
  else s

/-- The form feed branch of `Field::parse` (/repo/src/Field.cpp:70-75). -/
def parseFF (start : Vec) (s : PState) : PState :=
  if s.f.dims = 0 ∨ s.f.dims ≥ 3 then
    let (v, m) := reset 0 s.v start s.max
    let (v, m) := reset 1 v start m
    let (v, m) := increment 2 v m
    { s with v := v, max := m, last := 12 }
  else s

/-- The vertical tab branch of `Field::parse` (/repo/src/Field.cpp:77-83). -/
def parseVT (start : Vec) (s : PState) : PState :=
  if s.f.dims = 0 ∨ s.f.dims ≥ 3 then
    let (v, m) := reset 0 s.v start s.max
    let (v, m) := reset 1 v start m
    let (v, m) := reset 2 v start m
    let (v, m) := increment 3 v m
    { s with v := v, max := m, last := 11 }
  else s

/-- The ordinary-character branch of `Field::parse` (/repo/src/Field.cpp:85-89). -/
def parseChar (i : Int) (s : PState) : PState :=
  let f := if i ≠ 32 then s.f.put s.v i else s.f
  let (v, m) := increment 0 s.v s.max
  { v := v, max := m, last := i, f := f }

/-- The loop of `Field::parse` (/repo/src/Field.cpp:56-91) over the bytes of the file. A CR peeks at the next
byte and swallows an LF (/repo/src/Field.cpp:59-64). -/
def parseLoop (start : Vec) (binary : Bool) : List Int → PState → PState
  | [], s => s
  | 13 :: 10 :: t, s =>
    if binary then parseLoop start binary (10 :: t) (parseChar 13 s)
    else parseLoop start binary t (parseNewline start s)
  | i :: t, s =>
    if (i = 10 ∨ i = 13) ∧ ¬ binary then parseLoop start binary t (parseNewline start s)
    else if i = 12 ∧ ¬ binary then parseLoop start binary t (parseFF start s)
    else if i = 11 ∧ ¬ binary then parseLoop start binary t (parseVT start s)
    else parseLoop start binary t (parseChar i s)

/-- `Field::parse` (/repo/src/Field.cpp:52-96): returns `max - start` and the new field. -/
def parse (f : Field) (start : Vec) (binary : Bool) (bytes : List Int) : Vec × Field :=
  let s := parseLoop start binary bytes { v := start, max := start, last := 0, f := f }
  (s.max.sub start, if s.f.dims = 0 then { s.f with dims := s.f.maxs.length } else s.f)

/-- `Field::Field(file, FORMAT_BF, dim, csize)` (/repo/src/Field.cpp:14-38). -/
def load (dims : Nat) (charCells : Bool) (bytes : List Int) : Field :=
  let f := (parse { dims := dims, charCells := charCells } (Vec.ofList [0]) false bytes).2
  if dims = 0 then { f with dims := f.maxs.length } else f

/-- Inner loop of `Field::parseFungeLib` (/repo/src/Field.cpp:181-184). -/
def flLine (f : Field) (pos : Vec) : List Int → Field × Vec
  | [] => (f, pos)
  | c :: t => flLine (f.put pos (toChar c)) (pos.add (Vec.ofList [1])) t

/-- Loop of `Field::parseFungeLib` (/repo/src/Field.cpp:169-187) over the lines of the file. -/
def flLoop (f : Field) (pos : Vec) : List (List Int) → Field
  | [] => f
  | line :: t =>
    match line with
    | [61, ext] =>
      if 65 ≤ ext ∧ ext ≤ 90 then
        flLoop { f with planes := f.planes ++ [ext] } (Vec.ofList [0, 0, ext - 65]) t
      else
        let (f, pos) := flLine f pos line
        flLoop f ((pos.add (Vec.ofList [0, 1])).set 0 0) t
    | _ =>
      let (f, pos) := flLine f pos line
      flLoop f ((pos.add (Vec.ofList [0, 1])).set 0 0) t

/-- Local variables of `Field::dump` (/repo/src/Field.cpp:191-193) plus what has been written. -/
structure DState where
  v : Vec
  buffer : List Int
  out : List Int
  deriving DecidableEq, Repr

/-- Loop of `Field::dump` (/repo/src/Field.cpp:194-215); `none` if not finished within the fuel. -/
def dumpLoop (f : Field) (start e : Vec) (binary : Bool) : Nat → DState → Option (List Int)
  | 0, _ => none
  | n + 1, s =>
    if s.v.lt e then
      let i := f.get s.v
      let buffer := s.buffer ++ [toChar i]
      let (out, buffer) := if i ≠ 32 ∨ binary then (s.out ++ buffer, []) else (s.out, buffer)
      let v := s.v.set 0 (s.v.get 0 + 1)
      let (v, out, buffer) :=
        if v.get 0 ≥ e.get 0 then
          (((v.set 1 (v.get 1 + 1)).set 0 (start.get 0)), out ++ [10], if binary then buffer else [])
        else (v, out, buffer)
      if v.get 1 ≥ e.get 1 then some out
      else dumpLoop f start e binary n { v := v, buffer := buffer, out := out }
    else some s.out

/-- `Field::dump` (/repo/src/Field.cpp:190-216): the bytes written (as signed chars). -/
def dump (f : Field) (fuel : Nat) (start delta : Vec) (binary : Bool) : Option (List Int) :=
  dumpLoop f start (start.add delta) binary fuel { v := start, buffer := [], out := [] }

end Field
end Funge
