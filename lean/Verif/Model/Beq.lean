import Verif.Model.Field
/-
Model of the BeQunge loader (/repo/src/Field.cpp:98-163) and of the constructor that calls it (/repo/src/Field.cpp:14-38). A file is
the list of its bytes (0..255). The message on `cerr` for a second `Dimensions` is not modelled.
-/
namespace Funge
namespace Beq

/-- The bytes of a literal (all literals here are ASCII). -/
def text (s : String) : List Int := s.toList.map fun c => (c.toNat : Int)

/-- `splitString` (/repo/src/Field.cpp:98-107): `getline` up to the delimiter until the stream is exhausted. The text after the last delimiter is
always appended, even when it is empty. -/
def splitString (delim : Int) : List Int → List (List Int)
  | [] => [[]]
  | c :: t =>
    if c = delim then [] :: splitString delim t
    else match splitString delim t with
      | [] => [[c]]
      | w :: ws => (c :: w) :: ws

/-- The `std::istream` the file is read from: what is left and whether `good()`. -/
structure Input where
  rest : List Int
  good : Bool
  deriving DecidableEq, Repr

/-- The bytes up to a newline, and what follows the newline, if there is one. -/
def takeLine : List Int → List Int × Option (List Int)
  | [] => ([], none)
  | c :: t => if c = 10 then ([], some t) else (c :: (takeLine t).1, (takeLine t).2)

/-- `std::getline(file, line)` (/repo/src/Field.cpp:113, 147): the string is left alone when the stream is not good (its sentry fails before the string
is erased); reaching the end of the file makes the stream not good. -/
def getline (line : List Int) (s : Input) : List Int × Input :=
  if s.good then
    match takeLine s.rest with
    | (l, some r) => (l, { rest := r, good := true })
    | (l, none) => (l, { rest := [], good := false })
  else (line, s)

/-- `isspace` in the C locale. -/
def isSpace (c : Int) : Bool := c = 32 ∨ (9 ≤ c ∧ c ≤ 13)

/-- `isdigit`. -/
def isDigit (c : Int) : Bool := 48 ≤ c ∧ c ≤ 57

/-- An optional sign: whether it is a minus, and the rest. -/
def sign : List Int → Bool × List Int
  | [] => (false, [])
  | c :: t => if c = 45 then (true, t) else if c = 43 then (false, t) else (false, c :: t)

/-- The common part of `std::stoi` and `std::stoul` (/repo/src/Field.cpp:124-140): white space, sign, digits; anything after the digits is ignored. No
digits: none. -/
def strtol (t : List Int) : Option (Bool × Int) :=
  let s := sign (t.dropWhile isSpace)
  let ds := s.2.takeWhile isDigit
  if ds.isEmpty then none else some (s.1, ds.foldl (fun a c => a * 10 + (c - 48)) 0)

/-- `std::stoi` (/repo/src/Field.cpp:133, 140): an exception if there is no number, or one that does not fit `int`. Nothing catches it. -/
def stoi (t : List Int) : Except Fault Int :=
  match strtol t with
  | none => .error .exception
  | some (neg, v) =>
    let x := if neg then -v else v
    if -2147483648 ≤ x ∧ x ≤ 2147483647 then .ok x else .error .exception

/-- `std::stoul` (/repo/src/Field.cpp:124, 129): a minus sign negates modulo 2^64. -/
def stoul (t : List Int) : Except Fault Nat :=
  match strtol t with
  | none => .error .exception
  | some (neg, v) => if v ≤ 18446744073709551615 then .ok ((if neg then (-v) % 18446744073709551616 else v).toNat) else .error .exception

/-- `lines`, `origin`, `dim` of one control line, and `dims` of the file (/repo/src/Field.cpp:110, 115-117). -/
structure Ctl where
  lines : Nat := 0
  origin : Vec := Vec.empty
  dim : Nat := 0
  dims : Nat := 0
  deriving DecidableEq, Repr

/-- `cmd[1]` (/repo/src/Field.cpp:124-137): undefined behaviour if there is no argument. -/
def arg : List (List Int) → Except Fault (List Int)
  | _ :: a :: _ => .ok a
  | _ => .error .outOfRange

/-- The loop over the coordinates of `Origin` (/repo/src/Field.cpp:132-134). -/
def setOrigin : List (List Int) → Nat → Vec → Except Fault (Vec × Nat)
  | [], d, v => .ok (v, d)
  | w :: ws, d, v =>
    match stoi w with
    | .error e => .error e
    | .ok x => setOrigin ws (d + 1) (v.set d x)

/-- The loop over the coordinates of `Coord` (/repo/src/Field.cpp:138-142), which skips empty ones. -/
def setCoord : List (List Int) → Nat → Vec → Except Fault (Vec × Nat)
  | [], d, v => .ok (v, d)
  | w :: ws, d, v =>
    if w.isEmpty then setCoord ws (d + 1) v
    else match stoi w with
      | .error e => .error e
      | .ok x => setCoord ws (d + 1) (v.set d x)

/-- The branches over `cmd[0]` (/repo/src/Field.cpp:120-144). -/
def named (name : List Int) (cmd : List (List Int)) (k : Ctl) : Except Fault Ctl :=
  if name = text "Version" then .ok k
  else if name = text "Dimensions" then
    if k.dims = 0 then
      match arg cmd with
      | .error e => .error e
      | .ok a =>
        match stoul a with
        | .error e => .error e
        | .ok n => .ok { k with dims := n }
    else .ok k
  else if name = text "Lines" then
    match arg cmd with
    | .error e => .error e
    | .ok a =>
      match stoul a with
      | .error e => .error e
      | .ok n => .ok { k with lines := n }
  else if name = text "Origin" then
    match arg cmd with
    | .error e => .error e
    | .ok a =>
      match setOrigin (splitString 58 a) 0 k.origin with
      | .error e => .error e
      | .ok (v, d) => .ok { k with origin := v, dim := d }
  else if name = text "Coord" then
    match arg cmd with
    | .error e => .error e
    | .ok a =>
      match setCoord (splitString 58 a) k.dim k.origin with
      | .error e => .error e
      | .ok (v, d) => .ok { k with origin := v, dim := d }
  else .ok k

/-- One command of a control line (/repo/src/Field.cpp:118-144). -/
def command (c : List Int) (k : Ctl) : Except Fault Ctl := named ((splitString 32 c).headD []) (splitString 32 c) k

/-- The loop over the commands of a control line (/repo/src/Field.cpp:118-144). -/
def commands : List (List Int) → Ctl → Except Fault Ctl
  | [], k => .ok k
  | c :: cs, k =>
    match command c k with
    | .error e => .error e
    | .ok k' => commands cs k'

/-- The loop over the characters of a line (/repo/src/Field.cpp:148-151). `auto c : line` is a signed `char`. -/
def putLine (f : Field) (pos : Vec) : List Int → Field × Vec
  | [] => (f, pos)
  | c :: t => putLine (f.put pos (toChar c)) (pos.set 0 (pos.get 0 + 1)) t

/-- The loop over the lines of a block (/repo/src/Field.cpp:146-154). -/
def block (origin : Vec) : Nat → Vec → List Int → Input → Field → Input × Field
  | 0, _, _, s, f => (s, f)
  | n + 1, pos, line, s, f =>
    let r := getline line s
    let q := putLine f pos r.1
    let pos := q.2.set 0 (origin.get 0)
    let pos := pos.set 1 (pos.get 1 + 1)
    block origin n pos r.1 r.2 q.1

/-- The loop of `Field::parseBeq` over control lines (/repo/src/Field.cpp:111-156). The first argument bounds the number of rounds (`fuel_enough`: the length of
the file and two is enough). The result is `dims` and the field. -/
def loop : Nat → Nat → Input → Field → Except Fault (Nat × Field)
  | 0, _, _, _ => .error .fuel
  | n + 1, dims, s, f =>
    if s.good then
      let r := getline [] s
      match commands (splitString 44 r.1) { dims := dims } with
      | .error e => .error e
      | .ok k =>
        let q := block k.origin k.lines k.origin r.1 r.2 f
        loop n k.dims q.1 q.2
    else .ok (dims, f)

/-- `Field::parseBeq` (/repo/src/Field.cpp:109-163). -/
def parseBeq (f : Field) (bytes : List Int) : Except Fault Field :=
  match loop (bytes.length + 2) 0 { rest := bytes, good := true } f with
  | .error e => .error e
  | .ok (dims, f) => .ok (if f.dims = 0 then { f with dims := if dims = 0 then f.maxs.length else dims } else f)

/-- `Field::Field(file, FORMAT_BEQ, dim, csize)` (/repo/src/Field.cpp:14-38). -/
def load (dim : Nat) (charCells : Bool) (bytes : List Int) : Except Fault Field :=
  match parseBeq (Field.new dim charCells) bytes with
  | .error e => .error e
  | .ok f => .ok (if dim = 0 then { f with dims := f.maxs.length } else f)

end Beq
end Funge
