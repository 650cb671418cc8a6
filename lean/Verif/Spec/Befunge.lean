import Verif.Spec.Layout
import Verif.Spec.Decimal
/-!
Specification of Befunge: a small machine, one step per cell, written from the language definitions (Befunge-93 and Funge-98) and not from the
code. A state has a list of possible successors; an empty list means that the machine is beyond the limits this specification has: a value
that does not fit 64 bits, fingerprints, files and other programs where they are allowed, or one of the cases listed at `store`, `numIn`, `charIn`,
`numOut`, `fetch`, `facts`.
-/
namespace Funge.Ref

/-- Which Befunge. -/
structure Rules where
  /-- The words of Befunge-98 are known. -/
  funge98 : Bool
  /-- In a string, white space after white space is passed over. -/
  sgml : Bool
  /-- A cell holds one byte. -/
  byte : Bool
  /-- There can be several IPs. -/
  many : Bool
  /-- How many cells ahead `k` finds an instruction. -/
  reach : Nat
  /-- The playfield is a torus of 80 by 25 cells. -/
  torus : Bool
  /-- Fingerprints can be loaded; files can be read and written; other programs can be run. -/
  load : Bool
  files : Bool
  run : Bool

/-- What a program asks of the system. -/
inductive Service
  | load | unload | read | write | run
  deriving DecidableEq, Repr

/-- Is it allowed? -/
def Rules.allows (R : Rules) : Service → Bool
  | .load | .unload => R.load
  | .read | .write => R.files
  | .run => R.run

/-- The words. -/
inductive Word
  | blank | push (n : Int) | go (dx dy : Int) | stop | bridge | ifEW | ifNS | random
  | not | rem | mul | add | sub | div | gt | pop | dup | swap
  | numIn | charIn | quote | numOut | charOut | get | put
  | noop | left | right | compare | reflect | absolute | jump | comment | quit | clear | fetch | store
  | opens | closes | under | split | iterate | info | system (k : Service)
  deriving DecidableEq, Repr

/-- Befunge-93. -/
def words93 : List (Int × Word) := [
  (32, .blank), (9, .blank),
  (48, .push 0), (49, .push 1), (50, .push 2), (51, .push 3), (52, .push 4), (53, .push 5), (54, .push 6), (55, .push 7), (56, .push 8), (57, .push 9),
  (62, .go 1 0), (60, .go (-1) 0), (118, .go 0 1), (94, .go 0 (-1)), (63, .random), (95, .ifEW), (124, .ifNS), (35, .bridge), (64, .stop),
  (43, .add), (45, .sub), (42, .mul), (47, .div), (37, .rem), (33, .not), (96, .gt), (58, .dup), (92, .swap), (36, .pop),
  (34, .quote), (46, .numOut), (44, .charOut), (38, .numIn), (126, .charIn), (103, .get), (112, .put)]

/-- What Befunge-98 adds. -/
def words98 : List (Int × Word) := [
  (97, .push 10), (98, .push 11), (99, .push 12), (100, .push 13), (101, .push 14), (102, .push 15),
  (122, .noop), (91, .left), (93, .right), (119, .compare), (114, .reflect), (120, .absolute), (106, .jump), (59, .comment), (113, .quit),
  (110, .clear), (39, .fetch), (115, .store), (123, .opens), (125, .closes), (117, .under), (116, .split),
  (107, .iterate), (121, .info), (40, .system .load), (41, .system .unload), (61, .system .run), (105, .system .read), (111, .system .write)]

/-- The meaning of a character. -/
def word (R : Rules) (c : Int) : Option Word := (if R.funge98 then words93 ++ words98 else words93).lookup c

/-- The machine. -/
structure Bef where
  /-- The playfield. -/
  cell : Int → Int → Int
  /-- The rectangle the IP wraps around. -/
  west : Int
  east : Int
  north : Int
  south : Int
  /-- The IP. -/
  x : Int
  y : Int
  dx : Int
  dy : Int
  /-- The stack, top first. -/
  stack : List Int
  /-- The stacks below it. -/
  below : List (List Int)
  /-- The storage offset. -/
  ox : Int
  oy : Int
  inp : List Int
  out : List Int
  /-- In a string; the last character pushed in it. -/
  quote : Bool
  prev : Int
  /-- Between two semicolons. -/
  comment : Bool
  /-- The program has ended; the exit code it asked for. -/
  over : Bool
  code : Option Int

namespace Bef

/-- Is the place within the rectangle? -/
def has (b : Bef) (p : Int × Int) : Bool := b.west ≤ p.1 && p.1 ≤ b.east && b.north ≤ p.2 && p.2 ≤ b.south

/-- As far back from `p` as the rectangle goes. -/
def back (b : Bef) : Nat → Int × Int → Int × Int
  | 0, p => p
  | k + 1, p => if b.has (p.1 - b.dx, p.2 - b.dy) then back b k (p.1 - b.dx, p.2 - b.dy) else p

/-- Where the next step leads: one delta ahead, or, at the edge, back along the line to the other edge. -/
def ahead (b : Bef) : Int × Int :=
  if b.has (b.x + b.dx, b.y + b.dy) then (b.x + b.dx, b.y + b.dy)
  else b.back ((b.east - b.west).toNat + (b.south - b.north).toNat) (b.x, b.y)

/-- Move one step. -/
def move (b : Bef) : Bef := { b with x := b.ahead.1, y := b.ahead.2 }

/-- Move some steps. -/
def moves : Nat → Bef → Bef
  | 0, b => b
  | k + 1, b => moves k b.move

/-- Does the next step lead across the east or the south edge of a torus? -/
def brink (R : Rules) (b : Bef) : Bool := R.torus && (b.x + b.dx > b.east || b.y + b.dy > b.south)

/-- Turn around. -/
def turn (b : Bef) : Bef := { b with dx := -b.dx, dy := -b.dy }

/-- The first and the second value on the stack; a missing value is zero. -/
def top (b : Bef) : Int := b.stack.headD 0
def next (b : Bef) : Int := b.stack.tail.headD 0

/-- Take `k` values from the stack, and put the given ones onto it. -/
def replace (b : Bef) (k : Nat) (l : List Int) : Bef := { b with stack := l ++ b.stack.drop k }

/-- A result, if it fits. -/
def result (b : Bef) (v : Int) : List Bef := if -9223372036854775808 ≤ v ∧ v ≤ 9223372036854775807 then [b.replace 2 [v]] else []

/-- The playfield with one cell changed. -/
def write (b : Bef) (x y v : Int) : Bef := { b with cell := fun i j => if i = x ∧ j = y then v else b.cell i j }

/-- Is there anything in a column, in a row? -/
def column (b : Bef) (x : Int) : Bool := (List.range ((b.south - b.north).toNat + 1)).any fun i => b.cell x (b.north + i) ≠ 32
def row (b : Bef) (y : Int) : Bool := (List.range ((b.east - b.west).toNat + 1)).any fun i => b.cell (b.west + i) y ≠ 32

/-- Is there something left at the edges this cell was at? (The row 0 does not matter.) -/
def kept (b : Bef) (x y : Int) : Bool :=
  (x ≠ b.west || b.column x) && (x ≠ b.east || b.column x) && (y = 0 || y ≠ b.north || b.row y) && (y = 0 || y ≠ b.south || b.row y)

/-- Store a value in the playfield. The rectangle grows as necessary. Clearing the last character of an outermost row or column is beyond this
specification, and so is storing, where a cell is a byte, a value that is not a blank but has the low byte of one. A torus does not grow, and what is
beyond it is beyond this specification. -/
def store (R : Rules) (b : Bef) (x y v : Int) : List Bef :=
  if R.torus then (if b.has (x, y) then [b.write x y (if R.byte then v.bmod 256 else v)] else [])
  else if v = 32 then (if (b.write x y 32).kept x y then [b.write x y 32] else [])
  else if R.byte && v.bmod 256 = 32 then []
  else [{ b.write x y (if R.byte then v.bmod 256 else v) with
          west := min b.west x, east := max b.east x, north := min b.north y, south := max b.south y }]

/-- White space. -/
def white (c : Int) : Bool := c = 32 || (9 ≤ c && c ≤ 13)

/-- A digit. -/
def digit (c : Int) : Bool := 48 ≤ c && c ≤ 57

/-- A number in decimal notation. -/
def numeral (v : Int) : List Int := (if v < 0 then [45] else []) ++ (Nat.toDigits 10 v.natAbs).map fun c => (c.toNat : Int)

/-- A number is read from the input: what is not a digit is passed over. Beyond this specification: the input ends right after the number. -/
def readNumber (b : Bef) : List Bef :=
  let t := b.inp.dropWhile (!digit ·)
  let ds := t.takeWhile digit
  let rest := t.dropWhile digit
  if ds = [] then [{ b with inp := [] }.turn]
  else if rest = [] ∨ digitsValue ds > 9223372036854775807 then []
  else [{ b.replace 0 [digitsValue ds] with inp := rest }]

/-- A character is read from the input. Beyond this specification: a carriage return. -/
def readChar (b : Bef) : List Bef :=
  match b.inp with
  | [] => [b.turn]
  | c :: t => if c = 13 then [] else [{ b.replace 0 [c] with inp := t }]

/-- The first values of a stack; a missing value is zero. -/
def first (n : Nat) (l : List Int) : List Int := l.take n ++ List.replicate (n - l.length) 0

/-- Begin a block: a new stack gets as many values as asked for, in the same order; if a negative number is asked for, the old stack gets so many
zeros. The old stack keeps the storage offset, and the new one is where the IP is to be next. -/
def begin (b : Bef) : Bef :=
  let l := b.stack.drop 1
  let m := if b.top < 0 then List.replicate b.top.natAbs 0 ++ l else l.drop b.top.natAbs
  { b with stack := if b.top < 0 then [] else first b.top.natAbs l, below := (b.oy :: b.ox :: m) :: b.below, ox := b.x + b.dx, oy := b.y + b.dy }

/-- End a block: the stack below gives the storage offset back and gets as many values as asked for, in the same order; if a negative number is asked
for, it loses so many. -/
def finish (b : Bef) : Bef :=
  let m := b.below.headD []
  { b with
    stack := if b.top < 0 then m.drop (2 + b.top.natAbs) else first b.top.natAbs (b.stack.drop 1) ++ m.drop 2
    below := b.below.drop 1, ox := (m.drop 1).headD 0, oy := m.headD 0 }

/-- Transfer values one by one: from the stack below, or, if a negative number is asked for, to it. -/
def transfer (b : Bef) : Bef :=
  let l := b.stack.drop 1
  let m := b.below.headD []
  let k := b.top.natAbs
  if b.top < 0 then { b with stack := l.drop k, below := ((first k l).reverse ++ m) :: b.below.drop 1 }
  else { b with stack := (first k m).reverse ++ l, below := m.drop k :: b.below.drop 1 }

/-- What `y` knows, in the order of the language definition; `none` is beyond this specification: who has made the interpreter, the number of the IP,
the date and the time, and what comes after the sizes of the stacks. (So is asking for all of it, or for a number of more than 31 bits.) -/
def facts (R : Rules) (b : Bef) : List (Option Int) :=
  -- 1 to 9; the first one is about what is available: `t`, `i`, `o`, `=`, and characters without waiting for a line
  [some ((if R.many then 1 else 0) + (if R.files then 2 + 4 else 0) + (if R.run then 8 else 0) + 16), some 8, none, none, none, none, some 2, none, some 0,
  -- 10 to 15: the IP
    some b.y, some b.x, some b.dy, some b.dx, some b.oy, some b.ox,
  -- 16 to 19: the rectangle
    some b.north, some b.west, some (b.south - b.north), some (b.east - b.west),
  -- 20 to 22: date, time, number of stacks
    none, none, some (b.below.length + 1)] ++
  -- from 23 on: their sizes
  (b.stack :: b.below).map fun l => some (l.length : Int)

/-- Execute a word, but for the move to the next cell. -/
def perform (R : Rules) (b : Bef) : Word → List Bef
  | .blank => [b]
  | .push n => [b.replace 0 [n]]
  | .go dx dy => [{ b with dx := dx, dy := dy }]
  | .stop => [{ b with over := true }]
  -- beyond this specification: from the east or the south edge of a torus
  | .bridge => if b.brink R then [] else [b.move]
  | .ifEW => [{ b.replace 1 [] with dx := if b.top = 0 then 1 else -1, dy := 0 }]
  | .ifNS => [{ b.replace 1 [] with dx := 0, dy := if b.top = 0 then 1 else -1 }]
  | .random => [(1, 0), (-1, 0), (0, 1), (0, -1)].map fun d => { b with dx := d.1, dy := d.2 }
  | .not => [b.replace 1 [if b.top = 0 then 1 else 0]]
  -- beyond this specification: the least number, if the quotient does not fit
  | .rem => if b.next = -9223372036854775808 ∧ b.top = -1 then [] else b.result (if b.top = 0 then 0 else b.next.tmod b.top)
  | .mul => b.result (b.next * b.top)
  | .add => b.result (b.next + b.top)
  | .sub => b.result (b.next - b.top)
  | .div => b.result (if b.top = 0 then 0 else b.next.tdiv b.top)
  | .gt => b.result (if b.next > b.top then 1 else 0)
  | .pop => [b.replace 1 []]
  | .dup => [b.replace 1 [b.top, b.top]]
  | .swap => [b.replace 2 [b.next, b.top]]
  | .numIn => b.readNumber
  | .charIn => b.readChar
  -- beyond this specification: a string across the east or the south edge of a torus; see `acts`
  | .quote => if b.brink R then [] else [{ b with quote := true }]
  -- beyond this specification: a value of more than 32 bits
  | .numOut => if -2147483648 ≤ b.top ∧ b.top ≤ 2147483647 then [{ b.replace 1 [] with out := b.out ++ numeral b.top ++ [32] }] else []
  | .charOut => [{ b.replace 1 [] with out := b.out ++ [b.top.bmod 256] }]
  -- beyond this specification: a place that is not on the torus
  | .get => if R.torus && !b.has (b.next + b.ox, b.top + b.oy) then [] else [b.replace 2 [b.cell (b.next + b.ox) (b.top + b.oy)]]
  | .put => (b.replace 3 []).store R (b.next + b.ox) (b.top + b.oy) ((b.stack.drop 2).headD 0)
  | .noop => [b]
  | .left => [{ b with dx := b.dy, dy := -b.dx }]
  | .right => [{ b with dx := -b.dy, dy := b.dx }]
  | .compare =>
    let c := b.replace 2 []
    [if b.next < b.top then { c with dx := b.dy, dy := -b.dx } else if b.next > b.top then { c with dx := -b.dy, dy := b.dx } else c]
  | .reflect => [b.turn]
  | .absolute => [{ b.replace 2 [] with dx := b.next, dy := b.top }]
  -- beyond this specification: a distance of more than 31 bits
  | .jump =>
    let c := b.replace 1 []
    if -2147483647 ≤ b.top ∧ b.top ≤ 2147483647 then [if b.top < 0 then (c.turn.moves b.top.natAbs).turn else c.moves b.top.natAbs] else []
  | .comment => [{ b with comment := true }]
  -- beyond this specification: an exit code of more than 32 bits
  | .quit => if -2147483648 ≤ b.top ∧ b.top ≤ 2147483647 then [{ b.replace 1 [] with over := true, code := some b.top }] else []
  | .clear => [{ b with stack := [] }]
  -- beyond this specification: a cell of more than 32 bits
  | .fetch =>
    let c := b.move
    let v := b.cell c.x c.y
    if -2147483648 ≤ v ∧ v ≤ 2147483647 then [c.replace 0 [v]] else []
  -- beyond this specification: a value that is not a signed byte
  | .store =>
    let c := b.move
    if -128 ≤ b.top ∧ b.top ≤ 127 then (c.replace 1 []).store R c.x c.y b.top else []
  -- beyond this specification, for these three: the least number
  | .opens => if b.top ≤ -9223372036854775808 then [] else [b.begin]
  | .closes => if b.below = [] then [b.turn] else if b.top ≤ -9223372036854775808 then [] else [b.finish]
  | .under => if b.below = [] then [b.turn] else if b.top ≤ -9223372036854775808 then [] else [b.transfer]
  -- with several IPs, see `Many`
  | .split => if R.many then [] else [b.turn]
  -- see `iterate`
  | .iterate => []
  | .info => if b.top ≤ 0 ∨ 2147483647 < b.top then [] else match ((b.replace 1 []).facts R)[b.top.toNat - 1]? with
    | some (some v) => [b.replace 1 [v]]
    | _ => []
  | .system k => if R.allows k then [] else [b.turn]

/-- Does a word fail, and turn the IP around? -/
def fails (R : Rules) (b : Bef) : Word → Bool
  | .numIn => b.inp.all (!digit ·)
  | .charIn => b.inp.isEmpty
  | .closes => b.below.isEmpty
  | .under => b.below.isEmpty
  | .system k => !R.allows k
  | _ => false

/-- The machine at the next instruction from here on, outside or inside of a comment: blanks and comments are passed over. -/
def seek : Nat → Bool → Bef → Option Bef
  | 0, _, _ => none
  | n + 1, inside, b =>
    if b.cell b.x b.y < -128 ∨ 127 < b.cell b.x b.y then none
    else if inside then seek n (b.cell b.x b.y ≠ 59) b.move
    else if b.cell b.x b.y = 59 then seek n true b.move
    else if b.cell b.x b.y = 32 then seek n false b.move
    else some b

/-- Execute a word again and again. Beyond this specification: it fails. -/
def repeated (R : Rules) (w : Word) : Nat → Bef → List Bef
  | 0, b => [b]
  | n + 1, b => if b.fails R w then [] else (b.perform R w).flatMap (repeated R w n)

/-- The words that can be executed again and again. -/
def repeatable (w : Word) : Bool := !([.blank, .comment, .stop, .quit, .quote, .split, .iterate] : List Word).contains w

/-- `k`: execute the next instruction as often as asked for, here; or, if it is zero times, pass over it. Beyond this specification: a number of
more than 31 bits; no instruction within reach; a cell that is not a character, on the way to it; a word that is unknown or not `repeatable`; to
pass over an instruction that is not in the next cell. -/
def iterate (R : Rules) (b : Bef) : List Bef :=
  match seek R.reach false b.move with
  | none => []
  | some d =>
    if b.top < -2147483648 ∨ 2147483647 < b.top then []
    else if b.top < 0 then [b.replace 1 []]
    else if b.top = 0 then (if d.x = b.move.x ∧ d.y = b.move.y then [{ b.replace 1 [] with x := d.x, y := d.y }] else [])
    else match word R (d.cell d.x d.y) with
      | none => []
      | some w => if repeatable w then repeated R w b.top.natAbs (b.replace 1 []) else []

/-- The possible states after the cell the IP is on, but for the move to the next cell. An unknown character turns the IP around. -/
def acts (R : Rules) (b : Bef) : List Bef :=
  let c := b.cell b.x b.y
  if b.comment then [{ b with comment := c ≠ 59 }]
  else if b.quote then
    if c = 34 then [{ b with quote := false, prev := 0 }]
    else if b.brink R then []
    else if !R.sgml then [b.replace 0 [c]]
    else if c < 0 ∨ 255 < c then []
    else if white c && white b.prev then [b]
    else [{ b.replace 0 [c] with prev := c }]
  else
    match word R c with
    | none => [b.turn]
    | some w => if w = .iterate then b.iterate R else b.perform R w

/-- One step of the machine. -/
def Step (R : Rules) (b b' : Bef) : Prop := b.over = false ∧ ∃ c ∈ b.acts R, b' = if c.over then c else c.move

/-- Some steps. -/
inductive Steps (R : Rules) : Nat → Bef → Bef → Prop
  | zero (b) : Steps R 0 b b
  | snoc {n b c d} : Steps R n b c → Step R c d → Steps R (n + 1) b d

/-- Is the cell passed over within a tick? Blanks are, white space in a string if so ruled, and what is between semicolons. -/
def idle (R : Rules) (b : Bef) : Bool :=
  let c := b.cell b.x b.y
  if b.comment then true
  else if b.quote then R.sgml && c ≠ 34 && white c && white b.prev
  else word R c = some .blank || word R c = some .comment

/-- Some steps over such cells. -/
inductive Idle (R : Rules) : Nat → Bef → Bef → Prop
  | zero (b) : Idle R 0 b b
  | snoc {n b c d} : Idle R n b c → c.idle R = true → Step R c d → Idle R (n + 1) b d

/-- A tick: to the next cell that is not passed over, and the step there. -/
def Tick (R : Rules) (b c : Bef) : Prop := ∃ n d, Idle R n b d ∧ d.idle R = false ∧ Step R d c

/-- Is the IP about to split? -/
def splits (R : Rules) (b : Bef) : Bool := R.many && !b.comment && !b.quote && word R (b.cell b.x b.y) = some .split

/-- The machine never goes beyond the limits of this specification. -/
def Within (R : Rules) (b : Bef) : Prop := ∀ n c, Steps R n b c → c.over = false → c.acts R ≠ []

/-- The largest of some numbers, at least zero. -/
def furthest (l : List Int) : Int := l.foldl max 0

/-- The outermost column with a character that is not a blank, and the outermost row. -/
def lastColumn (lines : List (List Int)) : Int := furthest (lines.flatMap fun l => (l.zipIdx.filter (·.1 ≠ 32)).map (·.2))
def lastRow (lines : List (List Int)) : Int := furthest ((lines.zipIdx.filter (·.1.any (· ≠ 32))).map (·.2))

/-- The machine at the start of a program. On a torus, the whole of it is what the IP wraps around. -/
def start (R : Rules) (lines : List (List Int)) (inp : List Int) : Bef where
  cell x y := ((Spec.cell2 lines x y).map fun c => if R.byte then c.bmod 256 else c).getD 32
  west := 0
  east := if R.torus then 79 else lastColumn lines
  north := 0
  south := if R.torus then 24 else lastRow lines
  x := 0
  y := 0
  dx := 1
  dy := 0
  stack := []
  below := []
  ox := 0
  oy := 0
  inp := inp
  out := []
  quote := false
  prev := 0
  comment := false
  over := false
  code := none

end Bef
end Funge.Ref
