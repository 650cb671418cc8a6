import Verif.Spec.Befunge
import Verif.Model.State
/-!
Specification of ><>: a small machine, one step per cell, written from the language's description and not from the code. It shares the playfield
and the way of moving with the machine for Befunge (Spec/Befunge.lean). The values are numbers of the machine's arithmetic `fl`. A state has a
list of possible successors; an empty list means that the machine is beyond the limits this specification has. They are said at the words.
-/
namespace Funge.Ref

/-- The words. -/
inductive Swim
  | blank | push (n : Int) | go (dx dy : Int) | backslash | slash | bar | dash | hash | random | bridge | cond | jump
  | add | sub | mul | div | rem | eq | gt | lt | quote (q : Int)
  | dup | drop | swap | rot | len | left | right | rev | opens | closes | chr | num | input | reg | get | put | stop
  deriving DecidableEq, Repr

/-- What the characters mean. -/
def swims : List (Int × Swim) := [
  (32, .blank),
  (48, .push 0), (49, .push 1), (50, .push 2), (51, .push 3), (52, .push 4), (53, .push 5), (54, .push 6), (55, .push 7), (56, .push 8), (57, .push 9),
  (97, .push 10), (98, .push 11), (99, .push 12), (100, .push 13), (101, .push 14), (102, .push 15),
  (62, .go 1 0), (60, .go (-1) 0), (118, .go 0 1), (94, .go 0 (-1)),
  (92, .backslash), (47, .slash), (124, .bar), (95, .dash), (35, .hash), (120, .random), (33, .bridge), (63, .cond), (46, .jump),
  (43, .add), (45, .sub), (42, .mul), (44, .div), (37, .rem), (61, .eq), (41, .gt), (40, .lt), (39, .quote 39), (34, .quote 34),
  (58, .dup), (126, .drop), (36, .swap), (64, .rot), (108, .len), (123, .left), (125, .right), (114, .rev), (91, .opens), (93, .closes),
  (111, .chr), (110, .num), (105, .input), (38, .reg), (103, .get), (112, .put), (59, .stop)]

/-- The machine. -/
structure Fish extends Bef where
  /-- The quote the string began with. -/
  mark : Int
  /-- The registers of all stacks, the current one's first. -/
  regs : List (Option Int)

namespace Fish

/-- Another stack. -/
def on (b : Fish) (l : List Int) : Fish := { b with stack := l }

/-- Move one step. -/
def swim (b : Fish) : Fish := { b with toBef := b.toBef.move }

/-- Something smells fishy: the program ends with an error. -/
def die (b : Fish) : Fish := { b with over := true, code := some 1 }

/-- A word for the topmost two values; with fewer the program dies. -/
def two (b : Fish) (h : Int → Int → List Int → List Fish) : List Fish :=
  match b.stack with
  | x :: y :: l => h x y l
  | _ => [b.die]

/-- A word for the topmost value; with none the program dies. -/
def one (b : Fish) (h : Int → List Int → List Fish) : List Fish :=
  match b.stack with
  | x :: l => h x l
  | _ => [b.die]

/-- One or zero. -/
def truth (fl : FloatOps) (v : Bool) : Int := fl.ofInt (if v then 1 else 0)

/-- Execute a word, but for the move to the next cell. -/
def perform (fl : FloatOps) (R : Rules) (b : Fish) : Swim → List Fish
  | .blank => [b]
  | .push n => [b.on (fl.ofInt n :: b.stack)]
  | .go dx dy => [{ b with dx := dx, dy := dy }]
  | .backslash => [{ b with dx := b.dy, dy := b.dx }]
  | .slash => [{ b with dx := -b.dy, dy := -b.dx }]
  | .bar => [{ b with dx := -b.dx }]
  | .dash => [{ b with dy := -b.dy }]
  | .hash => [{ b with dx := -b.dx, dy := -b.dy }]
  | .random => [(1, 0), (-1, 0), (0, 1), (0, -1)].map fun d => { b with dx := d.1, dy := d.2 }
  | .bridge => [b.swim]
  | .cond => b.one fun x l => [if fl.isZero x then (b.on l).swim else b.on l]
  -- beyond this specification: a place off the rectangle the fish wraps around, or not a number of 64 bits
  | .jump => b.two fun y x l =>
    match fl.toI64 x, fl.toI64 y with
    | some x, some y => if b.has (x, y) then [{ b.on l with x := x, y := y }] else []
    | _, _ => []
  | .add => b.two fun x y l => [b.on (fl.add y x :: l)]
  | .sub => b.two fun x y l => [b.on (fl.sub y x :: l)]
  | .mul => b.two fun x y l => [b.on (fl.mul y x :: l)]
  | .div => b.two fun x y l => if fl.isZero x then [b.die] else [b.on (fl.div y x :: l)]
  -- beyond this specification: negative numbers, and what does not fit 64 bits
  | .rem => b.two fun x y l =>
    match fl.toI64 x, fl.toI64 y with
    | some x, some y => if x = 0 then [b.die] else if 0 < x ∧ 0 ≤ y then [b.on (fl.ofInt (y % x) :: l)] else []
    | _, _ => []
  | .eq => b.two fun x y l => [b.on (truth fl (fl.eq y x) :: l)]
  | .gt => b.two fun x y l => [b.on (truth fl (fl.lt x y) :: l)]
  | .lt => b.two fun x y l => [b.on (truth fl (fl.lt y x) :: l)]
  | .quote q => [{ b with quote := true, mark := q }]
  | .dup => b.one fun x l => [b.on (x :: x :: l)]
  | .drop => b.one fun _ l => [b.on l]
  | .swap => b.two fun x y l => [b.on (y :: x :: l)]
  | .rot =>
    match b.stack with
    | x :: y :: z :: l => [b.on (y :: z :: x :: l)]
    | _ => [b.die]
  | .len => [b.on (fl.ofInt b.stack.length :: b.stack)]
  -- beyond this specification: an empty stack
  | .left =>
    match b.stack.getLast? with
    | some x => [b.on (x :: b.stack.dropLast)]
    | none => []
  | .right =>
    match b.stack with
    | x :: l => [b.on (l ++ [x])]
    | [] => []
  | .rev => [b.on b.stack.reverse]
  -- beyond this specification: to take more than one value along
  | .opens => b.one fun x l =>
    match fl.toI64 x with
    | some n => if n < 0 then [] else if l.length < n.toNat then [b.die] else if n ≤ 1 then
        [{ b with stack := l.take n.toNat, below := l.drop n.toNat :: b.below, regs := none :: b.regs }] else []
    | none => []
  -- beyond this specification: to take more than one value back, and the last stack
  | .closes =>
    match b.below with
    | m :: r => if b.stack.length ≤ 1 then [{ b with stack := b.stack ++ m, below := r, regs := b.regs.tail }] else []
    | [] => []
  -- beyond this specification: what is not a character of ASCII
  | .chr => b.one fun x l =>
    match fl.toI64 x with
    | some n => if 0 ≤ n ∧ n ≤ 127 then [{ b.on l with out := b.out ++ [n] }] else []
    | none => []
  -- beyond this specification: what does not fit 64 bits
  | .num => b.one fun x l =>
    match fl.toI64 x with
    | some n => [{ b.on l with out := b.out ++ if fl.eq x (fl.ofInt n) then Bef.numeral n else fl.text x }]
    | none => []
  | .input =>
    match b.inp with
    | c :: t => [{ b.on (fl.ofInt c :: b.stack) with inp := t }]
    | [] => [b.on (fl.ofInt (-1) :: b.stack)]
  -- beyond this specification: a register that is full, and to put away what does not fit 64 bits
  | .reg =>
    match b.regs with
    | none :: r => b.one fun x l => if (fl.toI64 x).isSome then [{ b.on l with regs := some x :: r }] else []
    | _ => []
  -- beyond this specification: an empty cell, and a place that is not of 64 bits
  | .get => b.two fun y x l =>
    match fl.toI64 x, fl.toI64 y with
    | some x, some y => if b.cell x y = 32 then [] else [b.on (fl.ofInt (b.cell x y) :: l)]
    | _, _ => []
  -- beyond this specification: a place or a value that is not of 64 bits, and what `Bef.store` excludes
  | .put =>
    match b.stack with
    | y :: x :: v :: l =>
      match fl.toI64 x, fl.toI64 y, fl.toI64 v with
      | some x, some y, some v => ((b.on l).toBef.store R x y v).map fun c => { b with toBef := c }
      | _, _, _ => []
    | _ => [b.die]
  | .stop => [{ b with over := true }]

/-- The possible states after the cell the fish is on, but for the move to the next cell. -/
def acts (fl : FloatOps) (R : Rules) (b : Fish) : List Fish :=
  let c := b.cell b.x b.y
  if b.quote then (if c = b.mark then [{ b with quote := false }] else [b.on (fl.ofInt c :: b.stack)])
  else
    match swims.lookup c with
    | none => [b.die]
    | some w => b.perform fl R w

/-- One step of the machine. -/
def Step (fl : FloatOps) (R : Rules) (b b' : Fish) : Prop := b.over = false ∧ ∃ c ∈ b.acts fl R, b' = if c.over then c else c.swim

/-- Some steps. -/
inductive Steps (fl : FloatOps) (R : Rules) : Nat → Fish → Fish → Prop
  | zero (b) : Steps fl R 0 b b
  | snoc {n b c d} : Steps fl R n b c → Step fl R c d → Steps fl R (n + 1) b d

/-- Some steps over blanks. -/
inductive Idle (fl : FloatOps) (R : Rules) : Nat → Fish → Fish → Prop
  | zero (b) : Idle fl R 0 b b
  | snoc {n b c d} : Idle fl R n b c → Step fl R c d → d = { c with x := d.x, y := d.y } → Idle fl R (n + 1) b d

/-- The machine never goes beyond the limits of this specification. -/
def Within (fl : FloatOps) (R : Rules) (b : Fish) : Prop := ∀ n c, Steps fl R n b c → c.over = false → c.acts fl R ≠ []

/-- The machine at the start of a program. -/
def start (R : Rules) (lines : List (List Int)) (inp : List Int) : Fish where
  toBef := Bef.start R lines inp
  mark := 34
  regs := [none]

end Fish
end Funge.Ref
