import Verif.Spec.Fish
/-!
Specification of *><>: the machine of ><> (Spec/Fish.lean) with the words *><> adds, written from the language's description and not from the code. A state has a list of possible
successors; an empty list means that the machine is beyond the limits this specification has.
-/
namespace Funge.Ref

/-- The words *><> adds. `other` are those this specification leaves out: calls and returns, the choice of a stack, and files. -/
inductive StarWord
  | fisherman | dive | rise | sleep | clock | other
  deriving DecidableEq, Repr

/-- What the characters mean. -/
def starWords : List (Int × StarWord) := [
  (96, .fisherman), (117, .dive), (79, .rise), (83, .sleep), (104, .clock), (109, .clock), (115, .clock),
  (67, .other), (82, .other), (73, .other), (68, .other), (70, .other)]

/-- The words of ><> that only say where to go: the arrows and the mirrors. -/
def Swim.moves : Swim → Bool
  | .go _ _ | .backslash | .slash | .bar | .dash | .hash => true
  | _ => false

/-- The machine. -/
structure Star extends Fish where
  /-- The last horizontal direction the fish had. -/
  cast : Int
  /-- The fisherman is next to send it down. -/
  hook : Bool
  /-- The fish is under water. -/
  deep : Bool

namespace Star

/-- The same fisherman and water with another fish: when it goes along a line, the direction is kept in mind. -/
def follow (b : Star) (c : Fish) : Star := { toFish := c, cast := if c.dx ≠ 0 ∧ c.dy = 0 then c.dx else b.cast, hook := b.hook, deep := b.deep }

/-- Move one step. -/
def swim (b : Star) : Star := { b with toFish := b.toFish.swim }

/-- Execute an added word, but for the move to the next cell; `clock` are the numbers a clock can show. -/
def perform (fl : FloatOps) (clock : List Int) (b : Star) : StarWord → List Star
  -- a fish that goes along a line is sent down and up in turns, and one that does not goes on as it went along the last line
  | .fisherman => [if b.dy = 0 then { b with dx := 0, dy := if b.hook then 1 else -1, hook := !b.hook } else { b with dx := b.cast, dy := 0 }]
  | .dive => [{ b with deep := true }]
  | .rise => [{ b with deep := false }]
  | .sleep => (b.one fun _ l => [b.on l]).map b.follow
  | .clock => clock.map fun t => b.follow (b.on (fl.ofInt t :: b.stack))
  | .other => []

/-- The possible states after the cell the fish is on, but for the move to the next cell. Under water nothing but moving, diving and rising is done. -/
def acts (fl : FloatOps) (R : Rules) (clock : List Int) (b : Star) : List Star :=
  let c := b.cell b.x b.y
  if b.quote then (b.toFish.acts fl R).map b.follow
  else if b.deep then
    match starWords.lookup c with
    | some w => if w = .fisherman ∨ w = .dive ∨ w = .rise then b.perform fl clock w else [b]
    | none =>
      match swims.lookup c with
      | some w => if w.moves then (b.toFish.perform fl R w).map b.follow else [b]
      | none => [b]
  else
    match starWords.lookup c with
    | some w => b.perform fl clock w
    | none => (b.toFish.acts fl R).map b.follow

/-- One step of the machine. -/
def Step (fl : FloatOps) (R : Rules) (clock : List Int) (b b' : Star) : Prop := b.over = false ∧ ∃ c ∈ b.acts fl R clock, b' = if c.over then c else c.swim

/-- Some steps. -/
inductive Steps (fl : FloatOps) (R : Rules) (clock : List Int) : Nat → Star → Star → Prop
  | zero (b) : Steps fl R clock 0 b b
  | snoc {n b c d} : Steps fl R clock n b c → Step fl R clock c d → Steps fl R clock (n + 1) b d

/-- Some steps over blanks, or under water, over anything that is not done there. -/
inductive Idle (fl : FloatOps) (R : Rules) (clock : List Int) : Nat → Star → Star → Prop
  | zero (b) : Idle fl R clock 0 b b
  | snoc {n b c d} : Idle fl R clock n b c → Step fl R clock c d → d = { c with x := d.x, y := d.y } → Idle fl R clock (n + 1) b d

/-- The machine never goes beyond the limits of this specification. -/
def Within (fl : FloatOps) (R : Rules) (clock : List Int) (b : Star) : Prop := ∀ n c, Steps fl R clock n b c → c.over = false → c.acts fl R clock ≠ []

/-- The machine at the start of a program. -/
def start (R : Rules) (lines : List (List Int)) (inp : List Int) : Star where
  toFish := Fish.start R lines inp
  cast := 1
  hook := true
  deep := false

end Star
end Funge.Ref
