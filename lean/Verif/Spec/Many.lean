import Verif.Spec.Befunge
/-!
Specification of concurrent Befunge-98: several IPs on one playfield, which take turns. Each is a machine of Spec/Befunge.lean when it is its turn.
-/
namespace Funge.Ref

/-- Two lists of the same length whose members correspond. -/
inductive Matched {α β : Type} (P : α → β → Prop) : List α → List β → Prop
  | nil : Matched P [] []
  | cons {x y a c} : P x y → Matched P a c → Matched P (x :: a) (y :: c)

/-- What an IP has of its own. -/
structure Head where
  x : Int
  y : Int
  dx : Int
  dy : Int
  stack : List Int
  below : List (List Int)
  ox : Int
  oy : Int
  quote : Bool
  prev : Int

/-- The IP of a machine. -/
def Bef.head (b : Bef) : Head := ⟨b.x, b.y, b.dx, b.dy, b.stack, b.below, b.ox, b.oy, b.quote, b.prev⟩

/-- The machine with this IP. -/
def Bef.led (b : Bef) (h : Head) : Bef :=
  { b with x := h.x, y := h.y, dx := h.dx, dy := h.dy, stack := h.stack, below := h.below, ox := h.ox, oy := h.oy, quote := h.quote, prev := h.prev }

/-- The other IP after a split: it goes the other way, and has a copy of all the rest. -/
def Bef.twin (b : Bef) : Head := { b.turn.move.head with quote := false, prev := 0 }

/-- Several IPs. -/
structure Many where
  /-- The playfield, the input, the output, the exit code. -/
  world : Bef
  /-- The IPs, in the order of their turns. -/
  heads : List Head

namespace Many

/-- One turn, the first IP's. -/
inductive Turn (R : Rules) : Many → Many → Prop
  /-- It goes on, and its next turn is after all the others'. -/
  | go {b h t c} : Bef.Tick R (b.led h) c → c.over = false → Turn R ⟨b, h :: t⟩ ⟨c, t ++ [c.head]⟩
  /-- It stops; the others go on. -/
  | stop {b h t c} : Bef.Tick R (b.led h) c → c.over = true → c.code = none → Turn R ⟨b, h :: t⟩ ⟨{ c with over := false }, t⟩
  /-- It ends the program. -/
  | quit {b h t c v} : Bef.Tick R (b.led h) c → c.over = true → c.code = some v → Turn R ⟨b, h :: t⟩ ⟨c, []⟩
  /-- It splits. -/
  | split {b h t n d} : Bef.Idle R n (b.led h) d → d.splits R = true → Turn R ⟨b, h :: t⟩ ⟨d.move, t ++ [d.twin, d.move.head]⟩

/-- Some turns. -/
inductive Turns (R : Rules) : Nat → Many → Many → Prop
  | zero (m) : Turns R 0 m m
  | snoc {n a b c} : Turns R n a b → Turn R b c → Turns R (n + 1) a c

/-- No IP ever goes beyond the limits of the specification. Beyond it, here: an IP with more than one stack splits. -/
def Within (R : Rules) (m : Many) : Prop :=
  ∀ n b h t, Turns R n m ⟨b, h :: t⟩ → ∀ j d, Bef.Idle R j (b.led h) d → d.over = false → d.acts R ≠ [] ∨ (d.splits R = true ∧ d.below = [])

/-- The start of a program. -/
def start (R : Rules) (lines : List (List Int)) (inp : List Int) : Many := ⟨Bef.start R lines inp, [(Bef.start R lines inp).head]⟩

end Many
end Funge.Ref
