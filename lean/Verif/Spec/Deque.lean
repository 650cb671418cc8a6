/-!
Specification: an ideal double-ended sequence of integers, written from the bottom (left) to the
top (right), and the four operations a user performs. Independent of the model.
-/
namespace Funge.Spec

/-- What a user can do with a stack. -/
inductive StackOp where
  | push (v : Int)
  | pop
  | clear
  | mode (queue invert : Bool)
  deriving DecidableEq, Repr

/-- The ideal sequence, bottom first, with the two mode switches. -/
structure Deque where
  contents : List Int
  queue : Bool
  invert : Bool

/-- One operation; a pop also yields the value handed out. -/
def Deque.step (d : Deque) : StackOp → Option Int × Deque
  | .push v => (none, { d with contents := if d.invert then [v] ++ d.contents else d.contents ++ [v] })
  | .clear => (none, { d with contents := [] })
  | .mode q i => (none, { d with queue := q, invert := i })
  | .pop =>
    if d.queue then
      (some (d.contents.head?.getD 0), { d with contents := d.contents.tail })
    else
      (some (d.contents.getLast?.getD 0), { d with contents := d.contents.dropLast })

/-- All values handed out by a sequence of operations. -/
def Deque.run (d : Deque) : List StackOp → List Int
  | [] => []
  | o :: os =>
    match d.step o with
    | (some x, d') => x :: d'.run os
    | (none, d') => d'.run os

end Funge.Spec
