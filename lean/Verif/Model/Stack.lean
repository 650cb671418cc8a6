import Verif.Model.Basic
/-
Model of `Stack` (/repo/src/Stack.cpp) and `StackStack` (/repo/src/StackStack.cpp).
The per-stack mutex is not modelled: each method is one atomic step.
-/
namespace Funge

/-- `class Stack` (/repo/src/include/Stack.h:89-93). `items` lists `std::list<stack_t> stack` from `back()`
(the top) to `front()` (the bottom). -/
structure Stack where
  mode : Nat := 0
  items : List Int := []
  ops : Nat := 0
  deriving DecidableEq, Repr

namespace Stack

/-- `Stack::Stack()` (/repo/src/Stack.cpp:12-19). -/
def new : Stack := {}

/-- `Stack::Stack(const Stack&)` (/repo/src/Stack.cpp:21-28): contents copied, mode and age reset. -/
def copy (s : Stack) : Stack := { mode := 0, items := s.items, ops := 0 }

/-- `Stack::pop` (/repo/src/Stack.cpp:30-44). -/
def pop (s : Stack) : Int × Stack :=
  match s.items with
  | [] => (0, { s with ops := s.ops + 1 })
  | x :: t =>
    if hasMode s.mode modeQueue then
      ((x :: t).getLastD 0, { s with items := (x :: t).dropLast, ops := s.ops + 1 })
    else
      (x, { s with items := t, ops := s.ops + 1 })

/-- `Stack::peek` (/repo/src/Stack.cpp:46-57). -/
def peek (s : Stack) : Int :=
  match s.items with
  | [] => 0
  | x :: t => if hasMode s.mode modeQueue then (x :: t).getLastD 0 else x

/-- `Stack::push` (/repo/src/Stack.cpp:59-68); the returned count is always 1. -/
def push (s : Stack) (v : Int) : Stack :=
  if hasMode s.mode modeInvert then
    { s with items := s.items ++ [v], ops := s.ops + 1 }
  else
    { s with items := v :: s.items, ops := s.ops + 1 }

/-- `Stack::clear` (/repo/src/Stack.cpp:70-74). -/
def clear (s : Stack) : Stack := { s with items := [], ops := s.ops + 1 }

/-- `Stack::size` (/repo/src/Stack.cpp:76-78). -/
def size (s : Stack) : Nat := s.items.length

/-- `Stack::age` (/repo/src/Stack.cpp:80-82). -/
def age (s : Stack) : Nat := s.ops

/-- The iterator walk of `Stack::get` (/repo/src/Stack.cpp:89-100): advance `p` times, then dereference.
Walking past the end is undefined behaviour; the caller has checked the bound, so the `[]` case is
never reached. -/
def walk : List Int → Nat → Int
  | [], _ => 0
  | x :: _, 0 => x
  | _ :: t, p + 1 => walk t p

/-- `Stack::get` / `operator[]` (/repo/src/Stack.cpp:84-108); 1-based, from the end pops are taken from. -/
def get (s : Stack) (p : Nat) : Int :=
  if p ≤ s.items.length ∧ p > 0 then
    if hasMode s.mode modeQueue then walk s.items.reverse (p - 1) else walk s.items (p - 1)
  else 0

/-- `Stack::setMode` (/repo/src/Stack.cpp:110-112). -/
def setMode (s : Stack) (m : Nat) : Stack := { s with mode := m }

end Stack

/-- `class StackStack` (/repo/src/include/StackStack.h:140-142). `stacks` lists `std::vector<Stack*> stack`
from `back()` (the top) to `front()`, so `at(x)`, i.e. `stack[size-x-1]`, is `stacks[x]`. -/
structure StackStack where
  select : Nat := 0
  stacks : List Stack := [{}]
  deriving DecidableEq, Repr

namespace StackStack

/-- `StackStack::StackStack()` (/repo/src/StackStack.cpp:11-16). -/
def new : StackStack := {}

/-- `StackStack::StackStack(const StackStack&)` (/repo/src/StackStack.cpp:25-32): for i = 0, 1, … a copy of
`orig.at(i)` is `push_back`ed, i.e. becomes the new top. -/
def copy (ss : StackStack) : StackStack :=
  { select := ss.select, stacks := ss.stacks.foldl (fun acc s => s.copy :: acc) [] }

/-- `StackStack::size` (/repo/src/StackStack.cpp:80-82). -/
def size (ss : StackStack) : Nat := ss.stacks.length

/-- `StackStack::at` (/repo/src/StackStack.cpp:42-44, 54-56): out of range is undefined behaviour. -/
def at' (ss : StackStack) (x : Nat) : Except Fault Stack :=
  match ss.stacks[x]? with
  | some s => .ok s
  | none => .error .outOfRange

/-- Writing through the reference returned by `StackStack::at` (/repo/src/StackStack.cpp:42-44). -/
def setAt (ss : StackStack) (x : Nat) (s : Stack) : StackStack :=
  { ss with stacks := ss.stacks.set x s }

/-- `StackStack::pop` (/repo/src/StackStack.cpp:58-62): removes `back()` whatever is selected;
undefined behaviour when there is none. -/
def pop (ss : StackStack) : Except Fault StackStack :=
  match ss.stacks with
  | [] => .error .outOfRange
  | _ :: t => .ok { ss with stacks := t }

/-- `StackStack::push` (/repo/src/StackStack.cpp:64-66). -/
def push (ss : StackStack) : StackStack := { ss with stacks := Stack.new :: ss.stacks }

/-- `StackStack::insert` (/repo/src/StackStack.cpp:68-72): before index `size-pos-select` from the front, i.e.
`pos+select` stacks stay above the new one. -/
def insert (ss : StackStack) (pos : Nat) : Except Fault StackStack :=
  if pos + ss.select ≤ ss.stacks.length then
    .ok { ss with stacks := ss.stacks.take (pos + ss.select) ++ Stack.new :: ss.stacks.drop (pos + ss.select) }
  else .error .outOfRange

/-- `StackStack::remove` (/repo/src/StackStack.cpp:74-78): erases index `size-pos-select` from the front. With
`pos+select = 0` that is `end()`, undefined behaviour. In top-first order the index is `pos+select-1`. -/
def remove (ss : StackStack) (pos : Nat) : Except Fault StackStack :=
  if 0 < pos + ss.select ∧ pos + ss.select ≤ ss.stacks.length then
    .ok { ss with stacks := ss.stacks.eraseIdx (pos + ss.select - 1) }
  else .error .outOfRange

/-- `StackStack::setMode` (/repo/src/StackStack.cpp:84-88). -/
def setMode (ss : StackStack) (m : Nat) : StackStack :=
  { ss with stacks := ss.stacks.map (·.setMode m) }

/-- `StackStack::increment` (/repo/src/StackStack.cpp:90-97). -/
def increment (ss : StackStack) : Err × StackStack :=
  if ss.select > 0 then (.none, { ss with select := ss.select - 1 }) else (.unspec, ss)

/-- `StackStack::decrement` (/repo/src/StackStack.cpp:99-106). (`stack.size()-1` is unsigned; with no
stack at all the comparison is against `SIZE_MAX`.) -/
def decrement (ss : StackStack) : Err × StackStack :=
  if ss.stacks.length = 0 ∨ ss.select < ss.stacks.length - 1 then
    (.none, { ss with select := ss.select + 1 })
  else (.unspec, ss)

end StackStack
end Funge
