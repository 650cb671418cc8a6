import Verif.Model.Config
/-
The table of universes (/repo/src/FungeMultiverse.cpp).
-/
namespace Funge

/-- `FungeMultiverse` (/repo/src/include/FungeMultiverse.h:18-81): universes by name, and the first one. A universe is known by a number here, its contents
being elsewhere; the mutex, held during every `create`, is left out. -/
structure Multiverse where
  universes : List (List Char × Nat) := []
  prime : Option Nat := none
  deriving DecidableEq, Repr

/-- `FungeMultiverse::operator[]` (/repo/src/FungeMultiverse.cpp:88-93). -/
def Multiverse.find (m : Multiverse) (name : List Char) : Option Nat := m.universes.lookup name

/-- `universes.contains` (/repo/src/FungeMultiverse.cpp:36). -/
def Multiverse.contains (m : Multiverse) (name : List Char) : Bool := (m.find name).isSome

/-- The loop that looks for a name (/repo/src/FungeMultiverse.cpp:34-38 and 50-54): `cur` is `cfg.name`; `a` is 1 throughout. `fuel` bounds the rounds. -/
def Multiverse.pickName (m : Multiverse) (name : List Char) : Nat → List Char → Except Fault (List Char)
  | 0, _ => .error .fuel
  | fuel + 1, cur => if m.contains cur then m.pickName name fuel (name ++ '.' :: (toString (1 : Nat)).toList) else .ok cur

/-- `universes[name] = uni` (/repo/src/FungeMultiverse.cpp:41 and 56): replaces an entry that is there. -/
def Multiverse.set (m : Multiverse) (name : List Char) (uni : Nat) : Multiverse :=
  { m with universes := (name, uni) :: m.universes.filter (·.1 != name) }

/-- `FungeMultiverse::create` (/repo/src/FungeMultiverse.cpp:32-46 and 48-61), the name the universe got and the table after it. -/
def Multiverse.create (m : Multiverse) (fuel : Nat) (name : List Char) (uni : Nat) : Except Fault (List Char × Multiverse) :=
  match m.pickName name fuel name with
  | .error e => .error e
  | .ok n =>
    let m := m.set n uni
    .ok (n, { m with prime := match m.prime with | none => some uni | some p => some p })

end Funge
