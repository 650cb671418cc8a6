import Verif.Model.Field
/-
Model of `InstructionPointer` (/repo/src/InstructionPointer.cpp).
-/
namespace Funge

/-- `FungeTopo` (/repo/src/include/funge_types.h:50-53). -/
inductive Topo | torus | lahey
  deriving DecidableEq, Repr

/-- `class InstructionPointer` (/repo/src/include/InstructionPointer.h); the initial values are those of the
constructor (/repo/src/InstructionPointer.cpp:14-23). Delta observers are modelled where they are used (SUBR, NFUN). -/
structure IP where
  pos : Vec := Vec.ofList [0]
  delta : Vec := Vec.ofList [1]
  storage : Vec := Vec.ofList [0]
  stopped : Bool := false
  deriving DecidableEq, Repr

namespace IP

/-- `InstructionPointer::inField` (/repo/src/InstructionPointer.cpp:44-51). -/
def inField (dims : Nat) (f : Field) (p : Vec) : Bool :=
  (List.range dims).all (fun n => !(p.get n < f.min n || p.get n > f.max n))

/-- `while(inField(field)) pos += delta;` (/repo/src/InstructionPointer.cpp:72-74); `none` if it has not stopped within
the fuel. -/
def backLoop (dims : Nat) (f : Field) (d : Vec) : Nat → Vec → Option Vec
  | 0, _ => none
  | n + 1, p => if inField dims f p then backLoop dims f d n (p.add d) else some p

/-- Number of iterations after which `backLoop` has stopped if it ever stops (theorem
`backLoop_fuel_complete`); no counterpart in the source. -/
def backFuel (dims : Nat) (f : Field) : Nat :=
  ((List.range dims).map (fun n => (f.max n - f.min n + 1).toNat)).sum + 1

/-- `InstructionPointer::next` (/repo/src/InstructionPointer.cpp:53-80). A walk back that never ends is `Fault.fuel`. -/
def next (dims : Nat) (topo : Topo) (f : Field) (ip : IP) : Except Fault IP :=
  if ip.stopped then .ok ip
  else
    let pos := ip.pos.add ip.delta
    match topo with
    | .torus =>
      let pos := if pos.get 0 > 80 then pos.set 0 0 else if pos.get 0 < 0 then pos.set 0 79 else pos
      let pos := if pos.get 1 > 25 then pos.set 1 0 else if pos.get 1 < 0 then pos.set 1 24 else pos
      .ok { ip with pos := pos }
    | .lahey =>
      if inField dims f pos then .ok { ip with pos := pos }
      else
        let delta := ip.delta.reverse
        match backLoop dims f delta (backFuel dims f) (pos.add delta) with
        | none => .error .fuel
        | some pos =>
          let delta := delta.reverse
          .ok { ip with delta := delta, pos := pos.add delta }

/-- `InstructionPointer::setDelta` (/repo/src/InstructionPointer.cpp:86-98); `hover` is
`isMode(FUNGE_MODE_HOVER)`. -/
def setDelta (hover : Bool) (ip : IP) (v : Vec) : IP :=
  if hover then
    let delta := (List.range (max ip.delta.size v.size)).foldl
        (fun d i => d.set i (d.get i + v.get i)) ip.delta
    { ip with delta := delta }
  else { ip with delta := v }

/-- `InstructionPointer::setPos` (/repo/src/InstructionPointer.cpp:82-84). -/
def setPos (ip : IP) (v : Vec) : IP := { ip with pos := v }

/-- `InstructionPointer::setStorage` (/repo/src/InstructionPointer.cpp:100-102). -/
def setStorage (ip : IP) (v : Vec) : IP := { ip with storage := v }

/-- `InstructionPointer::reflect` (/repo/src/InstructionPointer.cpp:104-106). -/
def reflect (ip : IP) : IP := { ip with delta := ip.delta.reverse }

/-- `InstructionPointer::left` (/repo/src/InstructionPointer.cpp:108-110). -/
def left (ip : IP) : IP := { ip with delta := ip.delta.left }

/-- `InstructionPointer::right` (/repo/src/InstructionPointer.cpp:112-114). -/
def right (ip : IP) : IP := { ip with delta := ip.delta.right }

/-- `InstructionPointer::stop` (/repo/src/InstructionPointer.cpp:116-118). -/
def stop (ip : IP) : IP := { ip with stopped := true }

end IP
end Funge
