import Verif.Model.IP
/-
The arithmetic of coordinates with its undefined cases: `dim_t` is `int64_t` (/repo/src/include/funge_types.h:14), and where a sum or a negative
leaves its range the behaviour is undefined. `Model/Vec` and `Model/IP` are on unbounded numbers; the theorems of C108 say where the two agree.
-/
namespace Funge

/-- `this->set(i, this->get(i)+other.get(i))` for `i` from 0 on (/repo/src/Vector.cpp:94-100): undefined where a sum does not fit. -/
def Vec.addLoopCk (w : Vec) : List Nat → Vec → Except Fault Vec
  | [], v => .ok v
  | i :: t, v => if InI64 (v.get i + w.get i) then Vec.addLoopCk w t (v.set i (v.get i + w.get i)) else .error .overflow

/-- `Vector::operator+=` (/repo/src/Vector.cpp:94-100). -/
def Vec.addCk (v w : Vec) : Except Fault Vec := Vec.addLoopCk w (List.range (max v.size w.size)) v

/-- The loop of `Vector::reverse` (/repo/src/Vector.cpp:70-74): undefined where a negative does not fit. -/
def Vec.reverseLoopCk : Nat → Nat → Vec → Except Fault Vec
  | 0, _, v => .ok v
  | n + 1, i, v =>
    if i < v.size then
      if InI64 (- v.get i) then Vec.reverseLoopCk n (i + 1) (v.set i (- v.get i)) else .error .overflow
    else .ok v

/-- `Vector::reverse` (/repo/src/Vector.cpp:70-74). -/
def Vec.reverseCk (v : Vec) : Except Fault Vec := Vec.reverseLoopCk v.size 0 v

namespace IP

/-- `while(inField(field)) pos += delta;` (/repo/src/InstructionPointer.cpp:72-74). -/
def backLoopCk (dims : Nat) (f : Field) (d : Vec) : Nat → Vec → Except Fault Vec
  | 0, _ => .error .fuel
  | n + 1, p =>
    if inField dims f p then
      match p.addCk d with
      | .error e => .error e
      | .ok p => backLoopCk dims f d n p
    else .ok p

/-- `InstructionPointer::next` (/repo/src/InstructionPointer.cpp:53-80). -/
def nextCk (dims : Nat) (topo : Topo) (f : Field) (ip : IP) : Except Fault IP :=
  if ip.stopped then .ok ip
  else
    match ip.pos.addCk ip.delta with
    | .error e => .error e
    | .ok pos =>
      match topo with
      | .torus =>
        let pos := if pos.get 0 > 80 then pos.set 0 0 else if pos.get 0 < 0 then pos.set 0 79 else pos
        let pos := if pos.get 1 > 25 then pos.set 1 0 else if pos.get 1 < 0 then pos.set 1 24 else pos
        .ok { ip with pos := pos }
      | .lahey =>
        if inField dims f pos then .ok { ip with pos := pos }
        else
          match ip.delta.reverseCk with
          | .error e => .error e
          | .ok delta =>
            match pos.addCk delta with
            | .error e => .error e
            | .ok pos =>
              match backLoopCk dims f delta (backFuel dims f) pos with
              | .error e => .error e
              | .ok pos =>
                match delta.reverseCk with
                | .error e => .error e
                | .ok delta =>
                  match pos.addCk delta with
                  | .error e => .error e
                  | .ok pos => .ok { ip with delta := delta, pos := pos }

end IP
end Funge
