/-
Basic types of the model: cells, faults, error codes, casts.
Source: /repo/src/include/funge_types.h
-/
namespace Funge

/-- `stack_t`, `inst_t`, `dim_t` are all `int64_t` (/repo/src/include/funge_types.h:14-16).
Modelled as `Int`; operations whose exact result may leave the 64-bit range go through the checked
operations below. -/
abbrev Cell := Int

/-- Smallest `int64_t` (`std::numeric_limits<dim_t>::min()`, used in /repo/src/Field.cpp:264). -/
def i64Min : Int := -9223372036854775808

/-- Largest `int64_t` (`std::numeric_limits<dim_t>::max()`, used in /repo/src/Field.cpp:274). -/
def i64Max : Int := 9223372036854775807

/-- Value representable as `int64_t` (/repo/src/include/funge_types.h:14-16). -/
def InI64 (x : Int) : Prop := i64Min ≤ x ∧ x ≤ i64Max

instance (x : Int) : Decidable (InI64 x) := by unfold InI64; infer_instance

/-- Outcomes outside the defined behaviour of the program: undefined behaviour of C++, an exception
nobody catches, or (for loops modelled with fuel) "not finished yet". No counterpart in the source:
this is how the model makes undefined behaviour visible. -/
inductive Fault where
  /-- signed integer overflow (including `INT64_MIN / -1`) -/
  | overflow
  /-- out-of-range access to a `std::vector` / array -/
  | outOfRange
  /-- null pointer dereference -/
  | nullDeref
  /-- use of a deleted object -/
  | dangling
  /-- shift by a negative amount or by 64 or more -/
  | badShift
  /-- argument of `<cctype>` function not representable as unsigned char or EOF -/
  | ctype
  /-- empty interval given to `std::uniform_int_distribution` -/
  | badRandom
  /-- uncaught C++ exception (`std::stoi`, `std::bad_alloc`, …) -/
  | exception
  /-- the loop did not finish within the fuel given to the model -/
  | fuel
  /-- an instruction whose effect is outside the model (floating point, other universes, …); the model says nothing
  about what happens then -/
  | unmodelled
  deriving DecidableEq, Repr

deriving instance DecidableEq for Except

/-- `FungeError` (/repo/src/include/funge_types.h:136-143). -/
inductive Err where
  | none | skip | block | unimp | notavail | unspec
  deriving DecidableEq, Repr

/-- `static_cast<char>(x)`: low byte, `char` signed (e.g. /repo/src/Field.cpp:293). Implementation-defined
signedness of `char` is fixed to signed (x86). -/
def toChar (x : Int) : Int := x.bmod 256

/-- Conversion to `int` (e.g. /repo/src/Unefunge93Strategy.cpp:253): low 32 bits, two's complement. -/
def toInt (x : Int) : Int := x.bmod 4294967296

/-- Conversion to `int64_t` from an unsigned 64-bit value
(e.g. `stack.top().push(fingerprint)`, /repo/src/Unefunge98Strategy.cpp:318). -/
def toI64 (x : Int) : Int := x.bmod 18446744073709551616

/-- Signed 64-bit result or overflow (used for `+`, `-`, `*` on `stack_t`,
e.g. /repo/src/Unefunge93Strategy.cpp:132-151). -/
def ck (x : Int) : Except Fault Int :=
  if InI64 x then .ok x else .error .overflow

/-- FungeMode bits (/repo/src/include/funge_types.h:83-93). `FungeMode` is an unsigned word. -/
def modeHover : Nat := 0x02000
/-- /repo/src/include/funge_types.h:89 -/
def modeInvert : Nat := 0x04000
/-- /repo/src/include/funge_types.h:90 -/
def modeQueue : Nat := 0x08000
/-- /repo/src/include/funge_types.h:91 -/
def modeSwitch : Nat := 0x10000
/-- /repo/src/include/funge_types.h:92 -/
def modeDive : Nat := 0x20000

/-- `!!(mode & m)` (/repo/src/FungeUniverse.cpp:254-256, /repo/src/Stack.cpp:34). -/
def hasMode (mode m : Nat) : Bool := (mode &&& m) != 0

end Funge
