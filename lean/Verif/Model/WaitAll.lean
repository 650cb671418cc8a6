/-
The end of the interpreter: `FungeMultiverse::waitAll` (/repo/src/FungeMultiverse.cpp:63-80) among the universes it waits for. One step of the transition system is what a thread does
between two points at which others can come in between. Simplifications: universes are numbered in the order of their creation, and of each it is known how many IPs it has, which of them wait in
a library call, and nothing else; `killAll` (`q`) is called by an IP of the universe itself, with interpreted threads; `universes` can be inserted into while it is gone through (in the code without
the mutex, which is a data race), and the new universe is then visited in the same round or not; a universe that runs is one with IPs (Model/Sync).
-/
namespace Funge

/-- Where `waitAll` is (/repo/src/FungeMultiverse.cpp:63-80): at the head of the outer loop (66-67); in the inner loop, with universes still to visit (68); in `wait` (73); returned (79). -/
inductive WaitAllAt
  | head
  | visit (todo : List Nat)
  | wait (u : Nat) (todo : List Nat)
  | returned
  deriving DecidableEq, Repr

/-- The universes: how many there are, how many IPs each has (/repo/src/include/FungeUniverse.h:134), the library calls under way: (universe of the caller, universe of the library)
(/repo/src/fingerprint/FingerprintFungeLib.cpp:52-54); and the local variables of `waitAll` (/repo/src/FungeMultiverse.cpp:64-65). -/
structure Whole where
  size : Nat
  ips : Nat → Nat
  calls : List (Nat × Nat) := []
  running : Bool := false
  count : Nat := 0
  main : WaitAllAt := .head

namespace Whole

/-- A function changed in one place. No counterpart in the source. -/
def upd (f : Nat → Nat) (u x : Nat) : Nat → Nat := fun k => if k = u then x else f k

/-- Some IP of the universe is not waiting for a library. -/
def Active (w : Whole) (u : Nat) : Prop := (w.calls.filter (·.1 = u)).length < w.ips u

/-- What the threads do: `waitAll`; an IP stops, splits (`t`), calls a library, comes back from it, creates a universe (B of MVRS, or loading a library), kills its universe, or goes to another
one (G and J of MVRS). -/
inductive Act
  | main | stop | split | call | ret | create | kill | transfer
  deriving DecidableEq, Repr

/-- One step. -/
inductive Step : Act → Whole → Whole → Prop
  /-- /repo/src/FungeMultiverse.cpp:67-68: a table that is not ordered is gone through in some order. -/
  | round (w : Whole) (l : List Nat) : w.main = .head → l.Nodup → (∀ u, u ∈ l ↔ u < w.size) → Step .main w { w with running := false, main := .visit l }
  /-- /repo/src/FungeMultiverse.cpp:69-72. -/
  | test (w : Whole) (u : Nat) (t : List Nat) : w.main = .visit (u :: t) → Step .main w { w with running := w.running || 0 < w.ips u, main := .wait u t }
  /-- /repo/src/FungeMultiverse.cpp:73-74. -/
  | waited (w : Whole) (u : Nat) (t : List Nat) : w.main = .wait u t → w.ips u = 0 → Step .main w { w with count := w.count + 1, main := .visit t }
  /-- /repo/src/FungeMultiverse.cpp:77. -/
  | done (w : Whole) : w.main = .visit [] → Step .main w { w with main := if w.running || w.count < w.size then .head else .returned }
  /-- /repo/src/FungeUniverse.cpp:137-140. -/
  | stop (w : Whole) (u : Nat) : w.Active u → Step .stop w { w with ips := upd w.ips u (w.ips u - 1) }
  /-- /repo/src/FungeUniverse.cpp:72-74. -/
  | split (w : Whole) (u : Nat) : w.Active u → Step .split w { w with ips := upd w.ips u (w.ips u + 1) }
  /-- /repo/src/fingerprint/FingerprintFungeLib.cpp:53. -/
  | call (w : Whole) (u v : Nat) : w.Active u → v < w.size → v ≠ u → Step .call w { w with ips := upd w.ips v (w.ips v + 1), calls := (u, v) :: w.calls }
  /-- /repo/src/fingerprint/FingerprintFungeLib.cpp:54-57. -/
  | ret (w : Whole) (u v : Nat) : (u, v) ∈ w.calls → w.ips v = 0 → Step .ret w { w with calls := w.calls.erase (u, v) }
  /-- /repo/src/FungeMultiverse.cpp:32-61; `todo'` is what is then to be visited. -/
  | create (w : Whole) (u : Nat) (m : WaitAllAt) : w.Active u →
      (m = w.main ∨ (∃ t t', w.main = .visit t ∧ m = .visit t' ∧ t'.Perm (w.size :: t)) ∨ (∃ x t t', w.main = .wait x t ∧ m = .wait x t' ∧ t'.Perm (w.size :: t))) →
      Step .create w { w with size := w.size + 1, main := m }
  /-- /repo/src/FungeUniverse.cpp:160-169. -/
  | kill (w : Whole) (u : Nat) : w.Active u → (∀ v, (u, v) ∉ w.calls) → Step .kill w { w with ips := upd w.ips u 0 }
  /-- /repo/src/FungeUniverse.cpp:85-93, 141-143. -/
  | transfer (w : Whole) (u v : Nat) : w.Active u → v < w.size → v ≠ u →
      Step .transfer w { w with ips := upd (upd w.ips u (w.ips u - 1)) v (w.ips v + 1) }

/-- Some steps, without those that are not allowed. -/
inductive Steps (p : Act → Prop) : Whole → Whole → Prop
  | refl (w) : Steps p w w
  | snoc {a b c act} : Steps p a b → Step act b c → p act → Steps p a c

/-- The interpreter when `waitAll` is called (/repo/src/Funge.cpp:98-99, 236-242): some universes with some IPs. -/
def Start (w : Whole) : Prop := w.main = .head ∧ w.calls = [] ∧ w.count = 0 ∧ 0 < w.size ∧ ∀ u, w.size ≤ u → w.ips u = 0

end Whole
end Funge
