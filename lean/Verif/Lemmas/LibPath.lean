import Verif.Lemmas.Lib
import Verif.Lemmas.Krfl
import Verif.Props.C23_Arithmetic
/-!
Following a path through a library from the call to its return.
-/
namespace Funge
open Lib

/-- A point of the plane of a letter, moving east. -/
def atEast (cmd x y : Int) (l : List Int) (e : List Eff) : Cf where
  ip := { pos := Vec.ofList [x, y, cmd - 65] }
  l := l
  eff := e

/-- Follow the path, stop, and come back. -/
theorem libCall_path {F : Field} {cmd : Int} {s : St} {d : Nat} {path : List Int} {l l' : List Int} {ps : List Prop} {x y : Int} (h : s.Synced)
    (hd : F.dims = 3) (hi : s.items = l) (hf : d + 2 ≤ s.g.fuel)
    (ha : ∀ e, arun F d path (start cmd l e) = some (atEast cmd x y l' e, ps)) (hp : All ps)
    (h64 : F.get (Vec.ofList [x, y, cmd - 65]) = 64) : ∃ s', libCall F cmd s = .ok (.none, s') ∧ s.Answers s' l' [] := by
  refine libCall_of_fin (m := 1 + d) h ?_ (by omega)
  rw [hi, List.append_nil]
  exact leads (ha s.g.eff) hd h.1 hp _ _ _ (fin_stop hd rfl h64)

/-- The effects `e`, and then the characters `xs` printed one by one. -/
def outs (e : List Eff) : List Int → List Eff
  | [] => e
  | c :: t => outs (e ++ [.out [c]]) t

theorem outs_eq (e : List Eff) (xs : List Int) : outs e xs = e ++ xs.map fun c => .out [c] := by
  induction xs generalizing e with
  | nil => simp [outs]
  | cons c t ih => simp [outs, ih]

theorem outs_outs (e : List Eff) (xs ys : List Int) : outs (outs e xs) ys = outs e (xs ++ ys) := by simp [outs_eq]

/-- A state to call a library from. -/
def libState (l : List Int) : St := (exState l).setG { (exState l).g with fuel := 4000 }

theorem libState_synced (l : List Int) : (libState l).Synced := by
  refine ⟨Nat.zero_lt_succ _, fun st h => ?_⟩
  simp only [libState, exState, St.setG, List.mem_cons, List.not_mem_nil, or_false] at h
  rcases h with rfl | rfl <;> rfl

end Funge
