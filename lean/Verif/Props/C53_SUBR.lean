import Verif.Props.C25_Blocks
import Verif.Props.C50_Directions
import Verif.Props.C51_FRTH
/-
C53 (SUBR).
-/
namespace Funge
open Exec

/-- Two vectors agree on the first `d` coordinates, and the second has no others. -/
def SameVec (d : Nat) (v w : Vec) : Prop := ∀ i, w.get i = if i < d then v.get i else 0

/-- `s'` is `s` with the values `l` on the top stack, the IP at `p` heading along `v`, and nothing else changed (but the caches of IMAP and
FISH, which are no part of what an IP does, and the stack's age). -/
def St.MovedTo (s s' : St) (l : List Int) (p v : Vec) : Prop :=
  ∃ a b n, s' = ((s.setCaches a b).setIP { s.cur.ip with pos := p, delta := v }).setItems l n

theorem sameVec_popped {d : Nat} {v w : Vec} {l : List Int} (h : w.get = vecOf (coords d v ++ l) d) : SameVec d v w := by
  intro i
  rw [h]
  by_cases hi : i < d
  · rw [vecOf_coords d v l i hi, if_pos hi]
  · rw [vecOf, if_neg hi, if_neg hi]

theorem popCoords {s : St} (h : s.Lifo) (v : Vec) (l n) :
    ∃ w : Vec, popVector (s.setItems (coords s.g.cfg.dims v ++ l) n) = .ok (w, s.setItems l (n + s.g.cfg.dims)) ∧ SameVec s.g.cfg.dims v w := by
  obtain ⟨w, h1, h2, -⟩ := popVector_run h (coords s.g.cfg.dims v ++ l) n
  refine ⟨w, ?_, sameVec_popped h2⟩
  rw [h1]
  have : (coords s.g.cfg.dims v ++ l).drop s.g.cfg.dims = l := by
    rw [List.drop_append_of_le_length (by rw [coords_length]; exact Nat.le_refl _), List.drop_eq_nil_of_le (by rw [coords_length]; exact Nat.le_refl _)]
    rfl
  rw [this]

theorem subrPops_run {s : St} (h : s.Lifo) (args l : List Int) (n) :
    subrPops args.length (s.setItems (args ++ l) n) = .ok (args, s.setItems l (n + args.length)) := by
  unfold subrPops
  rw [if_neg (by omega), Int.toNat_natCast, popN_run h, padTake_append]
  simp

/-- **C53.** `C` with a count, an address and that many arguments on the stack: the arguments stay on top in the order they were in, under them
the position and the delta of the caller, and under these what was under the arguments. The IP is one step before the address, heading east. -/
theorem C53_call {s : St} (h : s.Lifo) (hh : hasMode s.g.cfg.mode modeHover = false) {v : Vec} {args l : List Int}
    (hi : s.items = (args.length : Int) :: coords s.g.cfg.dims v ++ args ++ l) :
    ∃ w s', fpRun .SUBR 67 s = .ok (.none, s') ∧ SameVec s.g.cfg.dims v w ∧
      s.MovedTo s' (args ++ coords s.g.cfg.dims s.cur.ip.delta ++ coords s.g.cfg.dims s.cur.ip.pos ++ l)
        ((if s.cur.subrOffset then w.add s.cur.ip.pos else w).sub (Vec.ofList [1])) (Vec.ofList [1]) := by
  have hi' : s.items = (args.length : Int) :: (coords s.g.cfg.dims v ++ (args ++ l)) := by rw [hi]; simp
  obtain ⟨w, h1, h2⟩ := popCoords h v (args ++ l) (s.top.ops + 1)
  refine ⟨w, ?_⟩
  generalize hp : (if s.cur.subrOffset then w.add s.cur.ip.pos else w).sub (Vec.ofList [1]) = p
  have h3 : ∀ l n, subrTarget w (s.setItems l n) = .ok (if s.cur.subrOffset then w.add s.cur.ip.pos else w, s.setItems l n) := fun _ _ => rfl
  have h5 : ∀ l n, onIP (·.setPos p) (s.setItems l n) = .ok ((), (s.setIP { s.cur.ip with pos := p }).setItems l n) := fun _ _ => rfl
  generalize hL : args ++ coords s.g.cfg.dims s.cur.ip.delta ++ coords s.g.cfg.dims s.cur.ip.pos ++ l = L
  have h4 : ∀ n, ∃ a b, setDelta (Vec.ofList [1]) ((s.setIP { s.cur.ip with pos := p }).setItems L n) = .ok ((), ((s.setCaches a b).setIP { s.cur.ip with pos := p, delta := (Vec.ofList [1]) }).setItems L n) := by
    intro n
    obtain ⟨a, b, h4⟩ := setDelta_turns (s := s.setIP { s.cur.ip with pos := p }) hh L n (Vec.ofList [1])
    exact ⟨a, b, h4⟩
  obtain ⟨a, b, h4⟩ := h4 (s.top.ops + 1 + s.g.cfg.dims + args.length + s.g.cfg.dims + s.g.cfg.dims + args.length)
  refine ⟨_, ?_, h2, a, b, s.top.ops + 1 + s.g.cfg.dims + args.length + s.g.cfg.dims + s.g.cfg.dims + args.length, rfl⟩
  show subrCall s = _
  conv => lhs; rw [← setItems_self h, hi']
  rw [subrCall, bind_ok (popTop_head h _ _ _), bind_ok h1, bind_ok (subrPops_run h _ _ _), bind_ok (ipPos_run _), bind_ok (pushVector_run h _ _ _),
    bind_ok (ipDelta_run _), bind_ok (pushVector_run h _ _ _), bind_ok (pushAll_run h _ _ _), bind_ok (h3 _ _), hp, bind_ok (h5 _ _)]
  rw [List.reverse_reverse, List.length_reverse]
  have : args ++ (((List.range s.g.cfg.dims).map (s.setItems (((List.range s.g.cfg.dims).map (s.setItems l (s.top.ops + 1 + s.g.cfg.dims + args.length)).cur.ip.pos.get).reverse ++ l) (s.top.ops + 1 + s.g.cfg.dims + args.length + s.g.cfg.dims)).cur.ip.delta.get).reverse ++ (((List.range s.g.cfg.dims).map (s.setItems l (s.top.ops + 1 + s.g.cfg.dims + args.length)).cur.ip.pos.get).reverse ++ l)) = L := by
    rw [← hL]; simp [coords]
  rw [this, bind_ok h4]
  rfl

/-- **C53.** `R` with a count and that many results on the stack, and under them a delta and a position: the results stay in the order they were
in, the IP is at the position with the delta, and what was under these is untouched. -/
theorem C53_return {s : St} (h : s.Lifo) (hh : hasMode s.g.cfg.mode modeHover = false) {p v : Vec} {args l : List Int}
    (hi : s.items = (args.length : Int) :: args ++ coords s.g.cfg.dims v ++ coords s.g.cfg.dims p ++ l) :
    ∃ p' v' s', fpRun .SUBR 82 s = .ok (.none, s') ∧ SameVec s.g.cfg.dims p p' ∧ SameVec s.g.cfg.dims v v' ∧ s.MovedTo s' (args ++ l) p' v' := by
  have hi' : s.items = (args.length : Int) :: (args ++ (coords s.g.cfg.dims v ++ (coords s.g.cfg.dims p ++ l))) := by rw [hi]; simp
  obtain ⟨v', h1, h2⟩ := popCoords h v (coords s.g.cfg.dims p ++ l) (s.top.ops + 1 + args.length)
  obtain ⟨p', h3, h4⟩ := popCoords h p l (s.top.ops + 1 + args.length + s.g.cfg.dims)
  have h5 : ∀ l n, onIP (·.setPos p') (s.setItems l n) = .ok ((), (s.setIP { s.cur.ip with pos := p' }).setItems l n) := fun _ _ => rfl
  have h6 : ∀ n, ∃ a b, setDelta v' ((s.setIP { s.cur.ip with pos := p' }).setItems (args ++ l) n) = .ok ((), ((s.setCaches a b).setIP { s.cur.ip with pos := p', delta := v' }).setItems (args ++ l) n) := by
    intro n
    obtain ⟨a, b, h4⟩ := setDelta_turns (s := s.setIP { s.cur.ip with pos := p' }) hh (args ++ l) n v'
    exact ⟨a, b, h4⟩
  obtain ⟨a, b, h6⟩ := h6 (s.top.ops + 1 + args.length + s.g.cfg.dims + s.g.cfg.dims + args.length)
  refine ⟨p', v', _, ?_, h4, h2, a, b, s.top.ops + 1 + args.length + s.g.cfg.dims + s.g.cfg.dims + args.length, rfl⟩
  show subrReturn s = _
  conv => lhs; rw [← setItems_self h, hi']
  rw [subrReturn, bind_ok (popTop_head h _ _ _), bind_ok (subrPops_run h _ _ _), bind_ok h1, bind_ok h3, bind_ok (pushAll_run h _ _ _), bind_ok (h5 _ _),
    List.reverse_reverse, List.length_reverse, bind_ok h6]
  rfl

/-- **C53.** A call and its return. `s` is the state at the `C`, `s₁` the one after it, and `t` the one at an `R` after balanced work: some
results `res` and their number have taken the place of the arguments, and everything under these is as the call left it. Then `R` puts the IP back on the
`C`, from where it moves on, with the delta it had there, leaving the results on top of what was under the arguments. What else the work did stays. -/
theorem C53_call_return_partial {s : St} (h : s.Lifo) (hh : hasMode s.g.cfg.mode modeHover = false) {v : Vec} {args l : List Int}
    (hi : s.items = (args.length : Int) :: coords s.g.cfg.dims v ++ args ++ l) :
    ∃ s₁, fpRun .SUBR 67 s = .ok (.none, s₁) ∧ s₁.items.take args.length = args ∧ ∀ (t : St) (res : List Int), t.Lifo →
      hasMode t.g.cfg.mode modeHover = false → t.g.cfg.dims = s.g.cfg.dims →
      t.items = (res.length : Int) :: res ++ s₁.items.drop args.length →
      ∃ p' v' t', fpRun .SUBR 82 t = .ok (.none, t') ∧ SameVec s.g.cfg.dims s.cur.ip.pos p' ∧ SameVec s.g.cfg.dims s.cur.ip.delta v' ∧
        t.MovedTo t' (res ++ l) p' v' := by
  obtain ⟨w, s₁, h1, h2, a, b, n, rfl⟩ := C53_call h hh hi
  refine ⟨_, h1, ?_⟩
  rw [items_setItems (by exact h)]
  refine ⟨by rw [List.append_assoc, List.append_assoc]; simp, ?_⟩
  intro t res ht htm htd hti
  obtain ⟨p', v', t', h3, h4, h5, h6⟩ := C53_return (s := t) (p := s.cur.ip.pos) (v := s.cur.ip.delta) (args := res) (l := l) ht htm (by
    rw [hti, htd, List.append_assoc, List.append_assoc]; simp)
  exact ⟨p', v', t', h3, htd ▸ h4, htd ▸ h5, h6⟩

/-- What is missing above: with the switch of MODE that makes the IP hover on, `R` adds the caller's delta to the one the IP has. The IP
called heading east, the work balanced, and comes back with three times its delta. -/
theorem C53_false_when_hovering : (match fpRun .SUBR 67 { (machine []).setItems [0, 5, 9] 0 with g.cfg.mode := modeHover } with
    | .ok (_, s) => match pushTop 0 s with
      | .ok (_, s) => match fpRun .SUBR 82 s with
        | .ok (_, t) => some (t.cur.ip.delta.get 0)
        | .error _ => none
      | .error _ => none
    | .error _ => none) = some 3 := by decide +kernel

/-- A negative count is undefined behaviour (an array of negative size). -/
theorem C53_undefined_for_negative {s : St} (h : s.Lifo) {n : Int} {l : List Int} (hi : s.items = n :: l) (hn : n < 0) :
    fpRun .SUBR 82 s = .error .outOfRange ∧ fpRun .SUBR 67 s = .error .outOfRange := by
  have h0 : ∀ t, subrPops n t = .error .outOfRange := fun t => by unfold subrPops; rw [if_pos hn]; rfl
  constructor
  · show subrReturn s = _
    conv => lhs; rw [← setItems_self h, hi]
    rw [subrReturn, bind_ok (popTop_head h _ _ _)]
    rw [bind_error (h0 _)]
  · show subrCall s = _
    obtain ⟨w, h1, -⟩ := popVector_run h l (s.top.ops + 1)
    conv => lhs; rw [← setItems_self h, hi]
    rw [subrCall, bind_ok (popTop_head h _ _ _), bind_ok h1]
    rw [bind_error (h0 _)]

/-- `J` with an address on the stack puts the IP on the address, heading east, and changes nothing else. (From there it moves on, so that what is at the
address is not executed: see `C53_false_for_jump`.) -/
theorem C53_jump {s : St} (h : s.Lifo) (hh : hasMode s.g.cfg.mode modeHover = false) {v : Vec} {l : List Int} (hi : s.items = coords s.g.cfg.dims v ++ l) :
    ∃ w s', fpRun .SUBR 74 s = .ok (.none, s') ∧ SameVec s.g.cfg.dims v w ∧ s.MovedTo s' l (if s.cur.subrOffset then w.add s.cur.ip.pos else w) (Vec.ofList [1]) := by
  obtain ⟨w, h1, h2⟩ := popCoords h v l s.top.ops
  refine ⟨w, ?_⟩
  generalize hp : (if s.cur.subrOffset then w.add s.cur.ip.pos else w) = p
  have h3 : ∀ l n, subrTarget w (s.setItems l n) = .ok (if s.cur.subrOffset then w.add s.cur.ip.pos else w, s.setItems l n) := fun _ _ => rfl
  have h5 : ∀ l n, onIP (·.setPos p) (s.setItems l n) = .ok ((), (s.setIP { s.cur.ip with pos := p }).setItems l n) := fun _ _ => rfl
  obtain ⟨a, b, h4⟩ := setDelta_turns (s := s.setIP { s.cur.ip with pos := p }) hh l (s.top.ops + s.g.cfg.dims) (Vec.ofList [1])
  refine ⟨_, ?_, h2, a, b, s.top.ops + s.g.cfg.dims, rfl⟩
  show subrJump s = _
  conv => lhs; rw [← setItems_self h, hi]
  rw [subrJump, bind_ok h1, bind_ok (h3 _ _), hp, bind_ok (h5 _ _), bind_ok h4]
  rfl

/-- `O` makes the addresses of later calls and jumps of this IP relative to where it is, `A` absolute again; nothing else changes. -/
theorem C53_addressing (s : St) : fpRun .SUBR 79 s = .ok (.none, { s with cur.subrOffset := true }) ∧ fpRun .SUBR 65 s = .ok (.none, { s with cur.subrOffset := false }) :=
  ⟨rfl, rfl⟩

/-- A jump to 5 from 9, absolute and relative. -/
example : (machine []).Lifo ∧ hasMode (machine []).g.cfg.mode modeHover = false ∧
    (match fpRun .SUBR 74 ({ (machine []) with cur.ip.pos := Vec.ofList [9] }.setItems [0, 5, 3] 0) with
      | .ok (_, s) => some (s.cur.ip.pos.get 0, s.items)
      | .error _ => none) = some (5, [3]) ∧
    (match fpRun .SUBR 79 ({ (machine []) with cur.ip.pos := Vec.ofList [9] }.setItems [0, 5, 3] 0) with
      | .ok (_, s) => match fpRun .SUBR 74 s with
        | .ok (_, s) => some (s.cur.ip.pos.get 0, s.items)
        | .error _ => none
      | .error _ => none) = some (14, [3]) := by decide +kernel

/-- `J` does not even go where `C` goes: `"RBUS"4(c0J123` jumps to the `2` and runs the `3`, while `"RBUS"4(c00C123` calls the `1` it names and
runs it. -/
theorem C53_false_for_jump : stackAfter (machine [34, 82, 66, 85, 83, 34, 52, 40, 99, 48, 74, 49, 50, 51]) 12 = some [3, 1, 1398096466] ∧
    stackAfter (machine [34, 82, 66, 85, 83, 34, 52, 40, 99, 48, 48, 67, 49, 50, 51]) 13 = some [1, 0, 1, 0, 11, 1, 1398096466] := by decide +kernel

/-- `"RBUS"4(5e01C@1+1R`: calls the subroutine `1+1R` with one argument and stops after its return. -/
def subrProgram : St := machine [34, 82, 66, 85, 83, 34, 52, 40, 53, 101, 48, 49, 67, 64, 49, 43, 49, 82]

/-- The states of that program the theorems above are about: at its `C`, at its `R`, and after it. -/
example : (match ticks 12 subrProgram with
    | .ok (_, s) => s.items == ((1 : Nat) : Int) :: coords s.g.cfg.dims (Vec.ofList [14, 0]) ++ [5] ++ [1, 1398096466] && decide s.Lifo &&
        hasMode s.g.cfg.mode modeHover == false
    | .error _ => false) = true ∧
    (match ticks 16 subrProgram with
    | .ok (_, s) => s.items == ((1 : Nat) : Int) :: [6] ++ coords s.g.cfg.dims (Vec.ofList [1, 0]) ++ coords s.g.cfg.dims (Vec.ofList [12, 0]) ++ [1, 1398096466]
    | .error _ => false) = true ∧ stackAfter subrProgram 17 = some [6, 1, 1398096466] := by decide +kernel

end Funge
