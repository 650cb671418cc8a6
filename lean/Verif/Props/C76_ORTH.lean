import Verif.Props.C56_TOYS
import Verif.Props.C54_STRN
import Verif.Props.C42_Output
/-!
# C76: the Orthogonal easement library

`G P S V W X Y Z` of ORTH.
-/
namespace Funge
open Exec

/-- **C76** `P` stores a value in the cell at (x, y), counted from the origin whatever the storage offset, and changes nothing else. -/
theorem C76_put {s : St} (h : s.Lifo) (hu : Field.UniqueKeys s.g.field.cells) {x y v : Int} {l : List Int} (hi : s.items = x :: y :: v :: l) :
    ∃ s' f, fpRun .ORTH 80 s = .ok (.none, s') ∧ s.Puts s' l f ∧ (∀ q, q.eqv (cellAt x y) = true → f.get q = s.g.field.cellOf v) ∧
      (∀ q, q.eqv (cellAt x y) = false → f.get q = s.g.field.get q) := by
  refine ⟨_, s.g.field.put (Vec.ofList [x, y]) v, ?_, ⟨s.top.ops + 3, rfl⟩, ?_, ?_⟩
  · show orthPut s = _
    conv => lhs; rw [← setItems_self h, hi]
    rw [orthPut, bind_ok (popTop_head h _ _ _), bind_ok (popTop_head h _ _ _), bind_ok (popTop_head h _ _ _), bind_ok (fieldPut_run _ _ _)]
    rfl
  · intro q hq
    rw [Field.get_put hu, if_pos (by rw [Vec.eqv_comm]; exact hq)]
  · intro q hq
    rw [Field.get_put hu, if_neg]
    rw [Vec.eqv_comm]
    show ¬ q.eqv (cellAt x y) = true
    rw [hq]; decide

/-- **C76** `G` pushes the cell at (x, y), counted from the origin whatever the storage offset, and changes nothing else. -/
theorem C76_get {s : St} (h : s.Lifo) {x y : Int} {l : List Int} (hi : s.items = x :: y :: l) :
    ∃ s', fpRun .ORTH 71 s = .ok (.none, s') ∧ s.Leaves s' (s.g.field.get (cellAt x y) :: l) := by
  refine ⟨_, ?_, s.top.ops + 3, rfl⟩
  show orthGet s = _
  conv => lhs; rw [← setItems_self h, hi]
  rw [orthGet, bind_ok (popTop_head h _ _ _), bind_ok (popTop_head h _ _ _), bind_ok (fieldGet_run _ _), bind_ok (pushTop_run h _ _ _)]
  rfl

/-- **C76** What `P` stores, `G` fetches: with the same coordinates pushed again, `G` leaves the stored value (the byte, if cells are bytes). -/
theorem C76_put_get {s : St} (h : s.Lifo) (hu : Field.UniqueKeys s.g.field.cells) {x y v : Int} {l : List Int} (hi : s.items = x :: y :: v :: l) :
    ∃ s₁, fpRun .ORTH 80 s = .ok (.none, s₁) ∧ ∀ t : St, t.Lifo → t.items = x :: y :: s₁.items → t.g.field = s₁.g.field →
      ∃ t', fpRun .ORTH 71 t = .ok (.none, t') ∧ t.Leaves t' (s.g.field.cellOf v :: l) := by
  obtain ⟨s₁, f, h1, ⟨n, rfl⟩, h3, h4⟩ := C76_put h hu hi
  refine ⟨_, h1, fun t ht hi' hf => ?_⟩
  have hl : (s.setG { s.g with field := f }).Lifo := h
  rw [items_setItems hl] at hi'
  obtain ⟨t', e1, e2⟩ := C76_get ht hi'
  refine ⟨t', e1, ?_⟩
  rw [← h3 (cellAt x y) (Vec.eqv_refl _)]
  have : t.g.field = f := hf
  rwa [this] at e2

/-- **C76** `V` and `W` set the first and the second component of the delta and leave the others. -/
theorem C76_delta_partial {s : St} (h : s.Lifo) (hh : hasMode s.g.cfg.mode modeHover = false) {x : Int} {l : List Int} (hi : s.items = x :: l) {c : Int} {n : Nat}
    (hc : (c = 86 ∧ n = 0) ∨ (c = 87 ∧ n = 1)) :
    ∃ s', fpRun .ORTH c s = .ok (.none, s') ∧ Turns s s' (fun i => if i = n then x else s.cur.ip.delta.get i) l := by
  have hrun : fpRun .ORTH c = orthDelta n := by rcases hc with ⟨rfl, rfl⟩ | ⟨rfl, rfl⟩ <;> rfl
  obtain ⟨a, b, h4⟩ := setDelta_turns hh l (s.top.ops + 1) (s.cur.ip.delta.set n x)
  refine ⟨_, ?_, s.cur.ip.delta.set n x, a, b, s.top.ops + 1, rfl, ?_⟩
  · rw [hrun]
    conv => lhs; rw [← setItems_self h, hi]
    rw [orthDelta, bind_ok (popTop_head h _ _ _), bind_ok (ipDelta_run _)]
    exact bind_ok h4
  · intro i; rw [Vec.get_set]

/-- **C76** is violated in hover mode: `0V` while going down leaves a delta twice as long. -/
theorem C76_false_when_hovering : (match fpRun .ORTH 86 { ((machine []).setIP { (machine []).cur.ip with delta := Vec.ofList [0, 1] }).setItems [0] 0 with g.cfg.mode := modeHover } with
    | .ok (_, s) => some (s.cur.ip.delta.get 0, s.cur.ip.delta.get 1) | .error _ => none) = some (0, 2) := by decide +kernel

/-- **C76** `X` and `Y` set the first and the second coordinate of the position and leave the others. -/
theorem C76_position {s : St} (h : s.Lifo) {x : Int} {l : List Int} (hi : s.items = x :: l) {c : Int} {n : Nat}
    (hc : (c = 88 ∧ n = 0) ∨ (c = 89 ∧ n = 1)) :
    ∃ s' p m, fpRun .ORTH c s = .ok (.none, s') ∧ s' = (s.setIP { s.cur.ip with pos := p }).setItems l m ∧
      ∀ i, p.get i = if i = n then x else s.cur.ip.pos.get i := by
  have hrun : fpRun .ORTH c = orthPos n := by rcases hc with ⟨rfl, rfl⟩ | ⟨rfl, rfl⟩ <;> rfl
  refine ⟨_, s.cur.ip.pos.set n x, s.top.ops + 1, ?_, rfl, ?_⟩
  · rw [hrun]
    conv => lhs; rw [← setItems_self h, hi]
    rw [orthPos, bind_ok (popTop_head h _ _ _), bind_ok (onIP_run _ _)]
    rfl
  · intro i; rw [Vec.get_set]

/-- **C76** `Z` pops a value and moves the IP one step if it is 0, so that the next instruction is skipped, and does nothing else. -/
theorem C76_ramp {s : St} (h : s.Lifo) {x : Int} {l : List Int} (hi : s.items = x :: l) {ip : IP}
    (hn : s.cur.ip.next s.g.cfg.dims s.g.cfg.topo s.g.field = .ok ip) :
    ∃ s' n, fpRun .ORTH 90 s = .ok (.none, s') ∧ s' = (if x = 0 then s.setIP ip else s).setItems l n := by
  refine ⟨_, s.top.ops + 1, ?_, rfl⟩
  show fgConditional s = _
  conv => lhs; rw [← setItems_self h, hi]
  rw [fgConditional, bind_ok (popTop_head h _ _ _)]
  split
  · rw [bind_ok (ipNext_run (s := s.setItems l (s.top.ops + 1)) hn)]; rfl
  · rfl

/-- **C76** `S` writes a string and a newline and removes the string. -/
theorem C76_print {s : St} (h : s.Lifo) {str l : List Int} (hs : IsStr str) (hi : s.items = str ++ 0 :: l) :
    ∃ s', fpRun .ORTH 83 s = .ok (.none, s') ∧ Writes s s' (str ++ [10]) l := by
  obtain ⟨n', hp⟩ := popStr h hs l s.top.ops
  refine ⟨_, ?_, n', rfl⟩
  show orthOut s = _
  conv => lhs; rw [← setItems_self h, hi]
  rw [orthOut, bind_ok hp, bind_ok (emit_run _ _)]
  rfl

example : ((machine [64]).setItems [3, -1, 65, 7] 0).Lifo ∧ Field.UniqueKeys ((machine [64]).setItems [3, -1, 65, 7] 0).g.field.cells ∧
    ((machine [64]).setItems [3, -1, 65, 7] 0).items = 3 :: -1 :: 65 :: [7] ∧
    hasMode ((machine [64]).setItems [3, -1, 65, 7] 0).g.cfg.mode modeHover = false ∧
    (∃ ip, ((machine [64]).setItems [3, -1, 65, 7] 0).cur.ip.next ((machine [64]).setItems [3, -1, 65, 7] 0).g.cfg.dims
      ((machine [64]).setItems [3, -1, 65, 7] 0).g.cfg.topo ((machine [64]).setItems [3, -1, 65, 7] 0).g.field = .ok ip) ∧
    IsStr [104, 105] ∧ (exState [104, 105, 0, 7]).items = [104, 105] ++ 0 :: [7] :=
  ⟨by decide, by unfold Field.UniqueKeys; decide, by decide, by decide, ⟨_, rfl⟩, by unfold IsStr; decide, by decide⟩

end Funge
