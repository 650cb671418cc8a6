import Verif.Props.C56_TOYS
/-!
# C75: cells along a line

JSTR stores and fetches cells from a point, step by step.
-/
namespace Funge
open Exec

/-- `q` is the point reached from `p` by `k` steps of `v`. -/
def StepsTo (p v : Vec) (k : Nat) (q : Vec) : Prop := ∀ i, q.get i = p.get i + k * v.get i

theorem StepsTo.succ {p p' v v' : Vec} {k : Nat} {q : Vec} (hp : ∀ i, p'.get i = p.get i + v.get i) (hv : ∀ i, v'.get i = v.get i) :
    StepsTo p' v' k q ↔ StepsTo p v (k + 1) q := by
  have key : ∀ i, p'.get i + k * v'.get i = p.get i + (k + 1 : Nat) * v.get i := by
    intro i; rw [hp, hv, Int.natCast_add, Int.add_mul]; simp; omega
  constructor
  · intro h i; rw [h i, key]
  · intro h i; rw [h i, ← key]

theorem stepsTo_zero {p v q : Vec} : StepsTo p v 0 q ↔ q.eqv p = true := by
  rw [Vec.eqv_iff]; simp [StepsTo]

theorem stepsTo_inj {p v q : Vec} {j k : Nat} (hv : ∃ i, v.get i ≠ 0) (hj : StepsTo p v j q) (hk : StepsTo p v k q) : j = k := by
  obtain ⟨i, hi⟩ := hv
  have e : (j : Int) * v.get i = k * v.get i := by have := hj i; have := hk i; omega
  have := Int.eq_of_mul_eq_mul_right hi e
  omega

theorem jstrPutLoop_run {s : St} (h : s.Lifo) (vd : Vec) (hv : ∃ i, vd.get i ≠ 0) (n : Nat) (pos : Vec) (f : Field) (hu : Field.UniqueKeys f.cells)
    (l : List Int) (m : Nat) :
    ∃ f', jstrPutLoop vd n pos ((s.setG { s.g with field := f }).setItems l m) =
        .ok ((), (s.setG { s.g with field := f' }).setItems (l.drop n) (m + n)) ∧
      (∀ k < n, ∀ q, StepsTo pos vd k q → f'.get q = f.cellOf (l.getD k 0)) ∧
      (∀ q, (∀ k < n, ¬ StepsTo pos vd k q) → f'.get q = f.get q) := by
  induction n generalizing pos f l m with
  | zero => exact ⟨f, rfl, fun k hk => absurd hk (Nat.not_lt_zero k), fun _ _ => rfl⟩
  | succ n ih =>
    have h' : (s.setG { s.g with field := f }).Lifo := h
    obtain ⟨f', e, h1, h2⟩ := ih (pos.add vd) (f.put pos (l.headD 0)) (Field.unique_put hu _ _) l.tail (m + 1)
    have hc : ∀ x, (f.put pos (l.headD 0)).cellOf x = f.cellOf x := by intro x; unfold Field.cellOf; rw [Field.put_charCells]
    have hst : ∀ k q, StepsTo (pos.add vd) vd k q ↔ StepsTo pos vd (k + 1) q := fun k q =>
      StepsTo.succ (fun i => by rw [Vec.get_add]) (fun _ => rfl)
    refine ⟨f', ?_, ?_, ?_⟩
    · rw [jstrPutLoop, bind_ok (popTop_run h' _ _), bind_ok (fieldPut_run _ _ _)]
      refine Eq.trans e ?_
      rw [List.drop_tail, Nat.add_assoc, Nat.add_comm 1]
    · intro k hk q hq
      cases k with
      | zero =>
        rw [h2 q, Field.get_put hu, if_pos (by rw [Vec.eqv_comm]; exact stepsTo_zero.mp hq)]
        · cases l <;> rfl
        · intro k _ hk'
          have := stepsTo_inj hv ((hst k q).mp hk') hq
          omega
      | succ k =>
        rw [h1 k (by omega) q ((hst k q).mpr hq), hc]
        cases l <;> rfl
    · intro q hq
      rw [h2 q fun k hk hk' => hq (k + 1) (by omega) ((hst k q).mp hk'), Field.get_put hu, if_neg]
      intro he
      exact hq 0 (by omega) (stepsTo_zero.mpr (by rw [Vec.eqv_comm]; exact he))

/-- **C75** `P` pops the number of cells, the first point (counted from the storage offset) and the step, then stores that many values from the stack, topmost first,
at the first point, one step on, two steps on and so on (zeros standing in for missing values) and changes no other cell. -/
theorem C75_put {s : St} (h : s.Lifo) (hd : 0 < s.g.cfg.dims) (hu : Field.UniqueKeys s.g.field.cells) {n : Int} {va vd : Vec} {l : List Int}
    (ha : va.InDim s.g.cfg.dims) (hdd : vd.InDim s.g.cfg.dims) (hv : ∃ i, vd.get i ≠ 0)
    (hi : s.items = n :: (coords s.g.cfg.dims va ++ (coords s.g.cfg.dims vd ++ l))) :
    ∃ s' f, fpRun .JSTR 80 s = .ok (.none, s') ∧ s.Puts s' (l.drop n.toNat) f ∧
      (∀ k < n.toNat, ∀ q, StepsTo (va.add s.cur.ip.storage) vd k q → f.get q = s.g.field.cellOf (l.getD k 0)) ∧
      (∀ q, (∀ k < n.toNat, ¬ StepsTo (va.add s.cur.ip.storage) vd k q) → f.get q = s.g.field.get q) := by
  obtain ⟨va', a1, a2, -⟩ := popCoordsN h va hd (coords s.g.cfg.dims vd ++ l) (s.top.ops + 1)
  obtain ⟨vd', d1, d2, -⟩ := popCoordsN h vd hd l (s.top.ops + 1 + s.g.cfg.dims)
  have ga := sameVec_eqv ha a2
  have gd := sameVec_eqv hdd d2
  obtain ⟨f, e, h1, h2⟩ := jstrPutLoop_run h vd' (by obtain ⟨i, hi⟩ := hv; exact ⟨i, by rw [gd]; exact hi⟩) n.toNat (va'.add s.cur.ip.storage) s.g.field hu l
    (s.top.ops + 1 + s.g.cfg.dims + s.g.cfg.dims)
  have hst : ∀ k q, StepsTo (va'.add s.cur.ip.storage) vd' k q ↔ StepsTo (va.add s.cur.ip.storage) vd k q := by
    intro k q; simp only [StepsTo, Vec.get_add, ga, gd]
  refine ⟨_, f, ?_, ⟨s.top.ops + 1 + s.g.cfg.dims + s.g.cfg.dims + n.toNat, rfl⟩, ?_, ?_⟩
  · show jstrPut s = _
    conv => lhs; rw [← setItems_self h, hi]
    rw [jstrPut, bind_ok (popTop_head h _ _ _), bind_ok a1, bind_ok d1, bind_ok (ipStorage_run _)]
    exact bind_ok e
  · intro k hk q hq; exact h1 k hk q ((hst k q).mpr hq)
  · intro q hq; exact h2 q fun k hk hk' => hq k hk ((hst k q).mp hk')

theorem jstrGetLoop_run {s : St} (h : s.Lifo) (vd : Vec) (n : Nat) (pos : Vec) (l : List Int) (m : Nat) :
    ∃ cells : List Int, jstrGetLoop vd n pos (s.setItems l m) = .ok ((), s.setItems (cells.reverse ++ l) (m + n)) ∧ cells.length = n ∧
      ∀ k < n, ∀ q, StepsTo pos vd k q → cells[k]? = some (s.g.field.get q) := by
  induction n generalizing pos l m with
  | zero => exact ⟨[], rfl, rfl, fun k hk => absurd hk (Nat.not_lt_zero k)⟩
  | succ n ih =>
    obtain ⟨cells, e, h1, h2⟩ := ih (pos.add vd) (s.g.field.get pos :: l) (m + 1)
    refine ⟨s.g.field.get pos :: cells, ?_, by simp [h1], ?_⟩
    · rw [jstrGetLoop, bind_ok (fieldGet_run _ _), bind_ok (pushTop_run h _ _ _)]
      refine Eq.trans e ?_
      rw [Nat.add_assoc, Nat.add_comm 1]; simp
    · intro k hk q hq
      cases k with
      | zero => rw [List.getElem?_cons_zero, Field.get_congr _ (stepsTo_zero.mp hq)]
      | succ k => exact h2 k (by omega) q ((StepsTo.succ (fun i => by rw [Vec.get_add]) (fun _ => rfl)).mpr hq)

/-- **C75** (partial: the cells come out in the wrong order, see `C75_false_order`) `G` pops the number of cells, the first point and the step and pushes a zero and the
cells at the first point, one step on, two steps on and so on, the last of them on top, and changes nothing else. -/
theorem C75_get_partial {s : St} (h : s.Lifo) (hd : 0 < s.g.cfg.dims) {n : Int} {va vd : Vec} {l : List Int}
    (ha : va.InDim s.g.cfg.dims) (hdd : vd.InDim s.g.cfg.dims)
    (hi : s.items = n :: (coords s.g.cfg.dims va ++ (coords s.g.cfg.dims vd ++ l))) :
    ∃ (s' : St) (cells : List Int), fpRun .JSTR 71 s = .ok (.none, s') ∧ s.Leaves s' (cells.reverse ++ 0 :: l) ∧ cells.length = n.toNat ∧
      ∀ k < n.toNat, ∀ q, StepsTo (va.add s.cur.ip.storage) vd k q → cells[k]? = some (s.g.field.get q) := by
  obtain ⟨va', a1, a2, -⟩ := popCoordsN h va hd (coords s.g.cfg.dims vd ++ l) (s.top.ops + 1)
  obtain ⟨vd', d1, d2, -⟩ := popCoordsN h vd hd l (s.top.ops + 1 + s.g.cfg.dims)
  have ga := sameVec_eqv ha a2
  have gd := sameVec_eqv hdd d2
  obtain ⟨cells, e, h1, h2⟩ := jstrGetLoop_run h vd' n.toNat (va'.add s.cur.ip.storage) (0 :: l) (s.top.ops + 1 + s.g.cfg.dims + s.g.cfg.dims + 1)
  have hst : ∀ k q, StepsTo (va'.add s.cur.ip.storage) vd' k q ↔ StepsTo (va.add s.cur.ip.storage) vd k q := by
    intro k q; simp only [StepsTo, Vec.get_add, ga, gd]
  refine ⟨_, cells, ?_, ⟨s.top.ops + 1 + s.g.cfg.dims + s.g.cfg.dims + 1 + n.toNat, rfl⟩, h1, ?_⟩
  · show jstrGet s = _
    conv => lhs; rw [← setItems_self h, hi]
    rw [jstrGet, bind_ok (popTop_head h _ _ _), bind_ok a1, bind_ok d1, bind_ok (ipStorage_run _), bind_ok (pushTop_run h _ _ _)]
    exact bind_ok e
  · intro k hk q hq; exact h2 k hk q ((hst k q).mpr hq)

/-- A state with arguments for JSTR. -/
def exLine (n : Int) (va vd : Vec) (l : List Int) : St := (machine [120, 121]).setItems (n :: (coords 2 va ++ (coords 2 vd ++ l))) 0

example : (exLine 3 (Vec.ofList [5, 1]) (Vec.ofList [1, 1]) [97, 98, 99]).Lifo ∧ 0 < (exLine 3 (Vec.ofList [5, 1]) (Vec.ofList [1, 1]) [97, 98, 99]).g.cfg.dims ∧
    Field.UniqueKeys (exLine 3 (Vec.ofList [5, 1]) (Vec.ofList [1, 1]) [97, 98, 99]).g.field.cells ∧ (∃ i, (Vec.ofList [1, 1]).get i ≠ 0) ∧
    (exLine 3 (Vec.ofList [5, 1]) (Vec.ofList [1, 1]) [97, 98, 99]).items = 3 :: (coords 2 (Vec.ofList [5, 1]) ++ (coords 2 (Vec.ofList [1, 1]) ++ [97, 98, 99])) :=
  ⟨by decide, by decide, by unfold Field.UniqueKeys; decide, ⟨0, by decide⟩, by decide⟩

/-- **C75** is violated: a string is popped with its first character on top (as by `P` of STRN and of JSTR), but `G` pushes it with its last character on top, whenever it is
not the same both ways round. -/
theorem C75_false_order {s : St} (h : s.Lifo) (hd : 0 < s.g.cfg.dims) {n : Int} {va vd : Vec} {l : List Int}
    (ha : va.InDim s.g.cfg.dims) (hdd : vd.InDim s.g.cfg.dims)
    (hi : s.items = n :: (coords s.g.cfg.dims va ++ (coords s.g.cfg.dims vd ++ l)))
    {j : Nat} (hj : j < n.toNat) {q q' : Vec} (hq : StepsTo (va.add s.cur.ip.storage) vd j q)
    (hq' : StepsTo (va.add s.cur.ip.storage) vd (n.toNat - 1 - j) q') (hne : s.g.field.get q ≠ s.g.field.get q') :
    ∃ s', fpRun .JSTR 71 s = .ok (.none, s') ∧ ¬ ∃ cells : List Int, s.Leaves s' (cells ++ 0 :: l) ∧ cells.length = n.toNat ∧
      ∀ k < n.toNat, ∀ q, StepsTo (va.add s.cur.ip.storage) vd k q → cells[k]? = some (s.g.field.get q) := by
  obtain ⟨s', cells, h1, ⟨a, h2⟩, h3, h4⟩ := C75_get_partial h hd ha hdd hi
  refine ⟨s', h1, ?_⟩
  rintro ⟨cells', ⟨b, h2'⟩, h3', h4'⟩
  have e : cells.reverse ++ 0 :: l = cells' ++ 0 :: l := by
    rw [← items_setItems h (cells.reverse ++ 0 :: l) a, ← h2, h2', items_setItems h]
  have e' : cells.reverse = cells' := List.append_cancel_right e
  have r : cells.reverse[j]? = cells[n.toNat - 1 - j]? := by rw [List.getElem?_reverse (by omega), h3]
  rw [e', h4' j hj q hq, h4 _ (by omega) q' hq'] at r
  exact hne (Option.some.inj r)

/-- The state after storing `ab` at (0, 0), with the arguments for `G` on the stack. -/
def exLine2 : St := match fpRun .JSTR 80 (exLine 2 (Vec.ofList [0, 0]) (Vec.ofList [1, 0]) [97, 98, 2, 0, 0, 0, 1]) with | .ok (_, s) => s | .error _ => exState []

example : exLine2.Lifo ∧ 0 < exLine2.g.cfg.dims ∧ exLine2.items = 2 :: (coords exLine2.g.cfg.dims (Vec.ofList [0, 0]) ++ (coords exLine2.g.cfg.dims (Vec.ofList [1, 0]) ++ [])) ∧
    exLine2.g.field.get (Vec.ofList [0]) ≠ exLine2.g.field.get (Vec.ofList [1]) ∧
    (match fpRun .JSTR 71 exLine2 with | .ok (_, s) => some s.items | .error _ => none) = some [98, 97, 0] := by decide +kernel

end Funge
