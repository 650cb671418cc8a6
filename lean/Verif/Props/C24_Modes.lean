import Verif.Props.C24_PutGet
/-!
# C24 in all modes of the stack, and C36 where it fails

MODE's `I` and `Q` make a stack push or pop at its other end. `p` and `g` take their operands in the order in which the stack gives them,
so C24 holds in all four modes. A string or vector comes back only if pushing and popping happen at the same end.
-/
namespace Funge
open Exec

/-- A list, or the same list read from its other end. -/
def fromEnd (other : Bool) (l : List Int) : List Int := if other then l.reverse else l

@[simp] theorem fromEnd_fromEnd (b : Bool) (l : List Int) : fromEnd b (fromEnd b l) = l := by
  cases b <;> simp [fromEnd]

/-- The values of the top stack in the order in which it will give them: from the top, or from the bottom in queue mode. -/
def St.due (s : St) : List Int := fromEnd (hasMode s.top.mode modeQueue) s.items

theorem popTop_any {s : St} (h : s.cur.ss.select < s.cur.ss.stacks.length) {q : Bool} (hq : hasMode s.top.mode modeQueue = q) (l n) :
    popTop (s.setItems (fromEnd q l) n) = .ok (l.headD 0, s.setItems (fromEnd q l.tail) (n + 1)) := by
  have hl : (s.setItems (fromEnd q l) n).cur.ss.select < (s.setItems (fromEnd q l) n).cur.ss.stacks.length := by
    rw [setItems_select, setItems_len]; exact h
  have hp : (⟨s.top.mode, fromEnd q l, n⟩ : Stack).pop = (l.headD 0, ⟨s.top.mode, fromEnd q l.tail, n + 1⟩) := by
    cases q with
    | false => exact pop_lifo (st := ⟨s.top.mode, l, n⟩) hq
    | true =>
      cases l with
      | nil => rfl
      | cons x t =>
        unfold Stack.pop
        simp only [fromEnd, if_true]
        cases hr : (x :: t).reverse with
        | nil => simp at hr
        | cons y u =>
          simp only [hq, if_true]
          rw [← hr]
          simp
  rw [popTop, onTop_run hl, top_setItems h, hp]
  simp only [St.setItems, setTop_setTop]

theorem popVectorLoop_any {s : St} (h : s.cur.ss.select < s.cur.ss.stacks.length) {q : Bool}
    (hq : hasMode s.top.mode modeQueue = q) (d : Nat) (v : Vec) (l n) :
    ∃ w : Vec, popVectorLoop popTop d v (s.setItems (fromEnd q l) n) = .ok (w, s.setItems (fromEnd q (l.drop d)) (n + d)) ∧
      ∀ i, w.get i = if i < d then l.getD (d - 1 - i) 0 else v.get i := by
  induction d generalizing v l n with
  | zero => exact ⟨v, rfl, fun i => by simp⟩
  | succ d ih =>
    obtain ⟨w, hw, hg⟩ := ih (v.set d (l.headD 0)) l.tail (n + 1)
    refine ⟨w, ?_, ?_⟩
    · rw [popVectorLoop, bind_ok (popTop_any h hq l n), hw]
      simp [Nat.add_comm, Nat.add_left_comm]
    · intro i
      rw [hg, Vec.get_set]
      by_cases h1 : i < d
      · rw [if_pos h1, if_pos (by omega)]
        have : d + 1 - 1 - i = (d - 1 - i) + 1 := by omega
        rw [this]
        cases l <;> simp
      · by_cases h2 : i = d
        · subst h2; cases l <;> simp
        · rw [if_neg h1, if_neg h2, if_neg (by omega)]

theorem popVector_any {s : St} (h : s.cur.ss.select < s.cur.ss.stacks.length) {q : Bool}
    (hq : hasMode s.top.mode modeQueue = q) (l n) :
    ∃ w : Vec, popVector (s.setItems (fromEnd q l) n) =
        .ok (w, s.setItems (fromEnd q (l.drop s.g.cfg.dims)) (n + s.g.cfg.dims)) ∧ w.get = vecOf l s.g.cfg.dims := by
  obtain ⟨w, hw, hg⟩ := popVectorLoop_any h hq s.g.cfg.dims Vec.empty l n
  refine ⟨w, ?_, ?_⟩
  · rw [popVector, popVectorOn, bind_ok (getDims_run _)]; exact hw
  · funext i
    rw [hg, vecOf]
    congr 1

theorem due_self {s : St} (h : s.cur.ss.select < s.cur.ss.stacks.length) {q : Bool} (hq : hasMode s.top.mode modeQueue = q) :
    s.setItems (fromEnd q s.due) s.top.ops = s := by
  rw [St.due, hq, fromEnd_fromEnd]
  exact setTop_self h

/-- The cell addressed by the next `dims` values the stack will give: storage offset plus these, the last coordinate first. -/
def AddressedNext (s : St) (v : Vec) : Prop :=
  ∀ i, v.get i = s.cur.ip.storage.get i + (if i < s.g.cfg.dims then s.due.getD (s.g.cfg.dims - 1 - i) 0 else 0)

/-- **C24** in all modes of the stack: `p` changes exactly the cell at storage offset + vector, which then reads as the value that
comes after the vector; it takes both from the stack and changes nothing else. -/
theorem C24_put_any_mode (exec : Int → Exec Err) (s : St) (h : s.cur.ss.select < s.cur.ss.stacks.length)
    (hf : Field.Reachable s.g.field) (hc : s.g.field.charCells = false) :
    ∃ s' f, runOp exec .put s = .ok (.none, s') ∧
      (∃ n l, s' = (s.setG { s.g with field := f }).setItems l n) ∧ s'.due = s.due.drop (s.g.cfg.dims + 1) ∧
      Field.Reachable f ∧ f.charCells = false ∧ (∀ v, AddressedNext s v → f.get v = s.due.getD s.g.cfg.dims 0) ∧
      (∀ v, ¬ AddressedNext s v → f.get v = s.g.field.get v) := by
  generalize hq : hasMode s.top.mode modeQueue = q
  obtain ⟨w, hw, hg⟩ := popVector_any h hq s.due s.top.ops
  have key : ∀ v : Vec, (w.add s.cur.ip.storage).eqv v = true ↔ AddressedNext s v := by
    intro v
    rw [Vec.eqv_iff]
    constructor
    · intro hv i
      rw [← hv i, Vec.get_add, hg, Int.add_comm]; rfl
    · intro hv i
      rw [hv i, Vec.get_add, hg, Int.add_comm]; rfl
  refine ⟨(s.setG { s.g with field := s.g.field.put (w.add s.cur.ip.storage) (s.due.getD s.g.cfg.dims 0) }).setItems
      (fromEnd q (s.due.drop (s.g.cfg.dims + 1))) (s.top.ops + s.g.cfg.dims + 1),
    s.g.field.put (w.add s.cur.ip.storage) (s.due.getD s.g.cfg.dims 0), ?_, ⟨_, _, rfl⟩, ?_, .put _ _ _ hf, ?_, ?_, ?_⟩
  · show iPut s = _
    rw [iPut, bind_ok (ipStorage_run _)]
    rw [due_self h hq] at hw
    rw [bind_ok hw, bind_ok (popTop_any h hq _ _), bind_ok (fieldPut_run _ _ _), pure_run]
    congr 2
    simp only [List.tail_drop]
    rw [setItems_setG]
    simp [List.headD_eq_head?_getD, List.head?_drop]
  · have h' : (s.setG { s.g with field := s.g.field.put (w.add s.cur.ip.storage) (s.due.getD s.g.cfg.dims 0) }).cur.ss.select <
        (s.setG { s.g with field := s.g.field.put (w.add s.cur.ip.storage) (s.due.getD s.g.cfg.dims 0) }).cur.ss.stacks.length := h
    rw [St.due, St.items, top_setItems h', top_setG, hq, fromEnd_fromEnd]
  · rw [Field.put_charCells, hc]
  · intro v hv
    rw [Field.get_put hf.unique, if_pos ((key v).2 hv), Field.cellOf, hc]; simp
  · intro v hv
    rw [Field.get_put hf.unique, if_neg (fun hh => hv ((key v).1 hh))]

/-- **C24** in all modes of the stack: `g` takes a vector from the stack and pushes the value of the cell at storage offset + vector, at
the end at which the stack pushes, and changes nothing else. -/
theorem C24_get_any_mode (exec : Int → Exec Err) (s : St) (h : s.cur.ss.select < s.cur.ss.stacks.length) :
    ∃ s' v, runOp exec .get s = .ok (.none, s') ∧ AddressedNext s v ∧
      s.Leaves s' (if hasMode s.top.mode modeInvert then
        fromEnd (hasMode s.top.mode modeQueue) (s.due.drop s.g.cfg.dims) ++ [s.g.field.get v]
      else s.g.field.get v :: fromEnd (hasMode s.top.mode modeQueue) (s.due.drop s.g.cfg.dims)) := by
  generalize hq : hasMode s.top.mode modeQueue = q
  obtain ⟨w, hw, hg⟩ := popVector_any h hq s.due s.top.ops
  rw [due_self h hq] at hw
  refine ⟨_, w.add s.cur.ip.storage, ?_, ?_, s.top.ops + s.g.cfg.dims + 1, rfl⟩
  · show iGet s = _
    rw [iGet, bind_ok (ipStorage_run _), bind_ok hw, bind_ok (fieldGet_run _ _)]
    have hl : ∀ l n, (s.setItems l n).cur.ss.select < (s.setItems l n).cur.ss.stacks.length := by
      intro l n; rw [setItems_select, setItems_len]; exact h
    rw [bind_ok (by rw [pushTop]; exact onTop_run (hl _ _) _), pure_run]
    congr 2
    rw [top_setItems h]
    simp only [St.setItems, setTop_setTop, Stack.push]
    cases hasMode s.top.mode modeInvert <;> rfl
  · intro i
    rw [Vec.get_add, hg, Int.add_comm]; rfl

/-- **C24** in all modes of the stack, also different ones: after `p`, a `g` with the same vector and storage offset pushes the value
stored, at the end at which the stack pushes. -/
theorem C24_put_then_get_any_mode (exec : Int → Exec Err) (s s1 s2 : St) (h : s.cur.ss.select < s.cur.ss.stacks.length)
    (hf : Field.Reachable s.g.field) (hc : s.g.field.charCells = false) (e : Err) (hput : runOp exec .put s = .ok (e, s1))
    (h2 : s2.cur.ss.select < s2.cur.ss.stacks.length) (hfield : s2.g.field = s1.g.field) (hdims : s2.g.cfg.dims = s.g.cfg.dims)
    (hst : s2.cur.ip.storage = s.cur.ip.storage) (hvec : ∀ i, i < s.g.cfg.dims → s2.due.getD i 0 = s.due.getD i 0) :
    ∃ s3 left, runOp exec .get s2 = .ok (.none, s3) ∧ left = fromEnd (hasMode s2.top.mode modeQueue) (s2.due.drop s.g.cfg.dims) ∧
      s2.Leaves s3 (if hasMode s2.top.mode modeInvert then left ++ [s.due.getD s.g.cfg.dims 0]
        else s.due.getD s.g.cfg.dims 0 :: left) := by
  obtain ⟨s1', f, hrun, ⟨n, l, hs1⟩, -, -, -, hget, -⟩ := C24_put_any_mode exec s h hf hc
  rw [hrun] at hput
  obtain ⟨rfl, rfl⟩ := Prod.mk.inj (Except.ok.inj hput)
  obtain ⟨s3, v, hrun2, hv, hl⟩ := C24_get_any_mode exec s2 h2
  refine ⟨s3, _, hrun2, rfl, ?_⟩
  have : AddressedNext s v := by
    intro i
    rw [hv i, hst, hdims]
    split
    · rw [hvec _ (by omega)]
    · rfl
  rw [hdims, hfield, hs1] at hl
  simpa only [setItems_g, setG_g, hget v this] using hl

/-- A state of a two-dimensional universe whose stack holds `items` and has the mode `m`. -/
def exMode (m : Nat) (items : List Int) : St :=
  { exState2 items with cur := { (exState2 items).cur with ss := { stacks := [{ mode := m, items := items }] } } }

/-- In queue mode with 1, 2, 99, 4, 3 from the top: the vector is (4, 3) from the bottom and 99 is stored at (14, 23). -/
example : (exMode modeQueue [1, 2, 99, 4, 3]).cur.ss.select < (exMode modeQueue [1, 2, 99, 4, 3]).cur.ss.stacks.length ∧
    Field.Reachable (exMode modeQueue [1, 2, 99, 4, 3]).g.field ∧ (exMode modeQueue [1, 2, 99, 4, 3]).g.field.charCells = false ∧
    (exMode modeQueue [1, 2, 99, 4, 3]).due = [3, 4, 99, 2, 1] ∧
    (match runOp (fun _ => pure .none) .put (exMode modeQueue [1, 2, 99, 4, 3]) with
      | .ok (_, s) => (s.g.field.get (Vec.ofList [14, 23]) == 99 && s.due == [2, 1])
      | .error _ => false) = true :=
  ⟨by decide, .new _ _, rfl, by decide +kernel, by decide +kernel⟩

/-! ### C36 -/

theorem pushTop_same {s : St} (h : s.cur.ss.select < s.cur.ss.stacks.length) {q : Bool} (hi : hasMode s.top.mode modeInvert = q) (l n) (v : Int) :
    pushTop v (s.setItems (fromEnd q l) n) = .ok ((), s.setItems (fromEnd q (v :: l)) (n + 1)) := by
  have hl : (s.setItems (fromEnd q l) n).cur.ss.select < (s.setItems (fromEnd q l) n).cur.ss.stacks.length := by
    rw [setItems_select, setItems_len]; exact h
  have hp : (⟨s.top.mode, fromEnd q l, n⟩ : Stack).push v = ⟨s.top.mode, fromEnd q (v :: l), n + 1⟩ := by
    unfold Stack.push
    cases q <;> simp [hi, fromEnd]
  rw [pushTop, onTop_run hl, top_setItems h, hp]
  simp only [St.setItems, setTop_setTop]

theorem pushAll_same {s : St} (h : s.cur.ss.select < s.cur.ss.stacks.length) {q : Bool} (hi : hasMode s.top.mode modeInvert = q) (xs : List Int) (l n) :
    pushAll pushTop xs (s.setItems (fromEnd q l) n) = .ok ((), s.setItems (fromEnd q (xs.reverse ++ l)) (n + xs.length)) := by
  induction xs generalizing l n with
  | nil => rfl
  | cons x t ih =>
    rw [pushAll, bind_ok (pushTop_same h hi l n x), ih]
    simp [Nat.add_comm, Nat.add_left_comm]

theorem sizeTop_any {s : St} (h : s.cur.ss.select < s.cur.ss.stacks.length) (q : Bool) (l n) :
    sizeTop (s.setItems (fromEnd q l) n) = .ok (l.length, s.setItems (fromEnd q l) n) := by
  have hl : (s.setItems (fromEnd q l) n).cur.ss.select < (s.setItems (fromEnd q l) n).cur.ss.stacks.length := by
    rw [setItems_select, setItems_len]; exact h
  rw [sizeTop, onTop_run hl, top_setItems h]
  simp only [St.setItems, setTop_setTop, Stack.size]
  cases q <;> simp [fromEnd]

theorem popStringLoop_any {s : St} (h : s.cur.ss.select < s.cur.ss.stacks.length) {q : Bool} (hq : hasMode s.top.mode modeQueue = q) (l : List Int) (k n : Nat)
    (acc : List Int) (hk : l.length < k) :
    ∃ n', popStringLoop k acc (s.setItems (fromEnd q l) n) =
      .ok (acc.reverse ++ (l.takeWhile (· ≠ 0)).map toChar, s.setItems (fromEnd q (l.dropWhile (· ≠ 0)).tail) n') := by
  induction k generalizing l n acc with
  | zero => omega
  | succ k ih =>
    cases l with
    | nil =>
      refine ⟨n + 1, ?_⟩
      rw [popStringLoop, bind_ok (popTop_any h hq _ n)]
      simp [pure_run]
    | cons x t =>
      by_cases hx : x = 0
      · subst hx
        refine ⟨n + 1, ?_⟩
        rw [popStringLoop, bind_ok (popTop_any h hq _ n)]
        simp [pure_run]
      · obtain ⟨n', hn⟩ := ih t (n + 1) (toChar x :: acc) (by simp at hk; omega)
        refine ⟨n', ?_⟩
        rw [popStringLoop, bind_ok (popTop_any h hq _ n)]
        simp [hx, hn]

/-- **C36** in the two modes in which a stack pushes and pops at the same end: a string pushed and popped again is the same string, and the stack is as before. -/
theorem C36_string_same_end_partial (s : St) (h : s.cur.ss.select < s.cur.ss.stacks.length)
    (he : hasMode s.top.mode modeQueue = hasMode s.top.mode modeInvert) (str : List Int) (hs : ∀ c ∈ str, c ≠ 0 ∧ -128 ≤ c ∧ c ≤ 127) :
    ∃ s1 s2 k, pushString str s = .ok (k, s1) ∧ popString s1 = .ok (str, s2) ∧ s.Leaves s2 s.items := by
  generalize hq : hasMode s.top.mode modeQueue = q at he
  have h1 : ∀ l : List Int, (∀ c ∈ l, c ≠ 0 ∧ -128 ≤ c ∧ c ≤ 127) →
      ((l ++ 0 :: s.due).takeWhile (· ≠ 0)).map toChar = l ∧ (l ++ 0 :: s.due).dropWhile (· ≠ 0) = 0 :: s.due := by
    intro l hl
    induction l with
    | nil => simp
    | cons x t ih =>
      have hx := hl x (by simp)
      have ht := ih fun c hc => hl c (by simp [hc])
      have : toChar x = x := by
        unfold toChar; rw [Int.bmod_def]; split <;> omega
      simp only [List.cons_append]
      rw [List.takeWhile_cons, List.dropWhile_cons]
      simp only [ne_eq, hx.1, not_false_eq_true, decide_true, if_true, List.map_cons, this, ht.1]
      exact ⟨trivial, ht.2⟩
  obtain ⟨n', hn⟩ := popStringLoop_any h hq (str ++ 0 :: s.due) ((str ++ 0 :: s.due).length + 1) (s.top.ops + 1 + str.length) [] (by omega)
  rw [(h1 str hs).1, (h1 str hs).2] at hn
  refine ⟨s.setItems (fromEnd q (str ++ 0 :: s.due)) (s.top.ops + 1 + str.length), s.setItems (fromEnd q s.due) n', str.length + 1, ?_, ?_, n', ?_⟩
  · have := bind_ok (f := fun _ : Unit => (pushAll pushTop str.reverse >>= fun _ => pure (str.length + 1) : Exec Nat)) (pushTop_same h he.symm s.due s.top.ops 0)
    rw [due_self h hq] at this
    rw [pushString]
    refine this.trans ?_
    rw [bind_ok (pushAll_same h he.symm _ _ _)]
    simp [pure_run]
  · rw [popString, bind_ok (sizeTop_any h q _ _), hn]; rfl
  · rw [St.due, hq, fromEnd_fromEnd]

/-- **C36** in these modes, for vectors. -/
theorem C36_vector_same_end_partial (s : St) (h : s.cur.ss.select < s.cur.ss.stacks.length)
    (he : hasMode s.top.mode modeQueue = hasMode s.top.mode modeInvert) (v : Vec) :
    ∃ s1 s2 w, pushVector v s = .ok ((), s1) ∧ popVector s1 = .ok (w, s2) ∧ s.Leaves s2 s.items ∧
      (∀ i, i < s.g.cfg.dims → w.get i = v.get i) ∧ (∀ i, s.g.cfg.dims ≤ i → w.get i = 0) := by
  generalize hq : hasMode s.top.mode modeQueue = q at he
  obtain ⟨w, hw, hg⟩ := popVector_any h hq (((List.range s.g.cfg.dims).map v.get).reverse ++ s.due) (s.top.ops + s.g.cfg.dims)
  refine ⟨s.setItems (fromEnd q (((List.range s.g.cfg.dims).map v.get).reverse ++ s.due)) (s.top.ops + s.g.cfg.dims), _, w, ?_, hw,
    ⟨s.top.ops + s.g.cfg.dims + s.g.cfg.dims, ?_⟩, ?_, ?_⟩
  · rw [pushVector, pushVectorOn, bind_ok (getDims_run _)]
    have := pushAll_same h he.symm ((List.range s.g.cfg.dims).map v.get) s.due s.top.ops
    rw [due_self h hq] at this
    refine this.trans ?_
    simp
  · congr 1
    rw [List.drop_append_of_le_length (by simp), List.drop_of_length_le (by simp), List.nil_append, St.due, hq, fromEnd_fromEnd]
  · intro i hi
    rw [hg, vecOf, if_pos hi, List.getD_eq_getElem?_getD, List.getElem?_append_left (by simp; omega),
      List.getElem?_reverse (by simp; omega)]
    have : (List.map v.get (List.range s.g.cfg.dims)).length - 1 - (s.g.cfg.dims - 1 - i) = i := by simp; omega
    rw [this]
    simp [hi]
  · intro i hi
    rw [hg, vecOf, if_neg (by omega)]

example : (exMode (modeQueue ||| modeInvert) [1, 0, 2]).cur.ss.select < (exMode (modeQueue ||| modeInvert) [1, 0, 2]).cur.ss.stacks.length ∧
    hasMode (exMode (modeQueue ||| modeInvert) [1, 0, 2]).top.mode modeQueue = true ∧
    hasMode (exMode (modeQueue ||| modeInvert) [1, 0, 2]).top.mode modeInvert = true := by decide

/-- **C36** fails where pushing and popping happen at different ends (MODE's `Q` without `I` or `I` without `Q`): a string and a vector
pushed over a 7 do not come back. -/
theorem C36_false_queue_mode :
    (∃ s1 s2 k, pushString [72, 105] (exMode modeQueue [7]) = .ok (k, s1) ∧ popString s1 = .ok ([7], s2)) ∧
    (∃ s1 s2 k, pushString [72, 105] (exMode modeInvert [7]) = .ok (k, s1) ∧ popString s1 = .ok ([7], s2)) ∧
    (∃ s1 s2 w, pushVector (Vec.ofList [5, 6]) (exMode modeQueue [7]) = .ok ((), s1) ∧ popVector s1 = .ok (w, s2) ∧
      w.get 0 = 5 ∧ w.get 1 = 7) :=
  ⟨⟨_, _, _, rfl, rfl⟩, ⟨_, _, _, rfl, rfl⟩, ⟨_, _, _, rfl, rfl, by decide +kernel, by decide +kernel⟩⟩

end Funge
