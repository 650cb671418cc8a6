import Verif.Lemmas.Exec
import Verif.Props.C08_Field
import Verif.Props.C23_Arithmetic
/-!
# C24 and C36: `p` and `g`; strings and vectors on the stack
-/
namespace Funge
open Exec

/-- The cell addressed by the vector on top of the stack: storage offset plus the topmost `dims` values, the last coordinate on top. -/
def Addressed (s : St) (q : Vec) : Prop :=
  ∀ i, q.get i = s.cur.ip.storage.get i + (if i < s.g.cfg.dims then s.items.getD (s.g.cfg.dims - 1 - i) 0 else 0)

/-- **C24** `p` changes exactly the cell at storage offset + vector, which then reads as the value under the vector; it pops both and
changes nothing else. -/
theorem C24_put (exec : Int → Exec Err) (s : St) (h : s.Lifo) (hf : Field.Reachable s.g.field)
    (hc : s.g.field.charCells = false) :
    ∃ s' f n, runOp exec .put s = .ok (.none, s') ∧
      s' = (s.setG { s.g with field := f }).setItems (s.items.drop (s.g.cfg.dims + 1)) n ∧ Field.Reachable f ∧
      f.charCells = false ∧
      (∀ q, Addressed s q → f.get q = s.items.getD s.g.cfg.dims 0) ∧ (∀ q, ¬ Addressed s q → f.get q = s.g.field.get q) := by
  obtain ⟨w, hw, hg, -, -⟩ := popVector_run h s.items s.top.ops
  have key : ∀ q : Vec, (w.add s.cur.ip.storage).eqv q = true ↔ Addressed s q := by
    intro q
    rw [Vec.eqv_iff]
    constructor
    · intro hq i
      rw [← hq i, Vec.get_add, hg, Int.add_comm]; rfl
    · intro hq i
      rw [hq i, Vec.get_add, hg, Int.add_comm]; rfl
  refine ⟨_, s.g.field.put (w.add s.cur.ip.storage) (s.items.getD s.g.cfg.dims 0), s.top.ops + s.g.cfg.dims + 1, ?_, rfl,
    .put _ _ _ hf, ?_, ?_, ?_⟩
  · show iPut s = _
    apply run_items h
    rw [iPut, bind_ok (ipStorage_run _), bind_ok hw, bind_ok (popTop_run h _ _), bind_ok (fieldPut_run _ _ _), pure_run]
    congr 2
    simp only [List.tail_drop]
    rw [setItems_setG]
    simp [List.headD_eq_head?_getD, List.head?_drop]
  · rw [Field.put_charCells, hc]
  · intro q hq
    rw [Field.get_put hf.unique, if_pos ((key q).2 hq), Field.cellOf, hc]; simp
  · intro q hq
    rw [Field.get_put hf.unique, if_neg (fun hh => hq ((key q).1 hh))]

/-- **C24** `g` replaces the vector on the stack by the value of the cell at storage offset + vector and changes nothing else. -/
theorem C24_get (exec : Int → Exec Err) (s : St) (h : s.Lifo) :
    ∃ s' q, runOp exec .get s = .ok (.none, s') ∧ Addressed s q ∧
      s.Leaves s' (s.g.field.get q :: s.items.drop s.g.cfg.dims) := by
  obtain ⟨w, hw, hg, -, -⟩ := popVector_run h s.items s.top.ops
  refine ⟨_, w.add s.cur.ip.storage, ?_, ?_, s.top.ops + s.g.cfg.dims + 1, rfl⟩
  · show iGet s = _
    apply run_items h
    rw [iGet, bind_ok (ipStorage_run _), bind_ok hw, bind_ok (fieldGet_run _ _), bind_ok (pushTop_run h _ _ _), pure_run]; rfl
  · intro i
    rw [Vec.get_add, hg, Int.add_comm]; rfl

/-- **C24** After `p`, a `g` with the same vector and storage offset returns the value stored, whatever happened to the stack in between. -/
theorem C24_put_then_get (exec : Int → Exec Err) (s s1 s2 : St) (h : s.Lifo) (hf : Field.Reachable s.g.field)
    (hc : s.g.field.charCells = false) (e : Err) (hput : runOp exec .put s = .ok (e, s1)) (h2 : s2.Lifo)
    (hfield : s2.g.field = s1.g.field) (hdims : s2.g.cfg.dims = s.g.cfg.dims) (hst : s2.cur.ip.storage = s.cur.ip.storage)
    (hvec : ∀ i, i < s.g.cfg.dims → s2.items.getD i 0 = s.items.getD i 0) :
    ∃ s3, runOp exec .get s2 = .ok (.none, s3) ∧ s2.Leaves s3 (s.items.getD s.g.cfg.dims 0 :: s2.items.drop s.g.cfg.dims) := by
  obtain ⟨s1', f, n, hrun, hs1, -, -, hget, -⟩ := C24_put exec s h hf hc
  rw [hrun] at hput
  obtain ⟨rfl, rfl⟩ := Prod.mk.inj (Except.ok.inj hput)
  obtain ⟨s3, q, hrun2, hq, hl⟩ := C24_get exec s2 h2
  refine ⟨s3, hrun2, ?_⟩
  have : Addressed s q := by
    intro i
    rw [hq i, hst, hdims]
    split
    · rw [hvec _ (by omega)]
    · rfl
  rw [hdims, hfield, hs1] at hl
  simpa only [setItems_g, setG_g, hget q this] using hl

/-- A two-dimensional universe for the examples; the storage offset is (10, 20). -/
def exState2 (items : List Int) : St :=
  { exState items with
    cur := { (exState items).cur with ip := { storage := Vec.ofList [10, 20] } }
    g := { (exState items).g with cfg := { dims := 2 } } }

example : (exState2 [3, 4, 99, 7]).Lifo ∧ Field.Reachable (exState2 [3, 4, 99, 7]).g.field ∧
    (exState2 [3, 4, 99, 7]).g.field.charCells = false ∧ Addressed (exState2 [3, 4, 99, 7]) (Vec.ofList [14, 23]) := by
  refine ⟨by decide, .new _ _, rfl, ?_⟩
  intro i
  rcases i with _ | _ | i
  · decide
  · decide
  · show _ = (Vec.ofList [10, 20]).get (i + 1 + 1) + if i + 1 + 1 < 2 then _ else _
    rw [if_neg (by omega)]; simp [Vec.get_ofList]

/-- **C36** A string pushed and popped again is the same string, and the stack is as before. -/
theorem C36_string_partial (s : St) (h : s.Lifo) (str : List Int) (hs : ∀ c ∈ str, c ≠ 0 ∧ -128 ≤ c ∧ c ≤ 127) :
    ∃ s1 s2 k, pushString str s = .ok (k, s1) ∧ popString s1 = .ok (str, s2) ∧ s.Leaves s2 s.items := by
  have h1 : ∀ l : List Int, (∀ c ∈ l, c ≠ 0 ∧ -128 ≤ c ∧ c ≤ 127) →
      ((l ++ 0 :: s.items).takeWhile (· ≠ 0)).map toChar = l ∧ (l ++ 0 :: s.items).dropWhile (· ≠ 0) = 0 :: s.items := by
    intro l hl
    induction l with
    | nil => simp
    | cons x t ih =>
      have hx := hl x (by simp)
      have ht := ih fun c hc => hl c (by simp [hc])
      have : toChar x = x := by
        unfold toChar; rw [Int.bmod_def]; split <;> omega
      simp only [List.cons_append]
      rw [List.takeWhile_cons, List.dropWhile_cons]
      simp only [ne_eq, hx.1, not_false_eq_true, decide_true, if_true, List.map_cons, this, ht.1]
      exact ⟨trivial, ht.2⟩
  obtain ⟨n', hn⟩ := popString_run h (str ++ 0 :: s.items) (s.top.ops + 1 + str.length)
  rw [(h1 str hs).1, (h1 str hs).2] at hn
  exact ⟨_, _, _, run_items h (pushString_run h str _ _), hn, n', rfl⟩

example : (exState [1, 0, 2]).Lifo ∧ ∀ c ∈ [72, 105, -30], c ≠ (0 : Int) ∧ -128 ≤ c ∧ c ≤ 127 := by decide

/-- **C36** A vector pushed and popped again has the same coordinates in the dimensions of the universe, and the stack is as before. -/
theorem C36_vector_partial (s : St) (h : s.Lifo) (v : Vec) :
    ∃ s1 s2 w, pushVector v s = .ok ((), s1) ∧ popVector s1 = .ok (w, s2) ∧ s.Leaves s2 s.items ∧
      (∀ i, i < s.g.cfg.dims → w.get i = v.get i) ∧ (∀ i, s.g.cfg.dims ≤ i → w.get i = 0) ∧
      (0 < s.g.cfg.dims → 0 < v.size → v.Normal → (∀ i, s.g.cfg.dims ≤ i → v.get i = 0) → w = v) := by
  obtain ⟨w, hw, hg, hsz, hn⟩ := popVector_run h (((List.range s.g.cfg.dims).map v.get).reverse ++ s.items) (s.top.ops + s.g.cfg.dims)
  have e1 : ∀ i, i < s.g.cfg.dims → w.get i = v.get i := by
    intro i hi
    rw [hg, vecOf, if_pos hi, List.getD_eq_getElem?_getD, List.getElem?_append_left (by simp; omega),
      List.getElem?_reverse (by simp; omega)]
    have : (List.map v.get (List.range s.g.cfg.dims)).length - 1 - (s.g.cfg.dims - 1 - i) = i := by simp; omega
    rw [this]
    simp [hi]
  have e2 : ∀ i, s.g.cfg.dims ≤ i → w.get i = 0 := by
    intro i hi
    rw [hg, vecOf, if_neg (by omega)]
  refine ⟨_, _, w, run_items h (pushVector_run h v _ _), hw, ⟨s.top.ops + s.g.cfg.dims + s.g.cfg.dims, ?_⟩, e1, e2, ?_⟩
  · congr 1
    rw [List.drop_append_of_le_length (by simp)]
    simp
  · intro hd hv hvn hv0
    refine Vec.Normal.ext hn hvn (hsz hd) hv fun i => ?_
    by_cases hi : i < s.g.cfg.dims
    · exact e1 i hi
    · rw [e2 i (by omega), hv0 i (by omega)]

example : (exState2 [3, 4]).Lifo ∧ (Vec.ofList [5, -6]).Normal ∧ 0 < (Vec.ofList [5, -6]).size :=
  ⟨by decide, Vec.normal_ofList _, by decide⟩

end Funge
