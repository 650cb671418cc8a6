import Verif.Lemmas.Exec
/-!
# C23: arithmetic instructions
-/
namespace Funge
open Exec

/-- What a user expects of the two-operand instructions: `b` was pushed first, `a` last. -/
def arith : Op → Option (Int → Int → Int)
  | .add => some fun b a => b + a
  | .sub => some fun b a => b - a
  | .mul => some fun b a => b * a
  | .div => some fun b a => if a = 0 then 0 else b.tdiv a
  | .rem => some fun b a => if a = 0 then 0 else b.tmod a
  | .gt => some fun b a => if a < b then 1 else 0
  | _ => none

/-- A state with the given values on the top stack (topmost first), used in the examples. -/
def exState (items : List Int) : St :=
  { cur := { ss := { stacks := [{ items := items }, { items := [77] }] } }, g := { flt := exFloat } }

theorem iBin_ok {s : St} (h : s.Lifo) (f : Int → Int → Except Fault Int) (r : Int)
    (hf : f (s.items.tail.headD 0) (s.items.headD 0) = .ok r) :
    iBin f s = .ok (.none, s.setItems (r :: s.items.drop 2) (s.top.ops + 3)) := by
  apply run_items h
  rw [iBin, bind_ok (popTop_run h _ _), bind_ok (popTop_run h _ _), hf, bind_ok (lift_ok _ _), bind_ok (pushTop_run h _ _ _)]
  simp only [pure_run, tail_tail]

theorem iBin_error {s : St} (h : s.Lifo) (f : Int → Int → Except Fault Int) (e : Fault)
    (hf : f (s.items.tail.headD 0) (s.items.headD 0) = .error e) : iBin f s = .error e := by
  apply run_items h
  rw [iBin, bind_ok (popTop_run h _ _), bind_ok (popTop_run h _ _), hf, bind_error (lift_error _ _)]

/-- **C23** (partial: see `C23_false_for_remainder`) `+ - * / %` and the backquote replace the two topmost values, zeros standing in for missing ones, by the exact
integer result and change nothing else, provided the result is a 64-bit number. For `%` the operands -2^63 and -1 are excluded too. -/
theorem C23_binary_partial (exec : Int → Exec Err) (op : Op) (f : Int → Int → Int) (hop : arith op = some f) (s : St)
    (h : s.Lifo) (hfit : InI64 (f (s.items.tail.headD 0) (s.items.headD 0)))
    (hrem : op = .rem → ¬ (s.items.tail.headD 0 = i64Min ∧ s.items.headD 0 = -1)) :
    ∃ s', runOp exec op s = .ok (.none, s') ∧
      s.Leaves s' (f (s.items.tail.headD 0) (s.items.headD 0) :: s.items.drop 2) := by
  cases op <;> simp only [arith, Option.some.injEq, reduceCtorEq] at hop <;> subst hop
  case rem =>
    refine ⟨_, iBin_ok h remOp _ ?_, _, rfl⟩
    have := hrem rfl
    dsimp only
    rw [remOp, if_neg this]
    split <;> rfl
  case div =>
    refine ⟨_, iBin_ok h divOp _ ?_, _, rfl⟩
    dsimp only at hfit ⊢
    rw [divOp]
    split
    · rfl
    · rename_i h0
      rw [if_neg h0] at hfit
      rw [ck, if_pos hfit]
  case gt => exact ⟨_, iBin_ok h gtOp _ rfl, _, rfl⟩
  case mul => exact ⟨_, iBin_ok h mulOp _ (by rw [mulOp, ck, if_pos hfit]), _, rfl⟩
  case add => exact ⟨_, iBin_ok h addOp _ (by rw [addOp, ck, if_pos hfit]), _, rfl⟩
  case sub => exact ⟨_, iBin_ok h subOp _ (by rw [subOp, ck, if_pos hfit]), _, rfl⟩

example : ∃ (s : St) (f : Int → Int → Int), s.Lifo ∧ arith .div = some f ∧ s.items = [-2, 7, 5] ∧
    InI64 (f (s.items.tail.headD 0) (s.items.headD 0)) ∧ f (s.items.tail.headD 0) (s.items.headD 0) = -3 :=
  ⟨exState [-2, 7, 5], _, by decide, rfl, rfl, by decide, by decide⟩

/-- **C23** When the exact result is not a 64-bit number the operation is outside C++'s defined behaviour. -/
theorem C23_overflow (exec : Int → Exec Err) (op : Op) (f : Int → Int → Int) (hop : arith op = some f) (s : St)
    (h : s.Lifo) (hfit : ¬ InI64 (f (s.items.tail.headD 0) (s.items.headD 0)))
    (hw : ∀ x ∈ s.items, InI64 x) : runOp exec op s = .error .overflow := by
  have hz : InI64 0 := by decide
  have hb : InI64 (s.items.tail.headD 0) := by
    cases hl : s.items with
    | nil => exact hz
    | cons x t => cases t with
      | nil => exact hz
      | cons y t => exact hw y (by rw [hl]; simp)
  cases op <;> simp only [arith, Option.some.injEq, reduceCtorEq] at hop <;> subst hop
  case rem =>
    exfalso; apply hfit
    generalize s.items.headD 0 = a
    generalize s.items.tail.headD 0 = b at hb
    dsimp only
    split
    · exact hz
    · unfold InI64 at *
      have h1 : (b.tmod a).natAbs ≤ b.natAbs := by
        rw [Int.natAbs_tmod]; exact Nat.mod_le _ _
      have h2 : (0 ≤ b → 0 ≤ b.tmod a) := fun hb => Int.tmod_nonneg a hb
      have h3 : (b ≤ 0 → b.tmod a ≤ 0) := by
        intro hb
        have := Int.tmod_nonneg (a := -b) a (by omega)
        rw [Int.neg_tmod] at this; omega
      unfold i64Min i64Max at *
      omega
  case div =>
    refine iBin_error h divOp _ ?_
    unfold divOp
    split
    · rename_i h0; simp only [h0, if_true] at hfit; exact absurd hz hfit
    · rename_i h0
      simp only [h0, if_false] at hfit
      rw [ck, if_neg hfit]
  case gt => exfalso; apply hfit; dsimp only; split <;> decide
  case mul => exact iBin_error h mulOp _ (by rw [mulOp, ck, if_neg hfit])
  case add => exact iBin_error h addOp _ (by rw [addOp, ck, if_neg hfit])
  case sub => exact iBin_error h subOp _ (by rw [subOp, ck, if_neg hfit])

example : (exState [9223372036854775807, 2]).Lifo ∧ ¬ InI64 (2 + 9223372036854775807) := by decide

/-- **C23** is violated: the remainder of -2^63 by -1 is 0, a 64-bit number, but computing it is undefined (`%` traps on x86). -/
theorem C23_false_for_remainder (exec : Int → Exec Err) :
    ∃ s : St, s.Lifo ∧ s.items = [-1, -9223372036854775808] ∧ (-9223372036854775808 : Int).tmod (-1) = 0 ∧
      runOp exec .rem s = .error .overflow :=
  ⟨exState [-1, -9223372036854775808], by decide, rfl, by decide,
    iBin_error (by decide) remOp _ (by decide)⟩

/-- **C23** `!` replaces the topmost value by 1 if it is 0 and by 0 otherwise. -/
theorem C23_not (exec : Int → Exec Err) (s : St) (h : s.Lifo) :
    ∃ s', runOp exec .not s = .ok (.none, s') ∧
      s.Leaves s' ((if s.items.headD 0 = 0 then 1 else 0) :: s.items.drop 1) := by
  refine ⟨_, ?_, s.top.ops + 2, rfl⟩
  show iNot s = _
  apply run_items h
  rw [iNot, bind_ok (popTop_run h _ _), bind_ok (pushTop_run h _ _ _)]
  simp [pure_run]

example : (exState [0, 5]).Lifo ∧ (exState [0, 5]).items.headD 0 = 0 := by decide

end Funge
