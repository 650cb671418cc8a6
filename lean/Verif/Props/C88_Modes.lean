import Verif.Props.C88_Words
import Verif.Props.C24_Modes
import Verif.Props.C23_Arithmetic
/-!
# C23 and C88 in all modes of the stack

MODE's `Q` makes a stack give its values from the bottom, and `I` makes it take them there. The instructions of C23 and C88 take as many values
as ever, from the end that gives, and push what they are to push at the end that takes. If these are the same end, C88 holds as it is written,
with that end for the top.
-/
namespace Funge
open Exec

/-- What the instructions that only concern the stack take and push. `l` are the values in the order in which the stack gives them, zeros
after the last; the result is what is left of them, and what is pushed, the first one first. -/
def stackTrade : Op → Option (List Int → List Int × List Int)
  | .push n => some fun l => (l, [n])
  | .dup => some fun l => (l.drop 1, [l.headD 0, l.headD 0])
  | .swap => some fun l => (l.drop 2, [l.headD 0, l.tail.headD 0])
  | .pop => some fun l => (l.drop 1, [])
  | .clear => some fun _ => ([], [])
  | _ => none

/-- The values `l` (topmost first) after `xs` have been pushed, the first one first: above, or below in invert mode. -/
def pushedTo (inverted : Bool) (xs l : List Int) : List Int := if inverted then l ++ xs else xs.reverse ++ l

theorem pushTop_any {s : St} (h : s.cur.ss.select < s.cur.ss.stacks.length) (l n) (v : Int) :
    pushTop v (s.setItems l n) = .ok ((), s.setItems (pushedTo (hasMode s.top.mode modeInvert) [v] l) (n + 1)) := by
  generalize hi : hasMode s.top.mode modeInvert = i
  have := pushTop_same h hi (fromEnd i l) n v
  rw [fromEnd_fromEnd] at this
  rw [this]
  cases i <;> simp [fromEnd, pushedTo]

theorem pushedTo_pushedTo (i : Bool) (xs ys l : List Int) : pushedTo i ys (pushedTo i xs l) = pushedTo i (xs ++ ys) l := by
  cases i <;> simp [pushedTo]

theorem clearTop_any {s : St} (h : s.cur.ss.select < s.cur.ss.stacks.length) (l n) : clearTop (s.setItems l n) = .ok ((), s.setItems [] (n + 1)) := by
  have hl : (s.setItems l n).cur.ss.select < (s.setItems l n).cur.ss.stacks.length := by rw [setItems_select, setItems_len]; exact h
  rw [clearTop, onTop_run hl, top_setItems h]
  simp only [St.setItems, setTop_setTop, Stack.clear]

theorem tail_tail_drop (l : List Int) : l.tail.tail = l.drop 2 := by rw [← List.drop_one, ← List.drop_one, List.drop_drop]

/-- **C88** in all modes of the stack: the digits, `:`, `\`, `$` and `n` take what they are to take from the end at which the stack gives,
push what they are to push at the end at which it takes, and change nothing else. -/
theorem C88_words_any_mode (exec : Int → Exec Err) {op : Op} {f : List Int → List Int × List Int} (hop : stackTrade op = some f) {s : St}
    (h : s.cur.ss.select < s.cur.ss.stacks.length) :
    ∃ s', runOp exec op s = .ok (.none, s') ∧
      s.Leaves s' (pushedTo (hasMode s.top.mode modeInvert) (f s.due).2 (fromEnd (hasMode s.top.mode modeQueue) (f s.due).1)) := by
  generalize hq : hasMode s.top.mode modeQueue = q
  have hs := due_self h hq
  generalize s.due = l at hs ⊢
  generalize hn : s.top.ops = n at hs
  have key : ∀ {r}, runOp exec op (s.setItems (fromEnd q l) n) = r → runOp exec op s = r := by rw [hs]; exact fun h => h
  cases op <;> simp only [stackTrade, Option.some.injEq, reduceCtorEq] at hop <;> subst hop
  case push v =>
    refine ⟨_, key ?_, n + 1, rfl⟩
    show iPush v _ = _
    rw [iPush, bind_ok (pushTop_any h _ _ _)]; rfl
  case pop =>
    refine ⟨_, key ?_, n + 1, rfl⟩
    show iPop _ = _
    rw [iPop, bind_ok (popTop_any h hq _ _)]
    cases hasMode s.top.mode modeInvert <;> simp [pushedTo, pure_run]
  case dup =>
    refine ⟨_, key ?_, n + 1 + 1 + 1, rfl⟩
    show iDup _ = _
    rw [iDup, bind_ok (popTop_any h hq _ _), bind_ok (pushTop_any h _ _ _), bind_ok (pushTop_any h _ _ _), pushedTo_pushedTo]
    simp [pure_run]
  case swap =>
    refine ⟨_, key ?_, n + 1 + 1 + 1 + 1, rfl⟩
    show iSwap _ = _
    rw [iSwap, bind_ok (popTop_any h hq _ _), bind_ok (popTop_any h hq _ _), bind_ok (pushTop_any h _ _ _), bind_ok (pushTop_any h _ _ _),
      pushedTo_pushedTo]
    simp [pure_run, tail_tail_drop]
  case clear =>
    refine ⟨_, key ?_, n + 1, rfl⟩
    show iClear _ = _
    rw [iClear, bind_ok (clearTop_any h _ _)]
    cases q <;> cases hasMode s.top.mode modeInvert <;> rfl

/-- **C88** If the stack gives and takes at the same end, it is as in C88_words, with that end for the top. -/
theorem C88_words_same_end (exec : Int → Exec Err) {op : Op} {f : List Int → List Int} (hop : stackWord op = some f) {s : St}
    (h : s.cur.ss.select < s.cur.ss.stacks.length) (he : hasMode s.top.mode modeInvert = hasMode s.top.mode modeQueue) :
    ∃ s', runOp exec op s = .ok (.none, s') ∧ s.Leaves s' (fromEnd (hasMode s.top.mode modeQueue) (f s.due)) := by
  obtain ⟨g, hg, hfg⟩ : ∃ g, stackTrade op = some g ∧ ∀ l, f l = (g l).2.reverse ++ (g l).1 := by
    cases op <;> simp only [stackWord, Option.some.injEq, reduceCtorEq] at hop <;> subst hop <;>
      exact ⟨_, rfl, fun l => by simp [tail_tail_drop]⟩
  obtain ⟨s', h1, h2⟩ := C88_words_any_mode exec hg h
  refine ⟨s', h1, ?_⟩
  rw [he] at h2
  rw [hfg]
  cases hq : hasMode s.top.mode modeQueue <;> simpa [hq, pushedTo, fromEnd] using h2

/-- `\` and `:` on a queue (it gives 1 first), on an inverted stack (it gives 3 first and takes below 1), and on one that is both. -/
example : (∀ m ∈ [modeQueue, modeInvert, modeQueue ||| modeInvert], ((machine []).setTop ⟨m, [3, 2, 1], 0⟩).cur.ss.select <
      ((machine []).setTop ⟨m, [3, 2, 1], 0⟩).cur.ss.stacks.length) ∧
    ([modeQueue, modeInvert, modeQueue ||| modeInvert].map fun m => stackAfter ((machine [92]).setTop ⟨m, [3, 2, 1], 0⟩) 1) =
      [some [2, 1, 3], some [1, 3, 2], some [3, 1, 2]] ∧
    ([modeQueue, modeInvert, modeQueue ||| modeInvert].map fun m => stackAfter ((machine [58]).setTop ⟨m, [3, 2, 1], 0⟩) 1) =
      [some [1, 1, 3, 2], some [2, 1, 3, 3], some [3, 2, 1, 1]] := by decide +kernel

/-! ### C23 -/

theorem iBin_any {s : St} (h : s.cur.ss.select < s.cur.ss.stacks.length) (f : Int → Int → Except Fault Int) (r : Int)
    (hf : f (s.due.tail.headD 0) (s.due.headD 0) = .ok r) :
    iBin f s = .ok (.none, s.setItems (pushedTo (hasMode s.top.mode modeInvert) [r] (fromEnd (hasMode s.top.mode modeQueue) (s.due.drop 2))) (s.top.ops + 3)) := by
  generalize hq : hasMode s.top.mode modeQueue = q
  have hs := due_self h hq
  generalize s.due = l at hs hf ⊢
  generalize hn : s.top.ops = n at hs ⊢
  have : iBin f (s.setItems (fromEnd q l) n) =
      .ok (.none, s.setItems (pushedTo (hasMode s.top.mode modeInvert) [r] (fromEnd q (l.drop 2))) (n + 3)) := by
    rw [iBin, bind_ok (popTop_any h hq _ _), bind_ok (popTop_any h hq _ _), hf, bind_ok (lift_ok _ _), bind_ok (pushTop_any h _ _ _)]
    simp only [pure_run, tail_tail_drop]
  rw [hs] at this
  exact this

/-- **C23** in all modes of the stack (partial: see `C23_false_for_remainder`): `+ - * / %` and the backquote take two values from the end at
which the stack gives, zeros standing in for missing ones, push the exact integer result at the end at which it takes, and change nothing
else, provided the result is a 64-bit number. For `%` the operands -2^63 and -1 are excluded too. -/
theorem C23_binary_any_mode_partial (exec : Int → Exec Err) (op : Op) (f : Int → Int → Int) (hop : arith op = some f) (s : St)
    (h : s.cur.ss.select < s.cur.ss.stacks.length) (hfit : InI64 (f (s.due.tail.headD 0) (s.due.headD 0)))
    (hrem : op = .rem → ¬ (s.due.tail.headD 0 = i64Min ∧ s.due.headD 0 = -1)) :
    ∃ s', runOp exec op s = .ok (.none, s') ∧ s.Leaves s' (pushedTo (hasMode s.top.mode modeInvert) [f (s.due.tail.headD 0) (s.due.headD 0)]
      (fromEnd (hasMode s.top.mode modeQueue) (s.due.drop 2))) := by
  cases op <;> simp only [arith, Option.some.injEq, reduceCtorEq] at hop <;> subst hop
  case rem =>
    refine ⟨_, iBin_any h remOp _ ?_, _, rfl⟩
    have := hrem rfl
    dsimp only
    rw [remOp, if_neg this]
    split <;> rfl
  case div =>
    refine ⟨_, iBin_any h divOp _ ?_, _, rfl⟩
    dsimp only at hfit ⊢
    rw [divOp]
    split
    · rfl
    · rename_i h0
      rw [if_neg h0] at hfit
      rw [ck, if_pos hfit]
  case gt => exact ⟨_, iBin_any h gtOp _ rfl, _, rfl⟩
  case mul => exact ⟨_, iBin_any h mulOp _ (by rw [mulOp, ck, if_pos hfit]), _, rfl⟩
  case add => exact ⟨_, iBin_any h addOp _ (by rw [addOp, ck, if_pos hfit]), _, rfl⟩
  case sub => exact ⟨_, iBin_any h subOp _ (by rw [subOp, ck, if_pos hfit]), _, rfl⟩

/-- **C23** in all modes of the stack: `!`. -/
theorem C23_not_any_mode (exec : Int → Exec Err) (s : St) (h : s.cur.ss.select < s.cur.ss.stacks.length) :
    ∃ s', runOp exec .not s = .ok (.none, s') ∧ s.Leaves s' (pushedTo (hasMode s.top.mode modeInvert) [if s.due.headD 0 = 0 then 1 else 0]
      (fromEnd (hasMode s.top.mode modeQueue) (s.due.drop 1))) := by
  generalize hq : hasMode s.top.mode modeQueue = q
  have hs := due_self h hq
  generalize s.due = l at hs ⊢
  refine ⟨_, ?_, s.top.ops + 1 + 1, rfl⟩
  have : iNot (s.setItems (fromEnd q l) s.top.ops) = .ok (.none, s.setItems (pushedTo (hasMode s.top.mode modeInvert) [if l.headD 0 = 0 then 1 else 0]
      (fromEnd q (l.drop 1))) (s.top.ops + 1 + 1)) := by
    rw [iNot, bind_ok (popTop_any h hq _ _), bind_ok (pushTop_any h _ _ _)]
    simp only [pure_run, List.drop_one]
  rw [hs] at this
  exact this

/-- `7 2 -` is 5 on a stack; a queue that was given 7, 2 and 1 gives the 7 first, and 2 - 7 is pushed after the 1. -/
example : (∀ f, arith .sub = some f → InI64 (f (((machine []).setTop ⟨modeQueue, [1, 2, 7], 0⟩).due.tail.headD 0)
      (((machine []).setTop ⟨modeQueue, [1, 2, 7], 0⟩).due.headD 0))) ∧
    ([modeQueue, modeInvert, modeQueue ||| modeInvert].map fun m => stackAfter ((machine [45]).setTop ⟨m, [1, 2, 7], 0⟩) 1) =
      [some [-5, 1], some [7, 1], some [1, -5]] ∧
    stackAfter ((machine [33]).setTop ⟨modeQueue, [1, 2, 0], 0⟩) 1 = some [1, 1, 2] := by
  refine ⟨fun f hf => ?_, by decide +kernel⟩
  cases hf; decide

end Funge
