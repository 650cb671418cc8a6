import Verif.Props.C33_Fingerprints
import Verif.Props.C24_Modes
/-!
# C58 in all modes of the stack

`X`, `Y` and `Z` of FING only take values from the stack; they take them at the end at which it gives them (MODE's `Q`), a missing value being 0,
which stands for `A`.
-/
namespace Funge
open Exec

theorem due_setTable {s : St} (h : s.cur.ss.select < s.cur.ss.stacks.length) {q : Bool} (hq : hasMode s.top.mode modeQueue = q) (t a b l n) :
    ((s.setTable t a b).setItems (fromEnd q l) n).due = l := by
  have h' : (s.setTable t a b).cur.ss.select < (s.setTable t a b).cur.ss.stacks.length := h
  rw [St.due, St.items, top_setItems h']
  show fromEnd (hasMode s.top.mode modeQueue) _ = l
  rw [hq, fromEnd_fromEnd]

/-- **C58** in all modes of the stack: `X` exchanges the meanings of the two letters it is given, and changes no other meaning. -/
theorem C58_swap_any_mode {s : St} (h : s.cur.ss.select < s.cur.ss.stacks.length) {a' b' : Int} (ha : letterOf (s.due.headD 0) a')
    (hb : letterOf (s.due.tail.headD 0) b') :
    ∃ s', fingSwap s = .ok (.none, s') ∧ s'.due = s.due.drop 2 ∧ s'.cur.meaning a' = s.cur.meaning b' ∧ s'.cur.meaning b' = s.cur.meaning a' ∧
      (∀ c, c ≠ a' → c ≠ b' → s'.cur.sems c = s.cur.sems c) ∧ (a' ≠ b' → ∀ c, (s'.cur.sems c).tail = (s.cur.sems c).tail) := by
  generalize hq : hasMode s.top.mode modeQueue = q
  have hs := due_self h hq
  generalize s.due = l at hs ha hb ⊢
  have h1 : fingSwap s = .ok (.none, (s.setTable
      (((((s.cur.popSem a').2.popSem b').2.pushSem a' (semOr ((s.cur.popSem a').2.popSem b').1)).pushSem b' (semOr (s.cur.popSem a').1)).sems)
      s.cur.loaded s.cur.available).setItems (fromEnd q (l.drop 2)) (s.top.ops + 1 + 1)) := by
    conv => lhs; rw [← hs]
    rw [fingSwap, bind_ok (popTop_any h hq _ _)]
    rw [fingLetter_of ha]
    dsimp only
    rw [bind_ok (popTop_any h hq _ _)]
    rw [fingLetter_of hb]
    dsimp only
    rw [bind_ok (modCur_run _ _), ← tail_tail]
    rfl
  refine ⟨_, h1, due_setTable h hq _ _ _ _ _, ?_, ?_, ?_, ?_⟩
  · unfold Runner.meaning Runner.getSem
    simp only [St.setTable, setItems_sems, Runner.pushSem, Runner.popSem, semOr]
    by_cases hab : a' = b'
    · subst hab; cases s.cur.sems a' <;> simp
    · have : b' ≠ a' := fun h => hab h.symm
      simp [hab, this]
  · unfold Runner.meaning Runner.getSem
    simp only [St.setTable, setItems_sems, Runner.pushSem, Runner.popSem, semOr]
    simp
  · intro c hca hcb
    simp [St.setTable, setItems_sems, Runner.pushSem, Runner.popSem, hca, hcb]
  · intro hab c
    have hba : b' ≠ a' := fun h => hab h.symm
    simp only [St.setTable, setItems_sems, Runner.pushSem, Runner.popSem]
    by_cases h1 : c = a'
    · subst h1; simp [hab]
    · by_cases h2 : c = b'
      · subst h2; simp [hba]
      · simp [h1, h2]

/-- **C58** in all modes of the stack: `Y` drops the current meaning of one letter and uncovers the one before; nothing else changes. -/
theorem C58_drop_any_mode {s : St} (h : s.cur.ss.select < s.cur.ss.stacks.length) {a' : Int} (ha : letterOf (s.due.headD 0) a') :
    ∃ s', fingPop s = .ok (.none, s') ∧ s'.due = s.due.drop 1 ∧ s'.cur.sems a' = (s.cur.sems a').tail ∧ ∀ c, c ≠ a' → s'.cur.sems c = s.cur.sems c := by
  generalize hq : hasMode s.top.mode modeQueue = q
  have hs := due_self h hq
  generalize s.due = l at hs ha ⊢
  have h1 : fingPop s = .ok (.none, (s.setTable ((s.cur.popSem a').2.sems) s.cur.loaded s.cur.available).setItems (fromEnd q (l.drop 1)) (s.top.ops + 1)) := by
    conv => lhs; rw [← hs]
    rw [fingPop, bind_ok (popTop_any h hq _ _)]
    rw [fingLetter_of ha]
    dsimp only
    rw [bind_ok (modCur_run _ _), List.drop_one]
    rfl
  refine ⟨_, h1, due_setTable h hq _ _ _ _ _, ?_, fun c hc => ?_⟩
  · simp [St.setTable, setItems_sems, Runner.popSem]
  · simp [St.setTable, setItems_sems, Runner.popSem, hc]

/-- **C58** in all modes of the stack: `Z` gives the letter named first the meaning of the other one, on top of what it meant. -/
theorem C58_copy_any_mode {s : St} (h : s.cur.ss.select < s.cur.ss.stacks.length) {a' b' : Int} (ha : letterOf (s.due.headD 0) a')
    (hb : letterOf (s.due.tail.headD 0) b') :
    ∃ s', fingCopy s = .ok (.none, s') ∧ s'.due = s.due.drop 2 ∧ s'.cur.sems a' = s.cur.meaning b' :: s.cur.sems a' ∧
      ∀ c, c ≠ a' → s'.cur.sems c = s.cur.sems c := by
  generalize hq : hasMode s.top.mode modeQueue = q
  have hs := due_self h hq
  generalize s.due = l at hs ha hb ⊢
  have h1 : fingCopy s = .ok (.none, (s.setTable ((s.cur.pushSem a' (s.cur.meaning b')).sems) s.cur.loaded s.cur.available).setItems
      (fromEnd q (l.drop 2)) (s.top.ops + 1 + 1)) := by
    conv => lhs; rw [← hs]
    rw [fingCopy, bind_ok (popTop_any h hq _ _)]
    rw [fingLetter_of ha]
    dsimp only
    rw [bind_ok (popTop_any h hq _ _)]
    rw [fingLetter_of hb]
    dsimp only
    rw [bind_ok (modCur_run _ _), ← tail_tail]
    rfl
  refine ⟨_, h1, due_setTable h hq _ _ _ _ _, ?_, fun c hc => ?_⟩
  · simp [St.setTable, setItems_sems, Runner.pushSem]
  · simp [St.setTable, setItems_sems, Runner.pushSem, hc]

/-- `X` with FRTH loaded and a stack in queue mode that gives `D`, `L` and 9. -/
example : let s := (exFing [0x46494e47, 0x46525448] [88]).setTop ⟨modeQueue, [9, 76, 68], 0⟩
    s.cur.ss.select < s.cur.ss.stacks.length ∧ s.due = [68, 76, 9] ∧ s.cur.meaning 68 ≠ s.cur.meaning 76 := by decide +kernel

end Funge
