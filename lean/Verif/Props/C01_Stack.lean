import Verif.Model.Stack
import Verif.Spec.Deque
/-!
C01: a stack hands out values in the order its mode promises; empty gives 0.
C02: inspecting a stack predicts its pops.
-/
namespace Funge
open Spec

/-- The mode word for a pair of switches. -/
def modeWord (queue invert : Bool) : Nat :=
  (if queue then modeQueue else 0) + (if invert then modeInvert else 0)

/-- Performing one user operation on the modelled `Stack`. -/
def Stack.doOp (s : Stack) : StackOp → Option Int × Stack
  | .push v => (none, s.push v)
  | .pop => (some s.pop.1, s.pop.2)
  | .clear => (none, s.clear)
  | .mode q i => (none, s.setMode (modeWord q i))

/-- All values handed out by a sequence of operations on the modelled `Stack`. -/
def Stack.runOps (s : Stack) : List StackOp → List Int
  | [] => []
  | o :: os =>
    match s.doOp o with
    | (some x, s') => x :: s'.runOps os
    | (none, s') => s'.runOps os

theorem hasMode_modeWord (q i : Bool) :
    hasMode (modeWord q i) modeQueue = q ∧ hasMode (modeWord q i) modeInvert = i := by
  cases q <;> cases i <;> decide

/-- The stack `s` represents the ideal sequence `d`. -/
def Stack.Rep (s : Stack) (d : Deque) : Prop :=
  s.items.reverse = d.contents ∧ hasMode s.mode modeQueue = d.queue ∧
    hasMode s.mode modeInvert = d.invert

theorem Stack.pop_nil {s : Stack} (h : s.items = []) : s.pop = (0, { s with ops := s.ops + 1 }) := by
  simp [Stack.pop, h]

theorem Stack.pop_top {s : Stack} (hq : hasMode s.mode modeQueue = false) {x : Int} {t : List Int}
    (h : s.items = x :: t) : s.pop = (x, { s with items := t, ops := s.ops + 1 }) := by
  simp [Stack.pop, h, hq]

theorem Stack.pop_bottom {s : Stack} (hq : hasMode s.mode modeQueue = true) {x : Int} {t : List Int}
    (h : s.items = t ++ [x]) : s.pop = (x, { s with items := t, ops := s.ops + 1 }) := by
  rcases ht : s.items with _ | ⟨y, ys⟩
  · rw [h] at ht; simp at ht
  · simp only [Stack.pop, ht, hq, if_true]
    rw [ht] at h
    rw [h]
    simp

theorem Stack.rep_step {s : Stack} {d : Deque} (h : s.Rep d) (o : StackOp) :
    (s.doOp o).1 = (d.step o).1 ∧ (s.doOp o).2.Rep (d.step o).2 := by
  obtain ⟨h1, h2, h3⟩ := h
  cases o with
  | push v =>
    simp only [Stack.doOp, Deque.step, Stack.push, Stack.Rep, ← h3]
    split <;> simp [h1, h2, h3]
  | clear => simp [Stack.doOp, Deque.step, Stack.clear, Stack.Rep, h2, h3]
  | mode q i =>
    have := hasMode_modeWord q i
    simp [Stack.doOp, Deque.step, Stack.setMode, Stack.Rep, h1, this]
  | pop =>
    simp only [Stack.doOp, Deque.step, ← h2, ← h1]
    by_cases hq : hasMode s.mode modeQueue = true
    · rcases List.eq_nil_or_concat s.items with hi | ⟨t, x, hi⟩
      · simp [Stack.pop_nil hi, Stack.Rep, hi, hq, h3]
      · rw [List.concat_eq_append] at hi
        rw [Stack.pop_bottom hq hi]
        simp [Stack.Rep, hi, hq, h3]
    · have hq' : hasMode s.mode modeQueue = false := by simpa using hq
      rcases hi : s.items with _ | ⟨x, t⟩
      · simp [Stack.pop_nil hi, Stack.Rep, hi, hq', h3]
      · simp [Stack.pop_top hq' hi, Stack.Rep, hq', h3]

/-- C01: for every initial contents and mode and every sequence of push / pop / clear / mode changes, the
values handed out by the stack are those handed out by the ideal double-ended sequence. -/
theorem C01_stack_refines_deque (s : Stack) (ops : List StackOp) :
    s.runOps ops =
      (Deque.mk s.items.reverse (hasMode s.mode modeQueue) (hasMode s.mode modeInvert)).run ops := by
  have key : ∀ (ops : List StackOp) (s : Stack) (d : Deque), s.Rep d → s.runOps ops = d.run ops := by
    intro ops
    induction ops with
    | nil => intro s d _; rfl
    | cons o os ih =>
      intro s d h
      obtain ⟨h1, h2⟩ := Stack.rep_step h o
      simp only [Stack.runOps, Deque.run]
      revert h1 h2
      generalize s.doOp o = a
      generalize d.step o = b
      obtain ⟨a1, a2⟩ := a
      obtain ⟨b1, b2⟩ := b
      intro h1 h2
      simp only at h1
      subst h1
      cases a1 with
      | none => exact ih _ _ h2
      | some x => simp only; rw [ih _ _ h2]
  exact key ops s _ ⟨rfl, rfl, rfl⟩

/-- Non-vacuity: a history that exercises every operation and both modes. -/
example : Stack.new.runOps [.push 1, .push 2, .push 3, .pop, .mode true false, .push 4, .pop, .mode false true,
    .push 9, .pop, .pop, .pop, .pop] = [3, 1, 4, 2, 9, 0] := by decide

/-- Pops `n` values. -/
def Stack.popN (s : Stack) : Nat → List Int × Stack
  | 0 => ([], s)
  | n + 1 => let r := s.pop.2.popN n; (s.pop.1 :: r.1, r.2)

/-- Pushes a list of values in order. -/
def Stack.pushAll (s : Stack) (xs : List Int) : Stack := xs.foldl Stack.push s

theorem Stack.pushAll_items {s : Stack} (h : hasMode s.mode modeInvert = false) (xs : List Int) :
    (s.pushAll xs).items = xs.reverse ++ s.items ∧ (s.pushAll xs).mode = s.mode := by
  unfold Stack.pushAll
  induction xs generalizing s with
  | nil => simp
  | cons x t ih =>
    have hp : s.push x = { s with items := x :: s.items, ops := s.ops + 1 } := by simp [Stack.push, h]
    simp only [List.foldl_cons]
    have := @ih (s.push x) (by rw [hp]; exact h)
    rw [this.1, this.2, hp]
    simp

/-- C01, default mode: what is pushed comes back last-in first-out and the rest is as before. -/
theorem C01_lifo (s : Stack) (h : hasMode s.mode modeQueue = false) (h' : hasMode s.mode modeInvert = false)
    (xs : List Int) :
    ((s.pushAll xs).popN xs.length).1 = xs.reverse ∧
    ((s.pushAll xs).popN xs.length).2.items = s.items := by
  obtain ⟨h1, h2⟩ := Stack.pushAll_items h' xs
  have key : ∀ (ys : List Int) (t : Stack), hasMode t.mode modeQueue = false → ∀ rest, t.items = ys ++ rest →
      (t.popN ys.length).1 = ys ∧ (t.popN ys.length).2.items = rest := by
    intro ys
    induction ys with
    | nil => intro t _ rest ht; simpa [Stack.popN] using ht
    | cons y ys ih =>
      intro t hq rest ht
      have hp : t.pop = (y, { t with items := ys ++ rest, ops := t.ops + 1 }) := by
        simp [Stack.pop, ht, hq]
      have := ih { t with items := ys ++ rest, ops := t.ops + 1 } hq rest rfl
      simp only [List.length_cons, Stack.popN, hp]
      exact ⟨by rw [this.1], this.2⟩
  have := key xs.reverse (s.pushAll xs) (by rw [h2]; exact h) s.items h1
  rwa [List.length_reverse] at this

/-- C01, queue mode: the oldest values come out first (first-in first-out). -/
theorem C01_fifo (s : Stack) (h : hasMode s.mode modeQueue = true) (h' : hasMode s.mode modeInvert = false)
    (xs : List Int) :
    ((s.pushAll xs).popN (s.items.length + xs.length)).1 = s.items.reverse ++ xs := by
  obtain ⟨h1, h2⟩ := Stack.pushAll_items h' xs
  have key : ∀ (n : Nat) (t : Stack), hasMode t.mode modeQueue = true → t.items.length = n →
      (t.popN n).1 = t.items.reverse := by
    intro n
    induction n with
    | zero => intro t _ ht; simp [Stack.popN, List.length_eq_zero_iff.mp ht]
    | succ n ih =>
      intro t hq ht
      rcases List.eq_nil_or_concat t.items with hi | ⟨ys, y, hi⟩
      · simp [hi] at ht
      · rw [List.concat_eq_append] at hi
        simp only [Stack.popN, Stack.pop_bottom hq hi]
        rw [ih { t with items := ys, ops := t.ops + 1 } hq (by simp [hi] at ht; exact ht)]
        simp [hi]
  have := key (s.items.length + xs.length) (s.pushAll xs) (by rw [h2]; exact h) (by rw [h1]; simp; omega)
  rw [this, h1]; simp

/-- C01: popping an empty stack returns 0 and leaves it empty, in every mode. -/
theorem C01_pop_empty (s : Stack) (h : s.items = []) : s.pop.1 = 0 ∧ s.pop.2.items = [] := by
  simp [Stack.pop, h]

example : (Stack.new.pushAll [1, 2, 3]).popN 3 = ([3, 2, 1], { mode := 0, items := [], ops := 6 }) := by decide
example : hasMode (Stack.new.setMode modeQueue).mode modeQueue = true ∧
    (((Stack.new.setMode modeQueue).pushAll [1, 2, 3]).popN 3).1 = [1, 2, 3] := by decide

/-! ### C02 -/

theorem Stack.walk_eq (l : List Int) (p : Nat) : Stack.walk l p = (l[p]?).getD 0 := by
  induction l generalizing p with
  | nil => simp [Stack.walk]
  | cons x t ih => cases p <;> simp [Stack.walk, ih]

/-- C02: `get (n+1)` is the value the (n+1)-st consecutive pop returns (0 once the stack is exhausted),
in every mode. -/
theorem C02_get_predicts_pop (s : Stack) (n : Nat) :
    s.get (n + 1) = ((s.popN n).2.pop).1 := by
  have hq : hasMode s.mode modeQueue = true ∨ hasMode s.mode modeQueue = false := by
    cases hasMode s.mode modeQueue <;> simp
  induction n generalizing s with
  | zero =>
    simp only [Stack.popN, Stack.get, Stack.walk_eq]
    rcases hq with hq | hq
    · rcases List.eq_nil_or_concat s.items with hi | ⟨t, x, hi⟩
      · simp [Stack.pop_nil hi, hi]
      · rw [List.concat_eq_append] at hi
        simp [Stack.pop_bottom hq hi, hi, hq]
    · rcases hi : s.items with _ | ⟨x, t⟩
      · simp [Stack.pop_nil hi]
      · simp [Stack.pop_top hq hi, hq]
  | succ n ih =>
    have hm : s.pop.2.mode = s.mode := by
      simp only [Stack.pop]; split
      · rfl
      · split <;> rfl
    have hstep : s.get (n + 2) = s.pop.2.get (n + 1) := by
      simp only [Stack.get, Stack.walk_eq, hm]
      rcases hq with hq | hq
      · rcases List.eq_nil_or_concat s.items with hi | ⟨t, x, hi⟩
        · simp [Stack.pop_nil hi, hi]
        · rw [List.concat_eq_append] at hi
          simp [Stack.pop_bottom hq hi, hi, hq]
      · rcases hi : s.items with _ | ⟨x, t⟩
        · simp [Stack.pop_nil hi, hi]
        · simp [Stack.pop_top hq hi, hq]
    rw [hstep, ih _ (by rw [hm]; exact hq)]
    simp [Stack.popN]

/-- C02: out-of-range inspection gives 0. -/
theorem C02_get_out_of_range (s : Stack) : s.get 0 = 0 ∧ ∀ n, s.items.length < n → s.get n = 0 := by
  refine ⟨by simp [Stack.get], fun n h => ?_⟩
  simp only [Stack.get]; rw [if_neg (by omega)]

/-- C02: `peek` is the value the next pop returns. -/
theorem C02_peek_predicts_pop (s : Stack) : s.peek = s.pop.1 := by
  simp only [Stack.peek, Stack.pop]
  rcases s.items with _ | ⟨x, t⟩
  · rfl
  · by_cases hq : hasMode s.mode modeQueue = true <;> simp [hq]

/-- The size reported is the number of pops after which the stack is empty. -/
theorem C02_size_counts_pops (s : Stack) : s.pop.2.size = s.size - 1 := by
  simp only [Stack.pop, Stack.size]
  rcases s.items with _ | ⟨x, t⟩
  · rfl
  · by_cases hq : hasMode s.mode modeQueue = true <;> simp [hq]

example : ({ items := [7, 8, 9], mode := modeQueue } : Stack).get 1 = 9 ∧
    ({ items := [7, 8, 9] } : Stack).get 3 = 9 := by decide

/-- C02/C57: the age of a stack is the number of pushes, pops and clears done to it. -/
theorem C02_age_counts (s : Stack) (ops : List StackOp) :
    (ops.foldl (fun t o => (t.doOp o).2) s).age =
      s.age + (ops.filter (fun o => match o with | .mode _ _ => false | _ => true)).length := by
  induction ops generalizing s with
  | nil => simp
  | cons o os ih =>
    simp only [List.foldl_cons, ih]
    cases o with
    | push v => simp only [Stack.doOp, Stack.push, Stack.age]; split <;> simp <;> omega
    | pop =>
      simp only [Stack.doOp, Stack.pop, Stack.age]
      rcases s.items with _ | ⟨x, t⟩
      · simp; omega
      · simp only; split <;> simp <;> omega
    | clear => simp [Stack.doOp, Stack.clear, Stack.age]; omega
    | mode q i => simp [Stack.doOp, Stack.setMode, Stack.age]

end Funge
