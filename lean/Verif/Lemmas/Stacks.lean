import Verif.Lemmas.Exec
/-!
Instructions that work on the top two stacks.
-/
namespace Funge
open Exec

/-- The same state, except that the stacks are the given ones, topmost first, the topmost being selected. -/
def St.setStacks (s : St) (l : List Stack) : St := { s with cur := { s.cur with ss := ⟨0, l⟩ } }

/-- The stack is in its normal mode, last in, first out. -/
def Stack.Plain (st : Stack) : Prop := hasMode st.mode modeQueue = false ∧ hasMode st.mode modeInvert = false

instance (st : Stack) : Decidable st.Plain := by unfold Stack.Plain; infer_instance

@[simp] theorem setStacks_g (s : St) (l) : (s.setStacks l).g = s.g := rfl
@[simp] theorem setStacks_ip (s : St) (l) : (s.setStacks l).cur.ip = s.cur.ip := rfl
@[simp] theorem setStacks_ss (s : St) (l) : (s.setStacks l).cur.ss = ⟨0, l⟩ := rfl
theorem setStacks_self {s : St} (h : s.cur.ss.select = 0) : s.setStacks s.cur.ss.stacks = s := by
  have : (⟨0, s.cur.ss.stacks⟩ : StackStack) = s.cur.ss := by rw [← h]
  unfold St.setStacks; rw [this]

theorem onTop_stacks {α : Type} (s : St) (A : Stack) (R) (f : Stack → α × Stack) :
    onTop f (s.setStacks (A :: R)) = .ok ((f A).1, s.setStacks ((f A).2 :: R)) := rfl

theorem onSecond_stacks {α : Type} (s : St) (A B : Stack) (R) (f : Stack → α × Stack) :
    onSecond f (s.setStacks (A :: B :: R)) = .ok ((f B).1, s.setStacks (A :: (f B).2 :: R)) := rfl

theorem onIP_stacks (f : IP → IP) (s : St) (l) : onIP f (s.setStacks l) = .ok ((), (s.setIP (f s.cur.ip)).setStacks l) := rfl

theorem popTop_stacks (s : St) {m : Nat} (h : hasMode m modeQueue = false) (l n R) :
    popTop (s.setStacks (⟨m, l, n⟩ :: R)) = .ok (l.headD 0, s.setStacks (⟨m, l.tail, n + 1⟩ :: R)) := by
  rw [popTop, onTop_stacks, pop_lifo (st := ⟨m, l, n⟩) h]

theorem popTop_cons (s : St) {m : Nat} (h : hasMode m modeQueue = false) (x : Int) (l n R) :
    popTop (s.setStacks (⟨m, x :: l, n⟩ :: R)) = .ok (x, s.setStacks (⟨m, l, n + 1⟩ :: R)) := popTop_stacks s h (x :: l) n R

theorem popSecond_stacks (s : St) {m : Nat} (h : hasMode m modeQueue = false) (A l n R) :
    popSecond (s.setStacks (A :: ⟨m, l, n⟩ :: R)) = .ok (l.headD 0, s.setStacks (A :: ⟨m, l.tail, n + 1⟩ :: R)) := by
  rw [popSecond, onSecond_stacks, pop_lifo (st := ⟨m, l, n⟩) h]

theorem pushTop_stacks (s : St) {m : Nat} (h : hasMode m modeInvert = false) (l n R) (v : Int) :
    pushTop v (s.setStacks (⟨m, l, n⟩ :: R)) = .ok ((), s.setStacks (⟨m, v :: l, n + 1⟩ :: R)) := by
  rw [pushTop, onTop_stacks, push_lifo (st := ⟨m, l, n⟩) h]

theorem pushSecond_stacks (s : St) {m : Nat} (h : hasMode m modeInvert = false) (A l n R) (v : Int) :
    pushSecond v (s.setStacks (A :: ⟨m, l, n⟩ :: R)) = .ok ((), s.setStacks (A :: ⟨m, v :: l, n + 1⟩ :: R)) := by
  rw [pushSecond, onSecond_stacks, push_lifo (st := ⟨m, l, n⟩) h]

/-- `X l n` are the states in which some stack holds the values `l` and has age `n`; `pop` pops from it. -/
def Pops (pop : Exec Int) (X : List Int → Nat → St) : Prop := ∀ l n, pop (X l n) = .ok (l.headD 0, X l.tail (n + 1))

/-- Likewise, `push` pushes onto it. -/
def Pushes (push : Int → Exec Unit) (X : List Int → Nat → St) : Prop := ∀ l n v, push v (X l n) = .ok ((), X (v :: l) (n + 1))

theorem Pops.popN {pop : Exec Int} {X : List Int → Nat → St} (h : Pops pop X) (k : Nat) (l n) :
    popN pop k (X l n) = .ok (padTake k l, X (l.drop k) (n + k)) := by
  induction k generalizing l n with
  | zero => rfl
  | succ k ih =>
    rw [Funge.popN, bind_ok (h l n), bind_ok (ih l.tail (n + 1))]
    simp [pure_run, padTake, Nat.add_comm, Nat.add_left_comm]

theorem Pushes.pushAll {push : Int → Exec Unit} {X : List Int → Nat → St} (h : Pushes push X) (xs : List Int) (l n) :
    pushAll push xs (X l n) = .ok ((), X (xs.reverse ++ l) (n + xs.length)) := by
  induction xs generalizing l n with
  | nil => rfl
  | cons x t ih =>
    rw [Funge.pushAll, bind_ok (h l n x), ih]
    simp [Nat.add_comm, Nat.add_left_comm]

theorem Pushes.pushVectorOn {push : Int → Exec Unit} {X : List Int → Nat → St} (h : Pushes push X) (v : Vec) (l n) {d : Nat}
    (hd : (X l n).g.cfg.dims = d) :
    pushVectorOn push v (X l n) = .ok ((), X (((List.range d).map v.get).reverse ++ l) (n + d)) := by
  rw [Funge.pushVectorOn, bind_ok (getDims_run _), hd, h.pushAll]; simp

theorem Pops.popVectorLoop {pop : Exec Int} {X : List Int → Nat → St} (h : Pops pop X) (d : Nat) (v : Vec) (l n) :
    ∃ w : Vec, popVectorLoop pop d v (X l n) = .ok (w, X (l.drop d) (n + d)) ∧
      (∀ i, w.get i = if i < d then l.getD (d - 1 - i) 0 else v.get i) := by
  induction d generalizing v l n with
  | zero => exact ⟨v, rfl, fun i => by simp⟩
  | succ d ih =>
    obtain ⟨w, hw, hg⟩ := ih (v.set d (l.headD 0)) l.tail (n + 1)
    refine ⟨w, ?_, ?_⟩
    · rw [Funge.popVectorLoop, bind_ok (h l n), hw]
      simp [Nat.add_comm, Nat.add_left_comm]
    · intro i
      rw [hg, Vec.get_set]
      by_cases h1 : i < d
      · rw [if_pos h1, if_pos (by omega)]
        have : d + 1 - 1 - i = (d - 1 - i) + 1 := by omega
        rw [this]
        cases l <;> simp
      · by_cases h2 : i = d
        · subst h2; cases l <;> simp
        · rw [if_neg h1, if_neg h2, if_neg (by omega)]

theorem Pops.popVectorOn {pop : Exec Int} {X : List Int → Nat → St} (h : Pops pop X) (l n) {d : Nat} (hd : (X l n).g.cfg.dims = d) :
    ∃ w : Vec, popVectorOn pop (X l n) = .ok (w, X (l.drop d) (n + d)) ∧ w.get = vecOf l d := by
  obtain ⟨w, hw, hg⟩ := h.popVectorLoop d Vec.empty l n
  refine ⟨w, ?_, ?_⟩
  · rw [Funge.popVectorOn, bind_ok (getDims_run _), hd]; exact hw
  · funext i
    rw [hg, vecOf]
    congr 1

/-- The vector has no superfluous zeros. -/
theorem Pops.popVectorOn_normal {pop : Exec Int} {X : List Int → Nat → St} (h : Pops pop X) (l n) {d : Nat} (hd : (X l n).g.cfg.dims = d) :
    ∃ w : Vec, Funge.popVectorOn pop (X l n) = .ok (w, X (l.drop d) (n + d)) ∧ w.get = vecOf l d ∧ w.Normal ∧ (0 < d → 0 < w.size) := by
  obtain ⟨w, e, hg⟩ := h.popVectorOn l n hd
  have loop : ∀ (k : Nat) (v : Vec) (s s' : St) (w : Vec), Funge.popVectorLoop pop k v s = .ok (w, s') → v.Normal → (0 < k ∨ 0 < v.size) ∨ k = 0 →
      w.Normal ∧ (0 < k ∨ 0 < v.size → 0 < w.size) := by
    intro k
    induction k with
    | zero =>
      intro v s s' w e hv _
      cases e
      exact ⟨hv, fun h => h.resolve_left (by omega)⟩
    | succ k ih =>
      intro v s s' w e hv _
      rw [Funge.popVectorLoop] at e
      cases hp : pop s with
      | error x => rw [bind_error hp] at e; cases e
      | ok r =>
        obtain ⟨x, s1⟩ := r
        rw [bind_ok hp] at e
        obtain ⟨h1, h2⟩ := ih _ _ _ _ e (Vec.normal_set _ _ _) (.inl (.inr (Vec.size_set_pos _ _ _)))
        exact ⟨h1, fun _ => h2 (.inr (Vec.size_set_pos _ _ _))⟩
  have e' := e
  rw [Funge.popVectorOn, bind_ok (getDims_run _), hd] at e'
  obtain ⟨h1, h2⟩ := loop d Vec.empty _ _ _ e' Vec.normal_empty (by omega)
  exact ⟨w, e, hg, h1, fun h => h2 (.inl h)⟩

theorem padTake_reverse_append (k : Nat) (l m : List Int) : padTake k ((padTake k l).reverse ++ m) = (padTake k l).reverse := by
  have h := padTake_append (padTake k l).reverse m
  rwa [List.length_reverse, padTake_length] at h

theorem drop_padTake_append (k : Nat) (l m : List Int) : (padTake k l ++ m).drop k = m := by
  have : (padTake k l).length = k := padTake_length k l
  rw [List.drop_append, this]; simp [List.drop_eq_nil_of_le, this]

end Funge
