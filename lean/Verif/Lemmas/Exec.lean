import Verif.Model.Run
import Verif.Lemmas.IP
/-
Running instructions: how the monad computes, and how the primitives act on a state whose top stack is in its normal (last in, first out) mode.
-/
namespace Funge
open Exec

/-- Integers as floating point numbers. For examples. -/
def exFloat : FloatOps :=
  { ofInt := id, toI64 := some, add := (· + ·), sub := (· - ·), mul := (· * ·), div := Int.tdiv, isZero := (· == 0), eq := (· == ·), lt := (· < ·)
    text := fun _ => [] }

namespace Exec

theorem pure_run {α : Type} (a : α) (s : St) : (pure a : Exec α) s = .ok (a, s) := rfl

theorem bind_run {α β : Type} (m : Exec α) (f : α → Exec β) (s : St) :
    (m >>= f) s = match m s with
      | .ok (a, s') => f a s'
      | .error e => .error e := rfl

theorem bind_ok {α β : Type} {m : Exec α} {f : α → Exec β} {s s' : St} {a : α} (h : m s = .ok (a, s')) :
    (m >>= f) s = f a s' := by rw [bind_run, h]

theorem bind_error {α β : Type} {m : Exec α} {f : α → Exec β} {s : St} {e : Fault} (h : m s = .error e) :
    (m >>= f) s = .error e := by rw [bind_run, h]

theorem bind_inv {α β : Type} {m : Exec α} {f : α → Exec β} {s s'' : St} {b : β} (h : (m >>= f) s = .ok (b, s'')) :
    ∃ a s', m s = .ok (a, s') ∧ f a s' = .ok (b, s'') := by
  rw [bind_run] at h
  cases hm : m s with
  | error e => rw [hm] at h; cases h
  | ok p => rw [hm] at h; exact ⟨p.1, p.2, rfl, h⟩

theorem ite_run {α : Type} (c : Prop) [Decidable c] (m n : Exec α) (s : St) :
    (if c then m else n) s = if c then m s else n s := by split <;> rfl

theorem get_run (s : St) : Exec.get s = .ok (s, s) := rfl
theorem fault_run {α : Type} (e : Fault) (s : St) : (fault e : Exec α) s = .error e := rfl
theorem lift_ok {α : Type} (a : α) (s : St) : (lift (.ok a) : Exec α) s = .ok (a, s) := rfl
theorem lift_error {α : Type} (e : Fault) (s : St) : (lift (.error e) : Exec α) s = .error e := rfl
theorem modify_run (f : St → St) (s : St) : modify f s = .ok ((), f s) := rfl
theorem modCur_run (f : Runner → Runner) (s : St) : modCur f s = .ok ((), { s with cur := f s.cur }) := rfl
theorem modG_run (f : Glob → Glob) (s : St) : modG f s = .ok ((), { s with g := f s.g }) := rfl
theorem emit_run (e : Eff) (s : St) : emit e s = .ok ((), { s with g := { s.g with eff := s.g.eff ++ [e] } }) := rfl

end Exec

theorem getDims_run (s : St) : getDims s = .ok (s.g.cfg.dims, s) := rfl
theorem getCfg_run (s : St) : getCfg s = .ok (s.g.cfg, s) := rfl
theorem getFuel_run (s : St) : getFuel s = .ok (s.g.fuel, s) := rfl
theorem ipPos_run (s : St) : ipPos s = .ok (s.cur.ip.pos, s) := rfl
theorem ipDelta_run (s : St) : ipDelta s = .ok (s.cur.ip.delta, s) := rfl
theorem ipStorage_run (s : St) : ipStorage s = .ok (s.cur.ip.storage, s) := rfl
theorem ipGet_run (s : St) : ipGet s = .ok (s.g.field.get s.cur.ip.pos, s) := rfl
theorem isMode_run (m : Nat) (s : St) : isMode m s = .ok (hasMode s.g.cfg.mode m, s) := rfl
theorem fieldGet_run (v : Vec) (s : St) : fieldGet v s = .ok (s.g.field.get v, s) := rfl
theorem numStacks_run (s : St) : numStacks s = .ok (s.cur.ss.size, s) := rfl

/-! ### The top stack -/

/-- The stack instructions work on, `stack.top()`; an empty one if there is none. -/
def St.top (s : St) : Stack := (s.cur.ss.stacks[s.cur.ss.select]?).getD {}

/-- The values on it, topmost first. -/
def St.items (s : St) : List Int := s.top.items

/-- There is a top stack and it is in its normal mode: last in, first out. -/
def St.Lifo (s : St) : Prop :=
  s.cur.ss.select < s.cur.ss.stacks.length ∧ hasMode s.top.mode modeQueue = false ∧
    hasMode s.top.mode modeInvert = false

instance (s : St) : Decidable s.Lifo := by unfold St.Lifo; infer_instance

/-- The same state, except that the top stack is `st`. -/
def St.setTop (s : St) (st : Stack) : St :=
  { s with cur := { s.cur with ss := s.cur.ss.setAt s.cur.ss.select st } }

/-- The same state, except that the top stack holds the values `l` and has age `n`. -/
def St.setItems (s : St) (l : List Int) (n : Nat) : St := s.setTop ⟨s.top.mode, l, n⟩

/-- The same state, except for the instruction pointer of the current runner. -/
def St.setIP (s : St) (ip : IP) : St := { s with cur := { s.cur with ip := ip } }

/-- The same state, except for what the runners share. -/
def St.setG (s : St) (g : Glob) : St := { s with g := g }

/-- `s'` is `s` with the values `l` on the top stack and nothing else changed (but that stack's age). -/
def St.Leaves (s s' : St) (l : List Int) : Prop := ∃ n, s' = s.setItems l n

@[simp] theorem setItems_g (s : St) (l n) : (s.setItems l n).g = s.g := rfl
@[simp] theorem setItems_rest (s : St) (l n) : (s.setItems l n).rest = s.rest := rfl
@[simp] theorem setItems_ip (s : St) (l n) : (s.setItems l n).cur.ip = s.cur.ip := rfl
@[simp] theorem setItems_id (s : St) (l n) : (s.setItems l n).cur.id = s.cur.id := rfl
@[simp] theorem setItems_sems (s : St) (l n) : (s.setItems l n).cur.sems = s.cur.sems := rfl
@[simp] theorem setItems_strats (s : St) (l n) : (s.setItems l n).cur.strats = s.cur.strats := rfl
@[simp] theorem setItems_select (s : St) (l n) : (s.setItems l n).cur.ss.select = s.cur.ss.select := rfl
@[simp] theorem setIP_g (s : St) (ip) : (s.setIP ip).g = s.g := rfl
@[simp] theorem setIP_rest (s : St) (ip) : (s.setIP ip).rest = s.rest := rfl
@[simp] theorem setIP_ip (s : St) (ip) : (s.setIP ip).cur.ip = ip := rfl
@[simp] theorem setIP_ss (s : St) (ip) : (s.setIP ip).cur.ss = s.cur.ss := rfl
@[simp] theorem setIP_setIP (s : St) (ip ip') : (s.setIP ip).setIP ip' = s.setIP ip' := rfl
@[simp] theorem setG_g (s : St) (g) : (s.setG g).g = g := rfl
@[simp] theorem setG_cur (s : St) (g) : (s.setG g).cur = s.cur := rfl
@[simp] theorem setG_rest (s : St) (g) : (s.setG g).rest = s.rest := rfl
@[simp] theorem setG_setG (s : St) (g g') : (s.setG g).setG g' = s.setG g' := rfl
@[simp] theorem setIP_self (s : St) : s.setIP s.cur.ip = s := rfl
@[simp] theorem setG_self (s : St) : s.setG s.g = s := rfl

theorem setTop_len (s : St) (st) : (s.setTop st).cur.ss.stacks.length = s.cur.ss.stacks.length := by
  simp [St.setTop, StackStack.setAt]

theorem top_setTop {s : St} (h : s.cur.ss.select < s.cur.ss.stacks.length) (st) : (s.setTop st).top = st := by
  simp [St.setTop, St.top, StackStack.setAt, h]

theorem setTop_setTop (s : St) (st st') : (s.setTop st).setTop st' = s.setTop st' := by
  simp [St.setTop, StackStack.setAt]

theorem setTop_self {s : St} (h : s.cur.ss.select < s.cur.ss.stacks.length) : s.setTop s.top = s := by
  have h3 : s.top = s.cur.ss.stacks[s.cur.ss.select] := by simp [St.top, h]
  have h2 : s.cur.ss.setAt s.cur.ss.select s.top = s.cur.ss := by
    unfold StackStack.setAt
    rw [h3]
    simp
  unfold St.setTop
  rw [h2]

theorem setItems_len (s : St) (l n) : (s.setItems l n).cur.ss.stacks.length = s.cur.ss.stacks.length :=
  setTop_len _ _

theorem top_setItems {s : St} (h : s.cur.ss.select < s.cur.ss.stacks.length) (l n) :
    (s.setItems l n).top = ⟨s.top.mode, l, n⟩ := top_setTop h _

theorem items_setItems {s : St} (h : s.Lifo) (l n) : (s.setItems l n).items = l := by
  rw [St.items, top_setItems h.1]

theorem lifo_setItems {s : St} (h : s.Lifo) (l n) : (s.setItems l n).Lifo := by
  refine ⟨?_, ?_, ?_⟩
  · rw [setItems_select, setItems_len]; exact h.1
  · rw [top_setItems h.1]; exact h.2.1
  · rw [top_setItems h.1]; exact h.2.2

theorem lifo_setIP {s : St} (h : s.Lifo) (ip) : (s.setIP ip).Lifo := h
theorem lifo_setG {s : St} (h : s.Lifo) (g) : (s.setG g).Lifo := h

theorem setItems_setItems {s : St} (h : s.Lifo) (l n l' n') : (s.setItems l n).setItems l' n' = s.setItems l' n' := by
  show (s.setTop _).setTop _ = _
  rw [setTop_setTop, top_setItems h.1]; rfl

theorem setItems_self {s : St} (h : s.Lifo) : s.setItems s.items s.top.ops = s := setTop_self h.1

theorem Leaves.of_eq {s : St} {l n} : s.Leaves (s.setItems l n) l := ⟨n, rfl⟩

theorem setItems_setIP (s : St) (l n ip) : (s.setItems l n).setIP ip = (s.setIP ip).setItems l n := rfl
theorem setItems_setG (s : St) (l n g) : (s.setItems l n).setG g = (s.setG g).setItems l n := rfl
theorem items_setIP (s : St) (ip) : (s.setIP ip).items = s.items := rfl
theorem items_setG (s : St) (g) : (s.setG g).items = s.items := rfl
theorem top_setIP (s : St) (ip) : (s.setIP ip).top = s.top := rfl
theorem top_setG (s : St) (g) : (s.setG g).top = s.top := rfl

theorem onTop_run {α : Type} {s : St} (h : s.cur.ss.select < s.cur.ss.stacks.length) (f : Stack → α × Stack) :
    onTop f s = .ok ((f s.top).1, s.setTop (f s.top).2) := by
  have h1 : s.cur.ss.stacks[s.cur.ss.select]? = some s.top := by simp [St.top, h]
  simp only [onTop, onStack, StackStack.at', h1]; rfl

theorem onTop_items {α : Type} {s : St} (h : s.Lifo) (l n) (f : Stack → α × Stack) {a : α} {l' n'}
    (hf : f ⟨s.top.mode, l, n⟩ = (a, ⟨s.top.mode, l', n'⟩)) :
    onTop f (s.setItems l n) = .ok (a, s.setItems l' n') := by
  rw [onTop_run (lifo_setItems h l n).1, top_setItems h.1, hf]
  simp only [St.setItems, setTop_setTop]

theorem pop_lifo {st : Stack} (hq : hasMode st.mode modeQueue = false) :
    st.pop = (st.items.headD 0, ⟨st.mode, st.items.tail, st.ops + 1⟩) := by
  unfold Stack.pop
  cases h : st.items with
  | nil => simp
  | cons x t => simp [hq]

theorem push_lifo {st : Stack} (hi : hasMode st.mode modeInvert = false) (v : Int) :
    st.push v = ⟨st.mode, v :: st.items, st.ops + 1⟩ := by
  simp [Stack.push, hi]

theorem popTop_run {s : St} (h : s.Lifo) (l n) :
    popTop (s.setItems l n) = .ok (l.headD 0, s.setItems l.tail (n + 1)) :=
  onTop_items h l n _ (pop_lifo (st := ⟨s.top.mode, l, n⟩) h.2.1)

theorem pushTop_run {s : St} (h : s.Lifo) (l n) (v : Int) :
    pushTop v (s.setItems l n) = .ok ((), s.setItems (v :: l) (n + 1)) := by
  refine onTop_items h l n _ ?_
  rw [push_lifo (st := ⟨s.top.mode, l, n⟩) h.2.2]

theorem sizeTop_run {s : St} (h : s.Lifo) (l n) : sizeTop (s.setItems l n) = .ok (l.length, s.setItems l n) :=
  onTop_items h l n _ rfl

theorem clearTop_run {s : St} (h : s.Lifo) (l n) : clearTop (s.setItems l n) = .ok ((), s.setItems [] (n + 1)) :=
  onTop_items h l n _ rfl

/-- The `i`-th value, counting from 1. -/
theorem getTop_run {s : St} (h : s.Lifo) (l n) (i : Nat) :
    getTop i (s.setItems l n) = .ok (if 0 < i then l.getD (i - 1) 0 else 0, s.setItems l n) := by
  refine onTop_items h l n _ ?_
  have hw : ∀ (l : List Int) (p : Nat), Stack.walk l p = l.getD p 0 := by
    intro l p
    induction l generalizing p with
    | nil => simp [Stack.walk]
    | cons x t ih => cases p <;> simp [Stack.walk, ih]
  refine Prod.ext ?_ rfl
  simp only [Stack.get, h.2.1, hw]
  by_cases h0 : 0 < i
  · by_cases h1 : i ≤ l.length
    · simp [h0, h1]
    · have : l.length ≤ i - 1 := by omega
      simp [h0, h1, this]
  · simp [h0]

/-- The first `k` values, zeros standing in for missing ones. -/
def padTake : Nat → List Int → List Int
  | 0, _ => []
  | k + 1, l => l.headD 0 :: padTake k l.tail

theorem padTake_length (k : Nat) (l : List Int) : (padTake k l).length = k := by
  induction k generalizing l with
  | zero => rfl
  | succ k ih => simp [padTake, ih]

theorem padTake_eq_take {k : Nat} {l : List Int} (h : k ≤ l.length) : padTake k l = l.take k := by
  induction k generalizing l with
  | zero => simp [padTake]
  | succ k ih =>
    cases l with
    | nil => simp at h
    | cons x t => simp [padTake, ih (Nat.le_of_succ_le_succ h)]

theorem padTake_append (l m : List Int) : padTake l.length (l ++ m) = l := by
  rw [padTake_eq_take (by simp)]; simp

theorem padTake_eq (k : Nat) (l : List Int) : padTake k l = l.take k ++ List.replicate (k - l.length) 0 := by
  induction k generalizing l with
  | zero => simp [padTake]
  | succ k ih =>
    cases l with
    | nil => simp [padTake, ih, List.replicate_succ]
    | cons x t => simp [padTake, ih]

theorem padTake_get (k : Nat) (l : List Int) (i : Nat) (hi : i < k) : (padTake k l)[i]? = some (l.getD i 0) := by
  induction k generalizing l i with
  | zero => omega
  | succ k ih =>
    cases i with
    | zero => cases l <;> simp [padTake]
    | succ i =>
      have := ih l.tail i (by omega)
      cases l <;> simp_all [padTake]

theorem popN_run {s : St} (h : s.Lifo) (k : Nat) (l n) :
    popN popTop k (s.setItems l n) = .ok (padTake k l, s.setItems (l.drop k) (n + k)) := by
  induction k generalizing l n with
  | zero => rfl
  | succ k ih =>
    rw [popN, bind_ok (popTop_run h l n), bind_ok (ih l.tail (n + 1))]
    simp [pure_run, padTake, Nat.add_comm, Nat.add_left_comm]

theorem pushAll_run {s : St} (h : s.Lifo) (xs : List Int) (l n) :
    pushAll pushTop xs (s.setItems l n) = .ok ((), s.setItems (xs.reverse ++ l) (n + xs.length)) := by
  induction xs generalizing l n with
  | nil => rfl
  | cons x t ih =>
    rw [pushAll, bind_ok (pushTop_run h l n x), ih]
    simp [Nat.add_comm, Nat.add_left_comm]

/-! ### Vectors and strings -/

/-- The vector whose coordinate `d-1` is on top of the stack `l`, coordinate `d-2` below it, and so on. -/
def vecOf (l : List Int) (d : Nat) : Nat → Int := fun i => if i < d then l.getD (d - 1 - i) 0 else 0

theorem popVectorLoop_run {s : St} (h : s.Lifo) (d : Nat) (v : Vec) (l n) :
    ∃ w : Vec, popVectorLoop popTop d v (s.setItems l n) = .ok (w, s.setItems (l.drop d) (n + d)) ∧
      (∀ i, w.get i = if i < d then l.getD (d - 1 - i) 0 else v.get i) ∧ (0 < d → 0 < w.size) ∧ (v.Normal → w.Normal) ∧
      (0 < v.size → 0 < w.size) := by
  induction d generalizing v l n with
  | zero => exact ⟨v, rfl, fun i => by simp, fun h => absurd h (by omega), id, id⟩
  | succ d ih =>
    obtain ⟨w, hw, hg, hs, hn, hs'⟩ := ih (v.set d (l.headD 0)) l.tail (n + 1)
    refine ⟨w, ?_, ?_, fun _ => hs' (Vec.size_set_pos _ _ _), fun _ => hn (Vec.normal_set _ _ _), fun _ => hs' (Vec.size_set_pos _ _ _)⟩
    · rw [popVectorLoop, bind_ok (popTop_run h l n), hw]
      simp [Nat.add_comm, Nat.add_left_comm]
    · intro i
      rw [hg, Vec.get_set]
      by_cases h1 : i < d
      · rw [if_pos h1, if_pos (by omega)]
        have : d + 1 - 1 - i = (d - 1 - i) + 1 := by omega
        rw [this]
        cases l <;> simp
      · by_cases h2 : i = d
        · subst h2; cases l <;> simp
        · rw [if_neg h1, if_neg h2, if_neg (by omega)]

theorem popVector_run {s : St} (h : s.Lifo) (l n) :
    ∃ w : Vec, popVector (s.setItems l n) = .ok (w, s.setItems (l.drop s.g.cfg.dims) (n + s.g.cfg.dims)) ∧
      w.get = vecOf l s.g.cfg.dims ∧ (0 < s.g.cfg.dims → 0 < w.size) ∧ w.Normal := by
  obtain ⟨w, hw, hg, hs, hn, -⟩ := popVectorLoop_run h s.g.cfg.dims Vec.empty l n
  refine ⟨w, ?_, ?_, hs, hn Vec.normal_empty⟩
  · rw [popVector, popVectorOn, bind_ok (getDims_run _)]; exact hw
  · funext i
    rw [hg, vecOf]
    congr 1

theorem pushVector_run {s : St} (h : s.Lifo) (v : Vec) (l n) :
    pushVector v (s.setItems l n) =
      .ok ((), s.setItems (((List.range s.g.cfg.dims).map v.get).reverse ++ l) (n + s.g.cfg.dims)) := by
  rw [pushVector, pushVectorOn, bind_ok (getDims_run _)]
  show pushAll pushTop ((List.range s.g.cfg.dims).map v.get) _ = _
  rw [pushAll_run h]; simp

theorem pushString_run {s : St} (h : s.Lifo) (str : List Int) (l n) :
    pushString str (s.setItems l n) = .ok (str.length + 1, s.setItems (str ++ 0 :: l) (n + 1 + str.length)) := by
  rw [pushString, bind_ok (pushTop_run h l n 0), bind_ok (pushAll_run h _ _ _)]
  simp [pure_run]

theorem pushStr_run {s : St} (h : s.Lifo) (str : List Int) (l n) :
    pushStr str (s.setItems l n) = .ok ((), s.setItems (str ++ 0 :: l) (n + 1 + str.length)) := by
  rw [pushStr, bind_ok (pushString_run h str l n)]; rfl

/-- What `popString` returns and leaves: the values up to the first 0 (or the end) as characters. -/
theorem popStringLoop_run {s : St} (h : s.Lifo) (l : List Int) (k n : Nat) (acc : List Int) (hk : l.length < k) :
    ∃ n', popStringLoop k acc (s.setItems l n) =
      .ok (acc.reverse ++ (l.takeWhile (· ≠ 0)).map toChar, s.setItems ((l.dropWhile (· ≠ 0)).tail) n') := by
  induction k generalizing l n acc with
  | zero => omega
  | succ k ih =>
    cases l with
    | nil =>
      refine ⟨n + 1, ?_⟩
      rw [popStringLoop, bind_ok (popTop_run h _ n)]
      simp [pure_run]
    | cons x t =>
      by_cases hx : x = 0
      · subst hx
        refine ⟨n + 1, ?_⟩
        rw [popStringLoop, bind_ok (popTop_run h _ n)]
        simp [pure_run]
      · obtain ⟨n', hn⟩ := ih t (n + 1) (toChar x :: acc) (by simp at hk; omega)
        refine ⟨n', ?_⟩
        rw [popStringLoop, bind_ok (popTop_run h _ n)]
        simp [hx, hn]

theorem popString_run {s : St} (h : s.Lifo) (l n) :
    ∃ n', popString (s.setItems l n) =
      .ok ((l.takeWhile (· ≠ 0)).map toChar, s.setItems ((l.dropWhile (· ≠ 0)).tail) n') := by
  obtain ⟨n', hn⟩ := popStringLoop_run h l (l.length + 1) n [] (by omega)
  exact ⟨n', by rw [popString, bind_ok (sizeTop_run h l n), hn]; rfl⟩

/-! ### The instruction pointer and the field -/

theorem onIP_run (f : IP → IP) (s : St) : onIP f s = .ok ((), s.setIP (f s.cur.ip)) := rfl

theorem ipNext_run {s : St} {ip : IP} (h : s.cur.ip.next s.g.cfg.dims s.g.cfg.topo s.g.field = .ok ip) :
    ipNext s = .ok ((), s.setIP ip) := by simp only [ipNext, h, St.setIP]

theorem fieldPut_run (v : Vec) (x : Int) (s : St) :
    fieldPut v x s = .ok ((), s.setG { s.g with field := s.g.field.put v x }) := rfl

theorem ipPut_run (x : Int) (s : St) :
    ipPut x s = .ok ((), s.setG { s.g with field := s.g.field.put s.cur.ip.pos x }) := rfl

/-- The same state, except for the last horizontal delta remembered by FISH and Starfish. -/
def St.setCaches (s : St) (a b : Vec) : St := { s with cur := { s.cur with fishCache := a, starCache := b } }

theorem lifo_setCaches {s : St} (h : s.Lifo) (a b) : (s.setCaches a b).Lifo := h
@[simp] theorem setCaches_g (s : St) (a b) : (s.setCaches a b).g = s.g := rfl
@[simp] theorem setCaches_ip (s : St) (a b) : (s.setCaches a b).cur.ip = s.cur.ip := rfl

theorem setDelta_run (v : Vec) (s : St) :
    ∃ a b, setDelta v s = .ok ((), (s.setCaches a b).setIP (s.cur.ip.setDelta (hasMode s.g.cfg.mode modeHover) v)) := by
  rw [setDelta, bind_ok (isMode_run _ _), modCur_run]
  unfold notifyDelta
  dsimp only
  split
  · exact ⟨if 0x46495348 ∈ s.cur.available then (IP.setDelta (hasMode s.g.cfg.mode modeHover) s.cur.ip v).delta else s.cur.fishCache,
      if Strat.starfish ∈ s.cur.strats then (IP.setDelta (hasMode s.g.cfg.mode modeHover) s.cur.ip v).delta else s.cur.starCache, rfl⟩
  · exact ⟨s.cur.fishCache, s.cur.starCache, rfl⟩

theorem tail_tail (l : List Int) : l.tail.tail = l.drop 2 := by
  rcases l with _ | ⟨a, _ | ⟨b, t⟩⟩ <;> rfl

/-- A run that is known on every state of the form `s.setItems l n` is known on `s`. -/
theorem run_items {α : Type} {s : St} (h : s.Lifo) {m : Exec α} {r : Except Fault (α × St)}
    (H : m (s.setItems s.items s.top.ops) = r) : m s = r := by rwa [setItems_self h] at H

end Funge
