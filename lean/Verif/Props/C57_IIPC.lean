import Verif.Props.C33_Fingerprints
/-
C57: the fingerprint IIPC, by which IPs address each other's stacks.
-/
namespace Funge
open Exec

/-- The stack this IP works on holds `l`, is in its normal mode and has age `n`; `m` is its mode word. -/
structure Runner.Holds (r : Runner) (m : Nat) (l : List Int) (n : Nat) : Prop where
  top : r.ss.stacks[r.ss.select]? = some ⟨m, l, n⟩
  queue : hasMode m modeQueue = false
  invert : hasMode m modeInvert = false

/-- The same IP with these values on the stack it works on. -/
def Runner.withItems (r : Runner) (m : Nat) (l : List Int) (n : Nat) : Runner := { r with ss := r.ss.setAt r.ss.select ⟨m, l, n⟩ }

/-- `r` is the only IP other than the current one with identity `id`; `a` and `b` are the IPs before and after it in the list. -/
structure St.Addresses (s : St) (id : Int) (a : List Runner) (r : Runner) (b : List Runner) : Prop where
  rest : s.rest = a ++ r :: b
  isId : (r.id : Int) = id
  notCur : (s.cur.id : Int) ≠ id
  notBefore : ∀ q ∈ a, (q.id : Int) ≠ id

/-- Identities being distinct (C38), an IP is found by its identity. -/
theorem addresses_of_distinct {s : St} (h : ((s.cur :: s.rest).map (·.id)).Nodup) {r : Runner} (hr : r ∈ s.rest) :
    ∃ a b, s.Addresses r.id a r b := by
  obtain ⟨a, b, hab⟩ := List.append_of_mem hr
  refine ⟨a, b, hab, rfl, ?_, ?_⟩
  · intro he
    have he : s.cur.id = r.id := by exact_mod_cast he
    rw [List.map_cons, List.nodup_cons] at h
    exact h.1 (he ▸ List.mem_map_of_mem hr)
  · intro q hq he
    have he : q.id = r.id := by exact_mod_cast he
    rw [List.map_cons, List.nodup_cons, hab, List.map_append, List.nodup_append] at h
    exact h.2.2.2 _ (List.mem_map_of_mem hq) _ (by simp) he

theorem onListTop_found {α : Type} {id : Int} {f : Stack → α × Stack} {a b : List Runner} {r : Runner} {st : Stack} (ha : ∀ q ∈ a, (q.id : Int) ≠ id)
    (hid : (r.id : Int) = id) (ht : r.ss.stacks[r.ss.select]? = some st) :
    onListTop id f (a ++ r :: b) = some (.ok ((f st).1, a ++ { r with ss := r.ss.setAt r.ss.select (f st).2 } :: b)) := by
  induction a with
  | nil =>
    show onListTop id f (r :: b) = _
    unfold onListTop
    rw [if_pos hid]
    unfold StackStack.at'
    rw [ht]; rfl
  | cons q t ih =>
    show onListTop id f (q :: (t ++ r :: b)) = _
    unfold onListTop
    rw [if_neg (ha q List.mem_cons_self), ih fun x hx => ha x (List.mem_cons_of_mem _ hx)]
    rfl

theorem onListTop_none {α : Type} {id : Int} {f : Stack → α × Stack} {l : List Runner} (h : ∀ q ∈ l, (q.id : Int) ≠ id) : onListTop id f l = none := by
  induction l with
  | nil => rfl
  | cons q t ih =>
    unfold onListTop
    rw [if_neg (h q List.mem_cons_self), ih fun x hx => h x (List.mem_cons_of_mem _ hx)]

/-- The same state with other IPs beside the current one. -/
def St.setRest (s : St) (l : List Runner) : St := { s with rest := l }
theorem setRest_setItems (s : St) (l i n) : (s.setRest l).setItems i n = (s.setItems i n).setRest l := rfl

theorem onRunnerTop_other {α : Type} {s : St} {id : Int} {a b : List Runner} {r : Runner} (hs : s.Addresses id a r b) {st : Stack}
    (ht : r.ss.stacks[r.ss.select]? = some st) (f : Stack → α × Stack) :
    onRunnerTop id f s = .ok (some (f st).1, s.setRest (a ++ { r with ss := r.ss.setAt r.ss.select (f st).2 } :: b)) := by
  unfold onRunnerTop
  rw [if_neg hs.notCur, hs.rest, onListTop_found hs.notBefore hs.isId ht]; rfl

theorem onRunnerTop_nobody {α : Type} {s : St} {id : Int} (h : ∀ q ∈ s.cur :: s.rest, (q.id : Int) ≠ id) (f : Stack → α × Stack) :
    onRunnerTop id f s = .ok (none, s) := by
  unfold onRunnerTop
  rw [if_neg (h _ List.mem_cons_self), onListTop_none fun q hq => h q (List.mem_cons_of_mem _ hq)]

theorem Addresses.setItems {s : St} {id : Int} {a b : List Runner} {r : Runner} (h : s.Addresses id a r b) (l n) : (s.setItems l n).Addresses id a r b :=
  ⟨h.rest, h.isId, h.notCur, h.notBefore⟩

/-- **C57** `P` pushes its value on the stack of the IP addressed and of no other; that stack grows older, nothing else changes. -/
theorem C57_put {s : St} (h : s.Lifo) {id v : Int} {l : List Int} (hi : s.items = id :: v :: l) {a b : List Runner} {r : Runner} (hs : s.Addresses id a r b)
    {m : Nat} {k : List Int} {n : Nat} (hr : r.Holds m k n) :
    ∃ s' : St, iipcPut s = .ok (.none, s') ∧ (s.setRest (a ++ r.withItems m (v :: k) (n + 1) :: b)).Leaves s' l := by
  refine ⟨_, ?_, s.top.ops + 1 + 1, rfl⟩
  conv => lhs; rw [← setItems_self h, hi]
  rw [iipcPut, bind_ok (popTop_run h _ _)]
  dsimp only [List.headD_cons, List.tail_cons]
  rw [bind_ok (popTop_run h _ _)]
  dsimp only [List.headD_cons, List.tail_cons]
  rw [bind_ok (onRunnerTop_other (Addresses.setItems hs _ _) hr.top _)]
  have : (Stack.push ⟨m, k, n⟩ v) = ⟨m, v :: k, n + 1⟩ := push_lifo (st := ⟨m, k, n⟩) hr.invert v
  dsimp only
  rw [this]; rfl

/-- **C57** `G` pops from the stack of the IP addressed and of no other (0 if it is empty) and pushes the value on its own. -/
theorem C57_get {s : St} (h : s.Lifo) {id : Int} {l : List Int} (hi : s.items = id :: l) {a b : List Runner} {r : Runner} (hs : s.Addresses id a r b)
    {m : Nat} {k : List Int} {n : Nat} (hr : r.Holds m k n) :
    ∃ s' : St, iipcGet s = .ok (.none, s') ∧ (s.setRest (a ++ r.withItems m k.tail (n + 1) :: b)).Leaves s' (k.headD 0 :: l) := by
  refine ⟨_, ?_, s.top.ops + 1 + 1, rfl⟩
  conv => lhs; rw [← setItems_self h, hi]
  rw [iipcGet, bind_ok (popTop_run h _ _)]
  dsimp only [List.headD_cons, List.tail_cons]
  rw [bind_ok (onRunnerTop_other (Addresses.setItems hs _ _) hr.top _)]
  dsimp only
  rw [pop_lifo (st := ⟨m, k, n⟩) hr.queue]
  dsimp only
  show (pushTop _ >>= _) ((s.setRest (a ++ r.withItems m k.tail (n + 1) :: b)).setItems l _) = _
  rw [bind_ok (pushTop_run (s := s.setRest (a ++ r.withItems m k.tail (n + 1) :: b)) h l _ _)]
  rfl

/-- **C57** `L` reads the top value of the IP addressed and changes no other IP at all. -/
theorem C57_look {s : St} (h : s.Lifo) {id : Int} {l : List Int} (hi : s.items = id :: l) {a b : List Runner} {r : Runner} (hs : s.Addresses id a r b)
    {m : Nat} {k : List Int} {n : Nat} (hr : r.Holds m k n) :
    ∃ s' : St, iipcLook s = .ok (.none, s') ∧ s.Leaves s' (k.headD 0 :: l) := by
  refine ⟨_, ?_, s.top.ops + 1 + 1, rfl⟩
  conv => lhs; rw [← setItems_self h, hi]
  rw [iipcLook, bind_ok (popTop_run h _ _)]
  dsimp only [List.headD_cons, List.tail_cons]
  rw [bind_ok (onRunnerTop_other (Addresses.setItems hs _ _) hr.top _)]
  have h1 : Stack.peek ⟨m, k, n⟩ = k.headD 0 := by
    unfold Stack.peek
    cases k with
    | nil => rfl
    | cons x t => simp only [hr.queue]; rfl
  have h2 : r.ss.setAt r.ss.select ⟨m, k, n⟩ = r.ss := by
    unfold StackStack.setAt; rw [set_self hr.top]
  dsimp only
  rw [h1, h2]
  have h3 : (s.setItems l (s.top.ops + 1)).setRest (a ++ r :: b) = s.setItems l (s.top.ops + 1) := by
    unfold St.setRest; rw [← hs.rest]; rfl
  show (pushTop _ >>= _) ((s.setItems l (s.top.ops + 1)).setRest (a ++ r :: b)) = _
  rw [h3, bind_ok (pushTop_run h _ _ _)]; rfl

/-- **C57** `I` pushes the IP's own identity. -/
theorem C57_own {s : St} (h : s.Lifo) : ∃ s', iipcId s = .ok (.none, s') ∧ s.Leaves s' (s.cur.id :: s.items) := by
  refine ⟨_, ?_, s.top.ops + 1, rfl⟩
  conv => lhs; rw [← setItems_self h]
  rw [iipcId, bind_ok (get_run _), bind_ok (pushTop_run h _ _ _)]; rfl

/-- **C57** Addressing an identity no IP has is an error and touches no IP. -/
theorem C57_nobody {s : St} (h : s.Lifo) {id : Int} {l : List Int} (hi : s.items = id :: l) (hn : ∀ q ∈ s.cur :: s.rest, (q.id : Int) ≠ id) :
    (∃ s', iipcGet s = .ok (.unspec, s') ∧ s.Leaves s' l) ∧ (∃ s', iipcLook s = .ok (.unspec, s') ∧ s.Leaves s' l) ∧
      ∃ s', iipcPut s = .ok (.unspec, s') ∧ s.Leaves s' l.tail := by
  have hn' : ∀ l n, ∀ q ∈ (s.setItems l n).cur :: (s.setItems l n).rest, (q.id : Int) ≠ id := by
    intro l n q hq
    rcases List.mem_cons.1 hq with rfl | hq
    · exact hn s.cur List.mem_cons_self
    · exact hn q (List.mem_cons_of_mem _ hq)
  refine ⟨⟨_, ?_, s.top.ops + 1, rfl⟩, ⟨_, ?_, s.top.ops + 1, rfl⟩, ⟨_, ?_, s.top.ops + 1 + 1, rfl⟩⟩
  all_goals
    conv => lhs; rw [← setItems_self h, hi]
  · rw [iipcGet, bind_ok (popTop_run h _ _)]
    dsimp only [List.headD_cons, List.tail_cons]
    rw [bind_ok (onRunnerTop_nobody (hn' _ _) _)]; rfl
  · rw [iipcLook, bind_ok (popTop_run h _ _)]
    dsimp only [List.headD_cons, List.tail_cons]
    rw [bind_ok (onRunnerTop_nobody (hn' _ _) _)]; rfl
  · rw [iipcPut, bind_ok (popTop_run h _ _)]
    dsimp only [List.headD_cons, List.tail_cons]
    rw [bind_ok (popTop_run h _ _)]
    rw [bind_ok (onRunnerTop_nobody (hn' _ _) _)]; rfl

/-- **C57** `A` pushes the identity of the IP that made this one, if that IP is still there. Partial: otherwise see `C57_undefined_for_root`,
`C57_undefined_after_death`. -/
theorem C57_ancestor_partial {s : St} (h : s.Lifo) {p : Nat} (hp : s.cur.parent = some p) (hl : ∃ q ∈ s.rest, q.id = p) :
    ∃ s', iipcAncestor s = .ok (.none, s') ∧ s.Leaves s' (p :: s.items) := by
  refine ⟨_, ?_, s.top.ops + 1, rfl⟩
  have h1 : (s.cur :: s.rest).any (fun r => r.id = p) = true := by
    obtain ⟨q, h1, h2⟩ := hl
    rw [List.any_eq_true]
    exact ⟨q, List.mem_cons_of_mem _ h1, by simpa using h2⟩
  rw [iipcAncestor, bind_ok (get_run _), hp]
  dsimp only
  rw [if_pos h1]
  conv => lhs; rw [← setItems_self h]
  rw [bind_ok (pushTop_run h _ _ _)]; rfl

/-- **C57** `A` of the first IP of a program dereferences a null pointer. -/
theorem C57_undefined_for_root {s : St} (h : s.cur.parent = none) : iipcAncestor s = .error .nullDeref := by
  rw [iipcAncestor, bind_ok (get_run _), h]; rfl

/-- **C57** `A` of an IP whose parent has ended uses a dangling pointer. -/
theorem C57_undefined_after_death {s : St} {p : Nat} (hp : s.cur.parent = some p) (hl : ∀ q ∈ s.cur :: s.rest, q.id ≠ p) :
    iipcAncestor s = .error .dangling := by
  have h1 : ¬ (s.cur :: s.rest).any (fun r => r.id = p) = true := by
    rw [List.any_eq_true]
    rintro ⟨q, h1, h2⟩
    exact hl q h1 (by simpa using h2)
  rw [iipcAncestor, bind_ok (get_run _), hp]
  dsimp only
  rw [if_neg h1]; rfl

/-! ### Sleeping -/

/-- **C57** `D` puts an IP to sleep: its turn ends and it stays where it is, remembering the age of its stack. -/
theorem C57_sleep {s : St} (h : s.cur.ss.select < s.cur.ss.stacks.length) (hd : s.cur.iipcDormant = false) :
    iipcDormant s = .ok (.block, { s with cur := { s.cur with iipcAge := s.top.ops, iipcDormant := true } }) := by
  rw [iipcDormant, bind_ok (onTop_run h _)]
  dsimp only
  rw [setTop_self h, bind_ok (get_run _), hd]
  rfl

/-- **C57** An IP that sleeps and whose stack has not been touched sleeps on, and nothing changes. -/
theorem C57_sleep_on {s : St} (h : s.cur.ss.select < s.cur.ss.stacks.length) (hd : s.cur.iipcDormant = true) (ha : s.top.ops = s.cur.iipcAge) :
    iipcDormant s = .ok (.block, s) := by
  rw [iipcDormant, bind_ok (onTop_run h _)]
  dsimp only
  rw [setTop_self h, bind_ok (get_run _), if_pos hd, if_neg (by simpa [Stack.age] using ha)]
  rfl

/-- **C57** An IP that sleeps and whose stack has been touched wakes up and goes on. -/
theorem C57_wake {s : St} (h : s.cur.ss.select < s.cur.ss.stacks.length) (hd : s.cur.iipcDormant = true) (ha : s.top.ops ≠ s.cur.iipcAge) :
    iipcDormant s = .ok (.none, { s with cur := { s.cur with iipcDormant := false } }) := by
  rw [iipcDormant, bind_ok (onTop_run h _)]
  dsimp only
  rw [setTop_self h, bind_ok (get_run _), if_pos hd, if_pos (by simpa [Stack.age] using ha)]
  rfl

/-- **C57** Touching means `P` or `G`: they make the stack older, `L` does not (see `C57_put`, `C57_get`, `C57_look`); and age never returns to an earlier value,
whatever is done to a stack. -/
theorem C57_age (st : Stack) (v : Int) : (st.push v).age > st.age ∧ st.pop.2.age > st.age ∧ st.clear.age > st.age := by
  refine ⟨?_, ?_, ?_⟩
  · unfold Stack.push Stack.age; split <;> exact Nat.lt_succ_self _
  · unfold Stack.pop Stack.age; repeat' split
    all_goals exact Nat.lt_succ_self _
  · exact Nat.lt_succ_self _

/-- A turn of an IP on a `D` of IIPC that ends with "blocked" leaves it where it is. -/
theorem tick_block {s s1 : St} (hf : 0 < s.g.fuel) (h : execute s.g.fuel (s.g.field.get s.cur.ip.pos) s = .ok (.block, s1)) : tick s = .ok ((), s1) := by
  obtain ⟨k, hk⟩ : ∃ k, s.g.fuel = k + 1 := ⟨s.g.fuel - 1, by omega⟩
  rw [tick, bind_ok (getFuel_run s)]
  conv => lhs; rw [hk, tickLoop]
  rw [bind_ok (ipGet_run s), bind_ok (getFuel_run s), bind_ok h]
  rfl

/-- **C57** For a whole turn: an IP that is at a `D` of IIPC, sleeps, and whose stack has not been touched spends its turn without any effect at all. -/
theorem C57_sleeping_turn {s : St} (h : s.cur.ss.select < s.cur.ss.stacks.length) (hf : 0 < s.g.fuel) (hstr : s.cur.inString = false)
    (hdive : hasMode s.g.cfg.mode modeDive = false) {b : Bool} (hsem : s.cur.getSem (s.g.field.get s.cur.ip.pos) = some ⟨.fing .IIPC 68, b⟩)
    (hd : s.cur.iipcDormant = true) (ha : s.top.ops = s.cur.iipcAge) : tick s = .ok ((), s) := by
  obtain ⟨k, hk⟩ : ∃ k, s.g.fuel = k + 1 := ⟨s.g.fuel - 1, by omega⟩
  refine tick_block hf ?_
  rw [hk]
  simp only [execute, hstr, execNormal, hsem, hdive]
  exact C57_sleep_on h hd ha

/-! ### Examples -/

/-- Two IPs: the first with `l` on its stack, the second with identity 7 and `k` on its stack. -/
def exPair (l k : List Int) : St :=
  let s := (exFing [0x49495043] [80]).setItems l l.length
  s.setRest [{ s.cur with id := 7, ss := s.cur.ss.setAt 0 ⟨0, k, 5⟩ }]

theorem exPair_addresses (l k : List Int) (h : (exFing [0x49495043] [80]).cur.id = 0) : ∃ r, (exPair l k).Addresses 7 [] r [] :=
  ⟨_, rfl, rfl, by show (((exFing [0x49495043] [80]).cur.id : Nat) : Int) ≠ 7; rw [h]; decide, by intro q hq; cases hq⟩

/-- The hypotheses of `C57_put` are met. -/
example : (exPair [7, 3, 9] [4]).Lifo ∧ (exPair [7, 3, 9] [4]).items = [7, 3, 9] ∧ (exFing [0x49495043] [80]).cur.id = 0 ∧
    ∀ r ∈ (exPair [7, 3, 9] [4]).rest, r.ss.stacks[r.ss.select]? = some ⟨0, [4], 5⟩ := by decide +kernel
/-- The first IP of a program has no parent. -/
example : (exFing [0x49495043] [65]).cur.parent = none := by decide +kernel
/-- An IP at `D`, asleep. -/
example : (exFing [0x49495043] [68]).cur.getSem ((exFing [0x49495043] [68]).g.field.get (exFing [0x49495043] [68]).cur.ip.pos) = some ⟨.fing .IIPC 68, false⟩ := by
  decide +kernel

end Funge
