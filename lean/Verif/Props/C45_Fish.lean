import Verif.Lemmas.Fish
/-
C45 (errors in ><>), C46 (register), C47 (stacks), C48 (subroutines of *><>), C49 (diving).
-/
namespace Funge
open Exec

/-! ## C45

### Specification -/

/-- How many values the instruction `c` of ><> or *><> takes from the stack, in `d` dimensions; `full` says whether the register of the stack
holds a value. -/
def fishTakes (d : Nat) (full : Bool) (c : Int) : Nat :=
  if c ∈ [63, 58, 126, 91, 111, 110, 83, 70] then 1        -- ? : ~ [ o n S F
  else if c ∈ [43, 45, 42, 44, 37, 61, 41, 40, 36] then 2  -- + - * , % = ) ( $
  else if c = 64 then 3                                    -- @
  else if c ∈ [46, 103, 67] then d                         -- . g C
  else if c = 112 then d + 1                               -- p
  else if c = 38 then (if full then 0 else 1)              -- &
  else 0

/-- The register of the current stack holds a value. -/
def St.regFull (s : St) : Bool := (s.cur.regs.head?.getD (false, 0)).1

/-- The next instruction of the current IP needs something that is not there, or is not an instruction at all. -/
inductive St.Starved (s : St) (c : Int) : Prop
  | unknown (h : s.cur.getSem c = none)
  /-- Fewer values on the stack than the instruction takes. -/
  | few (ht : s.cur.ss.select < s.cur.ss.stacks.length) (hr : s.cur.regs ≠ []) (h : s.items.length < fishTakes s.g.cfg.dims s.regFull c)
  /-- `x[`, but there are no `x` values. -/
  | create {x : Int} {l : List Int} {k : Nat} (hl : s.Lifo) (hc : c = 91) (hi : s.items = x :: l) (hx : s.g.flt.toI64 x = some (k : Int)) (h : l.length < k)
  /-- `]`, but there is only one stack. -/
  | remove (hc : c = 93) (h : s.cur.ss.stacks.length = 1)
  /-- `R`, but the stack below does not hold a position. -/
  | return {B : Stack} (hc : c = 82) (h : s.cur.ss.stacks[s.cur.ss.select + 1]? = some B) (hB : B.items.length < s.g.cfg.dims)

/-- The program is over with exit code 1: nothing runs any more. -/
structure Univ.Dead (u : Univ) : Prop where
  code : u.g.exitcode = 1
  running : u.g.running = false
  stopped : ∀ r ∈ u.runners, r.ip.stopped = true

/-! ### Checks -/

theorem set_self' {α : Type} {l : List α} {n : Nat} {a : α} (h : l[n]? = some a) : l.set n a = l := by
  obtain ⟨hn, rfl⟩ := List.getElem?_eq_some_iff.1 h
  simp

theorem sizeAt_self {s : St} {x : Nat} {B : Stack} (h : s.cur.ss.stacks[x]? = some B) :
    onStack x (fun st => (st.size, st)) s = .ok (B.items.length, s) := by
  unfold onStack StackStack.at'
  rw [h]
  dsimp only
  have : s.cur.ss.setAt x B = s.cur.ss := by unfold StackStack.setAt; rw [set_self' h]
  rw [this]; rfl

theorem top_get {s : St} (h : s.cur.ss.select < s.cur.ss.stacks.length) : s.cur.ss.stacks[s.cur.ss.select]? = some s.top := by simp [St.top, h]

theorem sizeTop_self {s : St} (h : s.cur.ss.select < s.cur.ss.stacks.length) : sizeTop s = .ok (s.items.length, s) := by
  exact sizeAt_self (top_get h)

theorem checkTop_few {s : St} (h : s.cur.ss.select < s.cur.ss.stacks.length) {n : Nat} (hn : s.items.length < n) (k : Exec Err) :
    checkTop n k s = .ok (.unspec, s) := by
  rw [checkTop, bind_ok (sizeTop_self h), if_pos hn]; rfl

theorem checkTop_enough {s : St} (h : s.cur.ss.select < s.cur.ss.stacks.length) {n : Nat} (hn : n ≤ s.items.length) (k : Exec Err) :
    checkTop n k s = k s := by
  rw [checkTop, bind_ok (sizeTop_self h), if_neg (by omega)]

theorem checkSecond_few {s : St} {B : Stack} (h : s.cur.ss.stacks[s.cur.ss.select + 1]? = some B) {n : Nat} (hn : B.items.length < n) (k : Exec Err) :
    checkSecond n k s = .ok (.unspec, s) := by
  have h2 : sizeSecond s = .ok (B.items.length, s) := sizeAt_self h
  rw [checkSecond, bind_ok h2, if_pos hn]; rfl

theorem checkSecond_enough {s : St} {B : Stack} (h : s.cur.ss.stacks[s.cur.ss.select + 1]? = some B) {n : Nat} (hn : n ≤ B.items.length) (k : Exec Err) :
    checkSecond n k s = k s := by
  have h2 : sizeSecond s = .ok (B.items.length, s) := sizeAt_self h
  rw [checkSecond, bind_ok h2, if_neg (by omega)]

theorem checkSecond_short {s : St} {B : Stack} (h : s.cur.ss.stacks[s.cur.ss.select + 1]? = some B) {n : Nat} (hn : B.items.length < n) (k : Exec Err) :
    checkSecond n k s = .ok (.unspec, s) := by
  have h2 : sizeSecond s = .ok (B.items.length, s) := sizeAt_self h
  rw [checkSecond, bind_ok h2, if_pos hn]; rfl

/-- What two states have in common if only the stacks of the current IP differ. -/
structure Aside (s s' : St) : Prop where
  g : s'.g = s.g
  rest : s'.rest = s.rest
  handler : s'.cur.handler = s.cur.handler

theorem Aside.refl (s : St) : Aside s s := ⟨rfl, rfl, rfl⟩

/-- An error, as a strategy reports it. -/
def Err.bad : Err → Bool
  | .none | .skip | .block => false
  | _ => true

/-- The stacks with a new one below the first `n`. -/
def insertNew (n : Nat) (l : List Stack) : List Stack := l.take n ++ Stack.new :: l.drop n

/-- Pushing on the second stack leaves the top one alone. -/
structure Under (s s' : St) : Prop extends Aside s s' where
  select : s'.cur.ss.select = s.cur.ss.select
  len : s'.cur.ss.stacks.length = s.cur.ss.stacks.length
  top : s'.top = s.top

theorem Under.refl (s : St) : Under s s := ⟨.refl s, rfl, rfl, rfl⟩
theorem Under.trans {s t u : St} (h : Under s t) (h' : Under t u) : Under s u :=
  ⟨⟨h'.g.trans h.g, h'.rest.trans h.rest, h'.handler.trans h.handler⟩, h'.select.trans h.select, h'.len.trans h.len, h'.top.trans h.top⟩

theorem pushSecond_under {s : St} (h : s.cur.ss.select + 1 < s.cur.ss.stacks.length) (v : Int) : ∃ s', pushSecond v s = .ok ((), s') ∧ Under s s' := by
  unfold pushSecond onSecond onStack StackStack.at'
  rw [List.getElem?_eq_getElem h]
  refine ⟨_, rfl, ⟨⟨rfl, rfl, rfl⟩, rfl, ?_, ?_⟩⟩
  · simp [StackStack.setAt]
  · simp [St.top, StackStack.setAt]

theorem pushAll_under {s : St} (h : s.cur.ss.select + 1 < s.cur.ss.stacks.length) (f : Int → Int) (l : List Int) :
    ∃ s', pushAll (fun x => pushSecond (f x)) l s = .ok ((), s') ∧ Under s s' := by
  induction l generalizing s with
  | nil => exact ⟨s, rfl, .refl s⟩
  | cons x t ih =>
    obtain ⟨s1, h1, u1⟩ := pushSecond_under h (f x)
    obtain ⟨s2, h2, u2⟩ := ih (s := s1) (by rw [u1.select, u1.len]; exact h)
    exact ⟨s2, by rw [pushAll, bind_ok h1, h2], u1.trans u2⟩

theorem few_call {s : St} (ht : s.cur.ss.select < s.cur.ss.stacks.length) (hf : s.items.length < s.g.cfg.dims) :
    ∃ s', siCall s = .ok (.unspec, s') ∧ Aside s s' := by
  have h1 : onStacks (·.insert 1) s =
      .ok ((), { s with cur := { s.cur with ss := { s.cur.ss with stacks := insertNew (1 + s.cur.ss.select) s.cur.ss.stacks } } }) := by
    have h0 : s.cur.ss.insert 1 = .ok { s.cur.ss with stacks := insertNew (1 + s.cur.ss.select) s.cur.ss.stacks } := by
      unfold StackStack.insert; rw [if_pos (by omega)]; rfl
    unfold onStacks; dsimp only; rw [h0]
  generalize hs1 : ({ s with cur := { s.cur with ss := { s.cur.ss with stacks := insertNew (1 + s.cur.ss.select) s.cur.ss.stacks } } } : St) = s1 at h1
  have hlen : s1.cur.ss.select + 1 < s1.cur.ss.stacks.length := by subst hs1; simp [insertNew]; omega
  have htop : s1.top = s.top := by
    subst hs1
    simp only [St.top, insertNew]
    rw [List.getElem?_append_left (by simp; omega), List.getElem?_take]
    simp
  have hg : s1.g = s.g := by subst hs1; rfl
  obtain ⟨s2, h2, u⟩ := pushAll_under hlen s1.g.flt.ofInt ((List.range s1.g.cfg.dims).map s1.cur.ip.pos.get)
  refine ⟨s2, ?_, ⟨u.g.trans hg, ?_, ?_⟩⟩
  · rw [siCall, bind_ok h1, bind_ok (ipPos_run _)]
    have h3 : fishPushVectorOn pushSecond s1.cur.ip.pos s1 = .ok ((), s2) := h2
    rw [bind_ok h3, bind_ok (getDims_run _)]
    apply checkTop_few (by rw [u.select, u.len]; omega)
    rw [u.g, hg, St.items, u.top, htop]; exact hf
  · rw [u.rest]; subst hs1; rfl
  · rw [u.handler]; subst hs1; rfl

theorem fishy_sem {r : Runner} (h : r.Fishy) {c : Int} {sem : Sem} (h1 : (meanings semsFish c).head? = some sem)
    (h2 : (meanings (semsFish ++ semsStarfish) c).head? = some sem) : r.getSem c = some sem := by
  obtain ⟨_, _, st, hst, _, hs⟩ := h
  unfold Runner.getSem
  rw [hs]
  rcases hst with rfl | rfl
  · exact h1
  · exact h2

/-- An instruction of *><> only. -/
theorem fishy_sem_star {r : Runner} (h : r.Fishy) {c : Int} {sem : Sem} (h1 : (meanings semsFish c).head? = none)
    (h2 : (meanings (semsFish ++ semsStarfish) c).head? = some sem) : r.getSem c = none ∨ r.getSem c = some sem := by
  obtain ⟨_, _, st, hst, _, hs⟩ := h
  unfold Runner.getSem
  rw [hs]
  rcases hst with rfl | rfl
  · exact .inl h1
  · exact .inr h2

theorem exec_sem {s : St} {c : Int} {sem : Sem} (h : s.cur.getSem c = some sem) (hd : hasMode s.g.cfg.mode modeDive = false) (ex : Int → Exec Err) :
    execNormal ex c s = runOp ex sem.op s := by
  unfold execNormal
  rw [h]
  simp [hd]

theorem starved_run {s : St} (hf : s.cur.Fishy) {c : Int} (h : s.Starved c) (hd : hasMode s.g.cfg.mode modeDive = false) (ex : Int → Exec Err) :
    ∃ e s', execNormal ex c s = .ok (e, s') ∧ e.bad = true ∧ Aside s s' := by
  have known : ∀ {sem : Sem}, s.cur.getSem c = some sem → (∃ e s', runOp ex sem.op s = .ok (e, s') ∧ e.bad = true ∧ Aside s s') →
      ∃ e s', execNormal ex c s = .ok (e, s') ∧ e.bad = true ∧ Aside s s' := by
    intro sem h1 h2
    rw [exec_sem h1 hd]; exact h2
  have lost : s.cur.getSem c = none → ∃ e s', execNormal ex c s = .ok (e, s') ∧ e.bad = true ∧ Aside s s' := by
    intro h1
    exact ⟨.unimp, s, by unfold execNormal; rw [h1], rfl, .refl s⟩
  cases h with
  | unknown h => exact lost h
  | few ht hr h =>
    unfold fishTakes at h
    split at h
    · rename_i hc
      have hop : ∀ k, ∃ e s', checkTop 1 k s = .ok (e, s') ∧ e.bad = true ∧ Aside s s' := fun k => ⟨_, _, checkTop_few ht h k, rfl, .refl s⟩
      simp only [List.mem_cons, List.not_mem_nil, or_false] at hc
      rcases hc with rfl | rfl | rfl | rfl | rfl | rfl | rfl | rfl
      · exact known (sem := ⟨.fConditional, false⟩) (fishy_sem hf (by rfl) (by rfl)) (hop _)
      · exact known (sem := ⟨.fDuplicate, false⟩) (fishy_sem hf (by rfl) (by rfl)) (hop _)
      · exact known (sem := ⟨.fRemove, false⟩) (fishy_sem hf (by rfl) (by rfl)) (hop _)
      · exact known (sem := ⟨.fCreateStack, false⟩) (fishy_sem hf (by rfl) (by rfl)) (hop _)
      · exact known (sem := ⟨.fOutChar, false⟩) (fishy_sem hf (by rfl) (by rfl)) (hop _)
      · exact known (sem := ⟨.fOutInt, false⟩) (fishy_sem hf (by rfl) (by rfl)) (hop _)
      · rcases fishy_sem_star hf (c := 83) (sem := ⟨.sSleep, false⟩) (by rfl) (by rfl) with h1 | h1
        · exact lost h1
        · exact known h1 (hop _)
      · rcases fishy_sem_star hf (c := 70) (sem := ⟨.sFile, false⟩) (by rfl) (by rfl) with h1 | h1
        · exact lost h1
        · refine known h1 ?_
          show ∃ e s', siFile s = .ok (e, s') ∧ _
          rw [siFile, bind_ok (getCfg_run s)]
          split
          · exact hop _
          · exact ⟨_, _, rfl, rfl, .refl s⟩
    split at h
    · rename_i hc
      have hop : ∀ k, ∃ e s', checkTop 2 k s = .ok (e, s') ∧ e.bad = true ∧ Aside s s' := fun k => ⟨_, _, checkTop_few ht h k, rfl, .refl s⟩
      simp only [List.mem_cons, List.not_mem_nil, or_false] at hc
      rcases hc with rfl | rfl | rfl | rfl | rfl | rfl | rfl | rfl | rfl
      · exact known (sem := ⟨.fAdd, false⟩) (fishy_sem hf (by rfl) (by rfl)) (hop _)
      · exact known (sem := ⟨.fSub, false⟩) (fishy_sem hf (by rfl) (by rfl)) (hop _)
      · exact known (sem := ⟨.fMult, false⟩) (fishy_sem hf (by rfl) (by rfl)) (hop _)
      · exact known (sem := ⟨.fDiv, false⟩) (fishy_sem hf (by rfl) (by rfl)) (hop _)
      · exact known (sem := ⟨.fModu, false⟩) (fishy_sem hf (by rfl) (by rfl)) (hop _)
      · exact known (sem := ⟨.fEqual, false⟩) (fishy_sem hf (by rfl) (by rfl)) (hop _)
      · exact known (sem := ⟨.fGreater, false⟩) (fishy_sem hf (by rfl) (by rfl)) (hop _)
      · exact known (sem := ⟨.fLess, false⟩) (fishy_sem hf (by rfl) (by rfl)) (hop _)
      · exact known (sem := ⟨.fSwap2, false⟩) (fishy_sem hf (by rfl) (by rfl)) (hop _)
    split at h
    · rename_i hc
      subst hc
      exact known (sem := ⟨.fSwap3, false⟩) (fishy_sem hf (by rfl) (by rfl)) ⟨_, _, checkTop_few ht h _, rfl, .refl s⟩
    split at h
    · rename_i hc
      simp only [List.mem_cons, List.not_mem_nil, or_false] at hc
      rcases hc with rfl | rfl | rfl
      · refine known (sem := ⟨.fJump, false⟩) (fishy_sem hf (by rfl) (by rfl)) ⟨.unspec, s, ?_, rfl, .refl s⟩
        show fiJump s = _
        rw [fiJump, bind_ok (getDims_run s), checkTop_few ht h]
      · refine known (sem := ⟨.fGet, false⟩) (fishy_sem hf (by rfl) (by rfl)) ⟨.unspec, s, ?_, rfl, .refl s⟩
        show fiGet s = _
        rw [fiGet, bind_ok (getDims_run s), checkTop_few ht h]
      · rcases fishy_sem_star hf (c := 67) (sem := ⟨.sCall, false⟩) (by rfl) (by rfl) with h1 | h1
        · exact lost h1
        · obtain ⟨s', h2, h3⟩ := few_call ht h
          exact known h1 ⟨.unspec, s', h2, rfl, h3⟩
    split at h
    · rename_i hc
      subst hc
      refine known (sem := ⟨.fPut, false⟩) (fishy_sem hf (by rfl) (by rfl)) ⟨.unspec, s, ?_, rfl, .refl s⟩
      show fiPut s = _
      rw [fiPut, bind_ok (getDims_run s), checkTop_few ht h]
    split at h
    · rename_i hc
      subst hc
      refine known (sem := ⟨.fRegister, false⟩) (fishy_sem hf (by rfl) (by rfl)) ⟨.unspec, s, ?_, rfl, .refl s⟩
      show fiRegister s = _
      rw [fiRegister, bind_ok (get_run s)]
      cases hrg : s.cur.regs with
      | nil => exact absurd hrg hr
      | cons p t =>
        obtain ⟨b, v⟩ := p
        cases b with
        | true => simp [St.regFull, hrg] at h
        | false =>
          refine checkTop_few ht ?_ _
          simpa [St.regFull, hrg] using h
    · omega
  | @create x l k hl hc hi hx h =>
    subst hc
    refine known (sem := ⟨.fCreateStack, false⟩) (fishy_sem hf (by rfl) (by rfl)) ?_
    show ∃ e s', fiCreateStack s = .ok (e, s') ∧ _
    rw [fiCreateStack, checkTop_enough hl.1 (by rw [hi]; simp)]
    have h1 : fishPopSize s = .ok (k, s.setItems l (s.top.ops + 1)) := by
      have h2 : popTop s = .ok (x, s.setItems l (s.top.ops + 1)) := by
        have := popTop_run hl s.items s.top.ops
        rw [setItems_self hl, hi] at this
        exact this
      rw [fishPopSize, fishPopInt]
      show (popTop >>= _ >>= _) s = _
      have h3 : (popTop >>= fishInt) s = .ok ((k : Int), s.setItems l (s.top.ops + 1)) := by
        rw [bind_ok h2, fishInt]
        show (match s.g.flt.toI64 x with | some i => pure i | none => fault .overflow : Exec Int) _ = _
        rw [hx]; rfl
      rw [bind_ok h3, if_neg (by omega)]
      show Except.ok (Int.toNat k, _) = _
      rw [Int.toNat_natCast]
    rw [bind_ok h1]
    have hl2 := lifo_setItems hl l (s.top.ops + 1)
    have htop : (s.setItems l (s.top.ops + 1)).cur.ss.stacks[s.cur.ss.select]? = some ⟨s.top.mode, l, s.top.ops + 1⟩ := by
      have := top_get hl2.1
      rw [top_setItems hl.1] at this
      exact this
    generalize hs1 : s.setItems l (s.top.ops + 1) = s1 at *
    have hsel : s1.cur.ss.select = s.cur.ss.select := by subst hs1; rfl
    have h4 : onStacks (·.insert 0) s1 =
        .ok ((), { s1 with cur := { s1.cur with ss := { s1.cur.ss with stacks := insertNew (0 + s1.cur.ss.select) s1.cur.ss.stacks } } }) := by
      have h0 : s1.cur.ss.insert 0 = .ok { s1.cur.ss with stacks := insertNew (0 + s1.cur.ss.select) s1.cur.ss.stacks } := by
        unfold StackStack.insert; rw [if_pos (by have := hl2.1; omega)]; rfl
      unfold onStacks; dsimp only; rw [h0]
    rw [bind_ok h4]
    refine ⟨.unspec, _, checkSecond_few (B := ⟨s.top.mode, l, s.top.ops + 1⟩) ?_ h _, rfl, ?_⟩
    · dsimp only [insertNew]
      rw [List.getElem?_append_right (by simp; omega)]
      have := hl2.1
      have e : s1.cur.ss.select + 1 - (List.take (0 + s1.cur.ss.select) s1.cur.ss.stacks).length = 1 := by simp; omega
      rw [e]
      simp only [List.getElem?_cons_succ, List.getElem?_drop]
      rw [Nat.zero_add, Nat.add_zero, hsel, htop]
    · subst hs1; exact ⟨rfl, rfl, rfl⟩
  | remove hc h =>
    subst hc
    refine known (sem := ⟨.fRemoveStack, false⟩) (fishy_sem hf (by rfl) (by rfl)) ⟨.unspec, s, ?_, rfl, .refl s⟩
    show fiRemoveStack s = _
    unfold fiRemoveStack checkSelected
    rw [bind_ok (numStacks_run s)]
    unfold StackStack.size
    rw [h, if_neg (by omega), bind_ok (numStacks_run s)]
    unfold StackStack.size
    rw [h]; rfl
  | @«return» B hc h hB =>
    subst hc
    rcases fishy_sem_star hf (c := 82) (sem := ⟨.sReturn, false⟩) (by rfl) (by rfl) with h1 | h1
    · exact lost h1
    · refine known h1 ⟨.unspec, s, ?_, rfl, .refl s⟩
      show siReturn s = _
      rw [siReturn, bind_ok (getDims_run s), checkSecond_few h hB]

/-! ### Errors are fatal -/

theorem handle_fish {s : St} (h : s.cur.handler = .fish) {e : Err} (hd : e ≠ .unimp ∨ hasMode s.g.cfg.mode modeDive = false) :
    ∃ s', handle e s = .ok (e, s') ∧ s'.univ.Dead ∧ s'.cur.ip.stopped = true ∧
      s'.g = { s.g with exitcode := 1, running := false } ∧ s'.rest.length = s.rest.length := by
  rw [handle, bind_ok (get_run s)]
  rw [h]
  show ∃ s', (isMode modeDive >>= _) s = _ ∧ _
  rw [bind_ok (isMode_run _ _), if_neg (by rintro ⟨h1, h2⟩; rcases hd with h | h; exact h h1; rw [h] at h2; cases h2)]
  refine ⟨_, rfl, ⟨rfl, rfl, ?_⟩, rfl, rfl, by simp⟩
  intro r hr
  unfold St.univ at hr
  have : ({ cur := { s.cur with ip := s.cur.ip.stop }, rest := s.rest.map fun r => { r with ip := r.ip.stop },
            g := { s.g with exitcode := 1, running := false } } : St).cur.ip.stopped = true := rfl
  rw [if_pos this] at hr
  obtain ⟨q, _, rfl⟩ := List.mem_map.1 hr
  rfl

theorem tick_dies {s s1 : St} {e : Err} (hfuel : 0 < s.g.fuel) (h : execute s.g.fuel (s.g.field.get s.cur.ip.pos) s = .ok (e, s1)) (he : e.bad = true)
    (hh : s1.cur.handler = .fish) (hd : e ≠ .unimp ∨ hasMode s1.g.cfg.mode modeDive = false) :
    ∃ s', tick s = .ok ((), s') ∧ s'.univ.Dead ∧ s'.cur.ip.stopped = true ∧
      s'.g = { s1.g with exitcode := 1, running := false } ∧ s'.rest.length = s1.rest.length := by
  obtain ⟨k, hk⟩ : ∃ k, s.g.fuel = k + 1 := ⟨s.g.fuel - 1, by omega⟩
  obtain ⟨s2, h2, h3⟩ := handle_fish hh hd
  refine ⟨s2, ?_, h3⟩
  rw [tick, bind_ok (getFuel_run s), hk, tickLoop, bind_ok (ipGet_run s), bind_ok (getFuel_run s), bind_ok h]
  have ha : afterExec e s1 = .ok (e, s2) := by
    rw [← h2]; cases e <;> first | rfl | cases he
  rw [bind_ok ha]
  cases e <;> first | rfl | cases he

theorem dead_turns {u : Univ} (h : u.Dead) (n : Nat) : u.turns n = .ok ⟨u.runners.drop n, u.g⟩ := by
  induction n generalizing u with
  | zero => rfl
  | succ n ih =>
    obtain ⟨rs, g⟩ := u
    cases rs with
    | nil =>
      unfold Univ.turns
      rw [turn_nil]
      have := ih (u := ⟨[], g⟩) h
      simpa using this
    | cons r t =>
      unfold Univ.turns
      rw [turn_stopped (h.stopped r List.mem_cons_self)]
      exact ih (u := ⟨t, g⟩) ⟨h.code, h.running, fun x hx => h.stopped x (List.mem_cons_of_mem _ hx)⟩

/-- An instruction that reports an error ends the program. -/
theorem C45_error_is_fatal {u : Univ} (hf : u.Fishy) {r : Runner} {rest : List Runner} (hr : u.runners = r :: rest) (hns : r.ip.stopped = false)
    (hfuel : 0 < u.g.fuel) {e : Err} {s1 : St} (h : execute u.g.fuel (u.g.field.get r.ip.pos) ⟨r, rest, u.g⟩ = .ok (e, s1)) (he : e.bad = true)
    (hd : e ≠ .unimp ∨ hasMode s1.g.cfg.mode modeDive = false) (n : Nat) :
    ∃ u', u.turns (n + 1) = .ok u' ∧ u'.Dead ∧ u'.g = { s1.g with exitcode := 1, running := false } ∧ u'.runners.length = s1.rest.length - n := by
  obtain ⟨rs, g⟩ := u
  dsimp only at *
  subst hr
  have hs : StaysFishy ⟨r, rest, g⟩ s1 := keepsB_execute engineB_fishy fits_fishy _ _ _ _ _ h
  have hs1 := hs ⟨hf r List.mem_cons_self, fun x hx => hf x (List.mem_cons_of_mem _ hx)⟩
  obtain ⟨s2, h2, h3, h4, h5, h6⟩ := tick_dies (s := ⟨r, rest, g⟩) hfuel h he hs1.cur.handler hd
  refine ⟨⟨s2.univ.runners.drop n, s2.univ.g⟩, ?_, ⟨h3.code, h3.running, fun x hx => h3.stopped x (List.mem_of_mem_drop hx)⟩, h5, ?_⟩
  · unfold Univ.turns
    rw [turn_tick hns h2]
    exact dead_turns h3 n
  · have : s2.univ.runners = s2.rest := by unfold St.univ; rw [if_pos h4]
    rw [List.length_drop, this, h6]

/-- **C45.** In ><> and *><> an instruction that needs more values than the stack holds, or an unknown instruction, ends the whole program with
exit code 1: however many turns are taken afterwards, no instruction is executed any more, nothing that the IPs share changes, and the IPs are
removed one by one. -/
theorem C45_starved_program_dies_partial {u : Univ} (hf : u.Fishy) {r : Runner} {rest : List Runner} (hr : u.runners = r :: rest)
    (hns : r.ip.stopped = false) (hstr : r.inString = false) (hd : hasMode u.g.cfg.mode modeDive = false) (hfuel : 0 < u.g.fuel)
    (h : (⟨r, rest, u.g⟩ : St).Starved (u.g.field.get r.ip.pos)) (n : Nat) :
    ∃ u', u.turns (n + 1) = .ok u' ∧ u'.Dead ∧ u'.g = { u.g with exitcode := 1, running := false } ∧ u'.runners.length = rest.length - n := by
  obtain ⟨k, hk⟩ : ∃ k, u.g.fuel = k + 1 := ⟨u.g.fuel - 1, by omega⟩
  obtain ⟨e, s1, h1, h2, h3⟩ := starved_run (s := ⟨r, rest, u.g⟩) (hf r (hr ▸ List.mem_cons_self)) h hd (execute k)
  have hex : execute u.g.fuel (u.g.field.get r.ip.pos) ⟨r, rest, u.g⟩ = .ok (e, s1) := by
    rw [hk, execute, ← h1]
    simp [hstr]
  have := C45_error_is_fatal hf hr hns hfuel hex h2 (.inr (by rw [h3.g]; exact hd)) n
  rw [h3.g, h3.rest] at this
  exact this

/-- **C45**, for a program from its start: after any number of turns, if the next instruction is starved or unknown, the program is over. -/
theorem C45_program_partial {cfg : Cfg} (hc : cfg.standard = -1 ∨ cfg.standard = -2) (pos delta : Vec) (g : Glob) {k : Nat} {u : Univ}
    (hu : (⟨[newRunner cfg 0 pos delta], g⟩ : Univ).turns k = .ok u) {r : Runner} {rest : List Runner} (hr : u.runners = r :: rest)
    (hns : r.ip.stopped = false) (hstr : r.inString = false) (hd : hasMode u.g.cfg.mode modeDive = false) (hfuel : 0 < u.g.fuel)
    (h : (⟨r, rest, u.g⟩ : St).Starved (u.g.field.get r.ip.pos)) (n : Nat) :
    ∃ u', (⟨[newRunner cfg 0 pos delta], g⟩ : Univ).turns (k + (n + 1)) = .ok u' ∧ u'.Dead ∧ u'.g.eff = u.g.eff ∧ u'.g.field = u.g.field := by
  have hf : u.Fishy := turns_fishy hu (by
    intro x hx
    cases List.mem_singleton.1 hx
    exact fishy_newRunner hc 0 pos delta)
  obtain ⟨u', h1, h2, h3, _⟩ := C45_starved_program_dies_partial hf hr hns hstr hd hfuel h n
  exact ⟨u', by rw [turns_append k (n + 1) hu, h1], h2, by rw [h3], by rw [h3]⟩

/-- A program of ><>. For examples. -/
def fishProgram (cells : List Int) : St := machineWith { dims := 2, standard := -1 } [cells]

/-- A program of *><>. For examples. -/
def starProgram (rows : List (List Int)) : St := machineWith { dims := 2, standard := -2 } rows

/-- The first instruction of a program, `+`, finds an empty stack; `Z` is unknown; `]` finds one stack only; `2[` finds no value below the `2`. -/
example : (fishProgram [43]).Starved ((fishProgram [43]).g.field.get (fishProgram [43]).cur.ip.pos) := by
  have h : (fishProgram [43]).g.field.get (fishProgram [43]).cur.ip.pos = 43 := by decide +kernel
  rw [h]
  exact .few (by decide +kernel) (by decide +kernel) (by decide +kernel)
example : (fishProgram [90]).Starved 90 := .unknown (by decide +kernel)
example : (fishProgram [93]).Starved 93 := .remove rfl (by decide +kernel)
example : ((fishProgram [91]).setItems [2] 0).Starved 91 := .create (x := 2) (l := []) (k := 2) (by decide +kernel) rfl (by decide +kernel) rfl (by decide)
example : (⟨[(fishProgram [43]).cur], (fishProgram [43]).g⟩ : Univ).Fishy ∧ (fishProgram [43]).cur.ip.stopped = false ∧
    (fishProgram [43]).cur.inString = false ∧ hasMode (fishProgram [43]).g.cfg.mode modeDive = false ∧ 0 < (fishProgram [43]).g.fuel := by
  refine ⟨?_, by decide +kernel, by decide +kernel, by decide +kernel, by decide +kernel⟩
  intro x hx
  cases List.mem_singleton.1 hx
  exact fishy_newRunner (.inl rfl) 0 _ _

/-- What goes wrong in the first `n` ticks. -/
def ticksFault (s : St) (n : Nat) : Option Fault :=
  match ticks n s with
  | .ok _ => none
  | .error e => some e

/-- What is missing from C45: `{` and `}` on an empty stack, which ><> defines to do nothing, write outside of an array, and so does `R`
outside of a subroutine instead of ending the program. -/
theorem C45_undefined_for_shift_and_return :
    ticksFault (fishProgram [123, 59]) 1 = some .outOfRange ∧ ticksFault (fishProgram [125, 59]) 1 = some .outOfRange ∧
    ticksFault (starProgram [[82, 59]]) 1 = some .outOfRange := by decide +kernel

/-! ## C46 -/

/-- The same state, except for the registers. -/
def St.setRegs (s : St) (l : List (Bool × Int)) : St := { s with cur := { s.cur with regs := l } }

/-- `&` takes the top value from the stack and keeps it in the empty register of the current stack. -/
theorem C46_store_partial {s : St} (h : s.Lifo) {x v : Int} {l : List Int} (hi : s.items = x :: l) {w : Int} {t : List (Bool × Int)}
    (hr : s.cur.regs = (false, w) :: t) (hx : s.g.flt.toI64 x = some v) (ex : Int → Exec Err) :
    ∃ s', runOp ex .fRegister s = .ok (.none, s') ∧ (s.setRegs ((true, v) :: t)).Leaves s' l := by
  refine ⟨(s.setRegs ((true, v) :: t)).setItems l (s.top.ops + 1), ?_, _, rfl⟩
  show fiRegister s = _
  rw [fiRegister, bind_ok (get_run s), hr]
  show checkTop 1 _ s = _
  rw [checkTop_enough h.1 (by rw [hi]; simp)]
  have h1 : popTop s = .ok (x, s.setItems l (s.top.ops + 1)) := by
    have := popTop_run h s.items s.top.ops
    rw [setItems_self h, hi] at this
    exact this
  have h2 : fishPopInt s = .ok (v, s.setItems l (s.top.ops + 1)) := by
    rw [fishPopInt, bind_ok h1, fishInt]
    show (match s.g.flt.toI64 x with | some i => pure i | none => fault .overflow : Exec Int) _ = _
    rw [hx]; rfl
  rw [bind_ok h2]; rfl

/-- **C46 does not hold.** With a value in the register, `&` empties the register and pushes nothing: whatever the value was, it is lost. -/
theorem C46_false_value_is_lost {s : St} {v : Int} {t : List (Bool × Int)} (hr : s.cur.regs = (true, v) :: t) (ex : Int → Exec Err) :
    runOp ex .fRegister s = .ok (.none, s.setRegs ((false, 0) :: t)) := by
  show fiRegister s = _
  rw [fiRegister, bind_ok (get_run s), hr]; rfl

/-- `5&&n` should print 5; it ends with exit code 1 and no output. -/
theorem C46_false_for_a_program : (match ticks 4 (fishProgram [53, 38, 38, 110, 59]) with
    | .ok (_, s) => some (s.g.exitcode, s.g.eff)
    | .error _ => none) = some (1, []) := by decide +kernel

example : (fishProgram []).Lifo ∧ (fishProgram []).cur.regs = [(false, 0)] ∧ (fishProgram []).g.flt.toI64 5 = some 5 := by decide +kernel

/-! ## C47 -/

theorem moveN_up (s : St) {m m' : Nat} (h : hasMode m modeInvert = false) (h' : hasMode m' modeQueue = false) (k : Nat) (a b n n' R) (hk : k ≤ b.length) :
    moveN popSecond pushTop k (s.setStacks (⟨m, a, n⟩ :: ⟨m', b, n'⟩ :: R)) =
      .ok ((), s.setStacks (⟨m, (b.take k).reverse ++ a, n + k⟩ :: ⟨m', b.drop k, n' + k⟩ :: R)) := by
  induction k generalizing a b n n' with
  | zero => rfl
  | succ k ih =>
    obtain ⟨x, t, rfl⟩ : ∃ x t, b = x :: t := by cases b with | nil => simp at hk | cons x t => exact ⟨x, t, rfl⟩
    rw [moveN, bind_ok (popSecond_stacks s h' _ _ _ _), bind_ok (pushTop_stacks s h _ _ _ _)]
    dsimp only [List.headD_cons, List.tail_cons]
    rw [ih _ _ _ _ (by simpa using hk)]
    simp [Nat.add_comm, Nat.add_left_comm]

theorem moveN_down (s : St) {m m' : Nat} (h : hasMode m modeQueue = false) (h' : hasMode m' modeInvert = false) (a b n n' R) :
    moveN popTop pushSecond a.length (s.setStacks (⟨m, a, n⟩ :: ⟨m', b, n'⟩ :: R)) =
      .ok ((), s.setStacks (⟨m, [], n + a.length⟩ :: ⟨m', a.reverse ++ b, n' + a.length⟩ :: R)) := by
  induction a generalizing b n n' with
  | nil => rfl
  | cons x t ih =>
    rw [List.length_cons, moveN, bind_ok (popTop_cons s h _ _ _ _), bind_ok (pushSecond_stacks s h' _ _ _ _ _), ih]
    simp [Nat.add_comm, Nat.add_left_comm]

theorem plain_new (l : List Int) (n : Nat) : Stack.Plain ⟨0, l, n⟩ := by
  constructor <;> (show hasMode 0 _ = false; decide)

/-- The same state, but for the stacks of the current IP, of which the topmost is selected, and their registers. -/
def St.setFish (s : St) (l : List Stack) (regs : List (Bool × Int)) : St := (s.setRegs regs).setStacks l

/-- **C47.** `x[` moves the top `x` values to a new stack (which thus holds them in opposite order); the new stack has an empty register. -/
theorem C47_create {s : St} {m n : Nat} {x : Int} {l : List Int} {R : List Stack} (hs : s.cur.ss = ⟨0, ⟨m, x :: l, n⟩ :: R⟩)
    (hp : Stack.Plain ⟨m, x :: l, n⟩) {k : Nat} (hx : s.g.flt.toI64 x = some (k : Int)) (hk : k ≤ l.length) (ex : Int → Exec Err) :
    ∃ a b, runOp ex .fCreateStack s =
      .ok (.none, s.setFish (⟨0, (l.take k).reverse, a⟩ :: ⟨m, l.drop k, b⟩ :: R) ((false, 0) :: s.cur.regs)) := by
  have e : s = s.setStacks (⟨m, x :: l, n⟩ :: R) := by
    have := setStacks_self (s := s) (by rw [hs])
    rw [hs] at this; exact this.symm
  refine ⟨0 + k, n + 1 + k, ?_⟩
  show fiCreateStack s = _
  rw [fiCreateStack, checkTop_enough (by rw [hs]; simp) (by simp [St.items, St.top, hs])]
  have h1 : fishPopSize s = .ok (k, s.setStacks (⟨m, l, n + 1⟩ :: R)) := by
    have h2 : popTop s = .ok (x, s.setStacks (⟨m, l, n + 1⟩ :: R)) := by
      conv => lhs; rw [e]
      exact popTop_cons s hp.1 x l n R
    rw [fishPopSize, fishPopInt]
    show (popTop >>= _ >>= _) s = _
    have h3 : (popTop >>= fishInt) s = .ok ((k : Int), s.setStacks (⟨m, l, n + 1⟩ :: R)) := by
      rw [bind_ok h2, fishInt]
      show (match s.g.flt.toI64 x with | some i => pure i | none => fault .overflow : Exec Int) _ = _
      rw [hx]; rfl
    rw [bind_ok h3, if_neg (by omega)]
    show Except.ok (Int.toNat k, _) = _
    rw [Int.toNat_natCast]
  have h4 : onStacks (·.insert 0) (s.setStacks (⟨m, l, n + 1⟩ :: R)) = .ok ((), s.setStacks (⟨0, [], 0⟩ :: ⟨m, l, n + 1⟩ :: R)) := rfl
  rw [bind_ok h1, bind_ok h4, checkSecond_enough (B := ⟨m, l, n + 1⟩) rfl hk, bind_ok (moveN_up s (by decide) hp.1 k [] l 0 (n + 1) R hk)]
  rw [List.append_nil]
  rfl

/-- What `x[` has done when it has taken `x`: the topmost stack is without it, and whether it could be taken depends on the conversion to `size_t`. -/
theorem fishPopSize_run {s : St} {m n : Nat} {x : Int} {l : List Int} {R : List Stack} (hs : s.cur.ss = ⟨0, ⟨m, x :: l, n⟩ :: R⟩)
    (hp : Stack.Plain ⟨m, x :: l, n⟩) {v : Int} (hx : s.g.flt.toI64 x = some v) :
    fishPopSize s = if v < 0 then .error .overflow else .ok (v.toNat, s.setStacks (⟨m, l, n + 1⟩ :: R)) := by
  have e : s = s.setStacks (⟨m, x :: l, n⟩ :: R) := by
    have := setStacks_self (s := s) (by rw [hs])
    rw [hs] at this; exact this.symm
  have h2 : popTop s = .ok (x, s.setStacks (⟨m, l, n + 1⟩ :: R)) := by
    conv => lhs; rw [e]
    exact popTop_cons s hp.1 x l n R
  have h3 : (popTop >>= fishInt) s = .ok (v, s.setStacks (⟨m, l, n + 1⟩ :: R)) := by
    rw [bind_ok h2, fishInt]
    show (match s.g.flt.toI64 x with | some i => pure i | none => fault .overflow : Exec Int) _ = _
    rw [hx]; rfl
  rw [fishPopSize, fishPopInt]
  show (popTop >>= _ >>= _) s = _
  rw [bind_ok h3]
  split <;> rfl

/-- **C47.** An `x` greater than the number of values below it is an error, which kills the fish (C45_error_is_fatal): nothing is moved, the
values are all where they were, and the only trace is the empty stack that was to take them. -/
theorem C47_too_many {s : St} {m n : Nat} {x : Int} {l : List Int} {R : List Stack} (hs : s.cur.ss = ⟨0, ⟨m, x :: l, n⟩ :: R⟩)
    (hp : Stack.Plain ⟨m, x :: l, n⟩) {k : Nat} (hx : s.g.flt.toI64 x = some (k : Int)) (hk : l.length < k) (ex : Int → Exec Err) :
    ∃ e b, runOp ex .fCreateStack s = .ok (e, s.setFish (⟨0, [], 0⟩ :: ⟨m, l, b⟩ :: R) s.cur.regs) ∧ e.bad = true := by
  refine ⟨.unspec, n + 1, ?_, rfl⟩
  show fiCreateStack s = _
  have h1 := fishPopSize_run hs hp hx
  rw [if_neg (by omega), Int.toNat_natCast] at h1
  have h4 : onStacks (·.insert 0) (s.setStacks (⟨m, l, n + 1⟩ :: R)) = .ok ((), s.setStacks (⟨0, [], 0⟩ :: ⟨m, l, n + 1⟩ :: R)) := rfl
  rw [fiCreateStack, checkTop_enough (by rw [hs]; simp) (by simp [St.items, St.top, hs]), bind_ok h1, bind_ok h4,
    checkSecond_short (B := ⟨m, l, n + 1⟩) rfl hk]
  rfl

/-- For a negative `x` the conversion to `size_t` is undefined, whatever else is on the stack. -/
theorem C47_undefined_negative {s : St} {m n : Nat} {x : Int} {l : List Int} {R : List Stack} (hs : s.cur.ss = ⟨0, ⟨m, x :: l, n⟩ :: R⟩)
    (hp : Stack.Plain ⟨m, x :: l, n⟩) {v : Int} (hx : s.g.flt.toI64 x = some v) (hv : v < 0) (ex : Int → Exec Err) :
    runOp ex .fCreateStack s = .error .overflow := by
  show fiCreateStack s = _
  have h1 := fishPopSize_run hs hp hx
  rw [if_pos hv] at h1
  rw [fiCreateStack, checkTop_enough (by rw [hs]; simp) (by simp [St.items, St.top, hs]), bind_error h1]

/-- `129[` dies with exit code 1; `01-[` is undefined. -/
example : (match ticks 4 (fishProgram [49, 50, 57, 91, 59]) with
    | .ok (_, s) => some (s.g.exitcode, s.cur.ss.stacks.map Stack.items)
    | .error _ => none) = some (1, [[], [2, 1]]) ∧ ticksFault (fishProgram [48, 49, 45, 91, 59]) 4 = some .overflow := by decide +kernel

/-- **C47.** `]` moves all values of the topmost stack to the one below, and drops it together with its register. -/
theorem C47_remove {s : St} {m n m' n' : Nat} {a b : List Int} {R : List Stack} (hs : s.cur.ss = ⟨0, ⟨m, a, n⟩ :: ⟨m', b, n'⟩ :: R⟩)
    (hp : Stack.Plain ⟨m, a, n⟩) (hp' : Stack.Plain ⟨m', b, n'⟩) {q : Bool × Int} {t : List (Bool × Int)} (hr : s.cur.regs = q :: t) (ex : Int → Exec Err) :
    ∃ c, runOp ex .fRemoveStack s = .ok (.none, s.setFish (⟨m', a.reverse ++ b, c⟩ :: R) t) := by
  have e : s = s.setStacks (⟨m, a, n⟩ :: ⟨m', b, n'⟩ :: R) := by
    have := setStacks_self (s := s) (by rw [hs])
    rw [hs] at this; exact this.symm
  refine ⟨n' + a.length, ?_⟩
  show fiRemoveStack s = _
  unfold fiRemoveStack checkSelected
  rw [bind_ok (numStacks_run s)]
  unfold StackStack.size
  rw [hs, if_neg (by simp), bind_ok (numStacks_run s)]
  unfold StackStack.size
  rw [hs, if_neg (by simp)]
  have h1 : sizeTop s = .ok (a.length, s) := by
    have := sizeTop_self (s := s) (by rw [hs]; simp)
    rw [this]; simp [St.items, St.top, hs]
  rw [bind_ok h1]
  have h2 : moveN popTop pushSecond a.length s = .ok ((), s.setStacks (⟨m, [], n + a.length⟩ :: ⟨m', a.reverse ++ b, n' + a.length⟩ :: R)) := by
    conv => lhs; rw [e]
    exact moveN_down s hp.1 hp'.2 a b n n' R
  have h3 : onStacks StackStack.pop (s.setStacks (⟨m, [], n + a.length⟩ :: ⟨m', a.reverse ++ b, n' + a.length⟩ :: R)) =
    .ok ((), s.setStacks (⟨m', a.reverse ++ b, n' + a.length⟩ :: R)) := rfl
  rw [bind_ok h2, bind_ok h3, bind_ok (get_run _)]
  show (match s.cur.regs with
    | [] => fault .outOfRange
    | _ :: t => do
      modCur fun r => { r with regs := t }
      pure .none : Exec Err) _ = _
  rw [hr]; rfl

/-- **C47.** `x[` and then `]` leaves the stack as it was before the `x` was pushed, and the registers as well. -/
theorem C47_restores {s : St} {m n : Nat} {x : Int} {l : List Int} {R : List Stack} (hs : s.cur.ss = ⟨0, ⟨m, x :: l, n⟩ :: R⟩)
    (hp : Stack.Plain ⟨m, x :: l, n⟩) {k : Nat} (hx : s.g.flt.toI64 x = some (k : Int)) (hk : k ≤ l.length) (ex : Int → Exec Err) :
    ∃ s' c, runOp ex .fCreateStack s = .ok (.none, s') ∧ runOp ex .fRemoveStack s' = .ok (.none, s.setFish (⟨m, l, c⟩ :: R) s.cur.regs) := by
  obtain ⟨a, b, h1⟩ := C47_create hs hp hx hk ex
  have hpp : Stack.Plain ⟨m, l.drop k, b⟩ := hp
  obtain ⟨c, h2⟩ := C47_remove (s := s.setFish (⟨0, (l.take k).reverse, a⟩ :: ⟨m, l.drop k, b⟩ :: R) ((false, 0) :: s.cur.regs)) rfl (plain_new _ _) hpp rfl ex
  refine ⟨_, c, h1, ?_⟩
  rw [h2, List.reverse_reverse, List.take_append_drop]; rfl

/-- `1232[` and `1232[]`. -/
example : (match ticks 5 (fishProgram [49, 50, 51, 50, 91, 93]) with
    | .ok (_, s) => some (s.cur.ss.stacks.map Stack.items)
    | .error _ => none) = some [[2, 3], [1]] ∧ stackAfter (fishProgram [49, 50, 51, 50, 91, 93]) 6 = some [3, 2, 1] := by decide +kernel
example : Stack.Plain ⟨0, [2, 3, 2, 1], 0⟩ ∧ (fishProgram []).g.flt.toI64 2 = some ((2 : Nat) : Int) := by decide +kernel

/-! ## C48 -/

theorem fishInt_run {s : St} {x v : Int} (h : s.g.flt.toI64 x = some v) : fishInt x s = .ok (v, s) := by
  rw [fishInt]
  show (match s.g.flt.toI64 x with | some i => pure i | none => fault .overflow : Exec Int) _ = _
  rw [h]; rfl

theorem fishPops {pop : Exec Int} {X : List Int → Nat → St} (h : Pops pop X) {fl : FloatOps} (hfl : ∀ l n, (X l n).g.flt = fl) (vals : List Int)
    (hv : ∀ x ∈ vals, fl.toI64 (fl.ofInt x) = some x) (v : Vec) (l n) :
    ∃ w : Vec, popVectorLoop (do
        let x ← pop
        fishInt x) vals.length v (X (vals.map fl.ofInt ++ l) n) = .ok (w, X l (n + vals.length)) ∧
      ∀ i, w.get i = if i < vals.length then vals.getD (vals.length - 1 - i) 0 else v.get i := by
  induction vals generalizing v n with
  | nil => exact ⟨v, rfl, fun i => by simp⟩
  | cons x t ih =>
    obtain ⟨w, h1, h2⟩ := ih (fun y hy => hv y (List.mem_cons_of_mem _ hy)) (v.set t.length x) (n + 1)
    refine ⟨w, ?_, ?_⟩
    · have h3 : (do
          let x ← pop
          fishInt x : Exec Int) (X ((x :: t).map fl.ofInt ++ l) n) = .ok (x, X (t.map fl.ofInt ++ l) (n + 1)) := by
        show (pop >>= fishInt) _ = _
        rw [bind_ok (h _ _)]
        exact fishInt_run (by rw [hfl]; exact hv x List.mem_cons_self)
      rw [List.length_cons, popVectorLoop, bind_ok h3, h1]
      simp [Nat.add_comm, Nat.add_left_comm]
    · intro i
      rw [h2, Vec.get_set]
      simp only [List.length_cons]
      by_cases h1 : i < t.length
      · rw [if_pos h1, if_pos (by omega)]
        have : t.length + 1 - 1 - i = (t.length - 1 - i) + 1 := by omega
        rw [this]
        simp
      · by_cases h2 : i = t.length
        · subst h2; simp
        · rw [if_neg h1, if_neg h2, if_neg (by omega)]

/-- The position `p` as it lies on a stack of a *><> program, last coordinate on top. -/
def fishCoords (fl : FloatOps) (d : Nat) (p : Vec) : List Int := ((List.range d).map p.get).reverse.map fl.ofInt

theorem fishPopVec {pop : Exec Int} {X : List Int → Nat → St} (h : Pops pop X) {fl : FloatOps} (hfl : ∀ l n, (X l n).g.flt = fl) {d : Nat}
    (hd : ∀ l n, (X l n).g.cfg.dims = d) (p : Vec) (hv : ∀ i < d, fl.toI64 (fl.ofInt (p.get i)) = some (p.get i)) (l n) :
    ∃ w : Vec, fishPopVectorOn pop (X (fishCoords fl d p ++ l) n) = .ok (w, X l (n + d)) ∧ ∀ i, w.get i = if i < d then p.get i else 0 := by
  obtain ⟨w, h1, h2⟩ := fishPops h hfl ((List.range d).map p.get).reverse (by
    intro x hx
    obtain ⟨i, hi, rfl⟩ := List.mem_map.1 (List.mem_reverse.1 hx)
    exact hv i (List.mem_range.1 hi)) Vec.empty l n
  have hlen : ((List.range d).map p.get).reverse.length = d := by simp
  rw [hlen] at h1 h2
  refine ⟨w, ?_, ?_⟩
  · rw [fishPopVectorOn, popVectorOn, bind_ok (getDims_run _), hd]; exact h1
  · intro i
    rw [h2]
    split
    · rename_i hi
      rw [List.getD_eq_getElem?_getD, List.getElem?_reverse (by simp; omega)]
      simp only [List.length_map, List.length_range]
      have : d - 1 - (d - 1 - i) = i := by omega
      rw [this]; simp [hi]
    · rfl

/-- `C` jumps to the coordinates on top of the stack and puts its own position on a new stack below; the data stack keeps its other values. -/
theorem C48_call_partial {s : St} {m n : Nat} {l : List Int} {R : List Stack} {v : Vec}
    (hs : s.cur.ss = ⟨0, ⟨m, fishCoords s.g.flt s.g.cfg.dims v ++ l, n⟩ :: R⟩) (hp : Stack.Plain ⟨m, [], 0⟩)
    (hv : ∀ i < s.g.cfg.dims, s.g.flt.toI64 (s.g.flt.ofInt (v.get i)) = some (v.get i)) (ex : Int → Exec Err) :
    ∃ w a b, runOp ex .sCall s =
        .ok (.none, (s.setIP (s.cur.ip.setPos w)).setStacks (⟨m, l, a⟩ :: ⟨0, fishCoords s.g.flt s.g.cfg.dims s.cur.ip.pos, b⟩ :: R)) ∧
      ∀ i, w.get i = if i < s.g.cfg.dims then v.get i else 0 := by
  have e : s = s.setStacks (⟨m, fishCoords s.g.flt s.g.cfg.dims v ++ l, n⟩ :: R) := by
    have := setStacks_self (s := s) (by rw [hs])
    rw [hs] at this; exact this.symm
  generalize hd : s.g.cfg.dims = d at *
  generalize hfl : s.g.flt = fl at *
  have h1 : onStacks (·.insert 1) s = .ok ((), s.setStacks (⟨m, fishCoords fl d v ++ l, n⟩ :: ⟨0, [], 0⟩ :: R)) := by
    conv => lhs; rw [e]
    rfl
  have h2 : fishPushVectorOn pushSecond s.cur.ip.pos (s.setStacks (⟨m, fishCoords fl d v ++ l, n⟩ :: ⟨0, [], 0⟩ :: R)) =
      .ok ((), s.setStacks (⟨m, fishCoords fl d v ++ l, n⟩ :: ⟨0, fishCoords fl d s.cur.ip.pos, d⟩ :: R)) := by
    have hpush : ∀ (xs : List Int) (a k), pushAll (fun x => pushSecond (fl.ofInt x)) xs (s.setStacks (⟨m, fishCoords fl d v ++ l, n⟩ :: ⟨0, a, k⟩ :: R)) =
        .ok ((), s.setStacks (⟨m, fishCoords fl d v ++ l, n⟩ :: ⟨0, xs.reverse.map fl.ofInt ++ a, k + xs.length⟩ :: R)) := by
      intro xs
      induction xs with
      | nil => intro a k; rfl
      | cons x t ih =>
        intro a k
        rw [pushAll, bind_ok (pushSecond_stacks s (by decide) _ _ _ _ _), ih]
        simp [Nat.add_comm, Nat.add_left_comm]
    rw [fishPushVectorOn]
    show pushVectorOn (fun x => pushSecond (s.g.flt.ofInt x)) _ _ = _
    rw [pushVectorOn, bind_ok (getDims_run _)]
    rw [setStacks_g, hd, hfl, hpush]
    simp [fishCoords]
  have hpops : Pops popTop (fun l n => s.setStacks (⟨m, l, n⟩ :: ⟨0, fishCoords fl d s.cur.ip.pos, d⟩ :: R)) :=
    fun l n => popTop_stacks s hp.1 l n _
  obtain ⟨w, h3, h4⟩ := fishPopVec hpops (fun _ _ => hfl) (fun _ _ => hd) v hv l n
  refine ⟨w, n + d, d, ?_, h4⟩
  show siCall s = _
  rw [siCall, bind_ok h1, bind_ok (ipPos_run _), setStacks_ip, bind_ok h2, bind_ok (getDims_run _)]
  rw [setStacks_g, hd, checkTop_enough (by simp) (by simp [St.items, St.top, fishCoords]), bind_ok h3, bind_ok (onIP_stacks _ _ _)]
  rfl

/-- **C48 does not hold.** `R` sends the IP back to the position of the calling `C` (which the tick then moves on from), but of the two stacks it
removes the data stack, whatever the subroutine left on it, and keeps the one the position was on. -/
theorem C48_false_data_is_lost {s : St} {A : Stack} {m n : Nat} {l : List Int} {R : List Stack} {p : Vec}
    (hs : s.cur.ss = ⟨0, A :: ⟨m, fishCoords s.g.flt s.g.cfg.dims p ++ l, n⟩ :: R⟩) (hp : Stack.Plain ⟨m, [], 0⟩)
    (hv : ∀ i < s.g.cfg.dims, s.g.flt.toI64 (s.g.flt.ofInt (p.get i)) = some (p.get i)) (ex : Int → Exec Err) :
    ∃ w a, runOp ex .sReturn s = .ok (.none, (s.setIP (s.cur.ip.setPos w)).setStacks (⟨m, l, a⟩ :: R)) ∧
      ∀ i, w.get i = if i < s.g.cfg.dims then p.get i else 0 := by
  have e : s = s.setStacks (A :: ⟨m, fishCoords s.g.flt s.g.cfg.dims p ++ l, n⟩ :: R) := by
    have := setStacks_self (s := s) (by rw [hs])
    rw [hs] at this; exact this.symm
  generalize hd : s.g.cfg.dims = d at *
  generalize hfl : s.g.flt = fl at *
  have hpops : Pops popSecond (fun l n => s.setStacks (A :: ⟨m, l, n⟩ :: R)) := fun l n => popSecond_stacks s hp.1 A l n R
  obtain ⟨w, h3, h4⟩ := fishPopVec hpops (fun _ _ => hfl) (fun _ _ => hd) p hv l n
  refine ⟨w, n + d, ?_, h4⟩
  have h5 : fishPopVectorOn popSecond s = .ok (w, s.setStacks (A :: ⟨m, l, n + d⟩ :: R)) := by
    conv => lhs; rw [e]
    exact h3
  show siReturn s = _
  rw [siReturn, bind_ok (getDims_run _), hd]
  rw [checkSecond_enough (B := ⟨m, fishCoords fl d p ++ l, n⟩) (by rw [hs]; rfl) (by simp [fishCoords]), bind_ok h5, bind_ok (onIP_stacks _ _ _)]
  rfl

/-- `701Cn;` with the subroutine `R` on the second line should print 7; it ends with exit code 1 and no output. -/
theorem C48_false_for_a_program : (match ticks 6 (starProgram [[55, 48, 49, 67, 110, 59], [82]]) with
    | .ok (_, s) => some (s.g.exitcode, s.g.eff)
    | .error _ => none) = some (1, []) := by decide +kernel

/-- When the `C` of that program is reached. -/
example : (match ticks 3 (starProgram [[55, 48, 49, 67, 110, 59], [82]]) with
    | .ok (_, s) => s.cur.ss.stacks.map Stack.items == [fishCoords s.g.flt s.g.cfg.dims (Vec.ofList [0, 1]) ++ [7]] && s.cur.ss.select == 0 &&
        (List.range s.g.cfg.dims).all fun i => s.g.flt.toI64 (s.g.flt.ofInt ((Vec.ofList [0, 1]).get i)) == some ((Vec.ofList [0, 1]).get i)
    | .error _ => false) = true := by decide +kernel

/-! ## C49

### Specification -/

/-- The movement instructions: `> < ^ v`, the mirrors `\ / | _ #`, the fisherman `` ` ``, and `u` and `O`. -/
def isMovement (c : Int) : Bool := c ∈ [62, 60, 94, 118, 92, 47, 124, 95, 35, 96, 117, 79]

/-- What an IP has: its stacks, registers and file. -/
def Runner.data (r : Runner) : Nat × List (List Int) × List (Bool × Int) × Option (List Int) × List Int :=
  (r.ss.select, r.ss.stacks.map Stack.items, r.regs, r.file, r.filepath)

/-- Nothing has happened but that the current IP moved or turned, and that the program may have dived or risen. -/
structure Calm (s s' : St) : Prop where
  /-- Program, output, input, exit code and everything else the IPs share. -/
  shared : s'.g = { s.g with cfg := { s.g.cfg with mode := s'.g.cfg.mode } }
  own : s'.cur.data = s.cur.data
  others : s'.rest.map (fun r => (r.data, r.ip)) = s.rest.map (fun r => (r.data, r.ip))
  running : s'.cur.ip.stopped = s.cur.ip.stopped
  str : s'.cur.inString = s.cur.inString
  handler : s'.cur.handler = s.cur.handler
  table : s'.cur.sems = s.cur.sems
  strats : s'.cur.strats = s.cur.strats
  loaded : s'.cur.loaded = s.cur.loaded

theorem Calm.refl (s : St) : Calm s s := ⟨rfl, rfl, rfl, rfl, rfl, rfl, rfl, rfl, rfl⟩
theorem Calm.trans {s t u : St} (h : Calm s t) (h' : Calm t u) : Calm s u where
  shared := by rw [h'.shared, h.shared]
  own := h'.own.trans h.own
  others := h'.others.trans h.others
  running := h'.running.trans h.running
  str := h'.str.trans h.str
  handler := h'.handler.trans h.handler
  table := h'.table.trans h.table
  strats := h'.strats.trans h.strats
  loaded := h'.loaded.trans h.loaded

theorem Calm.fishy {s s' : St} (h : Calm s s') (hf : s.cur.Fishy) : s'.cur.Fishy := hf.same h.handler h.loaded h.strats h.table

theorem notifyDelta_data (r : Runner) : (notifyDelta r).data = r.data := by
  unfold notifyDelta; dsimp only; split <;> rfl

theorem calm_setDelta (v : Vec) : Keeps Calm (setDelta v) := by
  intro s a s' h
  cases h
  refine ⟨rfl, ?_, rfl, ?_, ?_, ?_, ?_, ?_, ?_⟩
  · exact notifyDelta_data _
  · show (notifyDelta _).ip.stopped = _
    rw [notifyDelta_ip]; unfold IP.setDelta; split <;> rfl
  · exact notifyDelta_inString _
  · exact notifyDelta_handler _
  · exact notifyDelta_sems _
  · exact (notifyDelta_core _).strats
  · exact (notifyDelta_core _).loaded

theorem setMode_items (ss : StackStack) (m : Nat) : (ss.setMode m).stacks.map Stack.items = ss.stacks.map Stack.items := by
  simp [StackStack.setMode, Stack.setMode]

theorem calm_setModeWord (m : Nat) : Keeps Calm (setModeWord m) := by
  intro s a s' h
  cases h
  refine ⟨rfl, ?_, ?_, rfl, rfl, rfl, rfl, rfl, rfl⟩
  · simp only [Runner.data, setMode_items]; rfl
  · rw [List.map_map]
    apply List.map_congr_left
    intro r _
    simp only [Function.comp, Runner.data, setMode_items]; rfl

theorem calm_bind {α β : Type} {m : Exec α} {f : α → Exec β} (hm : Keeps Calm m) (hf : ∀ a, Keeps Calm (f a)) : Keeps Calm (m >>= f) := by
  intro s b s' h
  obtain ⟨a, s1, h1, h2⟩ := bind_inv h
  exact (hm _ _ _ h1).trans (hf _ _ _ _ h2)

theorem calm_pure {α : Type} (a : α) : Keeps Calm (pure a : Exec α) := by intro s b s' h; cases h; exact .refl s
theorem calm_ipDelta : Keeps Calm ipDelta := by intro s b s' h; cases h; exact .refl s
theorem calm_get : Keeps Calm Exec.get := by intro s b s' h; cases h; exact .refl s
theorem calm_ipNext : Keeps Calm ipNext := by
  intro s b s' h
  unfold ipNext at h
  split at h
  · cases h
  · rename_i ip hip
    cases h
    exact ⟨rfl, rfl, rfl, next_stopped hip, rfl, rfl, rfl, rfl, rfl⟩

/-- The functions behind the movement instructions. -/
def Op.turnsOnly : Op → Bool
  | .fRight | .fLeft | .fDown | .fUp | .fMirror1 | .fMirror2 | .fMirrorVert | .fMirrorHori | .fMirrorAll | .sFisherman | .sDive | .sRise => true
  | _ => false

theorem calm_runOp (ex : Int → Exec Err) {op : Op} (h : op.turnsOnly = true) : Keeps Calm (runOp ex op) := by
  have go : ∀ v, Keeps Calm (iGo v) := fun v => calm_bind (calm_setDelta v) fun _ => calm_pure _
  have mir : ∀ f : Vec → Vec, Keeps Calm (do
      let v ← ipDelta
      setDelta (f v)
      pure Err.none) := fun f => calm_bind calm_ipDelta fun _ => calm_bind (calm_setDelta _) fun _ => calm_pure _
  cases op <;> first | cases h; done | skip
  case fRight => exact go _
  case fLeft => exact go _
  case fDown => exact go _
  case fUp => exact go _
  case fMirror1 => exact mir _
  case fMirror2 => exact mir _
  case fMirrorVert => exact mir _
  case fMirrorHori => exact mir _
  case fMirrorAll => exact mir _
  case sDive => exact calm_bind (fun s => calm_setModeWord _ s) fun _ => calm_pure _
  case sRise => exact calm_bind (fun s => calm_setModeWord _ s) fun _ => calm_pure _
  case sFisherman =>
    have star : ∀ b, Keeps Calm (modCur fun r => { r with starUp := b }) := by
      intro b s a s' h
      cases h
      exact ⟨rfl, rfl, rfl, rfl, rfl, rfl, rfl, rfl, rfl⟩
    show Keeps Calm siFisherman
    unfold siFisherman
    refine calm_bind calm_ipDelta fun v => calm_bind calm_get fun s => ?_
    split
    · split
      · exact calm_bind (calm_setDelta _) fun _ => calm_bind (star _) fun _ => calm_pure _
      · exact calm_bind (calm_setDelta _) fun _ => calm_bind (star _) fun _ => calm_pure _
    · exact calm_bind (calm_setDelta _) fun _ => calm_pure _

theorem fishy_movement {r : Runner} (h : r.Fishy) {c : Int} {sem : Sem} (hs : r.getSem c = some sem) :
    (isMovement c = false → sem.movement = false) ∧ (sem.movement = true → sem.op.turnsOnly = true) := by
  obtain ⟨_, _, st, hst, _, hsem⟩ := h
  have hm := getSem_mem hs
  rw [hsem] at hm
  have hall : ∀ p ∈ Strat.starfish.table, (isMovement p.1 = false → p.2.movement = false) ∧ (p.2.movement = true → p.2.op.turnsOnly = true) := by decide
  have hm' := mem_table hm
  rcases hst with rfl | rfl
  · exact hall _ (List.mem_append_left _ hm')
  · exact hall _ hm'

/-- **C49.** While dived, an instruction that is not a movement instruction is skipped: executing it changes nothing at all. -/
theorem C49_skipped {s : St} (hf : s.cur.Fishy) (hd : hasMode s.g.cfg.mode modeDive = true) (hstr : s.cur.inString = false) {c : Int}
    (hc : isMovement c = false) (hk : s.cur.getSem c ≠ none) (n : Nat) : execute (n + 1) c s = .ok (.skip, s) := by
  rw [execute]
  simp only [hstr]
  show execNormal _ c s = _
  unfold execNormal
  cases h : s.cur.getSem c with
  | none => exact absurd h hk
  | some sem =>
    have := (fishy_movement hf h).1 hc
    simp [hd, this]

/-- **C49.** While dived, an unknown instruction is no error either. -/
theorem C49_unknown_ignored {s : St} (hf : s.cur.Fishy) (hd : hasMode s.g.cfg.mode modeDive = true) (hstr : s.cur.inString = false) {c : Int}
    (hk : s.cur.getSem c = none) (n : Nat) : (do
      let e ← execute (n + 1) c
      afterExec e) s = .ok (.none, s) := by
  have h : execute (n + 1) c s = .ok (.unimp, s) := by
    rw [execute]
    simp only [hstr]
    show execNormal _ c s = _
    unfold execNormal
    rw [hk]
  rw [bind_ok h]
  show handle .unimp s = _
  rw [handle, bind_ok (get_run s), hf.handler]
  show (isMode modeDive >>= _) s = _
  rw [bind_ok (isMode_run _ _), if_pos ⟨rfl, hd⟩]; rfl

theorem calm_step {s s' : St} {e : Err} (hf : s.cur.Fishy) (hd : hasMode s.g.cfg.mode modeDive = true) (hstr : s.cur.inString = false) {n : Nat} {c : Int}
    (h : (do
      let e ← execute n c
      afterExec e) s = .ok (e, s')) : Calm s s' ∧ (e = .skip → s' = s) := by
  cases n with
  | zero =>
    obtain ⟨_, _, h1, _⟩ := bind_inv h
    cases h1
  | succ n =>
    cases hk : s.cur.getSem c with
    | none => rw [C49_unknown_ignored hf hd hstr hk] at h; cases h; exact ⟨.refl s, fun _ => rfl⟩
    | some sem =>
      cases hm : sem.movement with
      | false =>
        have h1 : execute (n + 1) c s = .ok (.skip, s) := by
          rw [execute]
          simp only [hstr]
          show execNormal _ c s = _
          unfold execNormal
          simp [hk, hd, hm]
        rw [bind_ok h1] at h
        cases h; exact ⟨.refl s, fun _ => rfl⟩
      | true =>
        have ht := (fishy_movement hf hk).2 hm
        obtain ⟨e1, s1, h1, h2⟩ := bind_inv h
        have h3 : runOp (execute n) sem.op s = .ok (e1, s1) := by
          rw [← h1, execute]
          simp only [hstr]
          show _ = execNormal _ c s
          unfold execNormal
          simp [hk, hm]
        have hc := calm_runOp _ ht _ _ _ h3
        have he : e1 = .none := by
          cases hop : sem.op <;> rw [hop] at ht h3 <;> first | cases ht; done | skip
          all_goals first
            | (cases h3; rfl)
            | (have h4 : siFisherman s = .ok (e1, s1) := h3
               unfold siFisherman at h4
               obtain ⟨v, s2, h5, h4⟩ := bind_inv h4
               obtain ⟨t, s3, h6, h4⟩ := bind_inv h4
               split at h4
               · split at h4 <;> (obtain ⟨_, _, _, h4⟩ := bind_inv h4; obtain ⟨_, _, _, h4⟩ := bind_inv h4; cases h4; rfl)
               · obtain ⟨_, _, _, h4⟩ := bind_inv h4
                 cases h4; rfl)
        subst he
        cases h2
        exact ⟨hc, nofun⟩

theorem calm_tickLoop (n : Nat) : ∀ s s', s.cur.Fishy → hasMode s.g.cfg.mode modeDive = true → s.cur.inString = false →
    tickLoop n s = .ok ((), s') → Calm s s' := by
  induction n with
  | zero => intro s s' _ _ _ h; cases h
  | succ n ih =>
    intro s s' hf hd hstr h
    rw [tickLoop, bind_ok (ipGet_run s), bind_ok (getFuel_run s)] at h
    obtain ⟨e0, s0, h0, h⟩ := bind_inv h
    obtain ⟨e1, s1, h1, h⟩ := bind_inv h
    have hstep : (do
        let e ← execute s.g.fuel (s.g.field.get s.cur.ip.pos)
        afterExec e) s = .ok (e1, s1) := by
      rw [bind_ok h0, h1]
    obtain ⟨c1, hskip⟩ := calm_step hf hd hstr hstep
    by_cases he : e1 = .skip
    · subst he
      rw [hskip rfl] at h
      obtain ⟨_, s2, h2, h⟩ := bind_inv (m := ipNext) h
      have c2 := calm_ipNext _ _ _ h2
      have hg : s2.g = s.g := by
        unfold ipNext at h2
        split at h2
        · cases h2
        · cases h2; rfl
      exact c2.trans (ih s2 s' (c2.fishy hf) (by rw [hg]; exact hd) (c2.str.trans hstr) h)
    · by_cases he2 : e1 = .none
      · subst he2
        obtain ⟨_, s2, h2, h⟩ := bind_inv (m := ipNext) h
        cases h
        exact c1.trans (calm_ipNext _ _ _ h2)
      · rw [if_neg (by simp [he, he2]), if_neg he] at h
        cases h
        exact c1

/-- **C49.** While dived, a tick does nothing but move or turn the IP, or rise. -/
theorem C49_tick {s s' : St} (hf : s.cur.Fishy) (hd : hasMode s.g.cfg.mode modeDive = true) (hstr : s.cur.inString = false)
    (h : tick s = .ok ((), s')) : Calm s s' := by
  rw [tick, bind_ok (getFuel_run s)] at h
  exact calm_tickLoop _ s s' hf hd hstr h

theorem ticks_succ' (n : Nat) {s s' : St} (h : ticks (n + 1) s = .ok ((), s')) : ∃ t, ticks n s = .ok ((), t) ∧ tick t = .ok ((), s') := by
  induction n generalizing s with
  | zero =>
    obtain ⟨_, t, h1, h2⟩ := bind_inv h
    cases h2
    exact ⟨s, rfl, h1⟩
  | succ n ih =>
    obtain ⟨_, t, h1, h2⟩ := bind_inv (m := tick) (f := fun _ => ticks (n + 1)) h
    obtain ⟨u, h3, h4⟩ := ih h2
    exact ⟨u, by rw [ticks, bind_ok h1, h3], h4⟩

/-- **C49.** From when the program dives until it rises, only the IP moves: program, stacks, registers, input and output stay the same. -/
theorem C49_until_rise {s s' : St} (hf : s.cur.Fishy) (hstr : s.cur.inString = false) (n : Nat) (h : ticks n s = .ok ((), s'))
    (hd : ∀ k < n, ∀ t, ticks k s = .ok ((), t) → hasMode t.g.cfg.mode modeDive = true) : Calm s s' := by
  induction n generalizing s' with
  | zero => cases h; exact .refl _
  | succ n ih =>
    obtain ⟨t, h1, h2⟩ := ticks_succ' n h
    have c := ih h1 fun k hk => hd k (by omega)
    exact c.trans (C49_tick (c.fishy hf) (hd n (by omega) t h1) (c.str.trans hstr) h2)

/-- **C49.** `u` dives and `O` rises. -/
theorem C49_dive_and_rise (ex : Int → Exec Err) (s : St) :
    (∃ t, runOp ex .sDive s = .ok (.none, t) ∧ hasMode t.g.cfg.mode modeDive = true) ∧
    (∃ t, runOp ex .sRise s = .ok (.none, t) ∧ hasMode t.g.cfg.mode modeDive = false) := by
  refine ⟨⟨_, rfl, ?_⟩, ⟨_, rfl, ?_⟩⟩
  · show ((s.g.cfg.mode ||| modeDive) &&& modeDive != 0) = true
    rw [Nat.and_or_distrib_right, Nat.and_self]
    have : s.g.cfg.mode &&& modeDive ||| modeDive ≠ 0 := by
      intro h
      have h2 := congrArg (fun n => Nat.testBit n 17) h
      rw [show Nat.testBit 0 17 = false by decide] at h2
      simp [Nat.testBit_or, show Nat.testBit modeDive 17 = true by decide] at h2
    simpa using this
  · show ((s.g.cfg.mode &&& (0xFFFFFFFF ^^^ modeDive)) &&& modeDive != 0) = false
    rw [Nat.and_assoc, show (0xFFFFFFFF ^^^ modeDive) &&& modeDive = 0 by decide, Nat.and_zero]; rfl

/-- `7u8nvO…`: the `8` and the `n` are skipped, the `v` turns. -/
example : (match ticks 2 (starProgram [[55, 117, 56, 110, 90, 118, 59], [79]]) with
    | .ok (_, s) => some (s.items, hasMode s.g.cfg.mode modeDive, s.cur.inString)
    | .error _ => none) = some ([7], true, false) ∧
  (match ticks 4 (starProgram [[55, 117, 56, 110, 90, 118, 59], [79]]) with
    | .ok (_, s) => some (s.items, hasMode s.g.cfg.mode modeDive, s.g.eff, s.cur.ip.delta.get 1)
    | .error _ => none) = some ([7], true, [], 1) := by decide +kernel
example : (starProgram []).cur.Fishy := fishy_newRunner (.inr rfl) 0 _ _

end Funge
