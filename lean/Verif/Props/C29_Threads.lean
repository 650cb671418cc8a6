import Verif.Props.C30_Schedule
import Verif.Props.C32_Permissions
/-
C29 (`t`): the new IP, and that IPs do not share their stacks.
-/
namespace Funge
open Exec

/-! ### Specification -/

/-- The values of all the stacks of an IP, top stack first, each from its top. -/
def Runner.contents (r : Runner) : List (List Int) := r.ss.stacks.map (·.items)

theorem copy_stacks (l acc : List Stack) : l.foldl (fun acc s => s.copy :: acc) acc = (l.map Stack.copy).reverse ++ acc := by
  induction l generalizing acc with
  | nil => rfl
  | cons a t ih => rw [List.foldl_cons, ih]; simp

theorem copy_contents (ss : StackStack) (m : Nat) : (ss.copy.setMode m).stacks.map (·.items) = (ss.stacks.map (·.items)).reverse := by
  unfold StackStack.copy StackStack.setMode
  dsimp only
  rw [copy_stacks]
  simp only [List.append_nil, List.map_map, List.map_reverse]
  rfl

/-- What the clone of a runner is. -/
theorem clone_spec {p r : Runner} {g : Glob} {id : Nat} (h : p.clone g id = .ok r) :
    r.id = id ∧ r.parent = some p.id ∧ r.contents = p.contents.reverse ∧ r.ss.select = p.ss.select ∧
      p.ip.reflect.next g.cfg.dims g.cfg.topo g.field = .ok r.ip ∧ (∀ st ∈ r.ss.stacks, st.mode = g.cfg.mode) := by
  unfold Runner.clone at h
  dsimp only at h
  have hs := inits_same p.loaded (p.strats.map Strat.cloned)
    { id := id, strats := p.strats.map Strat.cloned, ss := p.ss.copy, ip := p.ip, parent := some p.id }
  split at h
  · cases h
  · rename_i ip hip
    cases h
    rw [hs.ip] at hip
    refine ⟨hs.id, hs.parent, ?_, ?_, hip, ?_⟩
    · unfold Runner.contents
      dsimp only
      rw [hs.ss]
      exact copy_contents _ _
    · dsimp only; rw [hs.ss]; rfl
    · dsimp only
      unfold StackStack.setMode
      intro st hst
      obtain ⟨x, _, rfl⟩ := List.mem_map.1 hst
      rfl

/-- A runner can always be cloned. -/
theorem clone_ok (p : Runner) (g : Glob) (id : Nat) : ∃ r, p.clone g id = .ok r := by
  unfold Runner.clone
  dsimp only
  obtain ⟨ip, hip⟩ := IP.C15_always_terminates g.cfg.dims g.cfg.topo g.field
    (List.foldl (Strat.init p.loaded) { id := id, strats := p.strats.map Strat.cloned, ss := p.ss.copy, ip := p.ip, parent := some p.id }
      (p.strats.map Strat.cloned)).ip.reflect
  rw [hip]
  exact ⟨_, rfl⟩

/-- **C29** `t` creates exactly one IP, behind the others, and changes nothing else (the parent is the same). The new IP has the next fresh identity, the
stacks of its parent, the parent's storage offset, the opposite delta, and is at the parent's position advanced by one step with that delta. Partial: the stacks
are in the opposite order, which makes no difference only when there is one stack (`C29_one_stack`, `C29_false_for_two_stacks`). -/
theorem C29_twin_partial (s : St) (hc : s.g.cfg.concurrent = true) :
    ∃ twin, iThread s = .ok (.none, { s with rest := s.rest ++ [twin], g := { s.g with nextId := s.g.nextId + 1 } }) ∧
      twin.id = s.g.nextId ∧ twin.parent = some s.cur.id ∧ twin.contents = s.cur.contents.reverse ∧ twin.ip.storage = s.cur.ip.storage ∧
      (∀ i, twin.ip.delta.get i = - s.cur.ip.delta.get i) ∧
      s.cur.ip.reflect.next s.g.cfg.dims s.g.cfg.topo s.g.field = .ok twin.ip := by
  obtain ⟨r, hr⟩ := clone_ok s.cur s.g s.g.nextId
  obtain ⟨h1, h2, h3, _, h5, _⟩ := clone_spec hr
  refine ⟨r, ?_, h1, h2, h3, ?_, ?_, h5⟩
  · rw [iThread, bind_ok (getCfg_run s), if_pos hc]
    have : cloneCur s = .ok ((), { s with rest := s.rest ++ [r], g := { s.g with nextId := s.g.nextId + 1 } }) := by
      unfold cloneCur; rw [hr]
    rw [bind_ok this]; rfl
  · exact (next_keeps h5).2.1
  · intro i
    rw [(next_keeps h5).1]
    exact Vec.get_reverse _ _

/-- **C29** With a single stack, the twin's stack is the same. -/
theorem C29_one_stack (s : St) (hc : s.g.cfg.concurrent = true) {l : List Int} (h1 : s.cur.contents = [l]) :
    ∃ s' twin, iThread s = .ok (.none, s') ∧ s'.cur = s.cur ∧ s'.rest = s.rest ++ [twin] ∧ twin.contents = s.cur.contents := by
  obtain ⟨twin, h, _, _, h3, _⟩ := C29_twin_partial s hc
  exact ⟨_, twin, h, rfl, rfl, by rw [h3, h1]; rfl⟩

/-! ### The stacks of different IPs are different -/

/-- The stacks of the other IPs keep their values and the selection; new IPs may follow. -/
def Apart (s s' : St) : Prop :=
  ∃ new, s'.rest.map (fun r => (r.id, r.contents, r.ss.select)) = s.rest.map (fun r => (r.id, r.contents, r.ss.select)) ++ new

theorem Apart.same {s s' : St} (h : s'.rest.map (fun r => (r.id, r.contents, r.ss.select)) = s.rest.map (fun r => (r.id, r.contents, r.ss.select))) :
    Apart s s' := ⟨[], by rw [h, List.append_nil]⟩

theorem setMode_contents (r : Runner) (m : Nat) : Runner.contents { r with ss := r.ss.setMode m } = r.contents := by
  unfold Runner.contents StackStack.setMode
  simp [Stack.setMode, Function.comp_def]

theorem engine_apart : Engine Apart where
  refl _ := .same rfl
  trans _ _ _ := by
    rintro ⟨a, ha⟩ ⟨b, hb⟩
    exact ⟨a ++ b, by rw [hb, ha, List.append_assoc]⟩
  stack _ _ _ _ _ _ := .same rfl
  ssPush _ := .same rfl
  ssPop _ _ _ := .same rfl
  ssInsert _ _ _ _ := .same rfl
  ssRemove _ _ _ _ := .same rfl
  ssInc _ := .same rfl
  ssDec _ := .same rfl
  ip _ _ _ := .same rfl
  stop _ := .same rfl
  core _ _ _ := .same rfl
  sems _ _ _ _ _ := .same rfl
  load _ _ _ _ _ := .same rfl
  glob _ _ _ _ _ := .same rfl
  ref _ _ _ _ := .same rfl
  out _ _ := .same rfl
  system _ _ _ := .same rfl
  openRead _ _ _ := .same rfl
  openWrite _ _ _ := .same rfl
  writeFile _ _ _ _ := .same rfl
  put _ _ _ := .same rfl
  parse _ _ _ _ _ := .same rfl
  dims _ _ _ := .same rfl
  clone _ r _ _ := ⟨[(r.id, r.contents, r.ss.select)], by simp⟩
  kill _ _ := .same (by simp; intros; rfl)
  mode s m := .same (by
    simp only [List.map_map]
    refine List.map_congr_left fun r _ => ?_
    simp only [Function.comp, setMode_contents]
    rfl)

theorem dirs_apart : Dirs Apart := ⟨fun _ _ => .same rfl, fun _ _ => .same rfl, fun _ _ => .same rfl⟩

theorem runOp_exec {op : Op} (h : op ≠ .iterate) (e e' : Int → Exec Err) : runOp e op = runOp e' op := by
  cases op <;> first | rfl | exact absurd rfl h

/-- **C29** No instruction but IIPC's `G` and `P` (and `k` with one of them) changes the stacks of another IP. -/
theorem C29_independent {op : Op} (h1 : ¬ op.touchesOthers) (h2 : op ≠ .iterate) {exec : Int → Exec Err} {s s' : St} {e : Err}
    (h : runOp exec op s = .ok (e, s')) :
    ∃ new, s'.rest.map (fun r => (r.id, r.contents, r.ss.select)) = s.rest.map (fun r => (r.id, r.contents, r.ss.select)) ++ new := by
  rw [runOp_exec h2 exec fun _ => fault .fuel] at h
  exact keeps_runOp engine_apart.toEngineB (fun _ => keeps_fault _) op (fun h => absurd h h1) (fun _ => dirs_apart) (fun _ => engine_apart.toTables) _ _ _ h

/-! ### Counterexample and examples -/

/-- A state with the values 1 2 on one stack and 3 on the one below. -/
def exNested : St := let s := machine [116]; { s with cur := { s.cur with ss := ⟨0, [⟨0, [2, 1], 2⟩, ⟨0, [3], 1⟩]⟩ } }

/-- The stacks of the IPs behind, after executing `t`. -/
def twinStacks (s : St) : Option (List (List (List Int))) :=
  match iThread s with
  | .ok (_, s') => some (s'.rest.map Runner.contents)
  | .error _ => none

/-- **C29** is false for two stacks: the parent's stacks are 2 1 over 3, the twin's are 3 over 2 1. -/
theorem C29_false_for_two_stacks : exNested.g.cfg.concurrent = true ∧ exNested.cur.contents = [[2, 1], [3]] ∧
    twinStacks exNested = some [[[3], [2, 1]]] := by decide +kernel

/-- The hypotheses of `C29_one_stack`. -/
example : ((machine [116]).setItems [5, 6] 2).g.cfg.concurrent = true ∧ ((machine [116]).setItems [5, 6] 2).cur.contents = [[5, 6]] ∧
    twinStacks ((machine [116]).setItems [5, 6] 2) = some [[[5, 6]]] := by decide +kernel

end Funge
