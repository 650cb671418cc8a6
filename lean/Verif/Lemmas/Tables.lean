import Verif.Lemmas.Univ
/-
What instructions the IPs of a run can ever know.
-/
namespace Funge
open Exec

/-- A set of instructions that contains what some fingerprints and some strategies bind. -/
structure Menu where
  op : Op → Prop
  fp : Fp → Prop
  strat : Strat → Prop
  reflect : op .fingReflect
  binds : ∀ f, fp f → ∀ p ∈ f.bindings, op p.2.op
  tables : ∀ st, strat st → ∀ p ∈ st.table, op p.2.op
  clones : ∀ st, strat st → strat st.cloned

/-- This IP and its descendants know only instructions of the menu (as long as none of them loads another fingerprint). -/
structure Runner.Within (M : Menu) (r : Runner) : Prop where
  sems : ∀ c m, m ∈ r.sems c → M.op m.op
  loaded : ∀ id ∈ r.loaded, ∀ f, Fp.ofId id = some f → M.fp f
  strats : ∀ st ∈ r.strats, M.strat st

theorem mem_meanings' {l : List (Int × Sem)} {c : Int} {m : Sem} (h : m ∈ meanings l c) : ∃ p ∈ l, p.2 = m := by
  unfold meanings at h
  obtain ⟨p, hp, rfl⟩ := List.mem_map.1 (List.mem_reverse.1 h)
  exact ⟨p, (List.mem_filter.1 hp).1, rfl⟩

variable {M : Menu}

theorem within_pushSems {l : List (Int × Sem)} (hl : ∀ p ∈ l, M.op p.2.op) {r : Runner} (hr : r.Within M) : (r.pushSems l).Within M := by
  refine ⟨fun c m hm => ?_, ?_, ?_⟩
  · rw [pushSems_sems] at hm
    rcases List.mem_append.1 hm with hm | hm
    · obtain ⟨p, hp, rfl⟩ := mem_meanings' hm
      exact hl p hp
    · exact hr.sems c m hm
  · rw [pushSems_eq]; exact hr.loaded
  · rw [pushSems_eq]; exact hr.strats

theorem within_loadFp {r r' : Runner} {id : Nat} (h : r.loadFp id = some r') (hid : ∀ f, Fp.ofId id = some f → M.fp f) (hr : r.Within M) :
    r'.Within M := by
  unfold Runner.loadFp at h
  split at h
  · cases h
  · rename_i f hf
    rw [← Option.some.inj h, activate_eq]
    refine within_pushSems (M.binds f (hid f hf)) ⟨hr.sems, ?_, hr.strats⟩
    intro x hx
    rcases List.mem_append.1 hx with hx | hx
    · exact hr.loaded x hx
    · cases List.mem_singleton.1 hx; exact hid

theorem within_loadFps (l : List Nat) {r : Runner} (hl : ∀ id ∈ l, ∀ f, Fp.ofId id = some f → M.fp f) (hr : r.Within M) : (r.loadFps l).Within M := by
  unfold Runner.loadFps
  induction l generalizing r with
  | nil => exact hr
  | cons id t ih =>
    rw [List.foldl_cons]
    refine ih (fun x h => hl x (List.mem_cons_of_mem _ h)) ?_
    cases h : r.loadFp id with
    | none => exact hr
    | some r' => exact within_loadFp h (hl id List.mem_cons_self) hr

theorem within_init (fps : List Nat) (st : Strat) (hst : M.strat st) {r : Runner} (hl : ∀ id ∈ fps, ∀ f, Fp.ofId id = some f → M.fp f)
    (hr : r.Within M) : (st.init fps r).Within M := by
  have ht := M.tables st hst
  have hp := within_pushSems ht hr
  cases st <;> unfold Strat.init <;> dsimp only
  case une98 => exact within_pushSems ht (within_loadFps _ hl hr)
  case starfish =>
    have h := within_pushSems (fun p hp => ht p (List.mem_append_right _ hp))
      (within_pushSems (fun p hp => ht p (List.mem_append_left _ hp)) hr)
    exact ⟨h.1, h.2, h.3⟩
  case une93 => exact ⟨hp.1, hp.2, hp.3⟩
  case fish => exact ⟨hp.1, hp.2, hp.3⟩
  all_goals exact hp

theorem within_inits (fps : List Nat) (l : List Strat) (hl' : ∀ st ∈ l, M.strat st) {r : Runner}
    (hl : ∀ id ∈ fps, ∀ f, Fp.ofId id = some f → M.fp f) (hr : r.Within M) : (l.foldl (Strat.init fps) r).Within M := by
  induction l generalizing r with
  | nil => exact hr
  | cons st t ih =>
    exact ih (fun x h => hl' x (List.mem_cons_of_mem _ h)) (within_init fps st (hl' st List.mem_cons_self) hl hr)

theorem within_clone {p r : Runner} {g : Glob} {id : Nat} (h : p.clone g id = .ok r) (hp : p.Within M) : r.Within M := by
  unfold Runner.clone at h
  dsimp only at h
  have hs : ∀ st ∈ p.strats.map Strat.cloned, M.strat st := by
    intro st hst
    obtain ⟨x, hx, rfl⟩ := List.mem_map.1 hst
    exact M.clones x (hp.strats x hx)
  split at h
  · cases h
  · cases h
    have := within_inits (M := M) (r := { id := id, strats := p.strats.map Strat.cloned, ss := p.ss.copy, ip := p.ip, parent := some p.id }) p.loaded
      (p.strats.map Strat.cloned) hs hp.loaded ⟨nofun, nofun, hs⟩
    exact ⟨this.1, this.2, this.3⟩

theorem within_newRunner {cfg : Cfg} (h : ∀ id ∈ cfg.fingerprints, ∀ f, Fp.ofId id = some f → M.fp f) (hs : ∀ st ∈ strategiesFor cfg, M.strat st)
    (id : Nat) (pos delta : Vec) : (newRunner cfg id pos delta).Within M := by
  have h := within_inits (M := M) (r := { id := id, strats := strategiesFor cfg }) cfg.fingerprints (strategiesFor cfg) hs h ⟨nofun, nofun, hs⟩
  unfold newRunner
  dsimp only
  refine ⟨?_, ?_, ?_⟩
  · rw [notifyDelta_sems]; exact h.1
  · rw [(notifyDelta_core _).loaded]; exact h.2
  · rw [(notifyDelta_core _).strats]; exact h.3

/-- All IPs of this universe know only instructions of the menu, and no others can be loaded. -/
structure St.Within (M : Menu) (s : St) : Prop where
  cur : s.cur.Within M
  rest : ∀ r ∈ s.rest, r.Within M
  load : s.g.cfg.fingerprint = true → ∀ f, M.fp f

/-- What is within the menu stays within it. -/
def StaysWithin (M : Menu) (s s' : St) : Prop := s.Within M → s'.Within M

theorem StaysWithin.same {s s' : St} (hg : s'.g.cfg.fingerprint = s.g.cfg.fingerprint) (hr : s'.rest = s.rest) (hs : s'.cur.sems = s.cur.sems)
    (hl : s'.cur.loaded = s.cur.loaded) (ht : s'.cur.strats = s.cur.strats) : StaysWithin M s s' := fun b =>
  ⟨⟨by rw [hs]; exact b.cur.1, by rw [hl]; exact b.cur.2, by rw [ht]; exact b.cur.3⟩, by rw [hr]; exact b.rest, by rw [hg]; exact b.load⟩

theorem engine_within (M : Menu) : Engine (StaysWithin M) where
  refl _ := .same rfl rfl rfl rfl rfl
  trans _ _ _ h h' := fun b => h' (h b)
  stack _ _ _ _ _ _ := .same rfl rfl rfl rfl rfl
  ssPush _ := .same rfl rfl rfl rfl rfl
  ssPop _ _ _ := .same rfl rfl rfl rfl rfl
  ssInsert _ _ _ _ := .same rfl rfl rfl rfl rfl
  ssRemove _ _ _ _ := .same rfl rfl rfl rfl rfl
  ssInc _ := .same rfl rfl rfl rfl rfl
  ssDec _ := .same rfl rfl rfl rfl rfl
  ip _ _ _ := .same rfl rfl rfl rfl rfl
  stop _ := .same rfl rfl rfl rfl rfl
  core _ _ h := .same rfl rfl h.sems h.loaded h.strats
  sems s t l hl ht := fun b => ⟨⟨fun c m hm => by
    rcases ht.known c m hm with ⟨c', h⟩ | h
    · exact b.cur.1 c' m h
    · subst h; exact M.reflect, fun x h => b.cur.2 x (hl _ h), b.cur.3⟩, b.rest, b.load⟩
  load s id r h hl := fun b => ⟨within_loadFp hl (fun f _ => b.load h f) b.cur, b.rest, b.load⟩
  glob _ _ _ _ _ := .same rfl rfl rfl rfl rfl
  ref _ _ _ _ := .same rfl rfl rfl rfl rfl
  out _ _ := .same rfl rfl rfl rfl rfl
  system _ _ _ := .same rfl rfl rfl rfl rfl
  openRead _ _ _ := .same rfl rfl rfl rfl rfl
  openWrite _ _ _ := .same rfl rfl rfl rfl rfl
  writeFile _ _ _ _ := .same rfl rfl rfl rfl rfl
  put _ _ _ := .same rfl rfl rfl rfl rfl
  parse _ _ _ _ _ := .same rfl rfl rfl rfl rfl
  dims _ _ _ := .same rfl rfl rfl rfl rfl
  clone s r _ h := fun b => ⟨b.cur, fun x hx => by
    rcases List.mem_append.1 hx with hx | hx
    · exact b.rest x hx
    · cases List.mem_singleton.1 hx; exact within_clone h b.cur, b.load⟩
  kill s c := fun b => ⟨⟨b.cur.1, b.cur.2, b.cur.3⟩, fun x hx => by
    obtain ⟨r, hr, rfl⟩ := List.mem_map.1 hx
    have := b.rest r hr
    exact ⟨this.1, this.2, this.3⟩, b.load⟩
  mode s m := fun b => ⟨⟨b.cur.1, b.cur.2, b.cur.3⟩, fun x hx => by
    obtain ⟨r, hr, rfl⟩ := List.mem_map.1 hx
    have := b.rest r hr
    exact ⟨this.1, this.2, this.3⟩, b.load⟩

theorem others_within : Others (StaysWithin M) := by
  intro s a b r st st' hr _ _ w
  refine ⟨w.cur, fun x hx => ?_, w.load⟩
  have w3 := w.rest
  rw [hr] at w3
  rcases List.mem_append.1 hx with hx | hx
  · exact w3 x (List.mem_append_left _ hx)
  · rcases List.mem_cons.1 hx with rfl | hx
    · have := w3 r (List.mem_append_right _ List.mem_cons_self)
      exact ⟨this.1, this.2, this.3⟩
    · exact w3 x (List.mem_append_right _ (List.mem_cons_of_mem _ hx))

theorem dirs_within : Dirs (StaysWithin M) :=
  ⟨fun _ _ => .same rfl rfl rfl rfl rfl, fun _ _ => .same rfl rfl rfl rfl rfl, fun _ _ => .same rfl rfl rfl rfl rfl⟩

/-- Not an instruction of a fingerprint. -/
def Op.isPlain : Op → Bool
  | .fing _ _ => false
  | _ => true

end Funge
