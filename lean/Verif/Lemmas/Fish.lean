import Verif.Lemmas.Univ
import Verif.Lemmas.Tick
import Verif.Lemmas.Stacks
/-
Programs in ><> and *><>: what stays the same while they run.
-/
namespace Funge
open Exec

/-- An IP of a ><> or *><> program. -/
structure Runner.Fishy (r : Runner) : Prop where
  handler : r.handler = .fish
  loaded : r.loaded = []
  table : ∃ st, (st = .fish ∨ st = .starfish) ∧ r.strats = [st] ∧ r.sems = meanings st.table

theorem fishy_init {r : Runner} (hs : r.sems = fun _ => []) (hl : r.loaded = []) {st : Strat} (hst : st = .fish ∨ st = .starfish)
    (ht : r.strats = [st]) (fps : List Nat) : (st.init fps r).Fishy := by
  have e := init_same fps r st
  rcases hst with rfl | rfl
  · refine ⟨rfl, ?_, .fish, .inl rfl, ?_, ?_⟩
    · show (r.pushSems semsFish).loaded = []
      rw [pushSems_eq]; exact hl
    · show (r.pushSems semsFish).strats = _
      rw [pushSems_eq]; exact ht
    · funext c
      show (r.pushSems semsFish).sems c = _
      rw [pushSems_sems, hs]; simp [Strat.table]
  · refine ⟨rfl, ?_, .starfish, .inr rfl, ?_, ?_⟩
    · show ((r.pushSems semsFish).pushSems semsStarfish).loaded = []
      rw [pushSems_eq, pushSems_eq]; exact hl
    · show ((r.pushSems semsFish).pushSems semsStarfish).strats = _
      rw [pushSems_eq, pushSems_eq]; exact ht
    · funext c
      show ((r.pushSems semsFish).pushSems semsStarfish).sems c = _
      rw [pushSems_sems, pushSems_sems, hs, Strat.table, meanings_append]; simp

theorem fishy_clone {p r : Runner} {g : Glob} {id : Nat} (hp : p.Fishy) (h : p.clone g id = .ok r) : r.Fishy := by
  obtain ⟨_, _, st, hst, hs, _⟩ := hp
  unfold Runner.clone at h
  dsimp only at h
  rw [hs] at h
  have hc : st.cloned = .fish ∨ st.cloned = .starfish := by rcases hst with rfl | rfl <;> exact .inl rfl
  have := fishy_init (r := { id := id, strats := [st.cloned], ss := p.ss.copy, ip := p.ip, parent := some p.id }) rfl rfl hc rfl p.loaded
  split at h
  · cases h
  · cases h
    exact ⟨this.1, this.2, this.3⟩

theorem fishy_newRunner {cfg : Cfg} (h : cfg.standard = -1 ∨ cfg.standard = -2) (id : Nat) (pos delta : Vec) :
    (newRunner cfg id pos delta).Fishy := by
  obtain ⟨st, hst, hs⟩ : ∃ st, (st = .fish ∨ st = .starfish) ∧ strategiesFor cfg = [st] := by
    rcases h with h | h
    · exact ⟨.fish, .inl rfl, by unfold strategiesFor; rw [if_pos h]⟩
    · exact ⟨.starfish, .inr rfl, by unfold strategiesFor; rw [if_neg (by rw [h]; decide), if_pos h]⟩
  have := fishy_init (r := { id := id, strats := [st] }) rfl rfl hst rfl cfg.fingerprints
  obtain ⟨h1, h2, h3⟩ := this
  unfold newRunner
  dsimp only
  rw [hs]
  refine ⟨?_, ?_, ?_⟩
  · rw [notifyDelta_handler]; exact h1
  · rw [(notifyDelta_core _).loaded]; exact h2
  · rw [notifyDelta_sems, (notifyDelta_core _).strats]; exact h3

theorem Runner.Fishy.same {r r' : Runner} (h : r.Fishy) (h1 : r'.handler = r.handler) (h2 : r'.loaded = r.loaded) (h3 : r'.strats = r.strats)
    (h4 : r'.sems = r.sems) : r'.Fishy := ⟨h1 ▸ h.1, h2 ▸ h.2, by rw [h3, h4]; exact h.3⟩

/-- All IPs are of a ><> or *><> program. -/
structure St.Fishy (s : St) : Prop where
  cur : s.cur.Fishy
  rest : ∀ r ∈ s.rest, r.Fishy

/-- A ><> or *><> program remains one. -/
def StaysFishy (s s' : St) : Prop := s.Fishy → s'.Fishy

theorem StaysFishy.same {s s' : St} (hr : s'.rest = s.rest) (h1 : s'.cur.handler = s.cur.handler) (h2 : s'.cur.loaded = s.cur.loaded)
    (h3 : s'.cur.strats = s.cur.strats) (h4 : s'.cur.sems = s.cur.sems) : StaysFishy s s' :=
  fun h => ⟨h.cur.same h1 h2 h3 h4, hr ▸ h.rest⟩

theorem engineB_fishy : EngineB StaysFishy where
  refl _ := id
  trans _ _ _ h h' := fun b => h' (h b)
  stack _ _ _ _ _ _ := .same rfl rfl rfl rfl rfl
  ssPush _ := .same rfl rfl rfl rfl rfl
  ssPop _ _ _ := .same rfl rfl rfl rfl rfl
  ssInsert _ _ _ _ := .same rfl rfl rfl rfl rfl
  ssRemove _ _ _ _ := .same rfl rfl rfl rfl rfl
  ssInc _ := .same rfl rfl rfl rfl rfl
  ssDec _ := .same rfl rfl rfl rfl rfl
  ip _ _ _ := .same rfl rfl rfl rfl rfl
  stop _ := .same rfl rfl rfl rfl rfl
  core _ _ h := .same rfl h.handler h.loaded h.strats h.sems
  glob _ _ _ _ _ := .same rfl rfl rfl rfl rfl
  ref _ _ _ _ := .same rfl rfl rfl rfl rfl
  out _ _ := .same rfl rfl rfl rfl rfl
  system _ _ _ := .same rfl rfl rfl rfl rfl
  openRead _ _ _ := .same rfl rfl rfl rfl rfl
  openWrite _ _ _ := .same rfl rfl rfl rfl rfl
  writeFile _ _ _ _ := .same rfl rfl rfl rfl rfl
  put _ _ _ := .same rfl rfl rfl rfl rfl
  parse _ _ _ _ _ := .same rfl rfl rfl rfl rfl
  dims _ _ _ := .same rfl rfl rfl rfl rfl
  clone s r _ h := fun b => ⟨b.cur, fun x hx => by
    rcases List.mem_append.1 hx with hx | hx
    · exact b.rest x hx
    · cases List.mem_singleton.1 hx; exact fishy_clone b.cur h⟩
  kill s c := fun b => ⟨b.cur.same rfl rfl rfl rfl, fun x hx => by
    obtain ⟨r, hr, rfl⟩ := List.mem_map.1 hx
    exact (b.rest r hr).same rfl rfl rfl rfl⟩
  mode s m := fun b => ⟨b.cur.same rfl rfl rfl rfl, fun x hx => by
    obtain ⟨r, hr, rfl⟩ := List.mem_map.1 hx
    exact (b.rest r hr).same rfl rfl rfl rfl⟩

/-- An instruction of ><> or *><>, none of which starts an IP, touches another IP or changes what instructions mean. -/
def Op.isFish : Op → Bool
  | .fSkip | .fPush _ | .fRight | .fLeft | .fDown | .fUp | .fMirror1 | .fMirror2 | .fMirrorVert | .fMirrorHori
  | .fMirrorAll | .fRandom | .fTrampoline | .fConditional | .fJump | .fAdd | .fSub | .fMult | .fDiv | .fModu | .fEqual | .fGreater
  | .fLess | .fString _ | .fDuplicate | .fRemove | .fSwap2 | .fSwap3 | .fLength | .fShiftLeft | .fShiftRight | .fReverse
  | .fCreateStack | .fRemoveStack | .fOutChar | .fOutInt | .fIn | .fRegister | .fGet | .fPut | .fEnd
  | .sFisherman | .sCall | .sReturn | .sDive | .sRise | .sIncrement | .sDecrement | .sFile | .sSleep | .sHour | .sMinute | .sSecond => true
  | _ => false

theorem getSem_mem {r : Runner} {i : Int} {sem : Sem} (h : r.getSem i = some sem) : sem ∈ r.sems i := List.mem_of_mem_head? h

theorem mem_table {l : List (Int × Sem)} {c : Int} {m : Sem} (h : m ∈ meanings l c) : (c, m) ∈ l := by
  unfold meanings at h
  obtain ⟨p, hp, rfl⟩ := List.mem_map.1 (List.mem_reverse.1 h)
  obtain ⟨h1, h2⟩ := List.mem_filter.1 hp
  have : p.1 = c := by simpa using h2
  rw [← this]; exact h1

theorem fishy_op {r : Runner} (h : r.Fishy) {i : Int} {sem : Sem} (hs : r.getSem i = some sem) : sem.op.isFish = true := by
  obtain ⟨_, _, st, hst, _, hsem⟩ := h
  have hm := getSem_mem hs
  rw [hsem] at hm
  have hall : ∀ p ∈ Strat.starfish.table, p.2.op.isFish = true := by decide
  have hm' := mem_table hm
  rcases hst with rfl | rfl
  · exact hall _ (List.mem_append_left _ hm')
  · exact hall _ hm'

theorem isFish_tame {op : Op} (h : op.isFish = true) : ¬ op.touchesOthers ∧ ¬ op.changesDirs ∧ ¬ op.changesTable := by
  cases op <;> first | (simp [Op.isFish] at h; done) | exact ⟨id, id, id⟩

theorem fits_fishy : FitsB StaysFishy := by
  intro s i sem h
  by_cases hs : s.Fishy
  · obtain ⟨h1, h2, h3⟩ := isFish_tame (fishy_op hs.cur h)
    exact .inl ⟨fun x => absurd x h1, fun x => absurd x h2, fun x => absurd x h3⟩
  · exact .inr fun _ h => absurd h hs

theorem keeps_tick_fishy : Keeps StaysFishy tick := keepsB_tick engineB_fishy fits_fishy

/-- All IPs of the universe are of a ><> or *><> program. -/
def Univ.Fishy (u : Univ) : Prop := ∀ r ∈ u.runners, r.Fishy

theorem turn_fishy {u u' : Univ} (h : u.turn = .ok u') (hf : u.Fishy) : u'.Fishy := by
  rcases turn_cases h with ⟨_, rfl⟩ | ⟨r, rest, hr, ⟨_, rfl⟩ | ⟨hns, s, hs, rfl⟩⟩
  · exact hf
  · intro x hx; exact hf x (hr ▸ List.mem_cons_of_mem _ hx)
  · have := keeps_tick_fishy _ _ _ hs ⟨hf r (hr ▸ List.mem_cons_self), fun x hx => hf x (hr ▸ List.mem_cons_of_mem _ hx)⟩
    intro x hx
    unfold St.univ at hx
    dsimp only at hx
    split at hx
    · exact this.rest x hx
    · rcases List.mem_append.1 hx with hx | hx
      · exact this.rest x hx
      · cases List.mem_singleton.1 hx; exact this.cur

theorem turns_fishy {n : Nat} {u u' : Univ} (h : u.turns n = .ok u') (hf : u.Fishy) : u'.Fishy :=
  turns_lift (Q := fun u u' => u.Fishy → u'.Fishy) (fun _ => id) (fun _ _ _ h h' b => h' (h b)) (fun _ _ => turn_fishy) n u u' h hf

end Funge
