import Verif.Props.C86_Isolation
import Verif.Props.C33_Fingerprints
/-
C87: only storing instructions change Fungespace; a program without any is not changed by its execution.
-/
namespace Funge
open Exec

/-! ### Specification -/

/-- What an IP may come across in this space: the value of some cell, or, for `k`, the low byte of it (/repo/src/Unefunge98Strategy.cpp:117 has it in a `char`). -/
def Met (f : Field) (c : Int) : Prop := ∃ v, f.get v = c ∨ toChar (f.get v) = c

/-- This IP understands nothing it may come across in the space as an instruction that stores in it, or that changes what others mean. -/
def Runner.Harmless (f : Field) (r : Runner) : Prop := ∀ c, Met f c → ∀ sem, r.getSem c = some sem → ¬ sem.op.stores ∧ ¬ sem.op.changesTable

/-- What decides what an IP and its twins understand. -/
def Runner.mind (r : Runner) : (Int → List Sem) × List Nat × List Strat := (r.sems, r.loaded, r.strats)

/-- A twin of this IP understands everything as the IP itself does. -/
def Runner.AsStarted (r : Runner) : Prop := ∀ g id r', r.clone g id = .ok r' → r'.mind = r.mind

/-! ### Every IP of a program is as started -/

theorem strats_pushSems (l : List (Int × Sem)) (r : Runner) : (r.pushSems l).strats = r.strats := by rw [pushSems_eq]

theorem strats_loadFps (l : List Nat) (r : Runner) : (r.loadFps l).strats = r.strats := by
  unfold Runner.loadFps
  induction l generalizing r with
  | nil => rfl
  | cons id t ih =>
    rw [List.foldl_cons, ih]
    cases hf : Fp.ofId id with
    | none =>
      have : r.loadFp id = none := by unfold Runner.loadFp; rw [hf]
      rw [this]; rfl
    | some f => rw [loadFp_spec hf]; rfl

theorem clone_mind {p p' r r' : Runner} {g g' : Glob} {id id' : Nat} (h : p'.mind = p.mind) (h1 : p.clone g id = .ok r) (h2 : p'.clone g' id' = .ok r') :
    r'.mind = r.mind := by
  have key : ∀ {p r : Runner} {g : Glob} {id : Nat}, p.clone g id = .ok r →
      r.mind = ((p.strats.map Strat.cloned).foldl (Strat.init p.loaded) { id := id, strats := p.strats.map Strat.cloned, ss := p.ss.copy, ip := p.ip, parent := some p.id }).mind := by
    intro p r g id h
    unfold Runner.clone at h
    dsimp only at h
    split at h
    · cases h
    · cases h; rfl
  rw [key h1, key h2]
  have e1 : p'.strats = p.strats := congrArg (fun x => x.2.2) h
  have e2 : p'.loaded = p.loaded := congrArg (fun x => x.2.1) h
  rw [e1, e2]
  clear e1 e2 h h1 h2 key
  have step : ∀ (fps : List Nat) (st : Strat) (a b : Runner), a.mind = b.mind → (Strat.init fps a st).mind = (Strat.init fps b st).mind := by
    intro fps st a b h
    have e1 : a.sems = b.sems := congrArg (fun x => x.1) h
    have e2 : a.loaded = b.loaded := congrArg (fun x => x.2.1) h
    have e3 : a.strats = b.strats := congrArg (fun x => x.2.2) h
    have l1 : (a.loadFps fps).strats = (b.loadFps fps).strats := by rw [strats_loadFps, strats_loadFps, e3]
    cases st <;>
      simp only [Strat.init, Runner.mind, pushSems_loaded, loadFps_loaded, strats_pushSems, l1, e2, e3, Prod.mk.injEq, and_true] <;>
      funext c <;> simp only [pushSems_sems, loadFps_sems, e1]
  have all : ∀ (fps : List Nat) (S : List Strat) (a b : Runner), a.mind = b.mind → (S.foldl (Strat.init fps) a).mind = (S.foldl (Strat.init fps) b).mind := by
    intro fps S
    induction S with
    | nil => exact fun _ _ h => h
    | cons st t ih => exact fun a b h => ih _ _ (step fps st a b h)
  exact all _ _ _ _ rfl

theorem Runner.AsStarted.congr {p p' : Runner} (hp : p.AsStarted) (h : p'.mind = p.mind) : p'.AsStarted := by
  intro g id r' hr
  obtain ⟨r, h1⟩ := clone_ok p g id
  rw [clone_mind h h1 hr, hp _ _ _ h1, h]

/-- The IP a program of any standard but *><> starts with is as started. -/
theorem newRunner_asStarted {cfg : Cfg} (h : cfg.standard ≠ -2) (id : Nat) (pos delta : Vec) : (newRunner cfg id pos delta).AsStarted := by
  intro g id' r' hr
  have hm : (newRunner cfg id pos delta).mind = ((strategiesFor cfg).foldl (Strat.init cfg.fingerprints) ({ id := id, strats := strategiesFor cfg } : Runner)).mind := by
    unfold newRunner Runner.mind
    dsimp only
    rw [notifyDelta_sems, (notifyDelta_core _).loaded, (notifyDelta_core _).strats]
  have hl := (congrArg (fun x => x.2.1) hm : (newRunner cfg id pos delta).loaded = _)
  have hst := (congrArg (fun x => x.2.2) hm : (newRunner cfg id pos delta).strats = _)
  have hs2 : ((strategiesFor cfg).foldl (Strat.init cfg.fingerprints) ({ id := id, strats := strategiesFor cfg } : Runner)).strats = strategiesFor cfg :=
    (inits_same _ _ _).strats
  dsimp only [Runner.mind] at hl hst
  rw [hs2] at hst
  have hc : (strategiesFor cfg).map Strat.cloned = strategiesFor cfg := by
    unfold strategiesFor
    repeat' split
    all_goals first | rfl | contradiction
  unfold Runner.clone at hr
  dsimp only at hr
  rw [hst, hc, hl] at hr
  split at hr
  · cases hr
  · cases hr
    rw [hm]
    clear hm hl hst
    unfold Runner.mind
    dsimp only
    rw [(inits_same _ _ _).strats, hs2]
    clear hc hs2
    have hS : ∃ a b c d e f : Bool, strategiesFor cfg =
        (if a then [Strat.fish] else []) ++ (if b then [Strat.une93] else []) ++ (if c then [Strat.une98] else []) ++ (if d then [Strat.be93] else []) ++
          (if e then [Strat.be98] else []) ++ (if f then [Strat.tre98] else []) := by
      unfold strategiesFor
      split
      · exact ⟨true, false, false, false, false, false, rfl⟩
      · refine ⟨false, decide (cfg.dims ≥ 1 ∧ cfg.standard ≥ 93), decide (cfg.dims ≥ 1 ∧ cfg.standard ≥ 98), decide (cfg.dims ≥ 2 ∧ cfg.standard ≥ 93),
          decide (cfg.dims ≥ 2 ∧ cfg.standard ≥ 98), decide (cfg.dims ≥ 3 ∧ cfg.standard ≥ 98), ?_⟩
        by_cases h1 : cfg.dims ≥ 1 <;> by_cases h2 : cfg.dims ≥ 2 <;> by_cases h3 : cfg.dims ≥ 3 <;> by_cases h4 : cfg.standard ≥ 93 <;>
          by_cases h5 : cfg.standard ≥ 98 <;> first | omega | simp [h1, h2, h3, h4, h5]
    obtain ⟨a, b, c, d, e, f, hS⟩ := hS
    rw [hS]
    refine Prod.ext (funext fun x => ?_) (Prod.ext ?_ rfl) <;> cases a <;> cases b <;> cases c <;> cases d <;> cases e <;> cases f <;>
      simp [Strat.init, pushSems_sems, loadFps_sems, pushSems_loaded, loadFps_loaded, loadedMeanings_known]

/-! ### What leaves the space alone -/

/-- Nothing but instructions that store can change the space now, and twins are like their parents. -/
def St.Calm (s : St) : Prop := hasMode s.g.cfg.mode modeSwitch = false ∧ (s.g.cfg.concurrent = false ∨ s.cur.AsStarted)

/-- The relation the machinery is used with. -/
def Still (s s' : St) : Prop := s.Calm → s'.Calm ∧ s'.g.field = s.g.field ∧ s'.g.cfg.concurrent = s.g.cfg.concurrent ∧ s'.cur.mind = s.cur.mind ∧
  ∀ r' ∈ s'.rest, (∃ r ∈ s.rest, r'.mind = r.mind) ∨ r'.mind = s.cur.mind

theorem Still.same {s s' : St} (h1 : s'.g.cfg.mode = s.g.cfg.mode) (h2 : s'.g.cfg.concurrent = s.g.cfg.concurrent) (h3 : s'.g.field = s.g.field)
    (h4 : s'.cur.mind = s.cur.mind) (h5 : s'.rest = s.rest) : Still s s' := by
  intro h
  refine ⟨⟨by rw [h1]; exact h.1, ?_⟩, h3, h2, h4, fun r' hr => .inl ⟨r', h5 ▸ hr, rfl⟩⟩
  rw [h2]
  exact h.2.imp id fun h => h.congr h4

theorem Still.map {s s' : St} (h1 : hasMode s'.g.cfg.mode modeSwitch = hasMode s.g.cfg.mode modeSwitch) (h2 : s'.g.cfg.concurrent = s.g.cfg.concurrent)
    (h3 : s'.g.field = s.g.field) (h4 : s'.cur.mind = s.cur.mind) {f : Runner → Runner} (h5 : s'.rest = s.rest.map f) (hf : ∀ r, (f r).mind = r.mind) : Still s s' := by
  intro h
  refine ⟨⟨by rw [h1]; exact h.1, ?_⟩, h3, h2, h4, fun r' hr => ?_⟩
  · rw [h2]
    exact h.2.imp id fun h => h.congr h4
  · rw [h5] at hr
    obtain ⟨r, hr', rfl⟩ := List.mem_map.1 hr
    exact .inl ⟨r, hr', hf r⟩

theorem engine_still : EngineC Still where
  refl _ := .same rfl rfl rfl rfl rfl
  trans s t u h h' c := by
    obtain ⟨a1, a2, a3, a4, a5⟩ := h c
    obtain ⟨b1, b2, b3, b4, b5⟩ := h' a1
    refine ⟨b1, b2.trans a2, b3.trans a3, b4.trans a4, fun r hr => ?_⟩
    rcases b5 r hr with ⟨q, hq, e⟩ | e
    · rcases a5 q hq with ⟨p, hp, e'⟩ | e'
      · exact .inl ⟨p, hp, e.trans e'⟩
      · exact .inr (e.trans e')
    · exact .inr (e.trans a4)
  stack _ _ _ _ _ _ := .same rfl rfl rfl rfl rfl
  ssPush _ := .same rfl rfl rfl rfl rfl
  ssPop _ _ _ := .same rfl rfl rfl rfl rfl
  ssInsert _ _ _ _ := .same rfl rfl rfl rfl rfl
  ssRemove _ _ _ _ := .same rfl rfl rfl rfl rfl
  ssInc _ := .same rfl rfl rfl rfl rfl
  ssDec _ := .same rfl rfl rfl rfl rfl
  ip _ _ _ := .same rfl rfl rfl rfl rfl
  stop _ := .same rfl rfl rfl rfl rfl
  core _ _ h := .same rfl rfl rfl (by unfold Runner.mind; dsimp only; rw [h.sems, h.loaded, h.strats]) rfl
  glob _ _ _ _ _ := .same rfl rfl rfl rfl rfl
  ref _ _ _ _ := .same rfl rfl rfl rfl rfl
  out _ _ := .same rfl rfl rfl rfl rfl
  system _ _ _ := .same rfl rfl rfl rfl rfl
  openRead _ _ _ := .same rfl rfl rfl rfl rfl
  openWrite _ _ _ := .same rfl rfl rfl rfl rfl
  writeFile _ _ _ _ := .same rfl rfl rfl rfl rfl
  switch s i h := fun c => by rw [c.1] at h; cases h
  dims _ _ _ := .same rfl rfl rfl rfl rfl
  clone s r hc h := fun c => by
    refine ⟨c, rfl, rfl, rfl, fun r' hr => ?_⟩
    rcases List.mem_append.1 hr with hr | hr
    · exact .inl ⟨r', hr, rfl⟩
    · rw [List.mem_singleton.1 hr]
      rcases c.2 with c | c
      · rw [c] at hc; cases hc
      · exact .inr (c _ _ _ h)
  kill _ _ := .map rfl rfl rfl rfl rfl fun _ => rfl
  mode _ _ h := .map h rfl rfl rfl rfl fun _ => rfl

theorem others_still : Others Still := by
  intro s a b r st st' hr _ _ c
  refine ⟨c, rfl, rfl, rfl, fun r' h => .inl ?_⟩
  rcases List.mem_append.1 h with h | h
  · exact ⟨r', by rw [hr]; exact List.mem_append_left _ h, rfl⟩
  · rcases List.mem_cons.1 h with rfl | h
    · exact ⟨r, by rw [hr]; simp, rfl⟩
    · exact ⟨r', by rw [hr]; simp [h], rfl⟩

theorem dirs_still : Dirs Still := ⟨fun _ _ => .same rfl rfl rfl rfl rfl, fun _ _ => .same rfl rfl rfl rfl rfl, fun _ _ => .same rfl rfl rfl rfl rfl⟩

/-- The space stays as it is unless instructions are to be replaced by their opposites. -/
def SpaceKept (s s' : St) : Prop := hasMode s.g.cfg.mode modeSwitch = false → hasMode s'.g.cfg.mode modeSwitch = false ∧ s'.g.field = s.g.field

theorem engine_spaceKept : EngineC SpaceKept where
  refl _ h := ⟨h, rfl⟩
  trans s t u h h' c := ⟨(h' (h c).1).1, (h' (h c).1).2.trans (h c).2⟩
  stack _ _ _ _ _ _ h := ⟨h, rfl⟩
  ssPush _ h := ⟨h, rfl⟩
  ssPop _ _ _ h := ⟨h, rfl⟩
  ssInsert _ _ _ _ h := ⟨h, rfl⟩
  ssRemove _ _ _ _ h := ⟨h, rfl⟩
  ssInc _ h := ⟨h, rfl⟩
  ssDec _ h := ⟨h, rfl⟩
  ip _ _ _ h := ⟨h, rfl⟩
  stop _ h := ⟨h, rfl⟩
  core _ _ _ h := ⟨h, rfl⟩
  glob _ _ _ _ _ h := ⟨h, rfl⟩
  ref _ _ _ _ h := ⟨h, rfl⟩
  out _ _ h := ⟨h, rfl⟩
  system _ _ _ h := ⟨h, rfl⟩
  openRead _ _ _ h := ⟨h, rfl⟩
  openWrite _ _ _ h := ⟨h, rfl⟩
  writeFile _ _ _ _ h := ⟨h, rfl⟩
  switch s i h := fun c => by rw [c] at h; cases h
  dims _ _ _ h := ⟨h, rfl⟩
  clone _ _ _ _ h := ⟨h, rfl⟩
  kill _ _ h := ⟨h, rfl⟩
  mode _ _ h c := ⟨h.trans c, rfl⟩

/-- **C87** With switch mode off, an instruction that is not one of those that store (`p`, `s`, `i`, *><>'s `p`, and P of JSTR, ORTH and STRN, S of MODE, and C F J K M O
Q S U V of TOYS) leaves every cell of the space as it is, whatever is on the stack. (For `k`, which executes other instructions, see below.) -/
theorem C87_instruction {exec : Int → Exec Err} {op : Op} (h1 : ¬ op.stores) (h2 : op ≠ .iterate) {s s' : St} {e : Err}
    (hm : hasMode s.g.cfg.mode modeSwitch = false) (h : runOp exec op s = .ok (e, s')) : s'.g.field = s.g.field := by
  rw [runOp_exec h2 exec fun _ => fault .fuel] at h
  exact (keepsC_runOp engine_spaceKept (fun _ => keeps_fault _) op (fun _ _ _ _ _ _ _ _ _ _ c => ⟨c, rfl⟩)
    (fun _ => ⟨fun _ _ c => ⟨c, rfl⟩, fun _ _ c => ⟨c, rfl⟩, fun _ _ c => ⟨c, rfl⟩⟩)
    (fun _ => ⟨fun _ _ _ _ _ c => ⟨c, rfl⟩, fun _ _ _ _ _ c => ⟨c, rfl⟩⟩) (fun h => absurd h h1) _ _ _ h hm).2

/-! ### Whole executions -/

/-- Nothing the current IP may come across changes anything about the space or what is understood. -/
def St.Safe87 (s : St) : Prop := s.Calm ∧ s.cur.Harmless s.g.field

theorem Runner.Harmless.congr {f : Field} {r r' : Runner} (h : r.Harmless f) (hm : r'.mind = r.mind) : r'.Harmless f := by
  intro c hc sem hs
  refine h c hc sem ?_
  rw [← hs]
  unfold Runner.getSem
  rw [show r'.sems = r.sems from congrArg (fun x => x.1) hm]

theorem Still.safe {s s' : St} (h : Still s s') (c : s.Safe87) : s'.Safe87 := by
  obtain ⟨h1, h2, _, h4, _⟩ := h c.1
  exact ⟨h1, by rw [h2]; exact c.2.congr h4⟩

theorem Still.met {s s' : St} (h : Still s s') (c : s.Safe87) {i : Int} (hi : Met s.g.field i) : Met s'.g.field i := by
  rw [(h c.1).2.1]; exact hi

theorem iterSearch_met (n : Nat) (c : Int) {s s' : St} {c' : Int} (h : iterSearch n c s = .ok (c', s')) (hs : s.Safe87) (hc : Met s.g.field c) :
    Met s'.g.field c' := by
  induction n generalizing c s with
  | zero => cases h
  | succ n ih =>
    unfold iterSearch at h
    split at h
    · obtain ⟨_, s1, h1, h⟩ := bind_inv h
      have k1 := keeps_untilSemiChar engine_still _ _ _ _ h1
      obtain ⟨_, s2, h2, h⟩ := bind_inv h
      have k2 := keeps_ipNext engine_still _ _ _ h2
      rw [bind_ok (ipGet_run _)] at h
      exact ih _ h (k2.safe (k1.safe hs)) ⟨_, .inr rfl⟩
    · split at h
      · obtain ⟨_, s2, h2, h⟩ := bind_inv h
        have k2 := keeps_ipNext engine_still _ _ _ h2
        rw [bind_ok (ipGet_run _)] at h
        exact ih _ h (k2.safe hs) ⟨_, .inr rfl⟩
      · cases h; exact hc

theorem iterRun_still {exec : Int → Exec Err} {c : Int} (hexec : ∀ s e s', s.Safe87 → Met s.g.field c → exec c s = .ok (e, s') → Still s s') (n : Nat) {s s' : St}
    (hs : s.Safe87) (hc : Met s.g.field c) (h : iterRun exec c n s = .ok ((), s')) : Still s s' := by
  induction n generalizing s with
  | zero => cases h; exact engine_still.refl _
  | succ n ih =>
    unfold iterRun at h
    obtain ⟨_, s1, h1, h⟩ := bind_inv h
    have k := hexec _ _ _ hs hc h1
    exact engine_still.trans _ _ _ k (ih (k.safe hs) (k.met hs hc) h)

theorem execute_still (n : Nat) {i : Int} {s s' : St} {e : Err} (hs : s.Safe87) (hi : Met s.g.field i) (h : execute n i s = .ok (e, s')) : Still s s' := by
  induction n generalizing i s s' e with
  | zero => cases h
  | succ n ih =>
    unfold execute at h
    split at h
    · exact keeps_execString engine_still i _ _ _ h
    · unfold execNormal at h
      split at h
      · cases h; exact engine_still.refl _
      · rename_i sem hsem
        split at h
        · cases h; exact engine_still.refl _
        · obtain ⟨g1, g2⟩ := hs.2 i hi sem hsem
          by_cases hit : sem.op = .iterate
          · rw [hit] at h
            change iIterate (execute n) s = _ at h
            unfold iIterate at h
            rw [bind_ok (ipPos_run _)] at h
            obtain ⟨_, s1, h1, h⟩ := bind_inv h
            have k1 := keeps_ipNext engine_still _ _ _ h1
            have q1 := k1.safe hs
            rw [bind_ok (ipGet_run _)] at h
            obtain ⟨_, s2, h2, h⟩ := bind_inv h
            have k2 := keeps_getFuel engine_still _ _ _ h2
            have q2 := k2.safe q1
            obtain ⟨c, s3, h3, h⟩ := bind_inv h
            have k3 := keeps_iterSearch engine_still _ _ _ _ _ h3
            have q3 := k3.safe q2
            have m3 : Met s3.g.field c := iterSearch_met _ _ h3 q2 (k2.met q1 ⟨_, .inr rfl⟩)
            obtain ⟨_, s4, h4, h⟩ := bind_inv h
            have k4 := keeps_onIP engine_still (·.setPos s.cur.ip.pos) (fun _ => rfl) _ _ _ h4
            have q4 := k4.safe q3
            obtain ⟨x, s5, h5, h⟩ := bind_inv h
            have k5 := keeps_popTop engine_still _ _ _ h5
            have q5 := k5.safe q4
            obtain ⟨_, s6, h6, h⟩ := bind_inv h
            have k6 := iterRun_still (fun _ _ _ a b h => ih a b h) _ q5 (k5.met q4 (k4.met q3 m3)) h6
            have k7 : Still s6 s' := by
              dsimp only at h
              split at h
              · obtain ⟨_, s7, h7, h⟩ := bind_inv h
                cases h
                exact keeps_ipNext engine_still _ _ _ h7
              · cases h; exact engine_still.refl _
            have T := engine_still.trans
            exact T _ _ _ k1 (T _ _ _ k2 (T _ _ _ k3 (T _ _ _ k4 (T _ _ _ k5 (T _ _ _ k6 k7)))))
          · rw [runOp_exec hit (execute n) fun _ => fault .fuel] at h
            exact keepsC_runOp engine_still (fun _ => keeps_fault _) _ (fun _ => others_still) (fun _ => dirs_still) (fun h => absurd h g2)
              (fun h => absurd h g1) _ _ _ h

theorem tickLoop_still (n : Nat) {s s' : St} (hs : s.Safe87) (h : tickLoop n s = .ok ((), s')) : Still s s' := by
  induction n generalizing s with
  | zero => cases h
  | succ n ih =>
    unfold tickLoop at h
    rw [bind_ok (ipGet_run _)] at h
    obtain ⟨_, s2, h2, h⟩ := bind_inv h
    have k2 := keeps_getFuel engine_still _ _ _ h2
    have q2 := k2.safe hs
    obtain ⟨_, s3, h3, h⟩ := bind_inv h
    have k3 := execute_still _ q2 (k2.met hs ⟨_, .inl rfl⟩) h3
    have q3 := k3.safe q2
    obtain ⟨e, s4, h4, h⟩ := bind_inv h
    have k4 := keeps_afterExec engine_still _ _ _ _ h4
    have q4 := k4.safe q3
    have k5 : ∀ t : St, t.Safe87 → (if e = Err.skip then tickLoop n else pure ()) t = .ok ((), s') → Still t s' := by
      intro t q h
      split at h
      · exact ih q h
      · cases h; exact engine_still.refl _
    have k6 : Still s4 s' := by
      dsimp only at h
      split at h
      · obtain ⟨_, s5, h5, h⟩ := bind_inv h
        have k := keeps_ipNext engine_still _ _ _ h5
        exact engine_still.trans _ _ _ k (k5 _ (k.safe q4) h)
      · exact k5 _ q4 h
    have T := engine_still.trans
    exact T _ _ _ k2 (T _ _ _ k3 (T _ _ _ k4 k6))

/-- **C87** A program whose space has no character that any of its IPs understands as an instruction that stores in the space, or that loads, unloads or rebinds
instructions, is the same program for ever: after any number of turns every cell is what it was. (Switch mode must be off. The IPs need their twins to be like
themselves, as those of every program are from the start, see `C87_from_start`.) -/
theorem C87_no_self_modification (n : Nat) {u u' : Univ} (hm : hasMode u.g.cfg.mode modeSwitch = false) (hr : ∀ r ∈ u.runners, r.Harmless u.g.field)
    (ht : u.g.cfg.concurrent = false ∨ ∀ r ∈ u.runners, r.AsStarted) (h : u.turns n = .ok u') : u'.g.field = u.g.field := by
  induction n generalizing u with
  | zero => cases h; rfl
  | succ n ih =>
    unfold Univ.turns at h
    split at h
    · cases h
    · rename_i u1 h1
      rcases turn_cases h1 with ⟨_, rfl⟩ | ⟨r, rest, hu, ⟨_, rfl⟩ | ⟨_, s, hs, rfl⟩⟩
      · exact ih hm hr ht h
      · exact ih (u := ⟨rest, u.g⟩) hm (fun q hq => hr q (by rw [hu]; exact List.mem_cons_of_mem _ hq))
          (ht.imp id fun ht q hq => ht q (by rw [hu]; exact List.mem_cons_of_mem _ hq)) h
      · have hmem : r ∈ u.runners := by rw [hu]; exact List.mem_cons_self
        have hrest : ∀ q ∈ rest, q ∈ u.runners := fun q hq => by rw [hu]; exact List.mem_cons_of_mem _ hq
        have hsafe : St.Safe87 ⟨r, rest, u.g⟩ := ⟨⟨hm, ht.imp id fun ht => ht r hmem⟩, hr r hmem⟩
        obtain ⟨a1, a2, a3, a4, a5⟩ : St.Calm s ∧ _ := by
          unfold tick at hs
          obtain ⟨_, s2, h2, hs⟩ := bind_inv hs
          have k2 := keeps_getFuel engine_still _ _ _ h2
          exact engine_still.trans _ _ _ k2 (tickLoop_still _ (k2.safe hsafe) hs) hsafe.1
        have key : ∀ q ∈ s.univ.runners, ∃ p ∈ u.runners, q.mind = p.mind := by
          intro q hq
          have hq' : q ∈ s.rest ∨ q = s.cur := by
            unfold St.univ at hq
            dsimp only at hq
            split at hq
            · exact .inl hq
            · exact (List.mem_append.1 hq).imp id List.mem_singleton.1
          rcases hq' with hq | rfl
          · rcases a5 q hq with ⟨p, hp, e⟩ | e
            · exact ⟨p, hrest p hp, e⟩
            · exact ⟨r, hmem, e⟩
          · exact ⟨r, hmem, a4⟩
        have hf : s.univ.g.field = u.g.field := a2
        refine (ih (u := s.univ) a1.1 (fun q hq => ?_) ?_ h).trans hf
        · obtain ⟨p, hp, e⟩ := key q hq
          rw [hf]
          exact (hr p hp).congr e
        · refine ht.imp (fun ht => a3.trans ht) fun ht q hq => ?_
          obtain ⟨p, hp, e⟩ := key q hq
          exact (ht p hp).congr e

/-! ### From the start of a program -/

/-- `(`, `)`, `i`, `p` and `s`. -/
def storers : List Int := [40, 41, 105, 112, 115]

instance : DecidablePred Op.stores := fun op => by unfold Op.stores; split <;> infer_instance
instance : DecidablePred Op.changesTable := fun op => by unfold Op.changesTable; split <;> infer_instance

theorem mem_meanings_of {l : List (Int × Sem)} {c : Int} {m : Sem} (h : m ∈ meanings l c) : (c, m) ∈ l := by
  unfold meanings at h
  rw [List.mem_reverse] at h
  obtain ⟨p, hp, rfl⟩ := List.mem_map.1 h
  obtain ⟨h1, h2⟩ := List.mem_filter.1 hp
  have : p.1 = c := by simpa using h2
  rw [← this]; exact h1

/-- What an IP understands at the start. -/
theorem newRunner_harmless {cfg : Cfg} (h : cfg.standard ≠ -2) (id : Nat) (pos delta : Vec) {c : Int} (hc : c ∉ storers) (hl : cfg.fingerprints = [] ∨ ¬ (65 ≤ c ∧ c ≤ 90))
    {sem : Sem} (hs : (newRunner cfg id pos delta).getSem c = some sem) : ¬ sem.op.stores ∧ ¬ sem.op.changesTable := by
  have key : ∀ (S : List Strat) (r : Runner), (∀ st ∈ S, st ≠ .starfish) → (∀ m ∈ r.sems c, ¬ m.op.stores ∧ ¬ m.op.changesTable) →
      ∀ m ∈ (S.foldl (Strat.init cfg.fingerprints) r).sems c, ¬ m.op.stores ∧ ¬ m.op.changesTable := by
    intro S
    induction S with
    | nil => intro r _ h; exact h
    | cons st t ih =>
      intro r hS hr
      refine ih _ (fun x hx => hS x (List.mem_cons_of_mem _ hx)) ?_
      have hpush : ∀ (l : List (Int × Sem)) (r : Runner), (∀ p ∈ l, p.1 ∈ storers ∨ ¬ p.2.op.stores ∧ ¬ p.2.op.changesTable) →
          (∀ m ∈ r.sems c, ¬ m.op.stores ∧ ¬ m.op.changesTable) → ∀ m ∈ (r.pushSems l).sems c, ¬ m.op.stores ∧ ¬ m.op.changesTable := by
        intro l r h1 h2 m hm
        rw [pushSems_sems] at hm
        rcases List.mem_append.1 hm with hm | hm
        · exact (h1 (c, m) (mem_meanings_of hm)).resolve_left hc
        · exact h2 m hm
      have hload : ∀ m ∈ (r.loadFps cfg.fingerprints).sems c, ¬ m.op.stores ∧ ¬ m.op.changesTable := by
        rcases hl with hl | hl
        · rw [hl]; exact hr
        · rw [loadFps_sems_other _ _ hl]; exact hr
      have hst := hS st List.mem_cons_self
      cases st
      case starfish => exact absurd rfl hst
      case une98 => exact hpush semsUne98 _ (by decide) hload
      case une93 => exact hpush semsUne93 r (by decide) hr
      case be93 => exact hpush semsBe93 r (by decide) hr
      case be98 => exact hpush semsBe98 r (by decide) hr
      case tre98 => exact hpush semsTre98 r (by decide) hr
      case fish => exact hpush semsFish r (by decide) hr
  refine key (strategiesFor cfg) { id := id, strats := strategiesFor cfg } ?_ (fun m hm => absurd hm (by simp)) sem ?_
  · unfold strategiesFor
    repeat' split
    all_goals first | contradiction | (intro st hst; rintro rfl; simp at hst)
  · have : (newRunner cfg id pos delta).sems = ((strategiesFor cfg).foldl (Strat.init cfg.fingerprints) ({ id := id, strats := strategiesFor cfg } : Runner)).sems := by
      unfold newRunner
      dsimp only
      rw [notifyDelta_sems]
    unfold Runner.getSem at hs
    rw [this] at hs
    exact List.mem_of_mem_head? hs

/-- **C87** A program of any standard but *><>, none of whose cells (modulo 256) is `(`, `)`, `i`, `p` or `s` (nor a letter, if it starts with fingerprints loaded), never
changes itself: however long it runs, on whatever input, every cell is what it was at the start. -/
theorem C87_from_start (n : Nat) {g : Glob} {u' : Univ} {pos delta : Vec} (hst : g.cfg.standard ≠ -2) (hm : hasMode g.cfg.mode modeSwitch = false)
    (hc : ∀ v, g.field.get v ∉ storers ∧ toChar (g.field.get v) ∉ storers)
    (hl : g.cfg.fingerprints = [] ∨ ∀ v, ¬ (65 ≤ g.field.get v ∧ g.field.get v ≤ 90) ∧ ¬ (65 ≤ toChar (g.field.get v) ∧ toChar (g.field.get v) ≤ 90))
    (h : Univ.turns n ⟨[newRunner g.cfg g.nextId pos delta], g⟩ = .ok u') : ∀ v, u'.g.field.get v = g.field.get v := by
  have := C87_no_self_modification n (u := ⟨[newRunner g.cfg g.nextId pos delta], g⟩) hm (fun r hr => ?_)
    (.inr fun r hr => by rw [List.mem_singleton.1 hr]; exact newRunner_asStarted hst _ _ _) h
  · intro v; rw [this]
  · rw [List.mem_singleton.1 hr]
    intro c ⟨v, hv⟩ sem hsem
    refine newRunner_harmless hst _ _ _ ?_ ?_ hsem
    · rcases hv with rfl | rfl
      · exact (hc v).1
      · exact (hc v).2
    · refine hl.imp id fun hl => ?_
      rcases hv with rfl | rfl
      · exact (hl v).1
      · exact (hl v).2

/-! ### Examples -/

/-- Every cell of a space without 8-bit cells is blank or holds one of the values stored. -/
theorem get_stored {f : Field} (hf : f.charCells = false) (v : Vec) : f.get v = 32 ∨ f.get v ∈ f.cells.map (·.2) := by
  unfold Field.get
  rw [hf]
  generalize f.cells = l
  induction l with
  | nil => exact .inl rfl
  | cons p t ih =>
    obtain ⟨k, x⟩ := p
    unfold Field.find
    split
    · rename_i y hy
      split at hy
      · cases hy; exact .inr (List.mem_cons_self)
      · rw [hy] at ih
        exact ih.imp id (List.mem_cons_of_mem _)
    · exact .inl rfl

/-- `12+t.7k1@`: starts a twin, prints and uses `k`. -/
def exQuiet : St := machine [49, 50, 43, 116, 46, 55, 107, 49, 64]

/-- The universe of a state. -/
def St.start (s : St) : Univ := ⟨[s.cur], s.g⟩

/-- The hypotheses of `C87_from_start`; the program has two IPs after four turns and runs until the end. -/
example : exQuiet.g.cfg.standard ≠ -2 ∧ hasMode exQuiet.g.cfg.mode modeSwitch = false ∧
    (∀ v, exQuiet.g.field.get v ∉ storers ∧ toChar (exQuiet.g.field.get v) ∉ storers) ∧ exQuiet.g.cfg.fingerprints = [] ∧
    (exQuiet.start.turns 4).toOption.map (·.runners.length) = some 2 ∧ (exQuiet.start.turns 20).toOption.map (·.runners.length) = some 0 := by
  refine ⟨by decide +kernel, by decide +kernel, fun v => ?_, by decide +kernel, by decide +kernel, by decide +kernel⟩
  have all : ∀ c ∈ exQuiet.g.field.cells.map (·.2), c ∉ storers ∧ toChar c ∉ storers := by decide +kernel
  rcases get_stored (f := exQuiet.g.field) (by decide +kernel) v with h | h
  · rw [h]; decide
  · exact all _ h

/-- The hypotheses of `C87_instruction`: `g`, and G of TOYS. -/
example : ¬ Op.get.stores ∧ Op.get ≠ .iterate ∧ ¬ (Op.fing .TOYS 71).stores ∧ hasMode exQuiet.g.cfg.mode modeSwitch = false := by decide +kernel

/-- The low byte matters: a cell 368 is no instruction, but `k` has it executed as `p` (112 = 368 mod 256), which stores the 7 at (3, 0). -/
theorem C87_false_without_low_byte : (machine [107, 368]).cur.getSem 368 = none ∧
    ((tick ((machine [107, 368]).setItems [1, 0, 3, 7] 4)).toOption.map fun r => (r.2.g.field.get (Vec.ofList [3, 0]), r.2.items)) = some (7, []) := by decide +kernel

/-- In switch mode `[` replaces itself by `]`, though it is not among the instructions that store. -/
theorem C87_false_in_switch_mode : ¬ Op.left.stores ∧
    ((tick (machineWith { dims := 2, standard := 98, mode := modeSwitch } [[91], [64]])).toOption.map fun r => r.2.g.field.get (Vec.ofList [0, 0])) = some 93 := by
  decide +kernel

end Funge
