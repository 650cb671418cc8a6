import Verif.Lemmas.Univ
import Verif.Lemmas.Tick
/-
C32 (features that are switched off), and the half of C42 that concerns every execution.
-/
namespace Funge
open Exec

/-! ### Specification -/

/-- Does this effect run a command? -/
def Eff.isCommand : Eff → Bool
  | .system _ => true
  | _ => false

/-- Does this effect touch the file system? -/
def Eff.isFile : Eff → Bool
  | .openRead _ | .openWrite _ | .writeFile _ _ | .chdir _ | .mkdir _ | .rmdir _ => true
  | _ => false

/-- Is this one of the directory effects of DIRF? -/
def Eff.isDir : Eff → Bool
  | .chdir _ | .mkdir _ | .rmdir _ => true
  | _ => false

/-! ### What ticks can do -/

/-- The effects of a stretch of execution are all of a kind `P`, which depends on the configuration. -/
def Effects (P : Cfg → Eff → Prop) (g g' : Glob) : Prop :=
  (g'.cfg.execute = g.cfg.execute ∧ g'.cfg.filesystem = g.cfg.filesystem ∧ g'.cfg.concurrent = g.cfg.concurrent ∧
    g'.cfg.fingerprint = g.cfg.fingerprint) ∧ ∃ new, g'.eff = g.eff ++ new ∧ ∀ e ∈ new, P g.cfg e

/-- A kind of effect that depends on the permissions only. -/
def OfPerm (P : Cfg → Eff → Prop) : Prop := ∀ c c' e, c'.execute = c.execute → c'.filesystem = c.filesystem → P c e → P c' e

theorem Effects.refl (P : Cfg → Eff → Prop) (g : Glob) : Effects P g g :=
  ⟨⟨rfl, rfl, rfl, rfl⟩, [], (List.append_nil _).symm, fun _ h => nomatch h⟩

theorem Effects.trans {P : Cfg → Eff → Prop} (hP : OfPerm P) {a b c : Glob} (h : Effects P a b) (h' : Effects P b c) : Effects P a c := by
  obtain ⟨⟨h1, h2, h3, h4⟩, n, hn, hp⟩ := h
  obtain ⟨⟨k1, k2, k3, k4⟩, m, hm, hq⟩ := h'
  refine ⟨⟨k1.trans h1, k2.trans h2, k3.trans h3, k4.trans h4⟩, n ++ m, by rw [hm, hn, List.append_assoc], ?_⟩
  intro e he
  rcases List.mem_append.1 he with he | he
  · exact hp e he
  · exact hP _ _ e h1.symm h2.symm (hq e he)

theorem Effects.none {P : Cfg → Eff → Prop} {g g' : Glob} (h : g'.eff = g.eff)
    (hc : g'.cfg.execute = g.cfg.execute ∧ g'.cfg.filesystem = g.cfg.filesystem ∧ g'.cfg.concurrent = g.cfg.concurrent ∧
      g'.cfg.fingerprint = g.cfg.fingerprint) : Effects P g g' :=
  ⟨hc, [], by rw [h, List.append_nil], fun _ h => nomatch h⟩

theorem Effects.one {P : Cfg → Eff → Prop} {g : Glob} {e : Eff} (h : P g.cfg e) : Effects P g { g with eff := g.eff ++ [e] } :=
  ⟨⟨rfl, rfl, rfl, rfl⟩, [e], rfl, fun e' he => by cases List.mem_singleton.1 he; exact h⟩

theorem engine_effects {P : Cfg → Eff → Prop} (hP : OfPerm P) (hout : ∀ c b, P c (.out b)) (hsys : ∀ c b, c.execute = true → P c (.system b))
    (hr : ∀ c b, c.filesystem = true → P c (.openRead b)) (hw : ∀ c b, c.filesystem = true → P c (.openWrite b))
    (hf : ∀ c b d, c.filesystem = true → P c (.writeFile b d)) : Engine fun s s' => Effects P s.g s'.g where
  refl _ := .refl _ _
  trans _ _ _ h h' := h.trans hP h'
  stack _ _ _ _ _ _ := .refl _ _
  ssPush _ := .refl _ _
  ssPop _ _ _ := .refl _ _
  ssInsert _ _ _ _ := .refl _ _
  ssRemove _ _ _ _ := .refl _ _
  ssInc _ := .refl _ _
  ssDec _ := .refl _ _
  ip _ _ _ := .refl _ _
  stop _ := .refl _ _
  core _ _ _ := .refl _ _
  sems _ _ _ _ _ := .refl _ _
  load _ _ _ _ _ := .refl _ _
  glob _ _ _ _ _ := .none rfl ⟨rfl, rfl, rfl, rfl⟩
  ref _ _ _ _ := .none rfl ⟨rfl, rfl, rfl, rfl⟩
  out _ b := .one (hout _ b)
  system _ b h := .one (hsys _ b h)
  openRead _ b h := .one (hr _ b h)
  openWrite _ b h := .one (hw _ b h)
  writeFile _ b c h := .one (hf _ b c h)
  put _ _ _ := .none rfl ⟨rfl, rfl, rfl, rfl⟩
  parse _ _ _ _ _ := .none rfl ⟨rfl, rfl, rfl, rfl⟩
  dims _ _ _ := .none rfl ⟨rfl, rfl, rfl, rfl⟩
  clone _ _ _ _ := .none rfl ⟨rfl, rfl, rfl, rfl⟩
  kill _ _ := .none rfl ⟨rfl, rfl, rfl, rfl⟩
  mode _ _ := .none rfl ⟨rfl, rfl, rfl, rfl⟩

/-- The effects that are permitted, DIRF apart. -/
def Permitted (c : Cfg) (e : Eff) : Prop :=
  (e.isCommand = true → c.execute = true) ∧ (e.isFile = true → e.isDir = false → c.filesystem = true)

theorem keeps_permitted : Keeps (fun s s' => Effects Permitted s.g s'.g) tick := by
  refine keeps_tick (engine_effects ?_ ?_ ?_ ?_ ?_ ?_) ?_ ?_
  · intro c c' e h h' ⟨hp, hq⟩
    exact ⟨fun he => h.trans (hp he), fun he hd => h'.trans (hq he hd)⟩
  · intro c b; exact ⟨nofun, nofun⟩
  · intro c b h; exact ⟨fun _ => h, nofun⟩
  · intro c b h; exact ⟨nofun, fun _ _ => h⟩
  · intro c b h; exact ⟨nofun, fun _ _ => h⟩
  · intro c b d h; exact ⟨nofun, fun _ _ => h⟩
  · intro s a b r st st' _ _ _; exact .refl _ _
  · refine ⟨fun s b => .one ⟨nofun, nofun⟩, fun s b => .one ⟨nofun, nofun⟩, fun s b => .one ⟨nofun, nofun⟩⟩

theorem permitted_trans {a b c : Glob} (h : Effects Permitted a b) (h' : Effects Permitted b c) : Effects Permitted a c :=
  h.trans (fun _ _ _ h h' ⟨hp, hq⟩ => ⟨fun he => h.trans (hp he), fun he hd => h'.trans (hq he hd)⟩) h'

theorem turns_permitted {n : Nat} {u u' : Univ} (h : u.turns n = .ok u') : Effects Permitted u.g u'.g :=
  turns_glob (Effects.refl _) (fun _ _ _ => permitted_trans) keeps_permitted h

/-- **C42** over executions: what was written stays written; a run only appends. (`C42_num_partial` and `C42_char` say what each of the two output
instructions appends.) -/
theorem C42_append_only {n : Nat} {u u' : Univ} (h : u.turns n = .ok u') : ∃ new, u'.g.eff = u.g.eff ++ new :=
  have ⟨_, new, h, _⟩ := turns_permitted h
  ⟨new, h⟩

/-- **C32**: with `-fno-execute` no program runs a command, however long it runs. -/
theorem C32_no_execute {n : Nat} {u u' : Univ} (h : u.turns n = .ok u') (hx : u.g.cfg.execute = false) :
    ∃ new, u'.g.eff = u.g.eff ++ new ∧ ∀ e ∈ new, e.isCommand = false := by
  obtain ⟨_, new, h, hp⟩ := turns_permitted h
  refine ⟨new, h, fun e he => ?_⟩
  cases hc : e.isCommand with
  | false => rfl
  | true => have := (hp e he).1 hc; rw [hx] at this; cases this

/-- **C32**: no program changes its permissions. -/
theorem C32_permissions_kept {n : Nat} {u u' : Univ} (h : u.turns n = .ok u') :
    u'.g.cfg.execute = u.g.cfg.execute ∧ u'.g.cfg.filesystem = u.g.cfg.filesystem ∧ u'.g.cfg.concurrent = u.g.cfg.concurrent ∧
      u'.g.cfg.fingerprint = u.g.cfg.fingerprint :=
  (turns_permitted h).1

/-- **C32** for the file system, partial: DIRF can still change directories, create and remove them (`C32_false_for_DIRF`). Every other access is
prevented. -/
theorem C32_no_filesystem_partial {n : Nat} {u u' : Univ} (h : u.turns n = .ok u') (hx : u.g.cfg.filesystem = false) :
    ∃ new, u'.g.eff = u.g.eff ++ new ∧ ∀ e ∈ new, e.isFile = true → e.isDir = true := by
  obtain ⟨_, new, h, hp⟩ := turns_permitted h
  refine ⟨new, h, fun e he hf => ?_⟩
  cases hc : e.isDir with
  | true => rfl
  | false => have := (hp e he).2 hf hc; rw [hx] at this; cases this

/-! ### One IP without concurrency -/

def Single (s s' : St) : Prop := s'.g.cfg.concurrent = s.g.cfg.concurrent ∧ (s.g.cfg.concurrent = false → s'.rest.length = s.rest.length)

theorem engine_single : Engine Single where
  refl _ := ⟨rfl, fun _ => rfl⟩
  trans _ _ _ h h' := ⟨h'.1.trans h.1, fun k => (h'.2 (h.1.trans k)).trans (h.2 k)⟩
  stack _ _ _ _ _ _ := ⟨rfl, fun _ => rfl⟩
  ssPush _ := ⟨rfl, fun _ => rfl⟩
  ssPop _ _ _ := ⟨rfl, fun _ => rfl⟩
  ssInsert _ _ _ _ := ⟨rfl, fun _ => rfl⟩
  ssRemove _ _ _ _ := ⟨rfl, fun _ => rfl⟩
  ssInc _ := ⟨rfl, fun _ => rfl⟩
  ssDec _ := ⟨rfl, fun _ => rfl⟩
  ip _ _ _ := ⟨rfl, fun _ => rfl⟩
  stop _ := ⟨rfl, fun _ => rfl⟩
  core _ _ _ := ⟨rfl, fun _ => rfl⟩
  sems _ _ _ _ _ := ⟨rfl, fun _ => rfl⟩
  load _ _ _ _ _ := ⟨rfl, fun _ => rfl⟩
  glob _ _ _ _ _ := ⟨rfl, fun _ => rfl⟩
  ref _ _ _ _ := ⟨rfl, fun _ => rfl⟩
  out _ _ := ⟨rfl, fun _ => rfl⟩
  system _ _ _ := ⟨rfl, fun _ => rfl⟩
  openRead _ _ _ := ⟨rfl, fun _ => rfl⟩
  openWrite _ _ _ := ⟨rfl, fun _ => rfl⟩
  writeFile _ _ _ _ := ⟨rfl, fun _ => rfl⟩
  put _ _ _ := ⟨rfl, fun _ => rfl⟩
  parse _ _ _ _ _ := ⟨rfl, fun _ => rfl⟩
  dims _ _ _ := ⟨rfl, fun _ => rfl⟩
  clone _ _ h _ := ⟨rfl, fun k => by rw [h] at k; cases k⟩
  kill _ _ := ⟨rfl, fun _ => List.length_map _⟩
  mode _ _ := ⟨rfl, fun _ => List.length_map _⟩

/-- **C32**: with `-fno-concurrent` there is never more than one IP. -/
theorem C32_no_concurrent {n : Nat} {u u' : Univ} (h : u.turns n = .ok u') (hx : u.g.cfg.concurrent = false) (h1 : u.runners.length ≤ 1) :
    u'.runners.length ≤ 1 := by
  have key := turns_lift (Q := fun u u' => u'.g.cfg.concurrent = u.g.cfg.concurrent ∧
      (u.g.cfg.concurrent = false → u.runners.length ≤ 1 → u'.runners.length ≤ 1)) (fun _ => ⟨rfl, fun _ h => h⟩)
    (fun _ _ _ h h' => ⟨h'.1.trans h.1, fun k l => h'.2 (h.1.trans k) (h.2 k l)⟩) ?_ n u u' h
  · exact key.2 hx h1
  · intro u u' h
    rcases turn_cases h with ⟨_, rfl⟩ | ⟨r, rest, hr, ⟨_, rfl⟩ | ⟨_, s, hs, rfl⟩⟩
    · exact ⟨rfl, fun _ h => h⟩
    · refine ⟨rfl, fun _ h => ?_⟩
      rw [hr] at h
      exact Nat.le_trans (Nat.le_succ _) h
    · have hk := keeps_tick engine_single (fun s a b r st st' hr _ _ => ⟨rfl, fun _ => by simp [hr]⟩)
        ⟨fun _ _ => ⟨rfl, fun _ => rfl⟩, fun _ _ => ⟨rfl, fun _ => rfl⟩, fun _ _ => ⟨rfl, fun _ => rfl⟩⟩ _ _ _ hs
      refine ⟨hk.1, fun k l => ?_⟩
      have := hk.2 k
      rw [hr] at l
      unfold St.univ
      dsimp only at this ⊢
      split
      · rw [this]; exact Nat.le_trans (Nat.le_succ _) l
      · rw [List.length_append, this]; exact l

/-! ### The complete sandbox -/

/-- A runner that cannot execute an instruction of DIRF, nor can its twins. -/
def Runner.noDIRF (r : Runner) : Prop := (∀ c m, m ∈ r.sems c → ¬ m.op.changesDirs) ∧ 0x44495246 ∉ r.loaded

theorem ofId_DIRF {id : Nat} {f : Fp} (h : Fp.ofId id = some f) (hid : id ≠ 0x44495246) : f ≠ .DIRF := by
  intro e
  subst e
  unfold Fp.ofId at h
  split at h <;> first | (cases h; done) | exact hid rfl

theorem bindings_noDirs {f : Fp} (hf : f ≠ .DIRF) : ∀ p ∈ f.bindings, ¬ p.2.op.changesDirs := by
  intro p hp hc
  cases f
  case DIRF => exact hf rfl
  case DBUG => cases hp
  all_goals
    obtain ⟨c, _, rfl⟩ := List.mem_map.1 hp
    exact hc

/-- Not an instruction of a fingerprint. -/
def Op.plain : Op → Bool
  | .fing _ _ => false
  | _ => true

theorem table_plain (st : Strat) : ∀ p ∈ st.table, p.2.op.plain = true := by
  cases st <;> decide +kernel

theorem plain_noDirs {op : Op} (h : op.plain = true) : ¬ op.changesDirs := by
  cases op
  case fing => cases h
  all_goals exact id

theorem table_noDirs (st : Strat) : ∀ p ∈ st.table, ¬ p.2.op.changesDirs := fun p hp => plain_noDirs (table_plain st p hp)

theorem mem_meanings {l : List (Int × Sem)} {c : Int} {m : Sem} (h : m ∈ meanings l c) : ∃ p ∈ l, p.2 = m := by
  unfold meanings at h
  obtain ⟨p, hp, rfl⟩ := List.mem_map.1 (List.mem_reverse.1 h)
  exact ⟨p, (List.mem_filter.1 hp).1, rfl⟩

theorem pushSems_noDirs {l : List (Int × Sem)} (hl : ∀ p ∈ l, ¬ p.2.op.changesDirs) {r : Runner} (hr : r.noDIRF) : (r.pushSems l).noDIRF := by
  refine ⟨fun c m hm => ?_, ?_⟩
  · rw [pushSems_sems] at hm
    rcases List.mem_append.1 hm with hm | hm
    · obtain ⟨p, hp, rfl⟩ := mem_meanings hm
      exact hl p hp
    · exact hr.1 c m hm
  · rw [pushSems_eq]; exact hr.2

theorem loadFp_noDirs {r r' : Runner} {id : Nat} (h : r.loadFp id = some r') (hid : id ≠ 0x44495246) (hr : r.noDIRF) : r'.noDIRF := by
  unfold Runner.loadFp at h
  split at h
  · cases h
  · rename_i f hf
    rw [← Option.some.inj h, activate_eq]
    refine pushSems_noDirs (bindings_noDirs (ofId_DIRF hf hid)) ⟨hr.1, ?_⟩
    intro hm
    rcases List.mem_append.1 hm with hm | hm
    · exact hr.2 hm
    · exact hid (List.mem_singleton.1 hm).symm

theorem loadFps_noDirs (l : List Nat) {r : Runner} (hl : 0x44495246 ∉ l) (hr : r.noDIRF) : (r.loadFps l).noDIRF := by
  unfold Runner.loadFps
  induction l generalizing r with
  | nil => exact hr
  | cons id t ih =>
    rw [List.foldl_cons]
    refine ih (fun h => hl (List.mem_cons_of_mem _ h)) ?_
    cases h : r.loadFp id with
    | none => exact hr
    | some r' => exact loadFp_noDirs h (fun e => hl (e ▸ List.mem_cons_self)) hr

theorem init_noDirs (fps : List Nat) (st : Strat) {r : Runner} (hl : 0x44495246 ∉ fps) (hr : r.noDIRF) : (st.init fps r).noDIRF := by
  have ht := table_noDirs st
  cases st <;> unfold Strat.init <;> dsimp only
  case une98 => exact pushSems_noDirs ht (loadFps_noDirs _ hl hr)
  case starfish =>
    have h := pushSems_noDirs (fun p hp => ht p (List.mem_append_right _ hp))
      (pushSems_noDirs (fun p hp => ht p (List.mem_append_left _ hp)) hr)
    exact ⟨h.1, h.2⟩
  case une93 => exact ⟨(pushSems_noDirs ht hr).1, (pushSems_noDirs ht hr).2⟩
  case fish => exact ⟨(pushSems_noDirs ht hr).1, (pushSems_noDirs ht hr).2⟩
  all_goals exact pushSems_noDirs ht hr

theorem inits_noDirs (fps : List Nat) (l : List Strat) {r : Runner} (hl : 0x44495246 ∉ fps) (hr : r.noDIRF) :
    (l.foldl (Strat.init fps) r).noDIRF := by
  induction l generalizing r with
  | nil => exact hr
  | cons st t ih => exact ih (init_noDirs fps st hl hr)

theorem clone_noDirs {p r : Runner} {g : Glob} {id : Nat} (h : p.clone g id = .ok r) (hp : p.noDIRF) : r.noDIRF := by
  unfold Runner.clone at h
  dsimp only at h
  split at h
  · cases h
  · cases h
    have := inits_noDirs (r := { id := id, strats := p.strats.map Strat.cloned, ss := p.ss.copy, ip := p.ip, parent := some p.id }) p.loaded
      (p.strats.map Strat.cloned) hp.2 ⟨nofun, nofun⟩
    exact ⟨this.1, this.2⟩

theorem newRunner_noDirs {cfg : Cfg} (h : 0x44495246 ∉ cfg.fingerprints) (id : Nat) (pos delta : Vec) : (newRunner cfg id pos delta).noDIRF := by
  have h := inits_noDirs (r := { id := id, strats := strategiesFor cfg }) cfg.fingerprints (strategiesFor cfg) h ⟨nofun, nofun⟩
  unfold newRunner
  dsimp only
  refine ⟨?_, ?_⟩
  · rw [notifyDelta_sems]; exact h.1
  · rw [(notifyDelta_core _).loaded]; exact h.2

theorem ofPerm_files : OfPerm fun c e => e.isFile = true → c.filesystem = true := fun _ _ _ _ h hp he => h.trans (hp he)

/-- No fingerprints can be loaded and none of the runners knows DIRF. -/
def Boxed (s : St) : Prop := s.g.cfg.fingerprint = false ∧ s.cur.noDIRF ∧ ∀ r ∈ s.rest, r.noDIRF

/-- From a boxed state: the state stays boxed and only what is permitted happens. -/
def Confined (s s' : St) : Prop := Boxed s → Boxed s' ∧ Effects (fun c e => e.isFile = true → c.filesystem = true) s.g s'.g

theorem Confined.same {s s' : St} (hg : s'.g = s.g) (hr : s'.rest = s.rest) (hs : s'.cur.sems = s.cur.sems) (hl : s'.cur.loaded = s.cur.loaded) :
    Confined s s' := fun ⟨b1, b2, b3⟩ =>
  ⟨⟨by rw [hg]; exact b1, ⟨by rw [hs]; exact b2.1, by rw [hl]; exact b2.2⟩, by rw [hr]; exact b3⟩, by rw [hg]; exact .refl _ _⟩

theorem Confined.glob {s : St} {g' : Glob} (h : Effects (fun c e => e.isFile = true → c.filesystem = true) s.g g') :
    Confined s { s with g := g' } := fun ⟨b1, b2, b3⟩ => ⟨⟨h.1.2.2.2.trans b1, b2, b3⟩, h⟩

theorem engine_confined : Engine Confined where
  refl _ := .same rfl rfl rfl rfl
  trans _ _ _ h h' := fun b => ⟨(h' (h b).1).1, (h b).2.trans ofPerm_files (h' (h b).1).2⟩
  stack _ _ _ _ _ _ := .same rfl rfl rfl rfl
  ssPush _ := .same rfl rfl rfl rfl
  ssPop _ _ _ := .same rfl rfl rfl rfl
  ssInsert _ _ _ _ := .same rfl rfl rfl rfl
  ssRemove _ _ _ _ := .same rfl rfl rfl rfl
  ssInc _ := .same rfl rfl rfl rfl
  ssDec _ := .same rfl rfl rfl rfl
  ip _ _ _ := .same rfl rfl rfl rfl
  stop _ := .same rfl rfl rfl rfl
  core _ _ h := .same rfl rfl h.sems h.loaded
  sems s t l hl ht := fun ⟨b1, b2, b3⟩ => ⟨⟨b1, ⟨fun c m hm => by
    rcases ht.known c m hm with ⟨c', h⟩ | h
    · exact b2.1 c' m h
    · subst h; exact id, fun h => b2.2 (hl _ h)⟩, b3⟩, .refl _ _⟩
  load s id r h _ := fun b => by rw [b.1] at h; cases h
  glob _ _ _ _ _ := .glob (.none rfl ⟨rfl, rfl, rfl, rfl⟩)
  ref _ _ _ _ := .glob (.none rfl ⟨rfl, rfl, rfl, rfl⟩)
  out s b := .glob (.one nofun)
  system s b h := .glob (.one nofun)
  openRead s b h := .glob (.one fun _ => h)
  openWrite s b h := .glob (.one fun _ => h)
  writeFile s b c h := .glob (.one fun _ => h)
  put _ _ _ := .glob (.none rfl ⟨rfl, rfl, rfl, rfl⟩)
  parse _ _ _ _ _ := .glob (.none rfl ⟨rfl, rfl, rfl, rfl⟩)
  dims _ _ _ := .glob (.none rfl ⟨rfl, rfl, rfl, rfl⟩)
  clone s r _ h := fun ⟨b1, b2, b3⟩ => ⟨⟨b1, b2, fun x hx => by
    rcases List.mem_append.1 hx with hx | hx
    · exact b3 x hx
    · cases List.mem_singleton.1 hx; exact clone_noDirs h b2⟩, .none rfl ⟨rfl, rfl, rfl, rfl⟩⟩
  kill s c := fun ⟨b1, b2, b3⟩ => ⟨⟨b1, b2, fun x hx => by
    obtain ⟨r, hr, rfl⟩ := List.mem_map.1 hx
    exact b3 r hr⟩, .none rfl ⟨rfl, rfl, rfl, rfl⟩⟩
  mode s m := fun ⟨b1, b2, b3⟩ => ⟨⟨b1, b2, fun x hx => by
    obtain ⟨r, hr, rfl⟩ := List.mem_map.1 hx
    exact b3 r hr⟩, .none rfl ⟨rfl, rfl, rfl, rfl⟩⟩

theorem others_confined : Others Confined := by
  intro s a b r st st' hr _ _ ⟨b1, b2, b3⟩
  refine ⟨⟨b1, b2, fun x hx => ?_⟩, .refl _ _⟩
  rw [hr] at b3
  rcases List.mem_append.1 hx with hx | hx
  · exact b3 x (List.mem_append_left _ hx)
  · rcases List.mem_cons.1 hx with rfl | hx
    · exact b3 r (List.mem_append_right _ List.mem_cons_self)
    · exact b3 x (List.mem_append_right _ (List.mem_cons_of_mem _ hx))

theorem keeps_confined : Keeps Confined tick := by
  refine keeps_tick_if engine_confined fun s i sem hs => ?_
  by_cases hb : Boxed s
  · refine .inl ⟨fun _ => others_confined, fun hd => absurd hd (hb.2.1.1 i sem ?_)⟩
    exact List.mem_of_mem_head? hs
  · exact .inr fun s' b => absurd b hb

/-- **C32** for the file system in full, when fingerprints are switched off as well: a program started with `-fno-filesystem -fno-fingerprint`
and without DIRF never reads or changes files or directories. -/
theorem C32_no_filesystem_boxed {n : Nat} {u u' : Univ} (h : u.turns n = .ok u') (hx : u.g.cfg.filesystem = false)
    (hf : u.g.cfg.fingerprint = false) (hr : ∀ r ∈ u.runners, r.noDIRF) :
    ∃ new, u'.g.eff = u.g.eff ++ new ∧ ∀ e ∈ new, e.isFile = false := by
  have key := turns_lift (Q := fun u u' => (u.g.cfg.fingerprint = false ∧ ∀ r ∈ u.runners, r.noDIRF) →
      (u'.g.cfg.fingerprint = false ∧ ∀ r ∈ u'.runners, r.noDIRF) ∧ Effects (fun c e => e.isFile = true → c.filesystem = true) u.g u'.g)
    (fun _ b => ⟨b, .refl _ _⟩)
    (fun _ _ _ h h' b => ⟨(h' (h b).1).1, (h b).2.trans ofPerm_files (h' (h b).1).2⟩) ?_ n u u' h
  · obtain ⟨_, _, new, h, hp⟩ := key ⟨hf, hr⟩
    refine ⟨new, h, fun e he => ?_⟩
    cases hc : e.isFile with
    | false => rfl
    | true => have := hp e he hc; rw [hx] at this; cases this
  · intro u u' h b
    rcases turn_cases h with ⟨_, rfl⟩ | ⟨r, rest, hr, ⟨_, rfl⟩ | ⟨_, s, hs, rfl⟩⟩
    · exact ⟨b, .refl _ _⟩
    · exact ⟨⟨b.1, fun x hx => b.2 x (hr ▸ List.mem_cons_of_mem _ hx)⟩, .refl _ _⟩
    · obtain ⟨⟨k1, k2, k3⟩, he⟩ := keeps_confined _ _ _ hs
        ⟨b.1, b.2 r (hr ▸ List.mem_cons_self), fun x hx => b.2 x (hr ▸ List.mem_cons_of_mem _ hx)⟩
      refine ⟨⟨k1, fun x hx => ?_⟩, he⟩
      unfold St.univ at hx
      dsimp only at hx
      split at hx
      · exact k3 x hx
      · rcases List.mem_append.1 hx with hx | hx
        · exact k3 x hx
        · cases List.mem_singleton.1 hx; exact k2

/-- The same from the start of a program: whatever is in its Fungespace. -/
theorem C32_no_filesystem_from_start {n : Nat} {g : Glob} {u' : Univ} {pos delta : Vec} (hx : g.cfg.filesystem = false)
    (hf : g.cfg.fingerprint = false) (hd : 0x44495246 ∉ g.cfg.fingerprints)
    (h : Univ.turns n ⟨[newRunner g.cfg g.nextId pos delta], g⟩ = .ok u') : ∃ new, u'.g.eff = g.eff ++ new ∧ ∀ e ∈ new, e.isFile = false :=
  C32_no_filesystem_boxed h hx hf fun r hr => by cases List.mem_singleton.1 hr; exact newRunner_noDirs hd _ _ _

/-! ### Examples and the counterexample -/

/-- Befunge-98 with everything switched off but fingerprints; `fps` are loaded at the start. -/
def exOff (fps : List Nat) : Cfg :=
  { dims := 2, standard := 98, concurrent := false, execute := false, filesystem := false, fingerprints := fps }

/-- The effects after `n` ticks. -/
def effAfter (s : St) (n : Nat) : Option (List Eff) :=
  match ticks n s with
  | .ok (_, s') => some s'.g.eff
  | .error _ => none

/-- The program `0"d"M@` with DIRF; the operating system agrees to what it is asked. -/
def exDirf : St :=
  let s := machineWith (exOff [0x44495246]) [[48, 34, 100, 34, 77, 64], [64]]
  { s with g := { s.g with dirs := fun _ => true } }

/-- **C32** is false of DIRF: with the file system (and everything else) switched off, `M` creates a directory. -/
theorem C32_false_for_DIRF : exDirf.g.cfg.filesystem = false ∧ exDirf.g.cfg.execute = false ∧ exDirf.g.cfg.concurrent = false ∧
    effAfter exDirf 5 = some [.mkdir [100]] := by decide +kernel

/-- The hypotheses are met by a program that tries `=` without success and prints something. -/
def exTry : St := machineWith { exOff [] with fingerprint := false } [[49, 46, 48, 61, 46, 64], [64]]
def exTryRun : Option (List Eff × Nat) :=
  match (Univ.turns 6 ⟨[exTry.cur], exTry.g⟩) with
  | .ok u => some (u.g.eff, u.runners.length)
  | .error _ => none
example : exTryRun = some ([.out [49, 32], .out [48, 32]], 1) := by decide +kernel

end Funge
