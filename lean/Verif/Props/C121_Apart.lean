import Verif.Props.C119_Worlds
/-
C121: a universe among others does what it does on its own.
-/
namespace Funge
open Exec MExec

/-! ### Specification -/

/-- The universe of that name, with what the process shares, as a universe on its own. -/
def World.seenAs (w : World) (name : List Int) : Option Univ := (w.unis.find? (·.cfg.name == name)).map fun u =>
  ⟨u.runners, { w.proc with field := u.field, cfg := u.cfg, running := u.running, exitcode := u.exitcode, breakpoints := u.breakpoints, watchpoints := u.watchpoints }⟩

/-- Everybody there is from there, and knows no way to other universes: MVRS is not loaded and cannot be. -/
def Uni.Lone (u : Uni) : Prop := u.cfg.fingerprint = false ∧ ∀ r ∈ u.runners, r.noMVRS ∧ r.home = none

/-! ### One tick -/

/-- Likewise, for a state within a turn. -/
def Lone (s : St) : Prop := Shut s ∧ s.cur.home = none ∧ (∀ r ∈ s.rest, r.home = none) ∧ 0 < s.g.fuel

def StaysLone (s s' : St) : Prop := Lone s → Lone s'

theorem StaysLone.same {s s' : St} (h : StaysShut s s') (h1 : s'.cur.home = s.cur.home) (h2 : s'.rest.map (·.home) = s.rest.map (·.home)) (h3 : s'.g.fuel = s.g.fuel) :
    StaysLone s s' := fun ⟨b1, b2, b3, b4⟩ => ⟨h b1, h1.trans b2, fun r hr => by
    have : r.home ∈ s'.rest.map (·.home) := List.mem_map_of_mem hr
    rw [h2] at this
    obtain ⟨q, hq, e⟩ := List.mem_map.1 this
    exact e.symm.trans (b3 q hq), by rw [h3]; exact b4⟩

theorem pushSems_home (l : List (Int × Sem)) (r : Runner) : (r.pushSems l).home = r.home := by rw [pushSems_eq]

theorem loadFps_home (l : List Nat) (r : Runner) : (r.loadFps l).home = r.home := by
  unfold Runner.loadFps
  induction l generalizing r with
  | nil => rfl
  | cons id t ih =>
    rw [List.foldl_cons, ih]
    cases h : r.loadFp id with
    | none => rfl
    | some r' =>
      unfold Runner.loadFp at h
      split at h
      · cases h
      · rw [← Option.some.inj h, activate_eq, Option.getD_some, pushSems_home]

theorem inits_home (fps : List Nat) (l : List Strat) (r : Runner) : (l.foldl (Strat.init fps) r).home = r.home := by
  induction l generalizing r with
  | nil => rfl
  | cons st t ih =>
    rw [List.foldl_cons, ih]
    cases st <;> unfold Strat.init <;> dsimp only <;> simp only [pushSems_home, loadFps_home]

theorem clone_home {p r : Runner} {g : Glob} {id : Nat} (h : p.clone g id = .ok r) : r.home = none := by
  unfold Runner.clone at h
  dsimp only at h
  split at h
  · cases h
  · cases h
    exact inits_home p.loaded _ _

theorem engine_lone : Engine StaysLone where
  refl _ := id
  trans _ _ _ h h' := fun b => h' (h b)
  stack s x st st' h h' := .same (engine_shut.stack s x st st' h h') rfl rfl rfl
  ssPush s := .same (engine_shut.ssPush s) rfl rfl rfl
  ssPop s ss h := .same (engine_shut.ssPop s ss h) rfl rfl rfl
  ssInsert s n ss h := .same (engine_shut.ssInsert s n ss h) rfl rfl rfl
  ssRemove s n ss h := .same (engine_shut.ssRemove s n ss h) rfl rfl rfl
  ssInc s := .same (engine_shut.ssInc s) rfl rfl rfl
  ssDec s := .same (engine_shut.ssDec s) rfl rfl rfl
  ip s ip h := .same (engine_shut.ip s ip h) rfl rfl rfl
  stop s := .same (engine_shut.stop s) rfl rfl rfl
  core s r h := .same (engine_shut.core s r h) h.home rfl rfl
  sems s t l h h' := .same (engine_shut.sems s t l h h') rfl rfl rfl
  load s id r h _ := fun b => by rw [b.1.1] at h; cases h
  glob s i a b w := .same (engine_shut.glob s i a b w) rfl rfl rfl
  ref s r v h := .same (engine_shut.ref s r v h) rfl rfl rfl
  out s b := .same (engine_shut.out s b) rfl rfl rfl
  system s b h := .same (engine_shut.system s b h) rfl rfl rfl
  openRead s b h := .same (engine_shut.openRead s b h) rfl rfl rfl
  openWrite s b h := .same (engine_shut.openWrite s b h) rfl rfl rfl
  writeFile s b c h := .same (engine_shut.writeFile s b c h) rfl rfl rfl
  put s v i := .same (engine_shut.put s v i) rfl rfl rfl
  parse s v b l h := .same (engine_shut.parse s v b l h) rfl rfl rfl
  dims s n h := .same (engine_shut.dims s n h) rfl rfl rfl
  clone s r h h' := fun b => ⟨engine_shut.clone s r h h' b.1, b.2.1, fun x hx => by
    rcases List.mem_append.1 hx with hx | hx
    · exact b.2.2.1 x hx
    · cases List.mem_singleton.1 hx; exact clone_home h', b.2.2.2⟩
  kill s c := .same (engine_shut.kill s c) rfl (by simp) rfl
  mode s m := .same (engine_shut.mode s m) rfl (by simp) rfl

theorem others_lone : Others StaysLone := fun s a b r st st' hr h h' => .same (others_shut s a b r st st' hr h h') rfl (by simp [hr]) rfl
theorem dirs_lone : Dirs StaysLone :=
  ⟨fun s b => .same (dirs_shut.1 s b) rfl rfl rfl, fun s b => .same (dirs_shut.2.1 s b) rfl rfl rfl, fun s b => .same (dirs_shut.2.2 s b) rfl rfl rfl⟩

theorem here_bind {α β : Type} (m : Exec α) (f : α → Exec β) (w : Multi) : (here m >>= fun a => here (f a)) w = here (m >>= f) w := by
  show MExec.seq (here m) _ w = _
  unfold MExec.seq here
  cases h : m w.st with
  | error e => rw [bind_error h]
  | ok p => obtain ⟨a, s⟩ := p; rw [bind_ok h]

theorem here_pure {α : Type} (a : α) (w : Multi) : (pure a : MExec α) w = here (pure a) w := rfl

/-- Sequencing where the continuations agree on the states there can be. -/
theorem mbind_here {α β : Type} {m : Exec α} {f : α → MExec β} {f' : α → Exec β} {w : Multi} (hw : Lone w.st) (hm : Keeps StaysLone m)
    (h : ∀ a s, Lone s → f a ⟨s, w.others⟩ = here (f' a) ⟨s, w.others⟩) : (here m >>= f) w = here (m >>= f') w := by
  show MExec.seq (here m) f w = _
  unfold MExec.seq
  cases hm' : m w.st with
  | error e =>
    have : here m w = .error e := by unfold here; rw [hm']
    rw [this]
    unfold here
    rw [bind_error hm']
  | ok p =>
    obtain ⟨a, s⟩ := p
    have : here m w = .ok (a, ⟨s, w.others⟩) := by unfold here; rw [hm']
    rw [this]
    dsimp only
    rw [h a s (hm _ _ _ hm' hw)]
    unfold here
    rw [bind_ok hm']

theorem mvGet_lone {w : Multi} (hw : Lone w.st) : mvGet w = here iGet w := by
  have B := engine_lone.toEngineB.base
  unfold mvGet iGet
  refine mbind_here hw (by keep B) fun st s hs => mbind_here hs (keeps_popVector B) fun v s hs => ?_
  have : Multi.homeField ⟨s, w.others⟩ = some s.g.field := by unfold Multi.homeField; rw [hs.2.1]
  rw [this]
  rfl

theorem mvPut_lone {w : Multi} (hw : Lone w.st) : mvPut w = here iPut w := by
  have B := engine_lone.toEngineB.base
  unfold mvPut iPut
  refine mbind_here hw (by keep B) fun st s hs => mbind_here hs (keeps_popVector B) fun v s hs => mbind_here hs (keeps_popTop B) fun x s hs => ?_
  rw [hs.2.1]
  rfl

theorem mvHere_lone {w : Multi} (hw : Lone w.st) : mvHere w = here ipGet w := by
  have : w.homeField = some w.st.g.field := by unfold Multi.homeField; rw [hw.2.1]
  unfold mvHere
  rw [this]
  rfl

theorem mbind_congr {α β : Type} {m m' : MExec α} (f : α → MExec β) {w : Multi} (h : m w = m' w) : (m >>= f) w = (m' >>= f) w := by
  show MExec.seq m f w = MExec.seq m' f w
  unfold MExec.seq
  rw [h]

theorem mvIterRun_lone {n : Nat} (ih : ∀ (i : Int) (w : Multi), Lone w.st → mexecuteIn n i w = here (execute n i) w) (c : Int) (k : Nat) :
    ∀ w : Multi, Lone w.st → mvIterRun (mexecuteIn n) c k w = here (iterRun (execute n) c k) w := by
  induction k with
  | zero => exact fun w _ => rfl
  | succ k hk =>
    intro w hw
    unfold mvIterRun iterRun
    rw [mbind_congr _ (ih c w hw)]
    exact mbind_here hw (keeps_execute engine_lone (fits_of others_lone dirs_lone) _ _) fun _ s hs => hk _ hs

theorem mvIterate_lone {n : Nat} (ih : ∀ (i : Int) (w : Multi), Lone w.st → mexecuteIn n i w = here (execute n i) w) {w : Multi} (hw : Lone w.st) :
    mvIterate (mexecuteIn n) w = here (iIterate (execute n)) w := by
  have B := engine_lone.toEngineB.base
  unfold mvIterate iIterate
  refine mbind_here hw (by keep B) fun v s hs => mbind_here (w := ⟨s, w.others⟩) hs (keeps_ipNext B) fun _ s hs => ?_
  rw [mbind_congr _ (mvHere_lone (w := ⟨s, w.others⟩) hs)]
  refine mbind_here (w := ⟨s, w.others⟩) hs (keeps_ipGet B) fun c s hs => mbind_here (w := ⟨s, w.others⟩) hs (by keep B) fun m s hs =>
    mbind_here (w := ⟨s, w.others⟩) hs (keeps_iterSearch B _ _) fun c s hs => mbind_here (w := ⟨s, w.others⟩) hs (by keep B) fun _ s hs =>
    mbind_here (w := ⟨s, w.others⟩) hs (keeps_popTop B) fun x s hs => ?_
  rw [mbind_congr _ (mvIterRun_lone ih c (toInt x).toNat ⟨s, w.others⟩ hs)]
  refine mbind_here (w := ⟨s, w.others⟩) hs (keeps_iterRun B (fun c => keeps_execute engine_lone (fits_of others_lone dirs_lone) _ c) _ _) fun _ s hs => ?_
  dsimp only
  split
  · exact mbind_here (w := ⟨s, w.others⟩) hs (keeps_ipNext B) fun _ s _ => rfl
  · rfl

/-- Only `k` executes another instruction. -/
theorem runOp_exec_lone {e e' : Int → Exec Err} {op : Op} (h : op ≠ .iterate) : runOp e op = runOp e' op := by
  cases op <;> first | rfl | exact absurd rfl h

theorem mexecuteIn_lone (n : Nat) : ∀ (i : Int) (w : Multi), Lone w.st → mexecuteIn n i w = here (execute n i) w := by
  induction n with
  | zero => exact fun i w _ => rfl
  | succ n ih =>
    intro i w hw
    have he : execute (n + 1) i w.st = if w.st.cur.inString then execString i w.st else execNormal (execute n) i w.st := rfl
    cases hq : w.st.cur.inString with
    | true =>
      rw [hq, if_pos rfl] at he
      unfold mexecuteIn
      rw [hq, if_pos rfl]
      unfold here
      rw [he]
    | false =>
      rw [hq, if_neg (by decide)] at he
      unfold mexecuteIn here
      rw [hq, if_neg (by decide), he]
      unfold execNormal
      cases hs : w.st.cur.getSem i with
      | none => rfl
      | some sem =>
        dsimp only
        cases hd : (hasMode w.st.g.cfg.mode modeDive && !sem.movement) with
        | true => rfl
        | false =>
          rw [if_neg (by decide), if_neg (by decide)]
          have hx := hw.1.2.1.1 i sem (List.mem_of_mem_head? hs)
          unfold mrunOp
          split
          · rename_i c ho; exact absurd ho (hx c)
          · rename_i ho; rw [mvGet_lone hw, ho]; rfl
          · rename_i ho; rw [mvPut_lone hw, ho]; rfl
          · rename_i ho; rw [mvIterate_lone ih hw, ho]; rfl
          · rename_i ho
            have ha : ∀ m, mvAtHome m w = here m w := fun m => by unfold mvAtHome; rw [hw.2.1]
            rw [if_neg (by rw [hw.2.1]; exact fun h => by cases h.1), runOp_exec_lone (e' := execute n) (fun h => ho h), ha, ite_self]; rfl

theorem mexecute_lone {w : Multi} (hw : Lone w.st) (i : Int) : mexecute i w = here (execute w.st.g.fuel i) w := mexecuteIn_lone _ i w hw

theorem mtick_lone {w : Multi} (hw : Lone w.st) : mtick w = here tick w := by
  have B := engine_lone.toEngineB.base
  have loop : ∀ n (w : Multi), Lone w.st → mtickLoop n w = here (tickLoop n) w := by
    intro n
    induction n with
    | zero => intro w _; rfl
    | succ n ih =>
      intro w hw
      unfold mtickLoop tickLoop
      refine mbind_here hw (keeps_ipGet B) fun i s hs => ?_
      have hx : ∀ f : Err → MExec Unit, (mexecute i >>= f) ⟨s, w.others⟩ = (here (execute s.g.fuel i) >>= f) ⟨s, w.others⟩ := by
        intro f
        show MExec.seq (mexecute i) f _ = MExec.seq _ f _
        unfold MExec.seq
        rw [mexecute_lone hs]
      have hg : ∀ g : Nat → Exec Unit, here (getFuel >>= g) ⟨s, w.others⟩ = here (g s.g.fuel) ⟨s, w.others⟩ := fun g => rfl
      rw [hx, hg]
      refine mbind_here (w := ⟨s, w.others⟩) hs (keeps_execute engine_lone (fits_of others_lone dirs_lone) _ _) fun e s hs => mbind_here (w := ⟨s, w.others⟩) hs (keeps_afterExec B e) fun e s hs => ?_
      have step : ∀ s, Lone s → (if e = .skip then mtickLoop n else pure () : MExec Unit) ⟨s, w.others⟩ = here (if e = .skip then tickLoop n else pure ()) ⟨s, w.others⟩ := by
        intro s hs
        split
        · exact ih _ hs
        · rfl
      dsimp only
      split
      · exact mbind_here (w := ⟨s, w.others⟩) hs (keeps_ipNext B) fun _ s hs => step s hs
      · exact step s hs
  unfold tick
  exact loop _ _ hw

/-! ### One turn -/

theorem keeps_tick_lone : Keeps StaysLone tick := keeps_tick engine_lone others_lone dirs_lone

theorem found_name {l : List Uni} {u : Uni} {name : List Int} (h : l.find? (·.cfg.name == name) = some u) : u.cfg.name = name := by
  simpa using List.find?_some h

theorem find_filter (l : List Uni) {n name : List Int} (h : n ≠ name) : (l.filter (·.cfg.name != name)).find? (·.cfg.name == n) = l.find? (·.cfg.name == n) := by
  induction l with
  | nil => rfl
  | cons u t ih =>
    rw [List.filter_cons]
    by_cases hu : u.cfg.name = name
    · rw [if_neg (by simp [hu]), ih, List.find?_cons_of_neg (by simpa [hu] using fun e => h e.symm)]
    · rw [if_pos (by simp [hu])]
      by_cases hn : u.cfg.name = n
      · rw [List.find?_cons_of_pos (by simp [hn]), List.find?_cons_of_pos (by simp [hn])]
      · rw [List.find?_cons_of_neg (by simp [hn]), List.find?_cons_of_neg (by simp [hn]), ih]

/-- What a turn is, in a universe nobody leaves. -/
theorem World.turn_lone {w : World} {name : List Int} {u : Uni} (hu : w.unis.find? (·.cfg.name == name) = some u) (hl : u.Lone) (hf : 0 < w.proc.fuel) :
    (∀ e, Univ.turn ⟨u.runners, w.proc.enter u⟩ = .error e → w.turn name = .error e) ∧
    (∀ v', Univ.turn ⟨u.runners, w.proc.enter u⟩ = .ok v' → ∃ w', w.turn name = .ok w' ∧ w'.seenAs name = some v' ∧ 0 < w'.proc.fuel ∧
      (∀ n, n ≠ name → w'.unis.find? (·.cfg.name == n) = w.unis.find? (·.cfg.name == n)) ∧
      ((∀ u ∈ w.unis, u.Lone) → ∀ u ∈ w'.unis, u.Lone)) := by
  cases hr : u.runners with
  | nil =>
    have ht : w.turn name = .ok w := by unfold World.turn; rw [hu]; dsimp only; rw [hr]
    refine ⟨fun e h => (by cases h), fun v' h => ?_⟩
    cases h
    refine ⟨w, ht, ?_, hf, fun _ _ => rfl, id⟩
    unfold World.seenAs
    rw [hu, Option.map_some, hr]; rfl
  | cons r rest =>
    generalize hs : (⟨r, rest, w.proc.enter u⟩ : St) = s
    have h0 : Lone s := by
      subst hs
      have h1 : ∀ x ∈ r :: rest, x.noMVRS ∧ x.home = none := by rw [← hr]; exact hl.2
      exact ⟨⟨hl.1, (h1 r List.mem_cons_self).1, fun x hx => (h1 x (List.mem_cons_of_mem _ hx)).1⟩, (h1 r List.mem_cons_self).2,
        fun x hx => (h1 x (List.mem_cons_of_mem _ hx)).2, hf⟩
    have hname : s.g.cfg.name = name := by subst hs; exact found_name hu
    have hw : w.turn name = match (if r.ip.stopped then .ok ((), s) else tick s : Except Fault (Unit × St)) with
        | .error e => .error e
        | .ok (_, t) => .ok ⟨t.uni (if t.cur.ip.stopped then t.rest else t.rest ++ [t.cur]) :: w.unis.filter (·.cfg.name != name), t.g⟩ := by
      unfold World.turn
      rw [hu]
      dsimp only
      rw [hr]
      dsimp only
      rw [hs, mtick_lone (w := ⟨s, _⟩) h0]
      unfold here
      dsimp only
      cases hst : r.ip.stopped with
      | true => rfl
      | false =>
        rw [if_neg (by decide), if_neg (by decide)]
        cases tick s with
        | error e => rfl
        | ok p => rfl
    have hv : Univ.turn ⟨r :: rest, w.proc.enter u⟩ = match (if r.ip.stopped then .ok ((), s) else tick s : Except Fault (Unit × St)) with
        | .error e => .error e
        | .ok (_, t) => .ok ⟨if t.cur.ip.stopped then t.rest else t.rest ++ [t.cur], t.g⟩ := by subst hs; rfl
    rw [hv, hw]
    have ht : ∀ t, (if r.ip.stopped then .ok ((), s) else tick s : Except Fault (Unit × St)) = .ok ((), t) → Lone t ∧ t.g.cfg.name = name := by
      intro t h
      split at h
      · cases h; exact ⟨h0, hname⟩
      · exact ⟨keeps_tick_lone _ _ _ h h0, (keeps_tick engine_name (fun _ _ _ _ _ _ _ _ _ => rfl) ⟨fun _ _ => rfl, fun _ _ => rfl, fun _ _ => rfl⟩ _ _ _ h).trans hname⟩
    cases hq : (if r.ip.stopped then .ok ((), s) else tick s : Except Fault (Unit × St)) with
    | error e => exact ⟨fun e h => (by cases h; rfl), fun v' h => (by cases h)⟩
    | ok p =>
      obtain ⟨_, t⟩ := p
      obtain ⟨hlt, hnt⟩ := ht t hq
      refine ⟨fun e h => (by cases h), fun v' h => ⟨_, rfl, ?_, hlt.2.2.2, fun n hn => ?_, fun ha x hx => ?_⟩⟩
      · cases h
        unfold World.seenAs
        rw [List.find?_cons_of_pos (by simpa [St.uni] using hnt)]
        rfl
      · rw [List.find?_cons_of_neg (by simpa [St.uni, hnt] using fun e => hn e.symm), find_filter _ hn]
      · rcases List.mem_cons.1 hx with rfl | hx
        · refine ⟨hlt.1.1, fun y hy => ?_⟩
          have : y = t.cur ∨ y ∈ t.rest := by
            unfold St.uni at hy
            dsimp only at hy
            split at hy
            · exact .inr hy
            · rcases List.mem_append.1 hy with hy | hy
              · exact .inr hy
              · exact .inl (List.mem_singleton.1 hy)
          rcases this with rfl | hy
          · exact ⟨hlt.1.2.1, hlt.2.1⟩
          · exact ⟨hlt.1.2.2 y hy, hlt.2.2.1 y hy⟩
        · exact ha x (List.mem_filter.1 hx).1

/-! ### C121 -/

/-- **C121** A turn of a universe that nobody can leave is what it would be if there were no other universe: it fails as it would alone (`Univ.turn` is the scheduler of
a single universe), or it succeeds, with the same result, and leaves every other universe as it was. -/
theorem C121_turn {w : World} {name : List Int} {u : Uni} {v : Univ} (hu : w.unis.find? (·.cfg.name == name) = some u) (hl : u.Lone) (hf : 0 < w.proc.fuel)
    (hv : w.seenAs name = some v) :
    match v.turn with
    | .error e => w.turn name = .error e
    | .ok v' => ∃ w', w.turn name = .ok w' ∧ w'.seenAs name = some v' ∧
        ∀ n, n ≠ name → w'.unis.find? (·.cfg.name == n) = w.unis.find? (·.cfg.name == n) := by
  obtain ⟨h1, h2⟩ := World.turn_lone hu hl hf
  unfold World.seenAs at hv
  rw [hu, Option.map_some] at hv
  cases hv
  split
  · rename_i e he; exact h1 e he
  · rename_i v' he
    obtain ⟨w', a, b, _, c, _⟩ := h2 v' he
    exact ⟨w', a, b, c⟩

theorem World.turn_none {w : World} {name : List Int} (h : w.unis.find? (·.cfg.name == name) = none) : w.turn name = .ok w := by
  unfold World.turn; rw [h]

/-- One turn, if nobody can leave any universe. -/
theorem World.turn_keeps {w w' : World} {name : List Int} (h : w.turn name = .ok w') (hl : ∀ u ∈ w.unis, u.Lone) (hf : 0 < w.proc.fuel) :
    0 < w'.proc.fuel ∧ (∀ n, n ≠ name → w'.unis.find? (·.cfg.name == n) = w.unis.find? (·.cfg.name == n)) ∧ ∀ u ∈ w'.unis, u.Lone := by
  cases hu : w.unis.find? (·.cfg.name == name) with
  | none => rw [World.turn_none hu] at h; cases h; exact ⟨hf, fun _ _ => rfl, hl⟩
  | some u =>
    obtain ⟨h1, h2⟩ := World.turn_lone hu (hl u (List.mem_of_find?_eq_some hu)) hf
    cases hv : Univ.turn ⟨u.runners, w.proc.enter u⟩ with
    | error e => rw [h1 e hv] at h; cases h
    | ok v =>
      obtain ⟨w1, a, _, c, d, e⟩ := h2 v hv
      rw [a] at h
      cases h
      exact ⟨c, d, e hl⟩

/-- **C121** Any number of turns of one universe, while the others wait, do what they would do if there were no others. -/
theorem C121_alone (n : Nat) : ∀ {w : World} {name : List Int} {v : Univ}, (∀ u ∈ w.unis, u.Lone) → 0 < w.proc.fuel → w.seenAs name = some v →
    match v.turns n with
    | .error e => w.turns (List.replicate n name) = .error e
    | .ok v' => ∃ w', w.turns (List.replicate n name) = .ok w' ∧ w'.seenAs name = some v' := by
  induction n with
  | zero => intro w name v _ _ hv; exact ⟨w, rfl, hv⟩
  | succ n ih =>
    intro w name v hl hf hv
    obtain ⟨u, hu, hv'⟩ : ∃ u, w.unis.find? (·.cfg.name == name) = some u ∧ (⟨u.runners, w.proc.enter u⟩ : Univ) = v := by
      unfold World.seenAs at hv
      exact Option.map_eq_some_iff.1 hv
    subst hv'
    obtain ⟨h1, h2⟩ := World.turn_lone hu (hl u (List.mem_of_find?_eq_some hu)) hf
    rw [List.replicate_succ]
    unfold Univ.turns World.turns
    cases hq : Univ.turn ⟨u.runners, w.proc.enter u⟩ with
    | error e => rw [h1 e hq]
    | ok v1 =>
      obtain ⟨w1, a, b, c, _, e⟩ := h2 v1 hq
      rw [a]
      exact ih (e hl) c b

/-- **C121** Whatever the order of turns, a universe that has none of them stays as it is: its field, its IPs, its configuration. -/
theorem C121_elsewhere {l : List (List Int)} : ∀ {w w' : World}, w.turns l = .ok w' → (∀ u ∈ w.unis, u.Lone) → 0 < w.proc.fuel → ∀ {n : List Int}, n ∉ l →
    w'.unis.find? (·.cfg.name == n) = w.unis.find? (·.cfg.name == n) := by
  induction l with
  | nil => intro w w' h _ _ n _; cases h; rfl
  | cons a t ih =>
    intro w w' h hl hf n hn
    unfold World.turns at h
    split at h
    · cases h
    · rename_i w1 h1
      obtain ⟨b, c, d⟩ := World.turn_keeps h1 hl hf
      rw [ih h d b (fun hm => hn (List.mem_cons_of_mem _ hm)), c n (fun e => hn (e ▸ List.mem_cons_self))]

/-! ### Non-vacuity -/

theorem exShutWorld_lone : ∀ u ∈ exShutWorld.unis, u.Lone := by
  intro u hu
  rcases List.mem_cons.1 hu with rfl | hu
  · refine ⟨rfl, fun r hr => ?_⟩
    cases List.mem_singleton.1 hr
    exact ⟨newRunner_noMVRS (fun h => by cases h) _ _ _, by decide +kernel⟩
  · cases List.mem_singleton.1 hu
    refine ⟨rfl, fun r hr => ?_⟩
    cases List.mem_singleton.1 hr
    have := newRunner_noMVRS (cfg := { name := [66], dims := 2, standard := 98, execute := false, fingerprint := false }) (fun h => by cases h) 0 (Vec.ofList [0]) (Vec.ofList [1])
    exact ⟨⟨this.1, this.2⟩, by decide +kernel⟩

example : 0 < exShutWorld.proc.fuel ∧ (exShutWorld.seenAs [66]).isSome ∧ [66] ∉ List.replicate 5 [(65 : Int)] := by decide +kernel

/-- Five turns of `B` print what they print without `A`; `A` is as it was. -/
example : exShutWorld.seen (List.replicate 5 [66]) = some ([.out [49, 32]], [([66], [1]), ([65], [0])]) ∧
    (exShutWorld.seenAs [66]).map (fun v => (v.turns 5).toOption.map fun v => v.g.eff) = some (some [.out [49, 32]]) := by decide +kernel

example {w : World} (h : exShutWorld.turns (List.replicate 5 [66]) = .ok w) : w.unis.find? (·.cfg.name == [65]) = exShutWorld.unis.find? (·.cfg.name == [65]) :=
  C121_elsewhere h exShutWorld_lone (by decide +kernel) (by decide)

end Funge
