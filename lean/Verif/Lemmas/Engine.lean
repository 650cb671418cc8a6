import Verif.Lemmas.Sems
import Verif.Model.Run
/-
What instructions can do at all. `Engine R` lists the elementary changes a universe undergoes; a relation closed under them holds between the
states before and after every instruction, every tick and every run.
-/
namespace Funge
open Exec

/-- The same runner but for members that are private to some instruction: string state, SUBR, IIPC, FISH, HRTI, ><> and *><>. -/
structure SameCore (r r' : Runner) : Prop where
  id : r'.id = r.id
  ss : r'.ss = r.ss
  ip : r'.ip = r.ip
  parent : r'.parent = r.parent
  strats : r'.strats = r.strats
  handler : r'.handler = r.handler
  sems : r'.sems = r.sems
  loaded : r'.loaded = r.loaded
  available : r'.available = r.available
  home : r'.home = r.home

theorem SameCore.refl (r : Runner) : SameCore r r := ⟨rfl, rfl, rfl, rfl, rfl, rfl, rfl, rfl, rfl, rfl⟩

def isLetter (c : Int) : Prop := 65 ≤ c ∧ c ≤ 90

/-- A change of a table of meanings: only letters change, nothing new appears but what is reflected. -/
structure Rebound (t t' : Int → List Sem) : Prop where
  others : ∀ c, ¬ isLetter c → t' c = t c
  known : ∀ c m, m ∈ t' c → (∃ c', m ∈ t c') ∨ m = ⟨.fingReflect, false⟩

/-- A relation between states that contains every elementary change but those of the table of meanings. -/
structure EngineB (R : St → St → Prop) : Prop where
  refl : ∀ s, R s s
  trans : ∀ s t u, R s t → R t u → R s u
  stack : ∀ s x st st', s.cur.ss.at' x = .ok st → st'.mode = st.mode → R s { s with cur := { s.cur with ss := s.cur.ss.setAt x st' } }
  ssPush : ∀ s, R s { s with cur := { s.cur with ss := s.cur.ss.push } }
  ssPop : ∀ s ss, s.cur.ss.pop = .ok ss → R s { s with cur := { s.cur with ss := ss } }
  ssInsert : ∀ s n ss, s.cur.ss.insert n = .ok ss → R s { s with cur := { s.cur with ss := ss } }
  ssRemove : ∀ s n ss, s.cur.ss.remove n = .ok ss → R s { s with cur := { s.cur with ss := ss } }
  ssInc : ∀ s, R s { s with cur := { s.cur with ss := s.cur.ss.increment.2 } }
  ssDec : ∀ s, R s { s with cur := { s.cur with ss := s.cur.ss.decrement.2 } }
  ip : ∀ s ip, ip.stopped = s.cur.ip.stopped → R s { s with cur := { s.cur with ip := ip } }
  stop : ∀ s, R s { s with cur := { s.cur with ip := s.cur.ip.stop } }
  core : ∀ s r, SameCore s.cur r → R s { s with cur := r }
  glob : ∀ s i a b w, R s { s with g := { s.g with inp := i, asked := a, breakpoints := b, watchpoints := w } }
  ref : ∀ s r v, refcFind s.g.refc r = none → R s { s with g := { s.g with refc := (r, v) :: s.g.refc } }
  out : ∀ s b, R s { s with g := { s.g with eff := s.g.eff ++ [.out b] } }
  system : ∀ s b, s.g.cfg.execute = true → R s { s with g := { s.g with eff := s.g.eff ++ [.system b] } }
  openRead : ∀ s b, s.g.cfg.filesystem = true → R s { s with g := { s.g with eff := s.g.eff ++ [.openRead b] } }
  openWrite : ∀ s b, s.g.cfg.filesystem = true → R s { s with g := { s.g with eff := s.g.eff ++ [.openWrite b] } }
  writeFile : ∀ s b c, s.g.cfg.filesystem = true → R s { s with g := { s.g with eff := s.g.eff ++ [.writeFile b c] } }
  put : ∀ s v i, R s { s with g := { s.g with field := s.g.field.put v i } }
  parse : ∀ s v b l, s.g.cfg.filesystem = true → R s { s with g := { s.g with field := (s.g.field.parse v b l).2 } }
  dims : ∀ s n, s.g.cfg.dims < n → R s { s with g := { s.g with cfg := { s.g.cfg with dims := n } } }
  clone : ∀ s r, s.g.cfg.concurrent = true → s.cur.clone s.g s.g.nextId = .ok r →
    R s { s with rest := s.rest ++ [r], g := { s.g with nextId := s.g.nextId + 1 } }
  kill : ∀ s c, R s { s with
    cur := { s.cur with ip := s.cur.ip.stop }
    rest := s.rest.map fun r => { r with ip := r.ip.stop }
    g := { s.g with exitcode := c, running := false } }
  mode : ∀ s m, R s { s with
    cur := { s.cur with ss := s.cur.ss.setMode m }
    rest := s.rest.map fun r => { r with ss := r.ss.setMode m }
    g := { s.g with cfg := { s.g.cfg with mode := m } } }

/-- A relation between states that contains every elementary change but those of the table of meanings and of the space. In switch mode, some instructions put another one
in their place. -/
structure EngineC (R : St → St → Prop) : Prop where
  refl : ∀ s, R s s
  trans : ∀ s t u, R s t → R t u → R s u
  stack : ∀ s x st st', s.cur.ss.at' x = .ok st → st'.mode = st.mode → R s { s with cur := { s.cur with ss := s.cur.ss.setAt x st' } }
  ssPush : ∀ s, R s { s with cur := { s.cur with ss := s.cur.ss.push } }
  ssPop : ∀ s ss, s.cur.ss.pop = .ok ss → R s { s with cur := { s.cur with ss := ss } }
  ssInsert : ∀ s n ss, s.cur.ss.insert n = .ok ss → R s { s with cur := { s.cur with ss := ss } }
  ssRemove : ∀ s n ss, s.cur.ss.remove n = .ok ss → R s { s with cur := { s.cur with ss := ss } }
  ssInc : ∀ s, R s { s with cur := { s.cur with ss := s.cur.ss.increment.2 } }
  ssDec : ∀ s, R s { s with cur := { s.cur with ss := s.cur.ss.decrement.2 } }
  ip : ∀ s ip, ip.stopped = s.cur.ip.stopped → R s { s with cur := { s.cur with ip := ip } }
  stop : ∀ s, R s { s with cur := { s.cur with ip := s.cur.ip.stop } }
  core : ∀ s r, SameCore s.cur r → R s { s with cur := r }
  glob : ∀ s i a b w, R s { s with g := { s.g with inp := i, asked := a, breakpoints := b, watchpoints := w } }
  ref : ∀ s r v, refcFind s.g.refc r = none → R s { s with g := { s.g with refc := (r, v) :: s.g.refc } }
  out : ∀ s b, R s { s with g := { s.g with eff := s.g.eff ++ [.out b] } }
  system : ∀ s b, s.g.cfg.execute = true → R s { s with g := { s.g with eff := s.g.eff ++ [.system b] } }
  openRead : ∀ s b, s.g.cfg.filesystem = true → R s { s with g := { s.g with eff := s.g.eff ++ [.openRead b] } }
  openWrite : ∀ s b, s.g.cfg.filesystem = true → R s { s with g := { s.g with eff := s.g.eff ++ [.openWrite b] } }
  writeFile : ∀ s b c, s.g.cfg.filesystem = true → R s { s with g := { s.g with eff := s.g.eff ++ [.writeFile b c] } }
  switch : ∀ s i, hasMode s.g.cfg.mode modeSwitch = true → R s { s with g := { s.g with field := s.g.field.put s.cur.ip.pos i } }
  dims : ∀ s n, s.g.cfg.dims < n → R s { s with g := { s.g with cfg := { s.g.cfg with dims := n } } }
  clone : ∀ s r, s.g.cfg.concurrent = true → s.cur.clone s.g s.g.nextId = .ok r →
    R s { s with rest := s.rest ++ [r], g := { s.g with nextId := s.g.nextId + 1 } }
  kill : ∀ s c, R s { s with
    cur := { s.cur with ip := s.cur.ip.stop }
    rest := s.rest.map fun r => { r with ip := r.ip.stop }
    g := { s.g with exitcode := c, running := false } }
  mode : ∀ s m, hasMode m modeSwitch = hasMode s.g.cfg.mode modeSwitch → R s { s with
    cur := { s.cur with ss := s.cur.ss.setMode m }
    rest := s.rest.map fun r => { r with ss := r.ss.setMode m }
    g := { s.g with cfg := { s.g.cfg with mode := m } } }

/-- The changes of the space, and of the mode that has other instructions change it. -/
structure Stores (R : St → St → Prop) : Prop where
  put : ∀ s v i, R s { s with g := { s.g with field := s.g.field.put v i } }
  parse : ∀ s v b l, s.g.cfg.filesystem = true → R s { s with g := { s.g with field := (s.g.field.parse v b l).2 } }
  toggle : ∀ s m, R s { s with
    cur := { s.cur with ss := s.cur.ss.setMode m }
    rest := s.rest.map fun r => { r with ss := r.ss.setMode m }
    g := { s.g with cfg := { s.g.cfg with mode := m } } }

theorem EngineB.base {R : St → St → Prop} (E : EngineB R) : EngineC R where
  refl := E.refl
  trans := E.trans
  stack := E.stack
  ssPush := E.ssPush
  ssPop := E.ssPop
  ssInsert := E.ssInsert
  ssRemove := E.ssRemove
  ssInc := E.ssInc
  ssDec := E.ssDec
  ip := E.ip
  stop := E.stop
  core := E.core
  glob := E.glob
  ref := E.ref
  out := E.out
  system := E.system
  openRead := E.openRead
  openWrite := E.openWrite
  writeFile := E.writeFile
  switch s i _ := E.put s _ i
  dims := E.dims
  clone := E.clone
  kill := E.kill
  mode s m _ := E.mode s m

theorem EngineB.stores {R : St → St → Prop} (E : EngineB R) : Stores R := ⟨E.put, E.parse, E.mode⟩

instance {R : St → St → Prop} : Coe (EngineB R) (EngineC R) := ⟨EngineB.base⟩

/-- The changes of the table of meanings. -/
structure Tables (R : St → St → Prop) : Prop where
  sems : ∀ s t l, (∀ x ∈ l, x ∈ s.cur.loaded) → Rebound s.cur.sems t → R s { s with cur := { s.cur with sems := t, loaded := l } }
  load : ∀ s id r, s.g.cfg.fingerprint = true → s.cur.loadFp id = some r → R s { s with cur := r }

/-- A relation between states that contains every elementary change. -/
structure Engine (R : St → St → Prop) : Prop extends EngineB R, Tables R

/-- The change `P` and `G` of IIPC make to another runner. -/
def Others (R : St → St → Prop) : Prop := ∀ s (a b : List Runner) (r : Runner) st st', s.rest = a ++ r :: b → r.ss.at' r.ss.select = .ok st →
  st'.mode = st.mode → R s { s with rest := a ++ { r with ss := r.ss.setAt r.ss.select st' } :: b }

/-- The effects of DIRF. -/
def Dirs (R : St → St → Prop) : Prop :=
  (∀ s b, R s { s with g := { s.g with eff := s.g.eff ++ [.chdir b] } }) ∧
  (∀ s b, R s { s with g := { s.g with eff := s.g.eff ++ [.mkdir b] } }) ∧
  (∀ s b, R s { s with g := { s.g with eff := s.g.eff ++ [.rmdir b] } })

/-- A relation that holds between the states before and after. -/
def Keeps {α : Type} (R : St → St → Prop) (m : Exec α) : Prop := ∀ s a s', m s = .ok (a, s') → R s s'

variable {R : St → St → Prop}

theorem keeps_pure (E : EngineC R) {α : Type} (a : α) : Keeps R (pure a : Exec α) := by
  intro s b s' h
  cases h
  exact E.refl s

theorem keeps_fault {α : Type} (e : Fault) : Keeps R (fault e : Exec α) := by
  intro s b s' h
  cases h

theorem keeps_bind (E : EngineC R) {α β : Type} {m : Exec α} {f : α → Exec β} (hm : Keeps R m) (hf : ∀ a, Keeps R (f a)) :
    Keeps R (m >>= f) := by
  intro s b s' h
  change seq m f s = _ at h
  unfold seq at h
  split at h
  · rename_i a s1 h1
    exact E.trans _ _ _ (hm _ _ _ h1) (hf _ _ _ _ h)
  · cases h

theorem keeps_lift (E : EngineC R) {α : Type} (x : Except Fault α) : Keeps R (lift x) := by
  intro s b s' h
  unfold lift at h
  split at h
  · cases h; exact E.refl s
  · cases h

theorem keeps_get (E : EngineC R) : Keeps R Exec.get := by intro s b s' h; cases h; exact E.refl s
theorem keeps_getDims (E : EngineC R) : Keeps R getDims := by intro s b s' h; cases h; exact E.refl s
theorem keeps_getCfg (E : EngineC R) : Keeps R getCfg := by intro s b s' h; cases h; exact E.refl s
theorem keeps_getFuel (E : EngineC R) : Keeps R getFuel := by intro s b s' h; cases h; exact E.refl s
theorem keeps_getFlt (E : EngineC R) : Keeps R getFlt := by intro s b s' h; cases h; exact E.refl s
theorem keeps_getLng (E : EngineC R) : Keeps R getLng := by intro s b s' h; cases h; exact E.refl s
theorem keeps_isMode (E : EngineC R) (m) : Keeps R (isMode m) := by intro s b s' h; cases h; exact E.refl s
theorem keeps_numStacks (E : EngineC R) : Keeps R numStacks := by intro s b s' h; cases h; exact E.refl s
theorem keeps_ipPos (E : EngineC R) : Keeps R ipPos := by intro s b s' h; cases h; exact E.refl s
theorem keeps_ipDelta (E : EngineC R) : Keeps R ipDelta := by intro s b s' h; cases h; exact E.refl s
theorem keeps_ipStorage (E : EngineC R) : Keeps R ipStorage := by intro s b s' h; cases h; exact E.refl s
theorem keeps_ipGet (E : EngineC R) : Keeps R ipGet := by intro s b s' h; cases h; exact E.refl s
theorem keeps_fieldGet (E : EngineC R) (v) : Keeps R (fieldGet v) := by intro s b s' h; cases h; exact E.refl s
theorem keeps_subrTarget (E : EngineC R) (v) : Keeps R (subrTarget v) := by intro s b s' h; cases h; exact E.refl s

theorem keeps_onStack (E : EngineC R) {α : Type} (x : Nat) (f : Stack → α × Stack) (hf : ∀ st, (f st).2.mode = st.mode) :
    Keeps R (onStack x f) := by
  intro s b s' h
  unfold onStack at h
  split at h
  · cases h
  · rename_i st hst
    cases h
    exact E.stack s x st _ hst (hf st)

theorem keeps_onTop (E : EngineC R) {α : Type} (f : Stack → α × Stack) (hf : ∀ st, (f st).2.mode = st.mode) : Keeps R (onTop f) :=
  fun s b s' h => keeps_onStack E _ f hf s b s' h
theorem keeps_onSecond (E : EngineC R) {α : Type} (f : Stack → α × Stack) (hf : ∀ st, (f st).2.mode = st.mode) : Keeps R (onSecond f) :=
  fun s b s' h => keeps_onStack E _ f hf s b s' h

theorem pop_mode (st : Stack) : st.pop.2.mode = st.mode := by
  unfold Stack.pop
  repeat' split
  all_goals rfl
theorem push_mode (st : Stack) (v : Int) : (st.push v).mode = st.mode := by unfold Stack.push; split <;> rfl

theorem keeps_popTop (E : EngineC R) : Keeps R popTop := keeps_onTop E _ pop_mode
theorem keeps_popSecond (E : EngineC R) : Keeps R popSecond := keeps_onSecond E _ pop_mode
theorem keeps_pushTop (E : EngineC R) (v) : Keeps R (pushTop v) := keeps_onTop E _ fun st => push_mode st v
theorem keeps_pushSecond (E : EngineC R) (v) : Keeps R (pushSecond v) := keeps_onSecond E _ fun st => push_mode st v
theorem keeps_sizeTop (E : EngineC R) : Keeps R sizeTop := keeps_onTop E _ fun _ => rfl
theorem keeps_sizeSecond (E : EngineC R) : Keeps R sizeSecond := keeps_onSecond E _ fun _ => rfl
theorem keeps_getTop (E : EngineC R) (n) : Keeps R (getTop n) := keeps_onTop E _ fun _ => rfl
theorem keeps_clearTop (E : EngineC R) : Keeps R clearTop := keeps_onTop E _ fun _ => rfl
theorem keeps_age (E : EngineC R) : Keeps R (onTop fun st => (st.age, st)) := keeps_onTop E _ fun _ => rfl
theorem keeps_sizeAt (E : EngineC R) (i) : Keeps R (sizeAt i) := keeps_onStack E _ _ fun _ => rfl

theorem keeps_ssPush (E : EngineC R) : Keeps R (onStacks fun ss => .ok ss.push) := by
  intro s b s' h; cases h; exact E.ssPush s
theorem keeps_ssPop (E : EngineC R) : Keeps R (onStacks StackStack.pop) := by
  intro s b s' h
  unfold onStacks at h
  split at h
  · cases h
  · rename_i ss hs; cases h; exact E.ssPop s ss hs
theorem keeps_ssInsert (E : EngineC R) (n) : Keeps R (onStacks (·.insert n)) := by
  intro s b s' h
  unfold onStacks at h
  split at h
  · cases h
  · rename_i ss hs; cases h; exact E.ssInsert s n ss hs
theorem keeps_ssRemove (E : EngineC R) (n) : Keeps R (onStacks (·.remove n)) := by
  intro s b s' h
  unfold onStacks at h
  split at h
  · cases h
  · rename_i ss hs; cases h; exact E.ssRemove s n ss hs
theorem keeps_inc (E : EngineC R) : Keeps R (siSelect StackStack.increment) := by intro s b s' h; cases h; exact E.ssInc s
theorem keeps_dec (E : EngineC R) : Keeps R (siSelect StackStack.decrement) := by intro s b s' h; cases h; exact E.ssDec s

theorem next_stopped {d : Nat} {t : Topo} {f : Field} {ip ip' : IP} (h : ip.next d t f = .ok ip') : ip'.stopped = ip.stopped := by
  unfold IP.next at h
  dsimp only at h
  split at h
  · cases h; rfl
  · cases t
    · cases h; rfl
    · dsimp only at h
      split at h
      · cases h; rfl
      · split at h
        · cases h
        · cases h; rfl

theorem keeps_ipNext (E : EngineC R) : Keeps R ipNext := by
  intro s b s' h
  unfold ipNext at h
  split at h
  · cases h
  · rename_i ip hip; cases h; exact E.ip s ip (next_stopped hip)

theorem keeps_onIP (E : EngineC R) (f : IP → IP) (hf : ∀ ip, (f ip).stopped = ip.stopped) : Keeps R (onIP f) := by
  intro s b s' h; cases h; exact E.ip s _ (hf _)
theorem keeps_reflect (E : EngineC R) : Keeps R (onIP IP.reflect) := keeps_onIP E _ fun _ => rfl
theorem keeps_left (E : EngineC R) : Keeps R (onIP IP.left) := keeps_onIP E _ fun _ => rfl
theorem keeps_right (E : EngineC R) : Keeps R (onIP IP.right) := keeps_onIP E _ fun _ => rfl
theorem keeps_setPos (E : EngineC R) (v : Vec) : Keeps R (onIP (·.setPos v)) := keeps_onIP E _ fun _ => rfl
theorem keeps_setPos' (E : EngineC R) (f : IP → Vec) : Keeps R (onIP fun ip => ip.setPos (f ip)) := keeps_onIP E _ fun _ => rfl
theorem keeps_setStorage (E : EngineC R) (f : IP → Vec) : Keeps R (onIP fun ip => ip.setStorage (f ip)) := keeps_onIP E _ fun _ => rfl
theorem keeps_stop (E : EngineC R) : Keeps R (onIP IP.stop) := by intro s b s' h; cases h; exact E.stop s

theorem keeps_modCur (E : EngineC R) (f : Runner → Runner) (hf : ∀ r, SameCore r (f r)) : Keeps R (modCur f) := by
  intro s b s' h; cases h; exact E.core s _ (hf _)

theorem notifyDelta_core (r : Runner) : SameCore r (notifyDelta r) := by
  unfold notifyDelta
  dsimp only
  split
  · exact ⟨rfl, rfl, rfl, rfl, rfl, rfl, rfl, rfl, rfl, rfl⟩
  · exact .refl _

theorem setDelta_stopped (h : Bool) (ip : IP) (v : Vec) : (ip.setDelta h v).stopped = ip.stopped := by
  unfold IP.setDelta; split <;> rfl

theorem keeps_setDelta (E : EngineC R) (v) : Keeps R (setDelta v) := by
  unfold setDelta
  refine keeps_bind E (keeps_isMode E _) fun hov => ?_
  intro s b s' h
  cases h
  exact E.trans _ { s with cur := { s.cur with ip := s.cur.ip.setDelta hov v } } _ (E.ip s _ (setDelta_stopped _ _ _))
    (E.core _ _ (notifyDelta_core _))

theorem keeps_fieldPut (W : Stores R) (v i) : Keeps R (fieldPut v i) := by intro s b s' h; cases h; exact W.put s v i
theorem keeps_ipPut (W : Stores R) (i) : Keeps R (ipPut i) := by intro s b s' h; cases h; exact W.put s _ i
theorem keeps_ask (E : EngineC R) : Keeps R ask := by intro s b s' h; cases h; exact E.glob s _ _ _ _
theorem keeps_askFile (E : EngineC R) : Keeps R askFile := by intro s b s' h; cases h; exact E.glob s _ _ _ _
theorem keeps_askDir (E : EngineC R) : Keeps R askDir := by intro s b s' h; cases h; exact E.glob s _ _ _ _
theorem keeps_inp (E : EngineC R) (f : Glob → List Int) : Keeps R (modG fun g => { g with inp := f g }) := by
  intro s b s' h; cases h; exact E.glob s _ _ _ _
theorem keeps_getChar (E : EngineC R) : Keeps R getChar := by
  intro s b s' h
  unfold getChar at h
  split at h
  · cases h; exact E.refl s
  · cases h; exact E.glob s _ _ _ _
theorem keeps_out (E : EngineC R) (l) : Keeps R (emit (.out l)) := by intro s b s' h; cases h; exact E.out s l
theorem keeps_killAll (E : EngineC R) (c) : Keeps R (killAll c) := by intro s b s' h; cases h; exact E.kill s c
theorem keeps_universeToggleMode (W : Stores R) (m) : Keeps R (universeToggleMode m) := by
  intro s b s' h; cases h; exact W.toggle s _

theorem switch_or {w m : Nat} (h : m &&& modeSwitch = 0) : hasMode (w ||| m) modeSwitch = hasMode w modeSwitch := by
  unfold hasMode; rw [Nat.and_or_distrib_right, h, Nat.or_zero]
theorem switch_and {w m : Nat} (h : m &&& modeSwitch = modeSwitch) : hasMode (w &&& m) modeSwitch = hasMode w modeSwitch := by
  unfold hasMode; rw [Nat.and_assoc, h]
theorem switch_xor {w m : Nat} (h : m &&& modeSwitch = 0) : hasMode (w ^^^ m) modeSwitch = hasMode w modeSwitch := by
  unfold hasMode; rw [Nat.and_xor_distrib_right, h, Nat.xor_zero]

theorem keeps_universeSetMode (E : EngineC R) (m) (hm : m &&& modeSwitch = 0) : Keeps R (universeSetMode m) := by
  intro s b s' h; cases h; exact E.mode s _ (switch_or hm)
theorem keeps_universeClearMode (E : EngineC R) (m) (hm : (0xFFFFFFFF ^^^ m) &&& modeSwitch = modeSwitch) : Keeps R (universeClearMode m) := by
  intro s b s' h; cases h; exact E.mode s _ (switch_and hm)
theorem keeps_universeToggle (E : EngineC R) (m) (hm : m &&& modeSwitch = 0) : Keeps R (universeToggleMode m) := by
  intro s b s' h; cases h; exact E.mode s _ (switch_xor hm)
theorem keeps_growDims (E : EngineC R) (n) : Keeps R (growDims n) := by
  intro s b s' h
  cases h
  dsimp only
  split
  · rename_i hn; exact E.dims s n hn
  · exact E.refl s

theorem keeps_addBreakpoint (E : EngineC R) (v) : Keeps R (addBreakpoint v) := by
  intro s b s' h
  cases h
  dsimp only
  split
  · exact E.glob s _ _ _ _
  · exact E.refl s
theorem keeps_addWatchpoint (E : EngineC R) (v) : Keeps R (addWatchpoint v) := by
  intro s b s' h
  cases h
  dsimp only
  split
  · exact E.glob s _ _ _ _
  · exact E.refl s

theorem keeps_runnerPush (E : EngineC R) (n) : Keeps R (runnerPush n) := by
  intro s b s' h
  unfold runnerPush at h
  split at h
  · cases h; exact E.refl s
  all_goals exact keeps_pushTop E _ _ _ _ h

theorem keeps_enterString (E : EngineC R) (q) : Keeps R (enterString q) :=
  keeps_modCur E _ fun _ => ⟨rfl, rfl, rfl, rfl, rfl, rfl, rfl, rfl, rfl, rfl⟩

end Funge
