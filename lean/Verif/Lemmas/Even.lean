import Verif.Lemmas.Twist
/-
Two states that are the same but for what the user has allowed and the program's name, arguments and environment. `Even W W' m` says that `m` does the same in both.
-/
namespace Funge
open Exec

/-- What a program is told by its user: its name, arguments and environment, and what it may do (/repo/src/include/FungeConfig.h:26-66). -/
structure Switches where
  name : List Int
  args : List (List Int)
  env : List (List Int)
  concurrent : Bool
  execute : Bool
  filesystem : Bool
  fingerprint : Bool
  inverthl : Bool

/-- The configuration with these. -/
def Switches.cfg (W : Switches) (c : Cfg) : Cfg :=
  { c with name := W.name, args := W.args, env := W.env, concurrent := W.concurrent, execute := W.execute, filesystem := W.filesystem, fingerprint := W.fingerprint,
           inverthl := W.inverthl }

/-- What is shared, with these. -/
def Switches.glob (W : Switches) (g : Glob) : Glob := { g with cfg := W.cfg g.cfg }

/-- The state with these. -/
def Switches.st (W : Switches) (s : St) : St := ⟨s.cur, s.rest, W.glob s.g⟩

variable {W W' : Switches}

/-- `m'` does with the second what `m` does with the first. -/
def Even₂ {α : Type} (W W' : Switches) (m m' : Exec α) : Prop := ∀ s,
  (∃ e, m (W.st s) = .error e ∧ m' (W'.st s) = .error e) ∨ ∃ a t, m (W.st s) = .ok (a, W.st t) ∧ m' (W'.st s) = .ok (a, W'.st t)

/-- `m` does the same with both. -/
def Even {α : Type} (W W' : Switches) (m : Exec α) : Prop := Even₂ W W' m m

theorem Even.two {α : Type} {m : Exec α} (h : Even W W' m) : Even₂ W W' m m := h

theorem even₂_bind {α β : Type} {m m' : Exec α} {f f' : α → Exec β} (hm : Even₂ W W' m m') (hf : ∀ a, Even₂ W W' (f a) (f' a)) :
    Even₂ W W' (m >>= f) (m' >>= f') := by
  intro s
  rcases hm s with ⟨e, h1, h2⟩ | ⟨a, t, h1, h2⟩
  · exact .inl ⟨e, bind_error h1, bind_error h2⟩
  · rcases hf a t with ⟨e, h3, h4⟩ | ⟨b, t2, h3, h4⟩
    · exact .inl ⟨e, (bind_ok h1).trans h3, (bind_ok h2).trans h4⟩
    · exact .inr ⟨b, t2, (bind_ok h1).trans h3, (bind_ok h2).trans h4⟩

theorem even_bind {α β : Type} {m : Exec α} {f : α → Exec β} (hm : Even W W' m) (hf : ∀ a, Even W W' (f a)) : Even W W' (m >>= f) :=
  even₂_bind hm hf

theorem even_pure {α : Type} (a : α) : Even W W' (pure a : Exec α) := fun s => .inr ⟨a, s, rfl, rfl⟩
theorem even_fault {α : Type} (e : Fault) : Even W W' (fault e : Exec α) := fun _ => .inl ⟨e, rfl, rfl⟩
theorem even₂_fuel {α : Type} : Even₂ W W' (fault .fuel : Exec α) (fault .fuel) := even_fault _
theorem even_lift {α : Type} (x : Except Fault α) : Even W W' (lift x) := by
  cases x with
  | ok a => exact even_pure a
  | error e => exact even_fault e

/-- Looking at the state. -/
theorem even_getbind {α : Type} {f : St → Exec α} (h : ∀ s, Even₂ W W' (f (W.st s)) (f (W'.st s))) : Even W W' (Exec.get >>= f) := fun s => h s s

/-- Looking at the configuration. -/
theorem even_cfgbind {α : Type} {f : Cfg → Exec α} (h : ∀ c, Even₂ W W' (f (W.cfg c)) (f (W'.cfg c))) : Even W W' (getCfg >>= f) := fun s => h s.g.cfg s

/-- A step that never fails. -/
theorem even_step {α : Type} (f : St → α × St) (h : ∀ (V : Switches) s, f (V.st s) = ((f s).1, V.st (f s).2)) :
    Even W W' (fun s => .ok (f s) : Exec α) := fun s => .inr ⟨_, _, congrArg Except.ok (h W s), congrArg Except.ok (h W' s)⟩
/-- One that may. -/
theorem even_try {α : Type} {m : Exec α} (f : St → Except Fault (α × St)) (h : ∀ (V : Switches) s, m (V.st s) = (match f s with | .ok p => .ok (p.1, V.st p.2) | .error e => .error e)) :
    Even W W' m := fun s => by
  rw [h W s, h W' s]
  cases f s with
  | ok p => exact .inr ⟨_, _, rfl, rfl⟩
  | error e => exact .inl ⟨e, rfl, rfl⟩
theorem even_modCur (f : Runner → Runner) : Even W W' (modCur f) := even_step (fun s => ((), { s with cur := f s.cur })) fun _ _ => rfl
theorem even_modG (f : Glob → Glob) (h : ∀ (V : Switches) g, f (V.glob g) = V.glob (f g)) : Even W W' (modG f) :=
  even_step (fun s => ((), { s with g := f s.g })) fun V s => congrArg (fun g => ((), (⟨s.cur, s.rest, g⟩ : St))) (h V s.g)
theorem even_onIP (f : IP → IP) : Even W W' (onIP f) := even_modCur _
theorem even_emit (e : Eff) : Even W W' (emit e) := even_modG _ fun _ _ => rfl
theorem even_fieldPut (v i) : Even W W' (fieldPut v i) := even_modG _ fun _ _ => rfl
theorem even_ipPut (i) : Even W W' (ipPut i) := even_step _ fun _ _ => rfl
theorem even_growDims (n) : Even W W' (growDims n) := even_modG _ fun _ g => by
  by_cases h : g.cfg.dims < n <;> simp only [Switches.glob, Switches.cfg, h, if_true, if_false]
theorem even_addBreakpoint (v : Vec) : Even W W' (addBreakpoint v) := even_modG _ fun _ _ => by
  by_cases h : v.size > 0 <;> simp only [Switches.glob, Switches.cfg, h, if_true, if_false]
theorem even_addWatchpoint (v : Vec) : Even W W' (addWatchpoint v) := even_modG _ fun _ _ => by
  by_cases h : v.size > 0 <;> simp only [Switches.glob, Switches.cfg, h, if_true, if_false]

/-- Reading something that is not different. -/
theorem even_look {α : Type} (f : St → α) (h : ∀ (V : Switches) s, f (V.st s) = f s) : Even W W' (fun s => .ok (f s, s) : Exec α) :=
  even_step (fun s => (f s, s)) fun V s => by dsimp only; rw [h]
theorem even_getDims : Even W W' getDims := even_look _ fun _ _ => rfl
theorem even_getFuel : Even W W' getFuel := even_look _ fun _ _ => rfl
theorem even_getFlt : Even W W' getFlt := even_look _ fun _ _ => rfl
theorem even_getLng : Even W W' getLng := even_look _ fun _ _ => rfl
theorem even_isMode (m) : Even W W' (isMode m) := even_look _ fun _ _ => rfl
theorem even_numStacks : Even W W' numStacks := even_look _ fun _ _ => rfl
theorem even_ipPos : Even W W' ipPos := even_look _ fun _ _ => rfl
theorem even_ipDelta : Even W W' ipDelta := even_look _ fun _ _ => rfl
theorem even_ipStorage : Even W W' ipStorage := even_look _ fun _ _ => rfl
theorem even_ipGet : Even W W' ipGet := even_look _ fun _ _ => rfl
theorem even_fieldGet (v) : Even W W' (fieldGet v) := even_look _ fun _ _ => rfl
theorem even_subrTarget (v) : Even W W' (subrTarget v) := even_look _ fun _ _ => rfl
theorem even_onStack {α : Type} (x) (f : Stack → α × Stack) : Even W W' (onStack x f) := even_try (onStack x f) fun V s => by
  unfold onStack
  dsimp only [Switches.st]
  cases s.cur.ss.at' x with
  | error e => rfl
  | ok st => rfl
theorem even_onTop {α : Type} (f : Stack → α × Stack) : Even W W' (onTop f) := fun s => even_onStack s.cur.ss.select f s
theorem even_onSecond {α : Type} (f : Stack → α × Stack) : Even W W' (onSecond f) := fun s => even_onStack (s.cur.ss.select + 1) f s
theorem even_popTop : Even W W' popTop := even_onTop _
theorem even_popSecond : Even W W' popSecond := even_onSecond _
theorem even_pushTop (v) : Even W W' (pushTop v) := even_onTop _
theorem even_pushSecond (v) : Even W W' (pushSecond v) := even_onSecond _
theorem even_sizeTop : Even W W' sizeTop := even_onTop _
theorem even_sizeSecond : Even W W' sizeSecond := even_onSecond _
theorem even_getTop (n) : Even W W' (getTop n) := even_onTop _
theorem even_clearTop : Even W W' clearTop := even_onTop _
theorem even_sizeAt (i) : Even W W' (sizeAt i) := even_onStack _ _
theorem even_onStacks (f : StackStack → Except Fault StackStack) : Even W W' (onStacks f) := even_try (onStacks f) fun V s => by
  unfold onStacks
  dsimp only [Switches.st]
  cases f s.cur.ss with
  | error e => rfl
  | ok st => rfl
theorem even_siSelect (f) : Even W W' (siSelect f) := even_step _ fun _ _ => rfl
theorem even_ipNext : Even W W' ipNext := even_try ipNext fun V s => by
  unfold ipNext
  dsimp only [Switches.st, Switches.glob, Switches.cfg]
  cases s.cur.ip.next s.g.cfg.dims s.g.cfg.topo s.g.field with
  | error e => rfl
  | ok st => rfl
theorem even_setDelta (v) : Even W W' (setDelta v) := even_bind (even_isMode _) fun _ => even_modCur _
theorem even_runnerPush (n) : Even W W' (runnerPush n) := fun s => by
  unfold runnerPush
  dsimp only [Switches.st]
  split
  · exact even_pure () s
  all_goals exact even_pushTop _ s
theorem even_enterString (q) : Even W W' (enterString q) := even_modCur _
theorem even_ask : Even W W' ask := even_step _ fun _ _ => rfl
theorem even_askFile : Even W W' askFile := even_step _ fun _ _ => rfl
theorem even_askDir : Even W W' askDir := even_step _ fun _ _ => rfl
theorem even_taking {α : Type} (f : List Int → Except Fault (α × List Int)) : Even W W' (taking f) := even_try (taking f) fun V s => by
  unfold taking
  dsimp only [Switches.st, Switches.glob]
  cases f s.g.inp with
  | error e => rfl
  | ok p => rfl
theorem even_getChar : Even W W' getChar := by rw [getChar_taking]; exact even_taking _
theorem even_takeNum : Even W W' (taking takeNum) := even_taking _
theorem even_takeWord : Even W W' (taking takeWord) := even_taking _
theorem even_takeLine : Even W W' (taking takeLine) := even_taking _

theorem even_cloneCur : Even W W' cloneCur := even_try cloneCur fun V s => by
  unfold cloneCur
  dsimp only [Switches.st]
  rw [show s.cur.clone (V.glob s.g) (V.glob s.g).nextId = s.cur.clone s.g s.g.nextId from rfl]
  cases s.cur.clone s.g s.g.nextId with
  | error e => rfl
  | ok st => rfl
theorem even_killAll (x) : Even W W' (killAll x) := even_step _ fun _ _ => rfl
theorem even_setModeWord (x) : Even W W' (setModeWord x) := even_step _ fun _ _ => rfl
theorem even_universeSetMode (m) : Even W W' (universeSetMode m) := fun s => even_setModeWord (s.g.cfg.mode ||| m) s
theorem even_universeClearMode (m) : Even W W' (universeClearMode m) := fun s => even_setModeWord (s.g.cfg.mode &&& (0xFFFFFFFF ^^^ m)) s
theorem even_universeToggleMode (m) : Even W W' (universeToggleMode m) := fun s => even_setModeWord (s.g.cfg.mode ^^^ m) s

theorem even_onRunnerTop {α : Type} (id : Int) (f : Stack → α × Stack) : Even W W' (onRunnerTop id f) := fun s => by
  by_cases hid : (s.cur.id : Int) = id
  · rw [onRunnerTop_cur (s := W.st s) f hid, onRunnerTop_cur (s := W'.st s) f hid]
    exact even_bind (even_onTop f) (fun a => even_pure _) s
  · rw [onRunnerTop_others (s := W.st s) f hid, onRunnerTop_others (s := W'.st s) f hid]
    unfold onOthers
    dsimp only [Switches.st]
    cases onListTop id f s.rest with
    | none => exact .inr ⟨none, s, rfl, rfl⟩
    | some x =>
      cases x with
      | error e => exact .inl ⟨e, rfl, rfl⟩
      | ok p => exact .inr ⟨some p.1, ⟨s.cur, p.2, s.g⟩, rfl, rfl⟩

end Funge
