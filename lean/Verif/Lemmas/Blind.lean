import Verif.Lemmas.Twist
/-
Two states with the same IP at work and the same of what is shared, but with other IPs beside it. `Blind R m` says that `m` does the same in both, if the
other IPs are related by `R` before, and that they are related by `R` after.
-/
namespace Funge
open Exec

/-- A relation between the other IPs of one state and those of another that is kept when the same IP is added to both, when all are stopped, and when the mode of all
stacks changes. -/
class Guise (R : List Runner → List Runner → Prop) : Prop where
  child : ∀ l l' r, R l l' → R (l ++ [r]) (l' ++ [r])
  kill : ∀ l l', R l l' → R (l.map fun r => { r with ip := r.ip.stop }) (l'.map fun r => { r with ip := r.ip.stop })
  mode : ∀ l l' (m : Nat), R l l' → R (l.map fun r => { r with ss := r.ss.setMode m }) (l'.map fun r => { r with ss := r.ss.setMode m })

/-- On both sides the same IPs are there, and an access to the stack of one of them gives the same on both sides. -/
structure Shows (R : List Runner → List Runner → Prop) : Prop where
  ids : ∀ l l', R l l' → l.map Runner.id = l'.map Runner.id
  stacks : ∀ {α : Type} (id : Int) (f : Stack → α × Stack) (l l' : List Runner), R l l' →
    (onListTop id f l = none ∧ onListTop id f l' = none) ∨ (∃ e, onListTop id f l = some (.error e) ∧ onListTop id f l' = some (.error e)) ∨
    ∃ a k k', onListTop id f l = some (.ok (a, k)) ∧ onListTop id f l' = some (.ok (a, k')) ∧ R k k'

variable {R : List Runner → List Runner → Prop}

/-- `m'` does beside the other IPs what `m` does. -/
def Blind₂ {α : Type} (R : List Runner → List Runner → Prop) (m m' : Exec α) : Prop := ∀ c l l' g, R l l' →
  (∃ e, m ⟨c, l, g⟩ = .error e ∧ m' ⟨c, l', g⟩ = .error e) ∨
  ∃ a c' k k' g', m ⟨c, l, g⟩ = .ok (a, ⟨c', k, g'⟩) ∧ m' ⟨c, l', g⟩ = .ok (a, ⟨c', k', g'⟩) ∧ R k k'

/-- `m` does the same beside the other IPs. -/
def Blind {α : Type} (R : List Runner → List Runner → Prop) (m : Exec α) : Prop := Blind₂ R m m

theorem Blind.two {α : Type} {m : Exec α} (h : Blind R m) : Blind₂ R m m := h

theorem blind₂_bind {α β : Type} {m m' : Exec α} {f f' : α → Exec β} (hm : Blind₂ R m m') (hf : ∀ a, Blind₂ R (f a) (f' a)) :
    Blind₂ R (m >>= f) (m' >>= f') := by
  intro c l l' g hl
  rcases hm c l l' g hl with ⟨e, h1, h2⟩ | ⟨a, c', k, k', g', h1, h2, hk⟩
  · exact .inl ⟨e, bind_error h1, bind_error h2⟩
  · rcases hf a c' k k' g' hk with ⟨e, h3, h4⟩ | ⟨b, c2, k2, k2', g2, h3, h4, hk2⟩
    · exact .inl ⟨e, (bind_ok h1).trans h3, (bind_ok h2).trans h4⟩
    · exact .inr ⟨b, c2, k2, k2', g2, (bind_ok h1).trans h3, (bind_ok h2).trans h4, hk2⟩

theorem blind_bind {α β : Type} {m : Exec α} {f : α → Exec β} (hm : Blind R m) (hf : ∀ a, Blind R (f a)) : Blind R (m >>= f) :=
  blind₂_bind hm hf

/-- A program that neither looks at the other IPs nor changes them. -/
theorem blind_of {α : Type} {m : Exec α} (h : ∀ c g, (∃ e, ∀ l, m ⟨c, l, g⟩ = .error e) ∨ ∃ a c' g', ∀ l, m ⟨c, l, g⟩ = .ok (a, ⟨c', l, g'⟩)) :
    Blind R m := fun c l l' g hl => by
  rcases h c g with ⟨e, h⟩ | ⟨a, c', g', h⟩
  · exact .inl ⟨e, h l, h l'⟩
  · exact .inr ⟨a, c', l, l', g', h l, h l', hl⟩

theorem blind_pure {α : Type} (a : α) : Blind R (pure a : Exec α) := blind_of fun _ _ => .inr ⟨_, _, _, fun _ => rfl⟩
theorem blind_fault {α : Type} (e : Fault) : Blind R (fault e : Exec α) := blind_of fun _ _ => .inl ⟨_, fun _ => rfl⟩
theorem blind₂_fuel {α : Type} : Blind₂ R (fault .fuel : Exec α) (fault .fuel) := blind_fault _
theorem blind_lift {α : Type} (x : Except Fault α) : Blind R (lift x) := by
  cases x with
  | ok a => exact blind_pure a
  | error e => exact blind_fault e

/-- Looking at the state. -/
theorem blind_getbind {α : Type} {f : St → Exec α} (h : ∀ c l l' g, Blind₂ R (f ⟨c, l, g⟩) (f ⟨c, l', g⟩)) : Blind R (Exec.get >>= f) :=
  fun c l l' g hl => h c l l' g c l l' g hl

/-- A step that never fails, and neither looks at the other IPs nor changes them. -/
theorem blind_step {α : Type} (f : St → α × St) (h : ∀ c l g, f ⟨c, l, g⟩ = ((f ⟨c, [], g⟩).1, ⟨(f ⟨c, [], g⟩).2.cur, l, (f ⟨c, [], g⟩).2.g⟩)) :
    Blind R (fun s => .ok (f s) : Exec α) := blind_of fun c g => .inr ⟨_, _, _, fun l => congrArg Except.ok (h c l g)⟩
theorem blind_modCur (f : Runner → Runner) : Blind R (modCur f) := blind_step (fun s => ((), { s with cur := f s.cur })) fun _ _ _ => rfl
theorem blind_modG (f : Glob → Glob) : Blind R (modG f) := blind_step (fun s => ((), { s with g := f s.g })) fun _ _ _ => rfl
theorem blind_onIP (f : IP → IP) : Blind R (onIP f) := blind_modCur _
theorem blind_emit (e : Eff) : Blind R (emit e) := blind_modG _
theorem blind_fieldPut (v i) : Blind R (fieldPut v i) := blind_modG _
theorem blind_ipPut (i) : Blind R (ipPut i) := blind_step _ fun _ _ _ => rfl
theorem blind_growDims (n) : Blind R (growDims n) := blind_modG _
theorem blind_addBreakpoint (v : Vec) : Blind R (addBreakpoint v) := blind_modG _
theorem blind_addWatchpoint (v : Vec) : Blind R (addWatchpoint v) := blind_modG _

/-- Reading something that is not different. -/
theorem blind_look {α : Type} (f : St → α) (h : ∀ c l g, f ⟨c, l, g⟩ = f ⟨c, [], g⟩) : Blind R (fun s => .ok (f s, s) : Exec α) :=
  blind_step (fun s => (f s, s)) fun c l g => by dsimp only; rw [h]
theorem blind_getDims : Blind R getDims := blind_look _ fun _ _ _ => rfl
theorem blind_getFuel : Blind R getFuel := blind_look _ fun _ _ _ => rfl
theorem blind_getCfg : Blind R getCfg := blind_look _ fun _ _ _ => rfl
theorem blind_getFlt : Blind R getFlt := blind_look _ fun _ _ _ => rfl
theorem blind_getLng : Blind R getLng := blind_look _ fun _ _ _ => rfl
theorem blind_isMode (m) : Blind R (isMode m) := blind_look _ fun _ _ _ => rfl
theorem blind_numStacks : Blind R numStacks := blind_look _ fun _ _ _ => rfl
theorem blind_ipPos : Blind R ipPos := blind_look _ fun _ _ _ => rfl
theorem blind_ipDelta : Blind R ipDelta := blind_look _ fun _ _ _ => rfl
theorem blind_ipStorage : Blind R ipStorage := blind_look _ fun _ _ _ => rfl
theorem blind_ipGet : Blind R ipGet := blind_look _ fun _ _ _ => rfl
theorem blind_fieldGet (v) : Blind R (fieldGet v) := blind_look _ fun _ _ _ => rfl
theorem blind_subrTarget (v) : Blind R (subrTarget v) := blind_look _ fun _ _ _ => rfl
theorem blind_onStack {α : Type} (x) (f : Stack → α × Stack) : Blind R (onStack x f) := blind_of fun c g => by
  unfold onStack
  dsimp only
  cases c.ss.at' x with
  | error e => exact .inl ⟨e, fun _ => rfl⟩
  | ok st => exact .inr ⟨_, _, _, fun _ => rfl⟩
theorem blind_onTop {α : Type} (f : Stack → α × Stack) : Blind R (onTop f) := fun c l l' g hl => blind_onStack c.ss.select f c l l' g hl
theorem blind_onSecond {α : Type} (f : Stack → α × Stack) : Blind R (onSecond f) := fun c l l' g hl => blind_onStack (c.ss.select + 1) f c l l' g hl
theorem blind_popTop : Blind R popTop := blind_onTop _
theorem blind_popSecond : Blind R popSecond := blind_onSecond _
theorem blind_pushTop (v) : Blind R (pushTop v) := blind_onTop _
theorem blind_pushSecond (v) : Blind R (pushSecond v) := blind_onSecond _
theorem blind_sizeTop : Blind R sizeTop := blind_onTop _
theorem blind_sizeSecond : Blind R sizeSecond := blind_onSecond _
theorem blind_getTop (n) : Blind R (getTop n) := blind_onTop _
theorem blind_clearTop : Blind R clearTop := blind_onTop _
theorem blind_sizeAt (i) : Blind R (sizeAt i) := blind_onStack _ _
theorem blind_onStacks (f : StackStack → Except Fault StackStack) : Blind R (onStacks f) := blind_of fun c g => by
  unfold onStacks
  dsimp only
  cases f c.ss with
  | error e => exact .inl ⟨e, fun _ => rfl⟩
  | ok st => exact .inr ⟨_, _, _, fun _ => rfl⟩
theorem blind_siSelect (f) : Blind R (siSelect f) := blind_step _ fun _ _ _ => rfl
theorem blind_ipNext : Blind R ipNext := blind_of fun c g => by
  unfold ipNext
  dsimp only
  cases c.ip.next g.cfg.dims g.cfg.topo g.field with
  | error e => exact .inl ⟨e, fun _ => rfl⟩
  | ok st => exact .inr ⟨_, _, _, fun _ => rfl⟩
theorem blind_setDelta (v) : Blind R (setDelta v) := blind_bind (blind_isMode _) fun _ => blind_modCur _
theorem blind_runnerPush (n) : Blind R (runnerPush n) := fun c l l' g hl => by
  unfold runnerPush
  dsimp only
  split
  · exact blind_pure () c l l' g hl
  all_goals exact blind_pushTop _ c l l' g hl
theorem blind_enterString (q) : Blind R (enterString q) := blind_modCur _
theorem blind_ask : Blind R ask := blind_step _ fun _ _ _ => rfl
theorem blind_askFile : Blind R askFile := blind_step _ fun _ _ _ => rfl
theorem blind_askDir : Blind R askDir := blind_step _ fun _ _ _ => rfl
theorem blind_taking {α : Type} (f : List Int → Except Fault (α × List Int)) : Blind R (taking f) := blind_of fun c g => by
  unfold taking
  dsimp only
  cases f g.inp with
  | error e => exact .inl ⟨e, fun _ => rfl⟩
  | ok p => exact .inr ⟨_, _, _, fun _ => rfl⟩
theorem blind_getChar : Blind R getChar := by rw [getChar_taking]; exact blind_taking _
theorem blind_takeNum : Blind R (taking takeNum) := blind_taking _
theorem blind_takeWord : Blind R (taking takeWord) := blind_taking _
theorem blind_takeLine : Blind R (taking takeLine) := blind_taking _

/-! ### What has to do with the other IPs -/

theorem blind_cloneCur [hR : Guise R] : Blind R cloneCur := fun c l l' g hl => by
  unfold cloneCur
  dsimp only
  cases c.clone g g.nextId with
  | error e => exact .inl ⟨e, rfl, rfl⟩
  | ok st => exact .inr ⟨_, _, _, _, _, rfl, rfl, hR.child _ _ _ hl⟩
theorem blind_killAll [hR : Guise R] (x) : Blind R (killAll x) := fun _ _ _ _ hl => .inr ⟨_, _, _, _, _, rfl, rfl, hR.kill _ _ hl⟩
theorem blind_setModeWord [hR : Guise R] (x) : Blind R (setModeWord x) := fun _ _ _ _ hl => .inr ⟨_, _, _, _, _, rfl, rfl, hR.mode _ _ _ hl⟩
theorem blind_universeSetMode [Guise R] (m) : Blind R (universeSetMode m) := fun c l l' g hl => blind_setModeWord (g.cfg.mode ||| m) c l l' g hl
theorem blind_universeClearMode [Guise R] (m) : Blind R (universeClearMode m) :=
  fun c l l' g hl => blind_setModeWord (g.cfg.mode &&& (0xFFFFFFFF ^^^ m)) c l l' g hl
theorem blind_universeToggleMode [Guise R] (m) : Blind R (universeToggleMode m) :=
  fun c l l' g hl => blind_setModeWord (g.cfg.mode ^^^ m) c l l' g hl

theorem blind_onRunnerTop (hR : Shows R) {α : Type} (id : Int) (f : Stack → α × Stack) : Blind R (onRunnerTop id f) := fun c l l' g hl => by
  by_cases hid : (c.id : Int) = id
  · rw [onRunnerTop_cur (s := ⟨c, l, g⟩) f hid, onRunnerTop_cur (s := ⟨c, l', g⟩) f hid]
    exact blind_bind (blind_onTop f) (fun a => blind_pure _) c l l' g hl
  · rw [onRunnerTop_others (s := ⟨c, l, g⟩) f hid, onRunnerTop_others (s := ⟨c, l', g⟩) f hid]
    unfold onOthers
    dsimp only
    rcases hR.stacks id f l l' hl with ⟨h1, h2⟩ | ⟨e, h1, h2⟩ | ⟨a, k, k', h1, h2, hk⟩
    · rw [h1, h2]; exact .inr ⟨_, _, _, _, _, rfl, rfl, hl⟩
    · rw [h1, h2]; exact .inl ⟨e, rfl, rfl⟩
    · rw [h1, h2]; exact .inr ⟨_, _, _, _, _, rfl, rfl, hk⟩

end Funge
