import Verif.Props.C116_Starfish
import Verif.Spec.Star
/-!
The interpreter of *><> and its reference machine.
-/
namespace Funge
open Exec Field Ref

namespace Angler
open FishStar (starred Finny meanings_fish mem_meanings)

/-! The instructions of ><> under *><>. -/

/-- An IP of *><> for one of ><>, with the direction it has in mind and where the fisherman sends it. -/
def snared (c : Vec × Bool) (r : Runner) : Runner := { starred c.1 r with starUp := c.2 }

/-- And a state. -/
def hooked (c : Vec × Bool) (s : St) : St := ⟨snared c s.cur, s.rest, { s.g with cfg := { s.g.cfg with standard := -2 } }⟩

/-- `m` does the same under ><> and *><>. -/
def Same {α : Type} (m : Exec α) : Prop := ∀ s c, Finny s →
  (∃ e, m s = .error e ∧ m (hooked c s) = .error e) ∨ ∃ a t, m s = .ok (a, t) ∧ m (hooked c s) = .ok (a, hooked c t) ∧ Finny t

theorem same_bind {α β : Type} {m : Exec α} {f : α → Exec β} (hm : Same m) (hf : ∀ a, Same (f a)) : Same (m >>= f) := by
  intro s c h
  rcases hm s c h with ⟨e, h1, h2⟩ | ⟨a, t, h1, h2, h3⟩
  · exact .inl ⟨e, bind_error h1, bind_error h2⟩
  · rcases hf a t c h3 with ⟨e, h4, h5⟩ | ⟨b, t', h4, h5, h6⟩
    · exact .inl ⟨e, (bind_ok h1).trans h4, (bind_ok h2).trans h5⟩
    · exact .inr ⟨b, t', (bind_ok h1).trans h4, (bind_ok h2).trans h5, h6⟩

theorem same_pure {α : Type} (a : α) : Same (pure a : Exec α) := fun s _ h => .inr ⟨a, s, rfl, rfl, h⟩
theorem same_fault {α : Type} (e : Fault) : Same (fault e : Exec α) := fun _ _ _ => .inl ⟨e, rfl, rfl⟩
theorem same_ite {α : Type} {p : Prop} [Decidable p] {m n : Exec α} (hm : Same m) (hn : Same n) : Same (if p then m else n) := by
  split
  · exact hm
  · exact hn

/-- Looking at something that is not different. -/
theorem same_look {α : Type} (f : St → α) (h : ∀ s c, f (hooked c s) = f s) : Same (fun s => .ok (f s, s) : Exec α) := fun s c hs =>
  .inr ⟨f s, s, rfl, congrArg (fun a => Except.ok (a, hooked c s)) (h s c), hs⟩
theorem same_getFlt : Same getFlt := same_look _ fun _ _ => rfl
theorem same_getDims : Same getDims := same_look _ fun _ _ => rfl
theorem same_getFuel : Same getFuel := same_look _ fun _ _ => rfl
theorem same_isMode (m) : Same (isMode m) := same_look _ fun _ _ => rfl
theorem same_numStacks : Same numStacks := same_look _ fun _ _ => rfl
theorem same_ipPos : Same ipPos := same_look _ fun _ _ => rfl
theorem same_ipDelta : Same ipDelta := same_look _ fun _ _ => rfl
theorem same_ipStorage : Same ipStorage := same_look _ fun _ _ => rfl
theorem same_ipGet : Same ipGet := same_look _ fun _ _ => rfl
theorem same_fieldGet (v) : Same (fieldGet v) := same_look _ fun _ _ => rfl

/-- A change that is the same for both. -/
theorem same_modCur (f : Runner → Runner) (h : ∀ c r, f (snared c r) = snared c (f r))
    (h2 : ∀ r, (f r).strats = r.strats ∧ (f r).sems = r.sems ∧ (f r).handler = r.handler ∧ (f r).available = r.available) : Same (modCur f) := fun s c hs => by
  obtain ⟨k1, k2, k3, k4⟩ := h2 s.cur
  refine .inr ⟨(), { s with cur := f s.cur }, rfl, ?_, ⟨k1.trans hs.strats, k2.trans hs.sems, k3.trans hs.handler, hs.rest, hs.dive, k4.trans hs.debut⟩⟩
  show Except.ok ((), { hooked c s with cur := f (snared c s.cur) }) = _
  rw [h]; rfl
theorem same_modG (f : Glob → Glob) (h : ∀ g : Glob, f { g with cfg := { g.cfg with standard := -2 } } = { f g with cfg := { (f g).cfg with standard := -2 } })
    (h2 : ∀ g, (f g).cfg = g.cfg) : Same (modG f) := fun s c hs => by
  refine .inr ⟨(), { s with g := f s.g }, rfl, ?_, ⟨hs.strats, hs.sems, hs.handler, hs.rest, ?_, hs.debut⟩⟩
  · show Except.ok ((), { hooked c s with g := f { s.g with cfg := { s.g.cfg with standard := -2 } } }) = _
    rw [h]; rfl
  · show hasMode (f s.g).cfg.mode modeDive = false
    rw [h2]; exact hs.dive
theorem same_onIP (f : IP → IP) : Same (onIP f) := same_modCur _ (fun _ _ => rfl) fun _ => ⟨rfl, rfl, rfl, rfl⟩
theorem same_emit (e : Eff) : Same (emit e) := same_modG _ (fun _ => rfl) fun _ => rfl
theorem same_fieldPut (v i) : Same (fieldPut v i) := same_modG _ (fun _ => rfl) fun _ => rfl
theorem same_enterString (q) : Same (enterString q) := same_modCur _ (fun _ _ => rfl) fun _ => ⟨rfl, rfl, rfl, rfl⟩
theorem same_ask : Same ask := fun _ _ hs => .inr ⟨_, _, rfl, rfl, ⟨hs.strats, hs.sems, hs.handler, hs.rest, hs.dive, hs.debut⟩⟩
theorem same_getChar : Same getChar := fun s c hs => by
  have h1 : getChar s = (match s.g.inp with | [] => .ok (none, s) | x :: t => .ok (some x, { s with g := { s.g with inp := t } })) := rfl
  have h2 : getChar (hooked c s) = (match s.g.inp with | [] => .ok (none, hooked c s) | x :: t => .ok (some x, hooked c { s with g := { s.g with inp := t } })) := rfl
  rw [h1, h2]
  cases s.g.inp with
  | nil => exact .inr ⟨_, s, rfl, rfl, hs⟩
  | cons x t => exact .inr ⟨_, { s with g := { s.g with inp := t } }, rfl, rfl, ⟨hs.strats, hs.sems, hs.handler, hs.rest, hs.dive, hs.debut⟩⟩
theorem same_onStack {α : Type} (x) (f : Stack → α × Stack) : Same (onStack x f) := fun s c hs => by
  have h1 : onStack x f s = (match s.cur.ss.at' x with | .error e => .error e | .ok st => .ok ((f st).1, { s with cur := { s.cur with ss := s.cur.ss.setAt x (f st).2 } })) := rfl
  have h2 : onStack x f (hooked c s) = (match s.cur.ss.at' x with
    | .error e => .error e | .ok st => .ok ((f st).1, hooked c { s with cur := { s.cur with ss := s.cur.ss.setAt x (f st).2 } })) := rfl
  rw [h1, h2]
  cases s.cur.ss.at' x with
  | error e => exact .inl ⟨e, rfl, rfl⟩
  | ok st => exact .inr ⟨_, _, rfl, rfl, ⟨hs.strats, hs.sems, hs.handler, hs.rest, hs.dive, hs.debut⟩⟩
theorem same_onTop {α : Type} (f : Stack → α × Stack) : Same (onTop f) := fun s c hs => same_onStack s.cur.ss.select f s c hs
theorem same_onSecond {α : Type} (f : Stack → α × Stack) : Same (onSecond f) := fun s c hs => same_onStack (s.cur.ss.select + 1) f s c hs
theorem same_popTop : Same popTop := same_onTop _
theorem same_popSecond : Same popSecond := same_onSecond _
theorem same_pushTop (v) : Same (pushTop v) := same_onTop _
theorem same_pushSecond (v) : Same (pushSecond v) := same_onSecond _
theorem same_sizeTop : Same sizeTop := same_onTop _
theorem same_sizeSecond : Same sizeSecond := same_onSecond _
theorem same_onStacks (f : StackStack → Except Fault StackStack) : Same (onStacks f) := fun s c hs => by
  have h1 : onStacks f s = (match f s.cur.ss with | .error e => .error e | .ok st => .ok ((), { s with cur := { s.cur with ss := st } })) := rfl
  have h2 : onStacks f (hooked c s) = (match f s.cur.ss with | .error e => .error e | .ok st => .ok ((), hooked c { s with cur := { s.cur with ss := st } })) := rfl
  rw [h1, h2]
  cases f s.cur.ss with
  | error e => exact .inl ⟨e, rfl, rfl⟩
  | ok st => exact .inr ⟨_, _, rfl, rfl, ⟨hs.strats, hs.sems, hs.handler, hs.rest, hs.dive, hs.debut⟩⟩
theorem same_ipNext : Same ipNext := fun s c hs => by
  have h1 : ipNext s = (match s.cur.ip.next s.g.cfg.dims s.g.cfg.topo s.g.field with | .error e => .error e | .ok ip => .ok ((), { s with cur := { s.cur with ip := ip } })) := rfl
  have h2 : ipNext (hooked c s) = (match s.cur.ip.next s.g.cfg.dims s.g.cfg.topo s.g.field with
    | .error e => .error e | .ok ip => .ok ((), hooked c { s with cur := { s.cur with ip := ip } })) := rfl
  rw [h1, h2]
  cases s.cur.ip.next s.g.cfg.dims s.g.cfg.topo s.g.field with
  | error e => exact .inl ⟨e, rfl, rfl⟩
  | ok st => exact .inr ⟨_, _, rfl, rfl, ⟨hs.strats, hs.sems, hs.handler, hs.rest, hs.dive, hs.debut⟩⟩

theorem same_runnerPush (n) : Same (runnerPush n) := fun s c hs => by
  have h1 : runnerPush n s = pushTop (s.g.flt.ofInt n) s := by unfold runnerPush; rw [hs.strats]
  rw [h1]
  exact same_pushTop _ s c hs

/-! The instructions. -/

/-- One step of `follow`. -/
syntax "follow1" : tactic
macro_rules | `(tactic| follow1) => `(tactic| with_reducible intro _)
macro_rules | `(tactic| follow1) => `(tactic| split)
macro_rules | `(tactic| follow1) => `(tactic| with_reducible first
  | exact same_pure _ | exact same_fault _ | exact same_getFlt | exact same_getDims | exact same_getFuel | exact same_isMode _ | exact same_numStacks | exact same_ipPos
  | exact same_ipDelta | exact same_ipStorage | exact same_ipGet | exact same_fieldGet _ | exact same_onIP _ | exact same_emit _ | exact same_fieldPut _ _
  | exact same_enterString _ | exact same_ask | exact same_getChar | exact same_popTop | exact same_popSecond | exact same_pushTop _ | exact same_pushSecond _
  | exact same_sizeTop | exact same_sizeSecond | exact same_onStacks _ | exact same_ipNext | exact same_runnerPush _
  | refine same_bind ?_ ?_)
/-- Follows the shape of a definition. -/
macro "follow" : tactic => `(tactic| repeat' follow1)

theorem same_checkTop (n) {k : Exec Err} (h : Same k) : Same (checkTop n k) := same_bind same_sizeTop fun _ => same_ite (same_pure _) h
theorem same_checkSecond (n) {k : Exec Err} (h : Same k) : Same (checkSecond n k) := same_bind same_sizeSecond fun _ => same_ite (same_pure _) h
theorem same_checkSelected (n) {k : Exec Err} (h : Same k) : Same (checkSelected n k) := same_bind same_numStacks fun _ => same_ite (same_pure _) h
macro_rules | `(tactic| follow1) => `(tactic| with_reducible first | refine same_checkTop _ ?_ | refine same_checkSecond _ ?_ | refine same_checkSelected _ ?_)
theorem same_fishPush (n) : Same (fishPush n) := by unfold fishPush; follow
theorem same_fishInt (n) : Same (fishInt n) := by unfold fishInt; follow
macro_rules | `(tactic| follow1) => `(tactic| with_reducible first | exact same_fishPush _ | exact same_fishInt _)
theorem same_fishPopInt : Same fishPopInt := by unfold fishPopInt; follow
macro_rules | `(tactic| follow1) => `(tactic| with_reducible exact same_fishPopInt)
theorem same_fishPopSize : Same fishPopSize := by unfold fishPopSize; follow
macro_rules | `(tactic| follow1) => `(tactic| with_reducible exact same_fishPopSize)
theorem same_popVectorLoop {pop : Exec Int} (h : Same pop) (n) : ∀ v, Same (popVectorLoop pop n v) := by
  induction n with
  | zero => exact fun v => same_pure v
  | succ n ih => exact fun v => same_bind h fun x => ih _
theorem same_fishPopVectorOn {pop : Exec Int} (h : Same pop) : Same (fishPopVectorOn pop) :=
  same_bind same_getDims fun _ => same_popVectorLoop (same_bind h fun _ => same_fishInt _) _ _
theorem same_popN {pop : Exec Int} (h : Same pop) (n) : Same (popN pop n) := by
  induction n with
  | zero => exact same_pure _
  | succ n ih => exact same_bind h fun _ => same_bind ih fun _ => same_pure _
theorem same_pushAll {push : Int → Exec Unit} (h : ∀ x, Same (push x)) (l) : Same (pushAll push l) := by
  induction l with
  | nil => exact same_pure _
  | cons x r ih => exact same_bind (h x) fun _ => ih
theorem same_moveN {pop : Exec Int} {push : Int → Exec Unit} (hp : Same pop) (h : ∀ x, Same (push x)) (n) : Same (moveN pop push n) := by
  induction n with
  | zero => exact same_pure _
  | succ n ih => exact same_bind hp fun _ => same_bind (h _) fun _ => ih
theorem same_regs (f : List (Bool × Int) → List (Bool × Int)) : Same (modCur fun r => { r with regs := f r.regs }) := same_modCur _ (fun _ _ => rfl) fun _ => ⟨rfl, rfl, rfl, rfl⟩
theorem same_regs' (l : List (Bool × Int)) : Same (modCur fun r => { r with regs := l }) := same_modCur _ (fun _ _ => rfl) fun _ => ⟨rfl, rfl, rfl, rfl⟩
theorem same_filed (l : Option (List Int)) : Same (modCur fun r => { r with file := l }) := same_modCur _ (fun _ _ => rfl) fun _ => ⟨rfl, rfl, rfl, rfl⟩
theorem same_unquote : Same (modCur fun r => { r with strPrev := 0, inString := false }) := same_modCur _ (fun _ _ => rfl) fun _ => ⟨rfl, rfl, rfl, rfl⟩
theorem same_strPrev (i) : Same (modCur fun r => { r with strPrev := i }) := same_modCur _ (fun _ _ => rfl) fun _ => ⟨rfl, rfl, rfl, rfl⟩
macro_rules | `(tactic| follow1) => `(tactic| with_reducible first
  | refine same_fishPopVectorOn ?_ | refine same_popN ?_ _ | refine same_pushAll ?_ _ | refine same_moveN ?_ ?_ _
  | exact same_regs _ | exact same_regs' _ | exact same_filed _ | exact same_unquote | exact same_strPrev _)

/-- Looking at the state. -/
theorem same_getbind {α : Type} {f : St → Exec α} (h : ∀ s, Same (f s)) (hf : ∀ s c, f (hooked c s) = f s) : Same (Exec.get >>= f) := fun s c hs => by
  have h1 : (Exec.get >>= f) s = f s s := rfl
  have h2 : (Exec.get >>= f) (hooked c s) = f (hooked c s) (hooked c s) := rfl
  rw [h1, h2, hf]
  exact h s s c hs

theorem same_random (a b) : Same (random a b) := by unfold random; dsimp only; follow
macro_rules | `(tactic| follow1) => `(tactic| with_reducible exact same_random _ _)
theorem same_fiIn : Same fiIn := by
  unfold fiIn
  refine same_getbind (fun s => ?_) fun s c => rfl
  follow
theorem same_fiRegister : Same fiRegister := by
  unfold fiRegister
  refine same_getbind (fun s => ?_) fun s c => rfl
  follow
theorem same_fiRemoveStack : Same fiRemoveStack := by
  unfold fiRemoveStack
  refine same_checkSelected _ (same_checkSelected _ (same_bind same_sizeTop fun n => same_bind (by follow) fun _ => same_bind (same_onStacks _) fun _ => ?_))
  refine same_getbind (fun s => ?_) fun s c => rfl
  follow


/-- The word changes the direction. -/
def _root_.Funge.Ref.Swim.veers (w : Swim) : Bool := w.moves || w == .random

theorem same_op (exec : Int → Exec Err) {w : Swim} (h : w.veers = false) : Same (runOp exec (fishOp w)) := by
  cases w
  case go => cases h
  case backslash => cases h
  case slash => cases h
  case bar => cases h
  case dash => cases h
  case hash => cases h
  case random => cases h
  case blank => show Same (pure Err.skip); follow
  case push => show Same (fiPush _); unfold fiPush; follow
  case bridge => show Same iTrampoline; unfold iTrampoline; follow
  case cond => show Same fiConditional; unfold fiConditional; follow
  case jump => show Same fiJump; unfold fiJump; follow
  case add => show Same (fiBin _); unfold fiBin; follow
  case sub => show Same (fiBin _); unfold fiBin; follow
  case mul => show Same (fiBin _); unfold fiBin; follow
  case div => show Same fiDiv; unfold fiDiv; follow
  case rem => show Same fiModu; unfold fiModu; follow
  case eq => show Same (fiBin _); unfold fiBin; follow
  case gt => show Same (fiBin _); unfold fiBin; follow
  case lt => show Same (fiBin _); unfold fiBin; follow
  case quote => show Same (iString _); unfold iString; follow
  case dup => show Same fiDuplicate; unfold fiDuplicate; follow
  case drop => show Same fiRemove; unfold fiRemove; follow
  case swap => show Same fiSwap2; unfold fiSwap2; follow
  case rot => show Same fiSwap3; unfold fiSwap3; follow
  case len => show Same fiLength; unfold fiLength; follow
  case left => show Same fiShiftLeft; unfold fiShiftLeft; follow
  case right => show Same fiShiftRight; unfold fiShiftRight; follow
  case rev => show Same fiReverse; unfold fiReverse; follow
  case opens => show Same fiCreateStack; unfold fiCreateStack; follow
  case closes => exact same_fiRemoveStack
  case chr => show Same fiOutChar; unfold fiOutChar; follow
  case num => show Same fiOutInt; unfold fiOutInt; follow
  case input => exact same_fiIn
  case reg => exact same_fiRegister
  case get => show Same fiGet; unfold fiGet; follow
  case put => show Same fiPut; unfold fiPut; follow
  case stop => show Same iStop; unfold iStop; follow

theorem same_isSpace (x) : Same (isSpace x) := by unfold isSpace; follow
macro_rules | `(tactic| follow1) => `(tactic| with_reducible exact same_isSpace _)
theorem same_execSGML (i) : Same (execSGML i) := by
  unfold execSGML
  refine same_bind (same_isSpace i) fun a => same_getbind (fun s => ?_) fun s c => rfl
  follow
theorem same_execC (i) : Same (execC i) := by unfold execC; follow
theorem same_execString (i) : Same (execString i) := by
  unfold execString
  refine same_getbind (fun s => ?_) fun s c => rfl
  split
  · follow
  · split
    · follow
    · exact same_execSGML i
    · exact same_execC i

theorem same_siSleep : Same siSleep := by unfold siSleep; follow
theorem same_siTime : Same siTime := by unfold siTime; follow

/-! Those that change the direction. -/

/-- The direction in mind after a change. -/
def turned (c : Vec × Bool) (s : St) : Vec × Bool := (if s.cur.ip.delta.get 0 ≠ 0 ∧ s.cur.ip.delta.get 1 = 0 then s.cur.ip.delta else c.1, c.2)

/-- `m` does the same, and *><> keeps the direction in mind. -/
def Steers {α : Type} (m : Exec α) : Prop := ∀ s c, Finny s →
  (∃ e, m s = .error e ∧ m (hooked c s) = .error e) ∨ ∃ a t, m s = .ok (a, t) ∧ m (hooked c s) = .ok (a, hooked (turned c t) t) ∧ Finny t

theorem steers_after {α β : Type} {m : Exec α} {f : α → Exec β} (hm : Same m) (hf : ∀ a, Steers (f a)) : Steers (m >>= f) := by
  intro s c h
  rcases hm s c h with ⟨e, h1, h2⟩ | ⟨a, t, h1, h2, h3⟩
  · exact .inl ⟨e, bind_error h1, bind_error h2⟩
  · rcases hf a t c h3 with ⟨e, h4, h5⟩ | ⟨b, t', h4, h5, h6⟩
    · exact .inl ⟨e, (bind_ok h1).trans h4, (bind_ok h2).trans h5⟩
    · exact .inr ⟨b, t', (bind_ok h1).trans h4, (bind_ok h2).trans h5, h6⟩

theorem steers_before {α β : Type} {m : Exec α} (hm : Steers m) (b : β) : Steers (m >>= fun _ => pure b) := by
  intro s c h
  rcases hm s c h with ⟨e, h1, h2⟩ | ⟨a, t, h1, h2, h3⟩
  · exact .inl ⟨e, bind_error h1, bind_error h2⟩
  · exact .inr ⟨b, t, bind_ok h1, bind_ok h2, h3⟩

theorem steers_setDelta (v) : Steers (setDelta v) := fun s c hs => by
  have key : ∀ (b : Bool), notifyDelta { snared c s.cur with ip := s.cur.ip.setDelta b v } =
      snared (if (s.cur.ip.setDelta b v).delta.get 0 ≠ 0 ∧ (s.cur.ip.setDelta b v).delta.get 1 = 0 then (s.cur.ip.setDelta b v).delta else c.1, c.2)
        (notifyDelta { s.cur with ip := s.cur.ip.setDelta b v }) := by
    intro b
    unfold notifyDelta
    dsimp only
    by_cases h : ((s.cur.ip.setDelta b v).delta.get 0 ≠ 0 ∧ (s.cur.ip.setDelta b v).delta.get 1 = 0)
    · rw [if_pos h, if_pos h, if_pos h]
      have : Strat.starfish ∈ (snared c s.cur).strats := List.mem_singleton.mpr rfl
      rw [if_pos this]
      rfl
    · rw [if_neg h, if_neg h, if_neg h]
      rfl
  have hip : ∀ r : Runner, (notifyDelta r).ip = r.ip := by
    intro r
    unfold notifyDelta; dsimp only; split <;> rfl
  have hcur : ∀ (b : Bool), Finny { s with cur := notifyDelta { s.cur with ip := s.cur.ip.setDelta b v } } := by
    intro b
    refine ⟨?_, ?_, ?_, hs.rest, hs.dive, ?_⟩
    · show (notifyDelta _).strats = _
      unfold notifyDelta; dsimp only; split <;> exact hs.strats
    · show (notifyDelta _).sems = _
      rw [notifyDelta_sems]; exact hs.sems
    · show (notifyDelta _).handler = _
      rw [notifyDelta_handler]; exact hs.handler
    · show (notifyDelta _).available = _
      unfold notifyDelta; dsimp only; split <;> exact hs.debut
  refine .inr ⟨(), _, rfl, ?_, hcur _⟩
  show Except.ok ((), { hooked c s with cur := notifyDelta { snared c s.cur with ip := s.cur.ip.setDelta (hasMode s.g.cfg.mode modeHover) v } }) = _
  rw [key]
  unfold turned
  dsimp only
  rw [hip]
  rfl

theorem steers_op (exec : Int → Exec Err) {w : Swim} (h : w.veers = true) : Steers (runOp exec (fishOp w)) := by
  have go : ∀ v, Steers (iGo v) := fun v => steers_before (steers_setDelta v) _
  cases w
  case go dx dy =>
    have : fishOp (.go dx dy) ∈ [Op.fRight, .fLeft, .fDown, .fUp] := by unfold fishOp; split <;> simp_all
    simp only [List.mem_cons, List.not_mem_nil, or_false] at this
    rcases this with h | h | h | h <;> rw [h] <;> exact go _
  case backslash => exact steers_after same_ipDelta fun _ => steers_before (steers_setDelta _) _
  case slash => exact steers_after same_ipDelta fun _ => steers_before (steers_setDelta _) _
  case bar => exact steers_after same_ipDelta fun _ => steers_before (steers_setDelta _) _
  case dash => exact steers_after same_ipDelta fun _ => steers_before (steers_setDelta _) _
  case hash => exact steers_after same_ipDelta fun _ => steers_before (steers_setDelta _) _
  case random =>
    refine steers_after same_getDims fun _ => steers_after (same_random _ _) fun r => ?_
    dsimp only
    split <;> exact steers_before (steers_setDelta _) _
  all_goals cases h

end Angler
end Funge
