import Verif.Props.C102_Fish
/-
C116: a ><> program does the same under *><>.
-/
namespace Funge
open Exec Field

/-! ### C116 -/

/-- The characters *><> has added. -/
def starLetters : List Int := [96, 67, 82, 117, 79, 73, 68, 70, 83, 104, 109, 115]

/-- The two universes have printed, read and asked the same, have the same playfield and exit code, and their IPs have the same place, direction and offset, the same stacks, and the
same registers, and are both in a string or both not. -/
structure SameSwim (u u' : Univ) : Prop where
  eff : u.g.eff = u'.g.eff
  inp : u.g.inp = u'.g.inp
  asked : u.g.asked = u'.g.asked
  field : u.g.field = u'.g.field
  code : u.g.exitcode = u'.g.exitcode
  running : u.g.running = u'.g.running
  runners : u.runners.map (fun r => (r.ip, r.ss, r.regs, r.inString)) = u'.runners.map fun r => (r.ip, r.ss, r.regs, r.inString)

namespace FishStar

/-- What *><> makes of an IP of ><>, with the direction `c` in mind. -/
def starred (c : Vec) (r : Runner) : Runner :=
  { r with strats := [.starfish], sems := fun i => meanings semsStarfish i ++ meanings semsFish i, starUp := true, starCache := c }

/-- And of a state. -/
def toStar (c : Vec) (s : St) : St := ⟨starred c s.cur, s.rest, { s.g with cfg := { s.g.cfg with standard := -2 } }⟩

/-- A state of ><>. -/
structure Finny (s : St) : Prop where
  strats : s.cur.strats = [.fish]
  sems : s.cur.sems = meanings semsFish
  handler : s.cur.handler = .fish
  rest : s.rest = []
  dive : hasMode s.g.cfg.mode modeDive = false
  debut : s.cur.available = []

/-- `m` does the same under ><> and *><>. -/
def Agree {α : Type} (m : Exec α) : Prop := ∀ s c, Finny s →
  (∃ e, m s = .error e ∧ m (toStar c s) = .error e) ∨ ∃ a t d, m s = .ok (a, t) ∧ m (toStar c s) = .ok (a, toStar d t) ∧ Finny t

theorem agree_bind {α β : Type} {m : Exec α} {f : α → Exec β} (hm : Agree m) (hf : ∀ a, Agree (f a)) : Agree (m >>= f) := by
  intro s c h
  rcases hm s c h with ⟨e, h1, h2⟩ | ⟨a, t, d, h1, h2, h3⟩
  · exact .inl ⟨e, bind_error h1, bind_error h2⟩
  · rcases hf a t d h3 with ⟨e, h4, h5⟩ | ⟨b, t', d', h4, h5, h6⟩
    · exact .inl ⟨e, (bind_ok h1).trans h4, (bind_ok h2).trans h5⟩
    · exact .inr ⟨b, t', d', (bind_ok h1).trans h4, (bind_ok h2).trans h5, h6⟩

theorem agree_pure {α : Type} (a : α) : Agree (pure a : Exec α) := fun s c h => .inr ⟨a, s, c, rfl, rfl, h⟩
theorem agree_fault {α : Type} (e : Fault) : Agree (fault e : Exec α) := fun _ _ _ => .inl ⟨e, rfl, rfl⟩
theorem agree_ite {α : Type} {p : Prop} [Decidable p] {m n : Exec α} (hm : Agree m) (hn : Agree n) : Agree (if p then m else n) := by
  split
  · exact hm
  · exact hn

/-- Looking at something that is not different. -/
theorem agree_look {α : Type} (f : St → α) (h : ∀ s c, f (toStar c s) = f s) : Agree (fun s => .ok (f s, s) : Exec α) := fun s c hs =>
  .inr ⟨f s, s, c, rfl, congrArg (fun a => Except.ok (a, toStar c s)) (h s c), hs⟩
theorem agree_getFlt : Agree getFlt := agree_look _ fun _ _ => rfl
theorem agree_getDims : Agree getDims := agree_look _ fun _ _ => rfl
theorem agree_getFuel : Agree getFuel := agree_look _ fun _ _ => rfl
theorem agree_isMode (m) : Agree (isMode m) := agree_look _ fun _ _ => rfl
theorem agree_numStacks : Agree numStacks := agree_look _ fun _ _ => rfl
theorem agree_ipPos : Agree ipPos := agree_look _ fun _ _ => rfl
theorem agree_ipDelta : Agree ipDelta := agree_look _ fun _ _ => rfl
theorem agree_ipStorage : Agree ipStorage := agree_look _ fun _ _ => rfl
theorem agree_ipGet : Agree ipGet := agree_look _ fun _ _ => rfl
theorem agree_fieldGet (v) : Agree (fieldGet v) := agree_look _ fun _ _ => rfl

/-- A change that is the same for both. -/
theorem agree_modCur (f : Runner → Runner) (h : ∀ c r, f (starred c r) = starred c (f r))
    (h2 : ∀ r, (f r).strats = r.strats ∧ (f r).sems = r.sems ∧ (f r).handler = r.handler ∧ (f r).available = r.available) : Agree (modCur f) := fun s c hs => by
  obtain ⟨k1, k2, k3, k4⟩ := h2 s.cur
  refine .inr ⟨(), { s with cur := f s.cur }, c, rfl, ?_, ⟨k1.trans hs.strats, k2.trans hs.sems, k3.trans hs.handler, hs.rest, hs.dive, k4.trans hs.debut⟩⟩
  show Except.ok ((), { toStar c s with cur := f (starred c s.cur) }) = _
  rw [h]; rfl
theorem agree_modG (f : Glob → Glob) (h : ∀ g : Glob, f { g with cfg := { g.cfg with standard := -2 } } = { f g with cfg := { (f g).cfg with standard := -2 } })
    (h2 : ∀ g, (f g).cfg = g.cfg) : Agree (modG f) := fun s c hs => by
  refine .inr ⟨(), { s with g := f s.g }, c, rfl, ?_, ⟨hs.strats, hs.sems, hs.handler, hs.rest, ?_, hs.debut⟩⟩
  · show Except.ok ((), { toStar c s with g := f { s.g with cfg := { s.g.cfg with standard := -2 } } }) = _
    rw [h]; rfl
  · show hasMode (f s.g).cfg.mode modeDive = false
    rw [h2]; exact hs.dive
theorem agree_onIP (f : IP → IP) : Agree (onIP f) := agree_modCur _ (fun _ _ => rfl) fun _ => ⟨rfl, rfl, rfl, rfl⟩
theorem agree_emit (e : Eff) : Agree (emit e) := agree_modG _ (fun _ => rfl) fun _ => rfl
theorem agree_fieldPut (v i) : Agree (fieldPut v i) := agree_modG _ (fun _ => rfl) fun _ => rfl
theorem agree_enterString (q) : Agree (enterString q) := agree_modCur _ (fun _ _ => rfl) fun _ => ⟨rfl, rfl, rfl, rfl⟩
theorem agree_ask : Agree ask := fun _ c hs => .inr ⟨_, _, c, rfl, rfl, ⟨hs.strats, hs.sems, hs.handler, hs.rest, hs.dive, hs.debut⟩⟩
theorem agree_getChar : Agree getChar := fun s c hs => by
  have h1 : getChar s = (match s.g.inp with | [] => .ok (none, s) | x :: t => .ok (some x, { s with g := { s.g with inp := t } })) := rfl
  have h2 : getChar (toStar c s) = (match s.g.inp with | [] => .ok (none, toStar c s) | x :: t => .ok (some x, toStar c { s with g := { s.g with inp := t } })) := rfl
  rw [h1, h2]
  cases s.g.inp with
  | nil => exact .inr ⟨_, s, c, rfl, rfl, hs⟩
  | cons x t => exact .inr ⟨_, { s with g := { s.g with inp := t } }, c, rfl, rfl, ⟨hs.strats, hs.sems, hs.handler, hs.rest, hs.dive, hs.debut⟩⟩
theorem agree_onStack {α : Type} (x) (f : Stack → α × Stack) : Agree (onStack x f) := fun s c hs => by
  have h1 : onStack x f s = (match s.cur.ss.at' x with | .error e => .error e | .ok st => .ok ((f st).1, { s with cur := { s.cur with ss := s.cur.ss.setAt x (f st).2 } })) := rfl
  have h2 : onStack x f (toStar c s) = (match s.cur.ss.at' x with
    | .error e => .error e | .ok st => .ok ((f st).1, toStar c { s with cur := { s.cur with ss := s.cur.ss.setAt x (f st).2 } })) := rfl
  rw [h1, h2]
  cases s.cur.ss.at' x with
  | error e => exact .inl ⟨e, rfl, rfl⟩
  | ok st => exact .inr ⟨_, _, c, rfl, rfl, ⟨hs.strats, hs.sems, hs.handler, hs.rest, hs.dive, hs.debut⟩⟩
theorem agree_onTop {α : Type} (f : Stack → α × Stack) : Agree (onTop f) := fun s c hs => agree_onStack s.cur.ss.select f s c hs
theorem agree_onSecond {α : Type} (f : Stack → α × Stack) : Agree (onSecond f) := fun s c hs => agree_onStack (s.cur.ss.select + 1) f s c hs
theorem agree_popTop : Agree popTop := agree_onTop _
theorem agree_popSecond : Agree popSecond := agree_onSecond _
theorem agree_pushTop (v) : Agree (pushTop v) := agree_onTop _
theorem agree_pushSecond (v) : Agree (pushSecond v) := agree_onSecond _
theorem agree_sizeTop : Agree sizeTop := agree_onTop _
theorem agree_sizeSecond : Agree sizeSecond := agree_onSecond _
theorem agree_onStacks (f : StackStack → Except Fault StackStack) : Agree (onStacks f) := fun s c hs => by
  have h1 : onStacks f s = (match f s.cur.ss with | .error e => .error e | .ok st => .ok ((), { s with cur := { s.cur with ss := st } })) := rfl
  have h2 : onStacks f (toStar c s) = (match f s.cur.ss with | .error e => .error e | .ok st => .ok ((), toStar c { s with cur := { s.cur with ss := st } })) := rfl
  rw [h1, h2]
  cases f s.cur.ss with
  | error e => exact .inl ⟨e, rfl, rfl⟩
  | ok st => exact .inr ⟨_, _, c, rfl, rfl, ⟨hs.strats, hs.sems, hs.handler, hs.rest, hs.dive, hs.debut⟩⟩
theorem agree_ipNext : Agree ipNext := fun s c hs => by
  have h1 : ipNext s = (match s.cur.ip.next s.g.cfg.dims s.g.cfg.topo s.g.field with | .error e => .error e | .ok ip => .ok ((), { s with cur := { s.cur with ip := ip } })) := rfl
  have h2 : ipNext (toStar c s) = (match s.cur.ip.next s.g.cfg.dims s.g.cfg.topo s.g.field with
    | .error e => .error e | .ok ip => .ok ((), toStar c { s with cur := { s.cur with ip := ip } })) := rfl
  rw [h1, h2]
  cases s.cur.ip.next s.g.cfg.dims s.g.cfg.topo s.g.field with
  | error e => exact .inl ⟨e, rfl, rfl⟩
  | ok st => exact .inr ⟨_, _, c, rfl, rfl, ⟨hs.strats, hs.sems, hs.handler, hs.rest, hs.dive, hs.debut⟩⟩

/-- The one thing that differs: *><> remembers the direction. -/
theorem agree_setDelta (v) : Agree (setDelta v) := fun s c hs => by
  have key : ∀ (b : Bool), ∃ d, notifyDelta { starred c s.cur with ip := s.cur.ip.setDelta b v } = starred d (notifyDelta { s.cur with ip := s.cur.ip.setDelta b v }) := by
    intro b
    unfold notifyDelta
    dsimp only
    by_cases h : ((s.cur.ip.setDelta b v).delta.get 0 ≠ 0 ∧ (s.cur.ip.setDelta b v).delta.get 1 = 0)
    · refine ⟨(s.cur.ip.setDelta b v).delta, ?_⟩
      rw [if_pos h, if_pos h]
      have : Strat.starfish ∈ (starred c s.cur).strats := List.mem_singleton.mpr rfl
      rw [if_pos this]
      rfl
    · refine ⟨c, ?_⟩
      rw [if_neg h, if_neg h]
      rfl
  have hcur : ∀ (b : Bool), Finny { s with cur := notifyDelta { s.cur with ip := s.cur.ip.setDelta b v } } := by
    intro b
    refine ⟨?_, ?_, ?_, hs.rest, hs.dive, ?_⟩
    · show (notifyDelta _).strats = _
      unfold notifyDelta; dsimp only; split <;> exact hs.strats
    · show (notifyDelta _).sems = _
      rw [notifyDelta_sems]; exact hs.sems
    · show (notifyDelta _).handler = _
      rw [notifyDelta_handler]; exact hs.handler
    · show (notifyDelta _).available = _
      unfold notifyDelta; dsimp only; split <;> exact hs.debut
  obtain ⟨d, hd⟩ := key (hasMode s.g.cfg.mode modeHover)
  refine .inr ⟨(), _, d, rfl, ?_, hcur _⟩
  show Except.ok ((), { toStar c s with cur := notifyDelta { starred c s.cur with ip := s.cur.ip.setDelta (hasMode s.g.cfg.mode modeHover) v } }) = _
  rw [hd]; rfl

theorem agree_runnerPush (n) : Agree (runnerPush n) := fun s c hs => by
  have h1 : runnerPush n s = pushTop (s.g.flt.ofInt n) s := by unfold runnerPush; rw [hs.strats]
  rw [h1]
  exact agree_pushTop _ s c hs

/-! The instructions. -/

/-- One step of `agree`. -/
syntax "agree1" : tactic
macro_rules | `(tactic| agree1) => `(tactic| with_reducible intro _)
macro_rules | `(tactic| agree1) => `(tactic| split)
macro_rules | `(tactic| agree1) => `(tactic| with_reducible first
  | exact agree_pure _ | exact agree_fault _ | exact agree_getFlt | exact agree_getDims | exact agree_getFuel | exact agree_isMode _ | exact agree_numStacks | exact agree_ipPos
  | exact agree_ipDelta | exact agree_ipStorage | exact agree_ipGet | exact agree_fieldGet _ | exact agree_onIP _ | exact agree_emit _ | exact agree_fieldPut _ _
  | exact agree_enterString _ | exact agree_ask | exact agree_getChar | exact agree_popTop | exact agree_popSecond | exact agree_pushTop _ | exact agree_pushSecond _
  | exact agree_sizeTop | exact agree_sizeSecond | exact agree_onStacks _ | exact agree_ipNext | exact agree_setDelta _ | exact agree_runnerPush _
  | refine agree_bind ?_ ?_)
/-- Follows the shape of a definition. -/
macro "agree" : tactic => `(tactic| repeat' agree1)

theorem agree_checkTop (n) {k : Exec Err} (h : Agree k) : Agree (checkTop n k) := agree_bind agree_sizeTop fun _ => agree_ite (agree_pure _) h
theorem agree_checkSecond (n) {k : Exec Err} (h : Agree k) : Agree (checkSecond n k) := agree_bind agree_sizeSecond fun _ => agree_ite (agree_pure _) h
theorem agree_checkSelected (n) {k : Exec Err} (h : Agree k) : Agree (checkSelected n k) := agree_bind agree_numStacks fun _ => agree_ite (agree_pure _) h
macro_rules | `(tactic| agree1) => `(tactic| with_reducible first | refine agree_checkTop _ ?_ | refine agree_checkSecond _ ?_ | refine agree_checkSelected _ ?_)
theorem agree_fishPush (n) : Agree (fishPush n) := by unfold fishPush; agree
theorem agree_fishInt (n) : Agree (fishInt n) := by unfold fishInt; agree
macro_rules | `(tactic| agree1) => `(tactic| with_reducible first | exact agree_fishPush _ | exact agree_fishInt _)
theorem agree_fishPopInt : Agree fishPopInt := by unfold fishPopInt; agree
macro_rules | `(tactic| agree1) => `(tactic| with_reducible exact agree_fishPopInt)
theorem agree_fishPopSize : Agree fishPopSize := by unfold fishPopSize; agree
macro_rules | `(tactic| agree1) => `(tactic| with_reducible exact agree_fishPopSize)
theorem agree_popVectorLoop {pop : Exec Int} (h : Agree pop) (n) : ∀ v, Agree (popVectorLoop pop n v) := by
  induction n with
  | zero => exact fun v => agree_pure v
  | succ n ih => exact fun v => agree_bind h fun x => ih _
theorem agree_fishPopVectorOn {pop : Exec Int} (h : Agree pop) : Agree (fishPopVectorOn pop) :=
  agree_bind agree_getDims fun _ => agree_popVectorLoop (agree_bind h fun _ => agree_fishInt _) _ _
theorem agree_popN {pop : Exec Int} (h : Agree pop) (n) : Agree (popN pop n) := by
  induction n with
  | zero => exact agree_pure _
  | succ n ih => exact agree_bind h fun _ => agree_bind ih fun _ => agree_pure _
theorem agree_pushAll {push : Int → Exec Unit} (h : ∀ x, Agree (push x)) (l) : Agree (pushAll push l) := by
  induction l with
  | nil => exact agree_pure _
  | cons x r ih => exact agree_bind (h x) fun _ => ih
theorem agree_moveN {pop : Exec Int} {push : Int → Exec Unit} (hp : Agree pop) (h : ∀ x, Agree (push x)) (n) : Agree (moveN pop push n) := by
  induction n with
  | zero => exact agree_pure _
  | succ n ih => exact agree_bind hp fun _ => agree_bind (h _) fun _ => ih
theorem agree_regs (f : List (Bool × Int) → List (Bool × Int)) : Agree (modCur fun r => { r with regs := f r.regs }) := agree_modCur _ (fun _ _ => rfl) fun _ => ⟨rfl, rfl, rfl, rfl⟩
theorem agree_regs' (l : List (Bool × Int)) : Agree (modCur fun r => { r with regs := l }) := agree_modCur _ (fun _ _ => rfl) fun _ => ⟨rfl, rfl, rfl, rfl⟩
theorem agree_filed (l : Option (List Int)) : Agree (modCur fun r => { r with file := l }) := agree_modCur _ (fun _ _ => rfl) fun _ => ⟨rfl, rfl, rfl, rfl⟩
theorem agree_unquote : Agree (modCur fun r => { r with strPrev := 0, inString := false }) := agree_modCur _ (fun _ _ => rfl) fun _ => ⟨rfl, rfl, rfl, rfl⟩
theorem agree_strPrev (i) : Agree (modCur fun r => { r with strPrev := i }) := agree_modCur _ (fun _ _ => rfl) fun _ => ⟨rfl, rfl, rfl, rfl⟩
macro_rules | `(tactic| agree1) => `(tactic| with_reducible first
  | refine agree_fishPopVectorOn ?_ | refine agree_popN ?_ _ | refine agree_pushAll ?_ _ | refine agree_moveN ?_ ?_ _
  | exact agree_regs _ | exact agree_regs' _ | exact agree_filed _ | exact agree_unquote | exact agree_strPrev _)

/-- Looking at the state. -/
theorem agree_getbind {α : Type} {f : St → Exec α} (h : ∀ s, Agree (f s)) (hf : ∀ s c, f (toStar c s) = f s) : Agree (Exec.get >>= f) := fun s c hs => by
  have h1 : (Exec.get >>= f) s = f s s := rfl
  have h2 : (Exec.get >>= f) (toStar c s) = f (toStar c s) (toStar c s) := rfl
  rw [h1, h2, hf]
  exact h s s c hs

theorem agree_random (a b) : Agree (random a b) := by unfold random; dsimp only; agree
macro_rules | `(tactic| agree1) => `(tactic| with_reducible exact agree_random _ _)
theorem agree_iGoAway : Agree iGoAway := by unfold iGoAway; agree
theorem agree_fiIn : Agree fiIn := by
  unfold fiIn
  refine agree_getbind (fun s => ?_) fun s c => rfl
  agree
theorem agree_fiRegister : Agree fiRegister := by
  unfold fiRegister
  refine agree_getbind (fun s => ?_) fun s c => rfl
  agree
theorem agree_fiRemoveStack : Agree fiRemoveStack := by
  unfold fiRemoveStack
  refine agree_checkSelected _ (agree_checkSelected _ (agree_bind agree_sizeTop fun n => agree_bind (by agree) fun _ => agree_bind (agree_onStacks _) fun _ => ?_))
  refine agree_getbind (fun s => ?_) fun s c => rfl
  agree

/-- Each of them. -/
theorem agree_op (exec : Int → Exec Err) {p : Int × Sem} (h : p ∈ semsFish) : Agree (runOp exec p.2.op) := by
  have all : ∀ p ∈ semsFish, p.2.op ∈ ([.fSkip, .fRight, .fLeft, .fDown, .fUp, .fMirror1, .fMirror2, .fMirrorVert, .fMirrorHori, .fMirrorAll, .fRandom, .fTrampoline, .fConditional, .fJump,
      .fAdd, .fSub, .fMult, .fDiv, .fModu, .fEqual, .fGreater, .fLess, .fString 39, .fString 34, .fDuplicate, .fRemove, .fSwap2, .fSwap3, .fLength, .fShiftLeft, .fShiftRight, .fReverse,
      .fCreateStack, .fRemoveStack, .fOutChar, .fOutInt, .fIn, .fRegister, .fGet, .fPut, .fEnd] : List Op) ∨ ∃ n ∈ List.range 16, p.2.op = .fPush n := by decide +kernel
  rcases all p h with h | ⟨n, -, h⟩
  · simp only [List.mem_cons, List.not_mem_nil, or_false] at h
    rcases h with h | h | h | h | h | h | h | h | h | h | h | h | h | h | h | h | h | h | h | h | h | h | h | h | h | h | h | h | h | h | h | h | h | h | h | h | h | h | h | h | h <;> rw [h]
    · show Agree (pure Err.skip); agree
    · show Agree (iGo _); unfold iGo; agree
    · show Agree (iGo _); unfold iGo; agree
    · show Agree (iGo _); unfold iGo; agree
    · show Agree (iGo _); unfold iGo; agree
    · show Agree fiMirror1; unfold fiMirror1; agree
    · show Agree fiMirror2; unfold fiMirror2; agree
    · show Agree fiMirrorVert; unfold fiMirrorVert; agree
    · show Agree fiMirrorHori; unfold fiMirrorHori; agree
    · show Agree fiMirrorAll; unfold fiMirrorAll; agree
    · exact agree_iGoAway
    · show Agree iTrampoline; unfold iTrampoline; agree
    · show Agree fiConditional; unfold fiConditional; agree
    · show Agree fiJump; unfold fiJump; agree
    · show Agree (fiBin _); unfold fiBin; agree
    · show Agree (fiBin _); unfold fiBin; agree
    · show Agree (fiBin _); unfold fiBin; agree
    · show Agree fiDiv; unfold fiDiv; agree
    · show Agree fiModu; unfold fiModu; agree
    · show Agree (fiBin _); unfold fiBin; agree
    · show Agree (fiBin _); unfold fiBin; agree
    · show Agree (fiBin _); unfold fiBin; agree
    · show Agree (iString _); unfold iString; agree
    · show Agree (iString _); unfold iString; agree
    · show Agree fiDuplicate; unfold fiDuplicate; agree
    · show Agree fiRemove; unfold fiRemove; agree
    · show Agree fiSwap2; unfold fiSwap2; agree
    · show Agree fiSwap3; unfold fiSwap3; agree
    · show Agree fiLength; unfold fiLength; agree
    · show Agree fiShiftLeft; unfold fiShiftLeft; agree
    · show Agree fiShiftRight; unfold fiShiftRight; agree
    · show Agree fiReverse; unfold fiReverse; agree
    · show Agree fiCreateStack; unfold fiCreateStack; agree
    · exact agree_fiRemoveStack
    · show Agree fiOutChar; unfold fiOutChar; agree
    · show Agree fiOutInt; unfold fiOutInt; agree
    · exact agree_fiIn
    · exact agree_fiRegister
    · show Agree fiGet; unfold fiGet; agree
    · show Agree fiPut; unfold fiPut; agree
    · show Agree iStop; unfold iStop; agree
  · rw [h]
    show Agree (fiPush _); unfold fiPush; agree

/-! The characters. -/

/-- `m` does the same in this state. -/
def AgreeAt {α : Type} (m : Exec α) (s : St) (c : Vec) : Prop :=
  (∃ e, m s = .error e ∧ m (toStar c s) = .error e) ∨ ∃ a t d, m s = .ok (a, t) ∧ m (toStar c s) = .ok (a, toStar d t) ∧ Finny t

theorem mem_meanings {l : List (Int × Sem)} {i : Int} {x : Sem} (h : x ∈ meanings l i) : (i, x) ∈ l := by
  unfold meanings at h
  obtain ⟨p, hp, rfl⟩ := List.mem_map.mp (List.mem_reverse.mp h)
  obtain ⟨h1, h2⟩ := List.mem_filter.mp hp
  rw [← eq_of_beq h2]
  exact h1

/-- The characters of ><> are none of those *><> has added. -/
theorem meanings_fish {i : Int} {x : Sem} (h : x ∈ meanings semsFish i) : meanings semsStarfish i = [] := by
  have all : ∀ p ∈ semsFish, meanings semsStarfish p.1 = [] := by decide +kernel
  exact all _ (mem_meanings h)

theorem meanings_star {i : Int} (h : i ∉ starLetters) : meanings semsStarfish i = [] := by
  refine meanings_nil fun p hp he => h ?_
  have all : ∀ p ∈ semsStarfish, p.1 ∈ starLetters := by decide +kernel
  rw [← he]
  exact all p hp

theorem agree_isSpace (x) : Agree (isSpace x) := by unfold isSpace; agree
macro_rules | `(tactic| agree1) => `(tactic| with_reducible exact agree_isSpace _)
theorem agree_execSGML (i) : Agree (execSGML i) := by
  unfold execSGML
  refine agree_bind (agree_isSpace i) fun a => agree_getbind (fun s => ?_) fun s c => rfl
  agree
theorem agree_execC (i) : Agree (execC i) := by unfold execC; agree
theorem agree_execString (i) : Agree (execString i) := by
  unfold execString
  refine agree_getbind (fun s => ?_) fun s c => rfl
  split
  · agree
  · split
    · agree
    · exact agree_execSGML i
    · exact agree_execC i

/-- What is on a cell, if it is none of the added characters or part of a string. -/
theorem execute_agree (n : Nat) (i : Int) {s : St} (c : Vec) (hs : Finny s) :
    AgreeAt (execute n i) s c ∨ s.cur.inString = false ∧ i ∈ starLetters ∧ execute n i s = .ok (.unimp, s) := by
  cases n with
  | zero => exact .inl (.inl ⟨_, rfl, rfl⟩)
  | succ n =>
    have h1 : execute (n + 1) i s = if s.cur.inString then execString i s else execNormal (execute n) i s := rfl
    have h2 : execute (n + 1) i (toStar c s) = if s.cur.inString then execString i (toStar c s) else execNormal (execute n) i (toStar c s) := rfl
    unfold AgreeAt
    rw [h1, h2]
    cases hq : s.cur.inString with
    | true => exact .inl (agree_execString i s c hs)
    | false =>
      have e1 : execNormal (execute n) i s = (match (meanings semsFish i).head? with | none => .ok (.unimp, s) | some x => runOp (execute n) x.op s) := by
        unfold execNormal Runner.getSem
        rw [hs.sems, hs.dive]
        rfl
      have e2 : execNormal (execute n) i (toStar c s) = (match (meanings semsStarfish i ++ meanings semsFish i).head? with
          | none => .ok (.unimp, toStar c s) | some x => runOp (execute n) x.op (toStar c s)) := by
        unfold execNormal Runner.getSem
        rw [show hasMode (toStar c s).g.cfg.mode modeDive = false from hs.dive]
        rfl
      simp only [Bool.false_eq_true, if_false]
      rw [e1, e2]
      cases hm : meanings semsFish i with
      | nil =>
        by_cases hi : i ∈ starLetters
        · exact .inr ⟨by simp, hi, rfl⟩
        · rw [meanings_star hi]
          exact .inl (.inr ⟨_, s, c, rfl, rfl, hs⟩)
      | cons x t =>
        have hx : x ∈ meanings semsFish i := by rw [hm]; exact List.mem_cons_self
        rw [meanings_fish hx]
        exact .inl (agree_op (execute n) (mem_meanings hx) s c hs)

theorem agree_killAll (v) : Agree (killAll v) := fun s c hs => by
  refine .inr ⟨(), _, c, rfl, rfl, ⟨hs.strats, hs.sems, hs.handler, ?_, hs.dive, hs.debut⟩⟩
  show List.map _ s.rest = []
  rw [hs.rest]; rfl
macro_rules | `(tactic| agree1) => `(tactic| with_reducible exact agree_killAll _)
theorem agree_handle (e) : Agree (handle e) := by
  unfold handle
  refine agree_getbind (fun s => ?_) fun s c => rfl
  agree
theorem agree_afterExec (e) : Agree (afterExec e) := by
  unfold afterExec
  split
  · agree
  · agree
  · agree
  · exact agree_handle e

/-! Ticks and turns. -/

/-- The fish of ><> has died on one of the added characters. -/
structure Lost (t : St) : Prop where
  stopped : t.cur.ip.stopped = true
  rest : t.rest = []
  code : t.g.exitcode = 1
  string : t.cur.inString = false
  letter : t.g.field.get t.cur.ip.pos ∈ starLetters

/-- The loop of a tick, spelled out. -/
theorem tickLoop_tail (k : Nat) (s : St) : tickLoop (k + 1) s = (execute s.g.fuel (s.g.field.get s.cur.ip.pos) >>= fun e => afterExec e >>= fun e =>
    (if e = .none ∨ e = .skip then ipNext else pure ()) >>= fun _ => if e = .skip then tickLoop k else pure ()) s := by
  rw [tickLoop, bind_ok (ipGet_run s), bind_ok (getFuel_run s)]
  have : ∀ {m : Exec Err} {f f' : Err → Exec Unit}, (∀ e, f e = f' e) → (m >>= f) s = (m >>= f') s := fun h => by rw [funext h]
  refine this fun e => ?_
  congr 1
  funext e'
  cases e' <;> rfl

theorem tickLoop_agree (k : Nat) : ∀ {s : St} (c : Vec), Finny s → AgreeAt (tickLoop k) s c ∨ ∃ t, tickLoop k s = .ok ((), t) ∧ Lost t := by
  induction k with
  | zero => exact fun c _ => .inl (.inl ⟨_, rfl, rfl⟩)
  | succ k ih =>
    intro s c hs
    have h1 := tickLoop_tail k s
    have h2 := tickLoop_tail k (toStar c s)
    unfold AgreeAt
    rw [h1, h2]
    show ((∃ e, _ ∧ (execute s.g.fuel (s.g.field.get s.cur.ip.pos) >>= _) (toStar c s) = _) ∨ ∃ a t d, _ ∧ (execute s.g.fuel (s.g.field.get s.cur.ip.pos) >>= _) (toStar c s) = _ ∧ _) ∨ _
    rcases execute_agree s.g.fuel (s.g.field.get s.cur.ip.pos) c hs with (⟨e, e1, e2⟩ | ⟨e, t, d, e1, e2, ht⟩) | ⟨q1, q2, e1⟩
    · exact .inl (.inl ⟨e, bind_error e1, bind_error e2⟩)
    · rw [bind_ok e1, bind_ok e2]
      rcases agree_afterExec e t d ht with ⟨e', f1, f2⟩ | ⟨e', t', d', f1, f2, ht'⟩
      · exact .inl (.inl ⟨e', bind_error f1, bind_error f2⟩)
      · rw [bind_ok f1, bind_ok f2]
        have hn : Agree (if e' = .none ∨ e' = .skip then ipNext else pure ()) := agree_ite agree_ipNext (agree_pure _)
        rcases hn t' d' ht' with ⟨v, g1, g2⟩ | ⟨v, t2, d2, g1, g2, ht2⟩
        · exact .inl (.inl ⟨v, bind_error g1, bind_error g2⟩)
        · rw [bind_ok g1, bind_ok g2]
          by_cases hsk : e' = .skip
          · rw [if_pos hsk]
            exact ih d2 ht2
          · rw [if_neg hsk]
            exact .inl (.inr ⟨(), t2, d2, rfl, rfl, ht2⟩)
    · rw [bind_ok e1]
      have h3 : afterExec .unimp s = .ok (.unimp, killed s 1) := by
        show handle .unimp s = _
        rw [handle, bind_ok (get_run s), hs.handler]
        have hm : isMode modeDive s = .ok (false, s) := by
          show Except.ok (hasMode s.g.cfg.mode modeDive, s) = _
          rw [hs.dive]
        refine (bind_ok hm).trans ?_
        rw [if_neg (by simp)]; rfl
      rw [bind_ok h3]
      refine .inr ⟨killed s 1, rfl, ⟨rfl, ?_, rfl, q1, q2⟩⟩
      show List.map _ s.rest = []
      rw [hs.rest]; rfl

theorem tick_agree {s : St} (c : Vec) (hs : Finny s) : AgreeAt tick s c ∨ ∃ t, tick s = .ok ((), t) ∧ Lost t := tickLoop_agree s.g.fuel c hs

/-- The universe of *><> for that of ><>. -/
inductive Both : Univ → Univ → Prop
  | over (g : Glob) : Both ⟨[], g⟩ ⟨[], { g with cfg := { g.cfg with standard := -2 } }⟩
  | live (s : St) (c : Vec) : Finny s → s.cur.ip.stopped = false → Both s.alone (toStar c s).alone

theorem turns_agree (k : Nat) : ∀ {u u' : Univ}, Both u u' →
    (∃ e, u.turns k = .error e ∧ u'.turns k = .error e) ∨
    (∃ v v', u.turns k = .ok v ∧ u'.turns k = .ok v' ∧ Both v v') ∨
    ∃ j s t, j < k ∧ u.turns j = .ok s.alone ∧ s.rest = [] ∧ tick s = .ok ((), t) ∧ Lost t ∧ u.turns k = .ok ⟨[], t.g⟩ := by
  induction k with
  | zero => exact fun {u u'} h => .inr (.inl ⟨u, u', rfl, rfl, h⟩)
  | succ k ih =>
    intro u u' h
    cases h with
    | over g => exact .inr (.inl ⟨_, _, turns_over _ _, turns_over _ _, .over g⟩)
    | live s c hs hl =>
      have hs' : (toStar c s).rest = [] := hs.rest
      have next : ∀ {v v' : Univ}, s.alone.turn = .ok v → (toStar c s).alone.turn = .ok v' → Both v v' →
          (∃ e, s.alone.turns (k + 1) = .error e ∧ (toStar c s).alone.turns (k + 1) = .error e) ∨
          (∃ v v', s.alone.turns (k + 1) = .ok v ∧ (toStar c s).alone.turns (k + 1) = .ok v' ∧ Both v v') ∨
          ∃ j s' t, j < k + 1 ∧ s.alone.turns j = .ok s'.alone ∧ s'.rest = [] ∧ tick s' = .ok ((), t) ∧ Lost t ∧ s.alone.turns (k + 1) = .ok ⟨[], t.g⟩ := by
        intro v v' h1 h2 hv
        rw [turns_cons h1, turns_cons h2]
        rcases ih hv with h | h | ⟨j, s', t, h3, h4, h5, h6, h7, h8⟩
        · exact .inl h
        · exact .inr (.inl h)
        · exact .inr (.inr ⟨j + 1, s', t, by omega, (turns_cons h1 j).trans h4, h5, h6, h7, h8⟩)
      rcases tick_agree c hs with (⟨e, e1, e2⟩ | ⟨_, t, d, e1, e2, ht⟩) | ⟨t, e1, ht⟩
      · exact .inl ⟨e, turns_wrong hs.rest hl e1 k, turns_wrong hs' hl e2 k⟩
      · cases hst : t.cur.ip.stopped with
        | true => exact next (turn_last hs.rest hl e1 hst ht.rest) (turn_last hs' hl e2 hst ht.rest) (.over t.g)
        | false => exact next (turn_alone hs.rest hl e1 hst ht.rest) (turn_alone hs' hl e2 hst ht.rest) (.live t d ht hst)
      · refine .inr (.inr ⟨0, s, t, by omega, rfl, hs.rest, e1, ht, ?_⟩)
        rw [turns_cons (turn_last hs.rest hl e1 ht.stopped ht.rest), turns_over]

theorem both_same {u u' : Univ} (h : Both u u') : SameSwim u u' := by
  cases h with
  | over g => exact ⟨rfl, rfl, rfl, rfl, rfl, rfl, rfl⟩
  | live s c hs hl => exact ⟨rfl, rfl, rfl, rfl, rfl, rfl, rfl⟩

theorem both_launch {g : Glob} (h1 : g.cfg.standard = -1) (h2 : hasMode g.cfg.mode modeDive = false) (cc : Bool) (text : List Int) :
    Both (launch g cc text) (launch { g with cfg := { g.cfg with standard := -2 } } cc text) := by
  have hp : ∀ (r : Runner) (l : List (Int × Sem)), r.sems = (fun _ => []) → r.pushSems l = { r with sems := meanings l } := by
    intro r l hr
    rw [pushSems_eq]
    congr 1
    funext i
    rw [pushSems_sems, hr, List.append_nil]
  have hpp : ∀ (r : Runner) (l l' : List (Int × Sem)), r.sems = (fun _ => []) → (r.pushSems l).pushSems l' = { r with sems := fun i => meanings l' i ++ meanings l i } := by
    intro r l l' hr
    rw [hp r l hr, pushSems_eq]
    congr 1
    funext i
    rw [pushSems_sems]
  have hr : ∀ (b : Bool) (id : Nat), ∃ r : Runner, ∃ c, (notifyDelta { ({ id := id, strats := [.fish], sems := meanings semsFish, handler := .fish, regs := [(false, 0)] } : Runner) with
        ip := (({} : IP).setPos (Vec.ofList [0])).setDelta b (Vec.ofList [1]) }) = r ∧
      notifyDelta { (starred (Vec.ofList [1, 0]) ({ id := id, strats := [.fish], sems := meanings semsFish, handler := .fish, regs := [(false, 0)] } : Runner)) with
        ip := (({} : IP).setPos (Vec.ofList [0])).setDelta b (Vec.ofList [1]) } = starred c r ∧ r.strats = [.fish] ∧ r.sems = meanings semsFish ∧ r.handler = .fish ∧ r.available = [] ∧ r.ip.stopped = false := by
    intro b id
    unfold notifyDelta
    dsimp only
    split
    · refine ⟨_, (((({} : IP).setPos (Vec.ofList [0])).setDelta b (Vec.ofList [1])).delta), rfl, ?_, rfl, rfl, rfl, rfl, ?_⟩
      · have : Strat.starfish ∈ (starred (Vec.ofList [1, 0]) ({ id := id, strats := [.fish], sems := meanings semsFish, handler := .fish, regs := [(false, 0)] } : Runner)).strats := List.mem_singleton.mpr rfl
        rw [if_pos this]
        rfl
      · cases b <;> rfl
    · exact ⟨_, Vec.ofList [1, 0], rfl, rfl, rfl, rfl, rfl, rfl, by cases b <;> rfl⟩
  obtain ⟨r, c, e1, e2, r1, r2, r3, r4, r5⟩ := hr (hasMode g.cfg.mode modeHover) g.nextId
  have n1 : newRunner g.cfg g.nextId (Vec.ofList [0]) (Vec.ofList [1]) = { r with ss := r.ss.setMode g.cfg.mode } := by
    rw [← e1]
    unfold newRunner strategiesFor
    rw [if_pos h1]
    dsimp only [List.foldl_cons, List.foldl_nil, Strat.init]
    rw [hp _ _ rfl]
  have n2 : newRunner { g.cfg with standard := -2 } g.nextId (Vec.ofList [0]) (Vec.ofList [1]) = starred c { r with ss := r.ss.setMode g.cfg.mode } := by
    have : starred c { r with ss := r.ss.setMode g.cfg.mode } = { starred c r with ss := (starred c r).ss.setMode g.cfg.mode } := rfl
    rw [this, ← e2]
    unfold newRunner strategiesFor
    dsimp only
    rw [if_neg (by decide), if_pos rfl]
    dsimp only [List.foldl_cons, List.foldl_nil, Strat.init]
    rw [hpp _ _ _ rfl]
    rfl
  unfold launch
  dsimp only
  rw [n1, n2]
  exact .live ⟨{ r with ss := r.ss.setMode g.cfg.mode }, [], { g with field := Field.load g.cfg.dims cc text, nextId := g.nextId + 1 }⟩ c ⟨r1, r2, r3, rfl, h2, r4⟩ r5

end FishStar

/-- The fish has died, with exit code 1, at the character of the cell it is in, which is one of those *><> has added. -/
structure DiedOnLetter (t : St) : Prop where
  stopped : t.cur.ip.stopped = true
  code : t.g.exitcode = 1
  string : t.cur.inString = false
  letter : t.g.field.get t.cur.ip.pos ∈ starLetters

/-- The same, with *><> for ><>. -/
def Glob.starfish (g : Glob) : Glob := { g with cfg := { g.cfg with standard := -2 } }

/-- **C116.** What a ><> program does after `k` ticks under ><> it does under *><>: both runs have gone wrong, in the same way, or have printed, read and left the same; or else the fish
of ><> has died meanwhile on a character that *><> has added, both having done the same until then. -/
theorem C116_does_the_same {g : Glob} (h1 : g.cfg.standard = -1) (h2 : hasMode g.cfg.mode modeDive = false) (cc : Bool) (text : List Int) (k : Nat) :
    (∃ e, (launch g cc text).turns k = .error e ∧ (launch g.starfish cc text).turns k = .error e) ∨
    (∃ u u', (launch g cc text).turns k = .ok u ∧ (launch g.starfish cc text).turns k = .ok u' ∧ SameSwim u u') ∨
    ∃ j s t v, j < k ∧ s.rest = [] ∧ (launch g cc text).turns j = .ok s.alone ∧ (launch g.starfish cc text).turns j = .ok v ∧ SameSwim s.alone v ∧
      tick s = .ok ((), t) ∧ DiedOnLetter t ∧ (launch g cc text).turns k = .ok ⟨[], t.g⟩ := by
  rcases FishStar.turns_agree k (FishStar.both_launch h1 h2 cc text) with h | ⟨v, v', e1, e2, h⟩ | ⟨j, s, t, hj, e1, hr, e2, h3, e3⟩
  · exact .inl h
  · exact .inr (.inl ⟨v, v', e1, e2, FishStar.both_same h⟩)
  · refine .inr (.inr ?_)
    rcases FishStar.turns_agree j (FishStar.both_launch h1 h2 cc text) with ⟨e, e4, -⟩ | ⟨v, v', e4, e5, h⟩ | ⟨_, _, t', _, _, _, _, _, e4⟩
    · rw [e1] at e4; cases e4
    · rw [e1] at e4; cases e4
      exact ⟨j, s, t, v', hj, hr, e1, e5, FishStar.both_same h, e2, ⟨h3.stopped, h3.code, h3.string, h3.letter⟩, e3⟩
    · rw [e1] at e4
      have := congrArg Univ.runners (Except.ok.inj e4)
      cases this

/-- **C116.** So a ><> program that does not end with exit code 1, or has not ended, does the same under *><>. -/
theorem C116_one_that_does_not_die {g : Glob} (h1 : g.cfg.standard = -1) (h2 : hasMode g.cfg.mode modeDive = false) (cc : Bool) (text : List Int) {k : Nat} {u : Univ}
    (hu : (launch g cc text).turns k = .ok u) (h : u.g.exitcode ≠ 1 ∨ u.runners ≠ []) :
    ∃ u', (launch g.starfish cc text).turns k = .ok u' ∧ SameSwim u u' := by
  rcases C116_does_the_same h1 h2 cc text k with ⟨e, e1, -⟩ | ⟨v, v', e1, e2, h3⟩ | ⟨_, _, t, _, _, _, _, _, _, _, ht, e1⟩
  · rw [hu] at e1; cases e1
  · rw [hu] at e1; cases e1
    exact ⟨v', e2, h3⟩
  · rw [hu] at e1; cases e1
    rcases h with h | h
    · exact absurd ht.code h
    · exact absurd rfl h

/-- **C116.** And so does one in whose run no character that *><> has added is ever under the fish outside of strings. -/
theorem C116_one_without_the_letters {g : Glob} (h1 : g.cfg.standard = -1) (h2 : hasMode g.cfg.mode modeDive = false) (cc : Bool) (text : List Int)
    (hn : ∀ j s t, (launch g cc text).turns j = .ok s.alone → s.rest = [] → tick s = .ok ((), t) → t.cur.inString = false → t.g.field.get t.cur.ip.pos ∉ starLetters) (k : Nat) :
    (∃ e, (launch g cc text).turns k = .error e ∧ (launch g.starfish cc text).turns k = .error e) ∨
    ∃ u u', (launch g cc text).turns k = .ok u ∧ (launch g.starfish cc text).turns k = .ok u' ∧ SameSwim u u' := by
  rcases C116_does_the_same h1 h2 cc text k with h | h | ⟨j, s, t, _, _, hs, e1, _, _, e2, ht, _⟩
  · exact .inl h
  · exact .inr h
  · exact absurd ht.letter (hn j s t e1 hs e2 ht.string)

/-- **C116.** With C102: a program of the ><> machine that does not end by dying prints, under *><>, what the machine prints. Missing as in C102: what the code does otherwise than the
language. -/
theorem C116_prints_as_the_machine_partial {g : Glob} {f : Nat} {lines : List (List Int)} (h : Dives g f lines) (R : Ref.Rules) (hR : R.torus = false) {p : Ref.Fish → Bool} {N : Nat}
    (hN : (Ref.Fish.start R lines g.inp).settles g.flt R p N = true) (hp : ∀ b, p b = true → b.code.getD g.exitcode ≠ 1) (hf : N < f) {k : Nat} (hk : N < k) :
    ∃ u b, (launch g.starfish R.byte (Spec.planeText lines)).turns k = .ok u ∧ u.runners = [] ∧ p b = true ∧
      (∃ o : List (List Int), u.g.eff = g.eff ++ o.map Eff.out ∧ o.flatten = b.out) ∧ u.g.inp = b.inp ∧ u.g.exitcode = b.code.getD g.exitcode := by
  obtain ⟨u, b, e1, e2, e3, e4⟩ := C102_tried_out h R hR hN hf hk
  obtain ⟨c1, c2, c3, c4, c5, c6⟩ := h.config
  obtain ⟨u', e5, e6⟩ := C116_one_that_does_not_die (g := g) (by assumption) (by have : g.cfg.mode = 0 := by assumption
                                                                                 rw [this]; rfl) R.byte _ e1 (.inl (by rw [e4.code]; exact hp b e3))
  refine ⟨u', b, e5, ?_, e3, ?_, ?_, ?_⟩
  · have := e6.runners
    rw [e2] at this
    exact List.map_eq_nil_iff.mp this.symm
  · rw [← e6.eff]; exact e4.out
  · rw [← e6.inp]; exact e4.inp
  · rw [← e6.code]; exact e4.code

/-! ### Examples -/

/-- What a program prints under the standard `n`, and its exit code, if it ends within `k` ticks. -/
def fishEnds (n : Int) (line : String) (k : Nat) : Option (List Int × Int) :=
  match (launch { exFish with cfg := { exFish.cfg with standard := n } } false (Spec.planeText [sourceLine line])).turns k with
  | .ok ⟨[], g⟩ => some (g.eff.flatMap (fun e => match e with | .out l => l | _ => []), g.exitcode)
  | _ => none

/-- A string with an added letter in it does the same under both. -/
example : fishEnds (-1) "\"OR\"oo;" 20 = some (sourceLine "RO", 0) ∧ fishEnds (-2) "\"OR\"oo;" 20 = some (sourceLine "RO", 0) := by decide +kernel

/-- With an added letter in the way, ><> dies and *><> carries on; until then both have printed the same. -/
example : fishEnds (-1) "1nO2n;" 20 = some (sourceLine "1", 1) ∧ fishEnds (-2) "1nO2n;" 20 = some (sourceLine "12", 0) := by decide +kernel

/-- A letter neither knows. -/
example : fishEnds (-1) "1nW2n;" 20 = some (sourceLine "1", 1) ∧ fishEnds (-2) "1nW2n;" 20 = some (sourceLine "1", 1) := by decide +kernel

/-- A run of one IP that ends within `n` ticks without coming by an added letter. -/
def keepsClear : Nat → Univ → Bool
  | 0, u => u.runners.isEmpty
  | n + 1, u => match u.runners with
    | [] => true
    | [r] => (match tick ⟨r, [], u.g⟩ with
      | .ok (_, t) => t.cur.inString || !starLetters.contains (t.g.field.get t.cur.ip.pos)
      | .error _ => false) && (match u.turn with
      | .ok v => keepsClear n v
      | .error _ => false)
    | _ => false

theorem keepsClear_letters (n : Nat) : ∀ {u : Univ}, keepsClear n u = true → ∀ j s t, u.turns j = .ok s.alone → s.rest = [] → tick s = .ok ((), t) → t.cur.inString = false →
    t.g.field.get t.cur.ip.pos ∉ starLetters := by
  have over : ∀ {u : Univ} {j : Nat} {s : St}, u.runners = [] → u.turns j ≠ .ok s.alone := by
    intro ⟨rs, g⟩ j s h1 h2
    cases h1
    rw [turns_over] at h2
    have := congrArg Univ.runners (Except.ok.inj h2)
    cases this
  induction n with
  | zero => exact fun {u} h j s t h1 => absurd h1 (over (List.isEmpty_iff.mp h))
  | succ n ih =>
    intro u h j s t h1 h2 h3 h4 h5
    unfold keepsClear at h
    cases hr : u.runners with
    | nil => exact over hr h1
    | cons r l =>
      cases l with
      | cons _ _ => rw [hr] at h; cases h
      | nil =>
        rw [hr] at h
        obtain ⟨h6, h7⟩ := Bool.and_eq_true_iff.mp h
        cases j with
        | zero =>
          have hu : u = s.alone := Except.ok.inj h1
          subst hu
          obtain ⟨c, l, g⟩ := s
          cases h2
          cases hr
          dsimp only [St.alone] at h6
          rw [h3] at h6
          dsimp only at h6
          rw [h4, Bool.false_or] at h6
          rw [List.contains_iff_mem.mpr h5] at h6
          cases h6
        | succ j =>
          cases hv : u.turn with
          | error e => rw [hv] at h7; cases h7
          | ok v =>
            rw [hv] at h7
            rw [turns_cons hv] at h1
            exact ih h7 j s t h1 h2 h3 h4 h5

/-- One that prints a string with an added letter in it, counts, and goes around. -/
example : ∀ k, (∃ e, (launch exFish false (Spec.planeText [sourceLine "<;n+15o'R'"])).turns k = .error e ∧
      (launch exFish.starfish false (Spec.planeText [sourceLine "<;n+15o'R'"])).turns k = .error e) ∨
    ∃ u u', (launch exFish false (Spec.planeText [sourceLine "<;n+15o'R'"])).turns k = .ok u ∧
      (launch exFish.starfish false (Spec.planeText [sourceLine "<;n+15o'R'"])).turns k = .ok u' ∧ SameSwim u u' :=
  C116_one_without_the_letters rfl rfl false _ (keepsClear_letters 20 (by decide +kernel))

example : ∃ u, ∃ b : Ref.Fish, (launch exFish.starfish exRules.byte (Spec.planeText exHello)).turns 151 = .ok u ∧ u.runners = [] ∧ (b.out == sourceLine "hello" && b.code == none) = true ∧
    (∃ o : List (List Int), u.g.eff = [] ++ o.map Eff.out ∧ o.flatten = b.out) ∧ u.g.inp = b.inp ∧ u.g.exitcode = b.code.getD 0 :=
  C116_prints_as_the_machine_partial (g := exFish) (f := 2000) (N := 150) (p := fun b => b.out == sourceLine "hello" && b.code == none)
    ⟨⟨rfl, rfl, rfl, rfl, rfl, rfl⟩, rfl, by decide, by decide, sourceLine_plain (by decide)⟩ exRules rfl (by decide +kernel)
    (fun b hb => by
      have := beq_iff_eq.mp (Bool.and_eq_true_iff.mp hb).2
      rw [this]
      decide) (by decide) (by decide)

end Funge
