import Verif.Props.C45_Fish
import Verif.Props.C27_SysInfo
import Verif.Props.C51_FRTH
import Verif.Lemmas.Krfl
/-
C107: the fisherman of *><> (and of FISH), and the other words of *><> that C45–C49 do not speak of.
-/
namespace Funge
open Exec

/-! ### Specification -/

/-- A direction that is east or west, at any speed. -/
def Level (d : Nat → Int) : Prop := d 0 ≠ 0 ∧ d 1 = 0

instance (d : Nat → Int) : Decidable (Level d) := inferInstanceAs (Decidable (_ ∧ _))

/-- The last level direction, after `c` was the last one and `d` has been taken. -/
def lastLevel (c d : Nat → Int) : Nat → Int := if Level d then d else c

/-- An IP of a *><> program. -/
structure Starry (r : Runner) : Prop where
  fishy : r.Fishy
  strats : r.strats = [.starfish]

/-! ### What instructions do to the direction -/

/-- The direction has not been touched. -/
structure Straight (s s' : St) : Prop where
  delta : s'.cur.ip.delta.get = s.cur.ip.delta.get
  cache : s'.cur.starCache.get = s.cur.starCache.get
  up : s'.cur.starUp = s.cur.starUp
  handler : s'.cur.handler = s.cur.handler
  table : s'.cur.sems = s.cur.sems
  strats : s'.cur.strats = s.cur.strats
  loaded : s'.cur.loaded = s.cur.loaded
  hover : hasMode s'.g.cfg.mode modeHover = hasMode s.g.cfg.mode modeHover

/-- The direction has been set at most once. -/
structure Veers (s s' : St) : Prop where
  turn : s'.cur.ip.delta.get = s.cur.ip.delta.get ∧ s'.cur.starCache.get = s.cur.starCache.get ∨
    (.starfish ∈ s.cur.strats → s'.cur.starCache.get = lastLevel s.cur.starCache.get s'.cur.ip.delta.get)
  handler : s'.cur.handler = s.cur.handler
  table : s'.cur.sems = s.cur.sems
  strats : s'.cur.strats = s.cur.strats
  loaded : s'.cur.loaded = s.cur.loaded
  hover : hasMode s'.g.cfg.mode modeHover = hasMode s.g.cfg.mode modeHover

theorem Straight.refl (s : St) : Straight s s := ⟨rfl, rfl, rfl, rfl, rfl, rfl, rfl, rfl⟩
theorem Straight.trans {s t u : St} (h : Straight s t) (h' : Straight t u) : Straight s u :=
  ⟨h'.1.trans h.1, h'.2.trans h.2, h'.3.trans h.3, h'.4.trans h.4, h'.5.trans h.5, h'.6.trans h.6, h'.7.trans h.7, h'.8.trans h.8⟩
theorem Straight.veers {s t : St} (h : Straight s t) : Veers s t := ⟨.inl ⟨h.1, h.2⟩, h.4, h.5, h.6, h.7, h.8⟩
theorem Straight.then {s t u : St} (h : Straight s t) (h' : Veers t u) : Veers s u := by
  refine ⟨?_, h'.2.trans h.4, h'.3.trans h.5, h'.4.trans h.6, h'.5.trans h.7, h'.6.trans h.8⟩
  have := h'.turn
  rwa [h.delta, h.cache, h.strats] at this
theorem Veers.then {s t u : St} (h : Veers s t) (h' : Straight t u) : Veers s u := by
  refine ⟨?_, h'.4.trans h.2, h'.5.trans h.3, h'.6.trans h.4, h'.7.trans h.5, h'.8.trans h.6⟩
  have := h.turn
  rwa [← h'.delta, ← h'.cache] at this
theorem Veers.starry {s s' : St} (h : Veers s s') (hs : Starry s.cur) : Starry s'.cur :=
  ⟨hs.fishy.same h.handler h.loaded h.strats h.table, h.strats.trans hs.strats⟩
theorem Straight.starry {s s' : St} (h : Straight s s') (hs : Starry s.cur) : Starry s'.cur := h.veers.starry hs

theorem straight_bind {α β : Type} {m : Exec α} {f : α → Exec β} (hm : Keeps Straight m) (hf : ∀ a, Keeps Straight (f a)) : Keeps Straight (m >>= f) := by
  intro s b s' h
  obtain ⟨a, s1, h1, h2⟩ := bind_inv h
  exact (hm _ _ _ h1).trans (hf _ _ _ _ h2)
theorem veers_bind {α β : Type} {m : Exec α} {f : α → Exec β} (hm : Keeps Straight m) (hf : ∀ a, Keeps Veers (f a)) : Keeps Veers (m >>= f) := by
  intro s b s' h
  obtain ⟨a, s1, h1, h2⟩ := bind_inv h
  exact (hm _ _ _ h1).then (hf _ _ _ _ h2)
theorem bind_straight {α β : Type} {m : Exec α} {f : α → Exec β} (hm : Keeps Veers m) (hf : ∀ a, Keeps Straight (f a)) : Keeps Veers (m >>= f) := by
  intro s b s' h
  obtain ⟨a, s1, h1, h2⟩ := bind_inv h
  exact (hm _ _ _ h1).then (hf _ _ _ _ h2)

theorem straight_onStack {α : Type} (x : Nat) (f : Stack → α × Stack) : Keeps Straight (onStack x f) := by
  intro s a s' h
  unfold onStack at h
  split at h
  · cases h
  · cases h; exact ⟨rfl, rfl, rfl, rfl, rfl, rfl, rfl, rfl⟩
theorem straight_onTop {α : Type} (f : Stack → α × Stack) : Keeps Straight (onTop f) := fun s => straight_onStack _ f s
theorem straight_onSecond {α : Type} (f : Stack → α × Stack) : Keeps Straight (onSecond f) := fun s => straight_onStack _ f s
theorem straight_onStacks (f : StackStack → Except Fault StackStack) : Keeps Straight (onStacks f) := by
  intro s a s' h
  unfold onStacks at h
  split at h
  · cases h
  · cases h; exact ⟨rfl, rfl, rfl, rfl, rfl, rfl, rfl, rfl⟩
theorem straight_popTop : Keeps Straight popTop := straight_onTop _
theorem straight_popSecond : Keeps Straight popSecond := straight_onSecond _
theorem straight_pushTop (v) : Keeps Straight (pushTop v) := straight_onTop _
theorem straight_pushSecond (v) : Keeps Straight (pushSecond v) := straight_onSecond _
theorem straight_sizeTop : Keeps Straight sizeTop := straight_onTop _
theorem straight_sizeSecond : Keeps Straight sizeSecond := straight_onSecond _
theorem straight_pure {α : Type} (a : α) : Keeps Straight (pure a : Exec α) := by intro s b s' h; cases h; exact ⟨rfl, rfl, rfl, rfl, rfl, rfl, rfl, rfl⟩
theorem straight_fault {α : Type} (f : Fault) : Keeps Straight (fault f : Exec α) := by intro s b s' h; cases h
theorem straight_get : Keeps Straight Exec.get := by intro s b s' h; cases h; exact ⟨rfl, rfl, rfl, rfl, rfl, rfl, rfl, rfl⟩
theorem straight_getDims : Keeps Straight getDims := by intro s b s' h; cases h; exact ⟨rfl, rfl, rfl, rfl, rfl, rfl, rfl, rfl⟩
theorem straight_getCfg : Keeps Straight getCfg := by intro s b s' h; cases h; exact ⟨rfl, rfl, rfl, rfl, rfl, rfl, rfl, rfl⟩
theorem straight_getFlt : Keeps Straight getFlt := by intro s b s' h; cases h; exact ⟨rfl, rfl, rfl, rfl, rfl, rfl, rfl, rfl⟩
theorem straight_numStacks : Keeps Straight numStacks := by intro s b s' h; cases h; exact ⟨rfl, rfl, rfl, rfl, rfl, rfl, rfl, rfl⟩
theorem straight_isMode (m) : Keeps Straight (isMode m) := by intro s b s' h; cases h; exact ⟨rfl, rfl, rfl, rfl, rfl, rfl, rfl, rfl⟩
theorem straight_ipGet : Keeps Straight ipGet := by intro s b s' h; cases h; exact ⟨rfl, rfl, rfl, rfl, rfl, rfl, rfl, rfl⟩
theorem straight_ipPos : Keeps Straight ipPos := by intro s b s' h; cases h; exact ⟨rfl, rfl, rfl, rfl, rfl, rfl, rfl, rfl⟩
theorem straight_ipDelta : Keeps Straight ipDelta := by intro s b s' h; cases h; exact ⟨rfl, rfl, rfl, rfl, rfl, rfl, rfl, rfl⟩
theorem straight_ipStorage : Keeps Straight ipStorage := by intro s b s' h; cases h; exact ⟨rfl, rfl, rfl, rfl, rfl, rfl, rfl, rfl⟩
theorem straight_fieldGet (v) : Keeps Straight (fieldGet v) := by intro s b s' h; cases h; exact ⟨rfl, rfl, rfl, rfl, rfl, rfl, rfl, rfl⟩
theorem straight_fieldPut (v i) : Keeps Straight (fieldPut v i) := by intro s b s' h; cases h; exact ⟨rfl, rfl, rfl, rfl, rfl, rfl, rfl, rfl⟩
theorem straight_emit (e) : Keeps Straight (emit e) := by intro s b s' h; cases h; exact ⟨rfl, rfl, rfl, rfl, rfl, rfl, rfl, rfl⟩
theorem straight_ask : Keeps Straight ask := by intro s b s' h; cases h; exact ⟨rfl, rfl, rfl, rfl, rfl, rfl, rfl, rfl⟩
theorem straight_askFile : Keeps Straight askFile := by intro s b s' h; cases h; exact ⟨rfl, rfl, rfl, rfl, rfl, rfl, rfl, rfl⟩
theorem straight_setPos (f : IP → Vec) : Keeps Straight (onIP fun ip => ip.setPos (f ip)) := by intro s b s' h; cases h; exact ⟨rfl, rfl, rfl, rfl, rfl, rfl, rfl, rfl⟩
theorem straight_stop : Keeps Straight (onIP IP.stop) := by intro s b s' h; cases h; exact ⟨rfl, rfl, rfl, rfl, rfl, rfl, rfl, rfl⟩
theorem straight_killAll (c) : Keeps Straight (killAll c) := by intro s b s' h; cases h; exact ⟨rfl, rfl, rfl, rfl, rfl, rfl, rfl, rfl⟩
theorem straight_enterString (q) : Keeps Straight (enterString q) := by intro s b s' h; cases h; exact ⟨rfl, rfl, rfl, rfl, rfl, rfl, rfl, rfl⟩
theorem straight_regs (f : Runner → List (Bool × Int)) : Keeps Straight (modCur fun r => { r with regs := f r }) := by
  intro s b s' h; cases h; exact ⟨rfl, rfl, rfl, rfl, rfl, rfl, rfl, rfl⟩
theorem straight_file (f : Runner → Option (List Int)) : Keeps Straight (modCur fun r => { r with file := f r }) := by
  intro s b s' h; cases h; exact ⟨rfl, rfl, rfl, rfl, rfl, rfl, rfl, rfl⟩
theorem straight_filepath (f : Runner → Option (List Int)) (p : Runner → List Int) : Keeps Straight (modCur fun r => { r with file := f r, filepath := p r }) := by
  intro s b s' h; cases h; exact ⟨rfl, rfl, rfl, rfl, rfl, rfl, rfl, rfl⟩
theorem straight_strPrev (p : Runner → Int) : Keeps Straight (modCur fun r => { r with strPrev := p r }) := by
  intro s b s' h; cases h; exact ⟨rfl, rfl, rfl, rfl, rfl, rfl, rfl, rfl⟩
theorem straight_strOver : Keeps Straight (modCur fun r => { r with strPrev := 0, inString := false }) := by
  intro s b s' h; cases h; exact ⟨rfl, rfl, rfl, rfl, rfl, rfl, rfl, rfl⟩
theorem straight_select (f : StackStack → Err × StackStack) : Keeps Straight (siSelect f) := by intro s b s' h; cases h; exact ⟨rfl, rfl, rfl, rfl, rfl, rfl, rfl, rfl⟩
theorem straight_getChar : Keeps Straight getChar := by
  intro s b s' h
  unfold getChar at h
  split at h <;> (cases h; exact ⟨rfl, rfl, rfl, rfl, rfl, rfl, rfl, rfl⟩)

theorem next_delta {d : Nat} {t : Topo} {f : Field} {ip ip' : IP} (h : ip.next d t f = .ok ip') : ip'.delta.get = ip.delta.get := by
  unfold IP.next at h
  dsimp only at h
  split at h
  · cases h; rfl
  · cases t
    · cases h; rfl
    · dsimp only at h
      split at h
      · cases h; rfl
      · split at h
        · cases h
        · cases h; funext i; show Vec.get (Vec.reverse (Vec.reverse _)) i = _; rw [Vec.get_reverse, Vec.get_reverse, Int.neg_neg]

theorem straight_ipNext : Keeps Straight ipNext := by
  intro s b s' h
  unfold ipNext at h
  split at h
  · cases h
  · rename_i ip hip
    cases h
    exact ⟨next_delta hip, rfl, rfl, rfl, rfl, rfl, rfl, rfl⟩

theorem straight_runnerPush (n) : Keeps Straight (runnerPush n) := by
  intro s b s' h
  unfold runnerPush at h
  split at h
  · cases h; exact ⟨rfl, rfl, rfl, rfl, rfl, rfl, rfl, rfl⟩
  all_goals exact straight_pushTop _ _ _ _ h

theorem straight_dive : Keeps Straight (universeSetMode modeDive) := by
  intro s b s' h; cases h
  refine ⟨rfl, rfl, rfl, rfl, rfl, rfl, rfl, ?_⟩
  show hasMode (s.g.cfg.mode ||| modeDive) modeHover = _
  unfold hasMode; rw [Nat.and_or_distrib_right, show modeDive &&& modeHover = 0 by decide, Nat.or_zero]
theorem straight_rise : Keeps Straight (universeClearMode modeDive) := by
  intro s b s' h; cases h
  refine ⟨rfl, rfl, rfl, rfl, rfl, rfl, rfl, ?_⟩
  show hasMode (s.g.cfg.mode &&& (0xFFFFFFFF ^^^ modeDive)) modeHover = _
  unfold hasMode; rw [Nat.and_assoc, show (0xFFFFFFFF ^^^ modeDive) &&& modeHover = modeHover by decide]

/-- One step of `straight`. -/
syntax "straight1" : tactic
/-- Closes goals `Keeps Straight m` for programs made of known pieces. -/
macro "straight" : tactic => `(tactic| repeat' (first | with_reducible refine straight_bind ?_ fun _ => ?_ | with_reducible exact straight_pure _ | straight1))
macro_rules | `(tactic| straight1) => `(tactic| dsimp only)
macro_rules | `(tactic| straight1) => `(tactic| split)
macro_rules | `(tactic| straight1) => `(tactic| with_reducible first
  | exact straight_popTop | exact straight_popSecond | exact straight_pushTop _ | exact straight_pushSecond _ | exact straight_sizeTop | exact straight_sizeSecond
  | exact straight_onStacks _ | exact straight_fault _ | exact straight_get | exact straight_getDims | exact straight_getCfg | exact straight_getFlt
  | exact straight_numStacks | exact straight_isMode _ | exact straight_ipGet | exact straight_ipPos | exact straight_ipDelta | exact straight_ipStorage
  | exact straight_fieldGet _ | exact straight_fieldPut _ _ | exact straight_emit _ | exact straight_ask | exact straight_askFile | exact straight_setPos _
  | exact straight_stop | exact straight_killAll _ | exact straight_enterString _ | exact straight_regs _ | exact straight_file _ | exact straight_filepath _ _
  | exact straight_strPrev _ | exact straight_strOver | exact straight_select _ | exact straight_getChar | exact straight_ipNext | exact straight_runnerPush _
  | exact straight_dive | exact straight_rise)
macro_rules | `(tactic| straight1) => `(tactic| with_reducible assumption)

theorem straight_popN {pop : Exec Int} (h : Keeps Straight pop) (n : Nat) : Keeps Straight (popN pop n) := by
  induction n with
  | zero => exact straight_pure _
  | succ n ih => unfold popN; straight
macro_rules | `(tactic| straight1) => `(tactic| with_reducible refine straight_popN ?_ _)
theorem straight_moveN {pop : Exec Int} {push : Int → Exec Unit} (h : Keeps Straight pop) (h' : ∀ v, Keeps Straight (push v)) (n : Nat) : Keeps Straight (moveN pop push n) := by
  induction n with
  | zero => exact straight_pure _
  | succ n ih => unfold moveN; exact straight_bind h fun _ => straight_bind (h' _) fun _ => ih
macro_rules | `(tactic| straight1) => `(tactic| with_reducible refine straight_moveN ?_ (fun _ => ?_) _)
theorem straight_pushAll {push : Int → Exec Unit} (h : ∀ v, Keeps Straight (push v)) (l : List Int) : Keeps Straight (pushAll push l) := by
  induction l with
  | nil => exact straight_pure _
  | cons x l ih => unfold pushAll; exact straight_bind (h x) fun _ => ih
macro_rules | `(tactic| straight1) => `(tactic| with_reducible refine straight_pushAll (fun _ => ?_) _)
theorem straight_popVectorLoop {pop : Exec Int} (h : Keeps Straight pop) (n : Nat) (v) : Keeps Straight (popVectorLoop pop n v) := by
  induction n generalizing v with
  | zero => exact straight_pure _
  | succ n ih => unfold popVectorLoop; exact straight_bind h fun _ => ih _
theorem straight_fishInt (x) : Keeps Straight (fishInt x) := by unfold fishInt; straight
macro_rules | `(tactic| straight1) => `(tactic| with_reducible exact straight_fishInt _)
theorem straight_fishPopInt : Keeps Straight fishPopInt := by unfold fishPopInt; straight
macro_rules | `(tactic| straight1) => `(tactic| with_reducible exact straight_fishPopInt)
theorem straight_fishPopSize : Keeps Straight fishPopSize := by unfold fishPopSize; straight
macro_rules | `(tactic| straight1) => `(tactic| with_reducible exact straight_fishPopSize)
theorem straight_fishPopChar : Keeps Straight fishPopChar := by unfold fishPopChar; straight
macro_rules | `(tactic| straight1) => `(tactic| with_reducible exact straight_fishPopChar)
theorem straight_fishPush (x) : Keeps Straight (fishPush x) := by unfold fishPush; straight
macro_rules | `(tactic| straight1) => `(tactic| with_reducible exact straight_fishPush _)
theorem straight_fishPopVectorOn {pop : Exec Int} (h : Keeps Straight pop) : Keeps Straight (fishPopVectorOn pop) := by
  unfold fishPopVectorOn popVectorOn
  exact straight_bind straight_getDims fun _ => straight_popVectorLoop (straight_bind h fun _ => straight_fishInt _) _ _
macro_rules | `(tactic| straight1) => `(tactic| with_reducible refine straight_fishPopVectorOn ?_)
theorem straight_fishPushVectorOn {push : Int → Exec Unit} (h : ∀ v, Keeps Straight (push v)) (v) : Keeps Straight (fishPushVectorOn push v) := by
  unfold fishPushVectorOn pushVectorOn
  exact straight_bind straight_getFlt fun _ => straight_bind straight_getDims fun _ => straight_pushAll (fun _ => h _) _
macro_rules | `(tactic| straight1) => `(tactic| with_reducible refine straight_fishPushVectorOn (fun _ => ?_) _)
theorem straight_checkTop {n : Nat} {k : Exec Err} (h : Keeps Straight k) : Keeps Straight (checkTop n k) := by unfold checkTop; straight
macro_rules | `(tactic| straight1) => `(tactic| with_reducible refine straight_checkTop ?_)
theorem straight_checkSecond {n : Nat} {k : Exec Err} (h : Keeps Straight k) : Keeps Straight (checkSecond n k) := by unfold checkSecond; straight
macro_rules | `(tactic| straight1) => `(tactic| with_reducible refine straight_checkSecond ?_)
theorem straight_checkSelected {n : Nat} {k : Exec Err} (h : Keeps Straight k) : Keeps Straight (checkSelected n k) := by unfold checkSelected; straight
macro_rules | `(tactic| straight1) => `(tactic| with_reducible refine straight_checkSelected ?_)

/-- The functions that set a direction. -/
def Op.veers : Op → Bool
  | .fRight | .fLeft | .fDown | .fUp | .fMirror1 | .fMirror2 | .fMirrorVert | .fMirrorHori | .fMirrorAll | .fRandom | .sFisherman => true
  | _ => false

theorem straight_runOp (ex : Int → Exec Err) {p : Int × Sem} (hp : p ∈ Strat.starfish.table) (h : p.2.op.veers = false) : Keeps Straight (runOp ex p.2.op) := by
  have all : ∀ p ∈ Strat.starfish.table, p.2.op.veers = false → Keeps Straight (runOp ex p.2.op) := by
    unfold Strat.table semsFish semsStarfish
    simp only [List.cons_append, List.nil_append, List.forall_mem_cons, List.not_mem_nil, false_implies, implies_true, and_true, Op.veers, reduceCtorEq, forall_const]
    repeat' apply And.intro
    all_goals (try exact trivial)
    all_goals (unfold runOp; dsimp only)
    all_goals first
      | straight1; done
      | (unfold fiPush; straight; done)
      | (unfold iTrampoline; straight; done)
      | (unfold fiConditional; straight; done)
      | (unfold fiJump; straight; done)
      | (unfold fiBin; straight; done)
      | (unfold fiDiv; straight; done)
      | (unfold fiModu; straight; done)
      | (unfold iString; straight; done)
      | (unfold fiDuplicate; straight; done)
      | (unfold fiRemove; straight; done)
      | (unfold fiSwap2; straight; done)
      | (unfold fiSwap3; straight; done)
      | (unfold fiLength; straight; done)
      | (unfold fiShiftLeft; straight; done)
      | (unfold fiShiftRight; straight; done)
      | (unfold fiReverse; straight; done)
      | (unfold fiCreateStack; straight; done)
      | (unfold fiRemoveStack; straight; done)
      | (unfold fiOutChar; straight; done)
      | (unfold fiOutInt; straight; done)
      | (unfold fiIn; straight; done)
      | (unfold fiRegister; straight; done)
      | (unfold fiGet; straight; done)
      | (unfold fiPut; straight; done)
      | (unfold iStop; straight; done)
      | (unfold siCall; straight; done)
      | (unfold siReturn; straight; done)
      | (unfold siDive; straight; done)
      | (unfold siRise; straight; done)
      | (unfold siFile; straight; done)
      | (unfold siSleep; straight; done)
      | (unfold siTime; straight; done)
      | exact straight_pure _
  exact all p hp h

theorem notifyDelta_star {r : Runner} (hm : .starfish ∈ r.strats) : (notifyDelta r).starCache.get = lastLevel r.starCache.get r.ip.delta.get := by
  by_cases h : Level r.ip.delta.get
  · have : (notifyDelta r).starCache = r.ip.delta := by
      unfold notifyDelta
      dsimp only
      rw [if_pos (show _ ∧ _ from h), if_pos hm]
    rw [this, lastLevel, if_pos h]
  · have : notifyDelta r = r := by
      unfold notifyDelta
      dsimp only
      rw [if_neg (show ¬ (_ ∧ _) from h)]
    rw [this, lastLevel, if_neg h]

theorem veers_setDelta (v : Vec) : Keeps Veers (setDelta v) := by
  intro s a s' h
  cases h
  refine ⟨.inr fun hm => ?_, notifyDelta_handler _, notifyDelta_sems _, (notifyDelta_core _).strats, (notifyDelta_core _).loaded, rfl⟩
  show (notifyDelta _).starCache.get = lastLevel _ (notifyDelta _).ip.delta.get
  rw [notifyDelta_ip]
  exact notifyDelta_star hm

theorem setDelta_up (v : Vec) (s : St) {a : Unit} {s' : St} (h : setDelta v s = .ok (a, s')) : s'.cur.starUp = s.cur.starUp := by
  cases h
  show (notifyDelta _).starUp = _
  unfold notifyDelta
  dsimp only
  split <;> rfl

theorem veers_iGo (v : Vec) : Keeps Veers (iGo v) := bind_straight (veers_setDelta v) fun _ => straight_pure _
theorem veers_mirror (f : Vec → Vec) : Keeps Veers (do
      let v ← ipDelta
      setDelta (f v)
      pure Err.none) := veers_bind straight_ipDelta fun _ => bind_straight (veers_setDelta _) fun _ => straight_pure _

theorem straight_random (a b) : Keeps Straight (random a b) := by unfold random; straight

theorem straight_flag (b : Bool) : ∀ (s : St) (a : Unit) (s' : St), modCur (fun r => { r with starUp := b }) s = .ok (a, s') →
    s'.cur.ip.delta.get = s.cur.ip.delta.get ∧ s'.cur.starCache.get = s.cur.starCache.get ∧ Veers s s' := by
  intro s a s' h
  cases h
  exact ⟨rfl, rfl, .inl ⟨rfl, rfl⟩, rfl, rfl, rfl, rfl, rfl⟩

theorem veers_fisherman : Keeps Veers siFisherman := by
  have flag : ∀ v b, Keeps Veers (do
      setDelta v
      modCur fun r => { r with starUp := b }) := by
    intro v b s a s' h
    obtain ⟨_, s1, h1, h2⟩ := bind_inv h
    have h3 := veers_setDelta v _ _ _ h1
    obtain ⟨e1, e2, e3⟩ := straight_flag b _ _ _ h2
    refine ⟨?_, e3.2.trans h3.2, e3.3.trans h3.3, e3.4.trans h3.4, e3.5.trans h3.5, e3.6.trans h3.6⟩
    have := h3.turn
    rwa [← e1, ← e2] at this
  unfold siFisherman
  refine veers_bind straight_ipDelta fun v => veers_bind straight_get fun s => ?_
  split
  · split
    · intro s a s' h
      obtain ⟨_, s1, h1, h2⟩ := bind_inv h
      obtain ⟨_, s2, h2, h3⟩ := bind_inv h2
      cases h3
      exact flag (Vec.ofList [0, 1]) false s () s' (by rw [bind_ok h1]; exact h2)
    · intro s a s' h
      obtain ⟨_, s1, h1, h2⟩ := bind_inv h
      obtain ⟨_, s2, h2, h3⟩ := bind_inv h2
      cases h3
      exact flag (Vec.ofList [0, -1]) true s () s' (by rw [bind_ok h1]; exact h2)
  · exact bind_straight (veers_setDelta _) fun _ => straight_pure _

theorem veers_runOp (ex : Int → Exec Err) {op : Op} (h : op.veers = true) : Keeps Veers (runOp ex op) := by
  cases op <;> first | cases h; done | skip
  case fRight => exact veers_iGo _
  case fLeft => exact veers_iGo _
  case fDown => exact veers_iGo _
  case fUp => exact veers_iGo _
  case fMirror1 => exact veers_mirror _
  case fMirror2 => exact veers_mirror _
  case fMirrorVert => exact veers_mirror _
  case fMirrorHori => exact veers_mirror _
  case fMirrorAll => exact veers_mirror _
  case fRandom =>
    show Keeps Veers iGoAway
    unfold iGoAway
    refine veers_bind straight_getDims fun _ => veers_bind (straight_random _ _) fun _ => ?_
    split
    · exact bind_straight (veers_setDelta _) fun _ => straight_pure _
    · exact bind_straight (veers_setDelta _) fun _ => straight_pure _
  case sFisherman => exact veers_fisherman

theorem bind_none {α : Type} {m : Exec α} {s s' : St} {e : Err} (h : (do
    let _ ← m
    pure Err.none) s = .ok (e, s')) : e = .none := by
  obtain ⟨_, _, _, h2⟩ := bind_inv h
  cases h2; rfl

theorem veers_none (ex : Int → Exec Err) {op : Op} (h : op.veers = true) {s s' : St} {e : Err} (hr : runOp ex op s = .ok (e, s')) : e = .none := by
  cases op <;> first | cases h; done | skip
  case fRandom =>
    have hr : iGoAway s = .ok (e, s') := hr
    unfold iGoAway at hr
    obtain ⟨_, _, _, hr⟩ := bind_inv hr
    obtain ⟨_, _, _, hr⟩ := bind_inv hr
    split at hr <;> exact bind_none hr
  case sFisherman =>
    have hr : siFisherman s = .ok (e, s') := hr
    unfold siFisherman at hr
    obtain ⟨_, _, _, hr⟩ := bind_inv hr
    obtain ⟨_, _, _, hr⟩ := bind_inv hr
    split at hr
    · split at hr
      · obtain ⟨_, _, _, hr⟩ := bind_inv hr; exact bind_none hr
      · obtain ⟨_, _, _, hr⟩ := bind_inv hr; exact bind_none hr
    · exact bind_none hr
  all_goals (cases hr; rfl)

theorem straight_execString (c : Int) : Keeps Straight (execString c) := by
  have isp : ∀ x, Keeps Straight (isSpace x) := by intro x; unfold isSpace; straight
  have sg : Keeps Straight (execSGML c) := by unfold execSGML; straight <;> exact isp _
  have cc : Keeps Straight (execC c) := by unfold execC; straight
  unfold execString
  straight

theorem veers_execute {s s' : St} {e : Err} {n : Nat} {c : Int} (hs : Starry s.cur) (h : execute n c s = .ok (e, s')) :
    Veers s s' ∧ (e = .skip → Straight s s') := by
  cases n with
  | zero => cases h
  | succ n =>
    rw [execute] at h
    dsimp only at h
    split at h
    · have := straight_execString _ _ _ _ h
      exact ⟨this.veers, fun _ => this⟩
    · unfold execNormal at h
      split at h
      · cases h; exact ⟨(Straight.refl s).veers, nofun⟩
      · rename_i sem hsem
        split at h
        · cases h; exact ⟨(Straight.refl s).veers, fun _ => .refl s⟩
        · obtain ⟨_, _, st, hst, hst2, ht⟩ := hs.fishy
          have hst3 : st = .starfish := by
            have := hs.strats; rw [hst2] at this; cases this; rfl
          subst hst3
          have hm := getSem_mem hsem
          rw [ht] at hm
          have hm := mem_table hm
          cases hv : sem.op.veers with
          | false =>
            have := straight_runOp (execute n) hm hv _ _ _ h
            exact ⟨this.veers, fun _ => this⟩
          | true =>
            refine ⟨veers_runOp _ hv _ _ _ h, ?_⟩
            have := veers_none _ hv h
            subst this
            exact nofun

theorem straight_afterExec {s s' : St} {e e' : Err} (hs : Starry s.cur) (h : afterExec e s = .ok (e', s')) : Straight s s' ∧ (e' = .skip → e = .skip) := by
  have hh : ∀ e, handle e s = .ok (e', s') → Straight s s' ∧ (e' = .skip → e = .skip) := by
    intro e h
    rw [handle, bind_ok (get_run s), hs.fishy.handler] at h
    dsimp only at h
    rw [bind_ok (isMode_run _ _)] at h
    split at h
    · cases h; exact ⟨.refl s, nofun⟩
    · obtain ⟨_, s1, h1, h2⟩ := bind_inv h
      have := straight_killAll _ _ _ _ h1
      cases h2
      exact ⟨this, id⟩
  unfold afterExec at h
  split at h
  · cases h; exact ⟨.refl s, id⟩
  · cases h; exact ⟨.refl s, id⟩
  · cases h; exact ⟨.refl s, id⟩
  · exact hh _ h

theorem veers_tickLoop (n : Nat) : ∀ s s', Starry s.cur → tickLoop n s = .ok ((), s') → Veers s s' := by
  induction n with
  | zero => intro s s' _ h; cases h
  | succ n ih =>
    intro s s' hs h
    rw [tickLoop, bind_ok (ipGet_run s), bind_ok (getFuel_run s)] at h
    obtain ⟨e0, s0, h0, h⟩ := bind_inv h
    obtain ⟨e1, s1, h1, h⟩ := bind_inv h
    obtain ⟨v0, k0⟩ := veers_execute hs h0
    obtain ⟨v1, k1⟩ := straight_afterExec (v0.starry hs) h1
    by_cases he : e1 = .skip
    · subst he
      have k := (k0 (k1 rfl)).trans v1
      obtain ⟨_, s2, h2, h⟩ := bind_inv (m := ipNext) h
      have c2 := k.trans (straight_ipNext _ _ _ h2)
      exact c2.then (ih s2 s' (c2.starry hs) h)
    · by_cases he2 : e1 = .none
      · subst he2
        obtain ⟨_, s2, h2, h⟩ := bind_inv (m := ipNext) h
        cases h
        exact (v0.then v1).then (straight_ipNext _ _ _ h2)
      · rw [if_neg (by simp [he, he2]), if_neg he] at h
        cases h
        exact v0.then v1

theorem veers_tick {s s' : St} (hs : Starry s.cur) (h : tick s = .ok ((), s')) : Veers s s' := by
  rw [tick, bind_ok (getFuel_run s)] at h
  exact veers_tickLoop _ s s' hs h

/-! ### The fisherman -/

/-- **C107** A fish that swims level and meets the fisherman is sent down, the next time up, and so on in turns; nothing else changes. `starUp` says that the next one is sent down. -/
theorem C107_caught (ex : Int → Exec Err) {s : St} (hh : hasMode s.g.cfg.mode modeHover = false) (hd : s.cur.ip.delta.get 1 = 0) :
    runOp ex .sFisherman s = .ok (.none, { s with cur := { s.cur with ip := { s.cur.ip with delta := Vec.ofList [0, if s.cur.starUp then 1 else -1] }, starUp := !s.cur.starUp } }) := by
  show siFisherman s = _
  have key : ∀ v : Vec, v.get 0 = 0 → setDelta v s = .ok ((), s.setIP { s.cur.ip with delta := v }) := by
    intro v hv
    rw [setDelta, bind_ok (isMode_run _ _), modCur_run, hh]
    unfold notifyDelta
    dsimp only [IP.setDelta]
    rw [if_neg (by simp [hv])]; rfl
  rw [siFisherman, bind_ok (ipDelta_run _), bind_ok (get_run s), if_pos hd]
  cases hu : s.cur.starUp with
  | true =>
    rw [if_pos rfl, bind_ok (key _ (by decide))]
    rfl
  | false =>
    rw [if_neg (by decide), bind_ok (key _ (by decide))]
    rfl

/-- **C107** Between two of them, no other instruction of *><> touches those turns. -/
theorem C107_in_turns (ex : Int → Exec Err) {p : Int × Sem} (hp : p ∈ Strat.starfish.table) (hne : p.2.op ≠ .sFisherman) {s s' : St} {e : Err}
    (h : runOp ex p.2.op s = .ok (e, s')) : s'.cur.starUp = s.cur.starUp := by
  cases hv : p.2.op.veers with
  | false => exact (straight_runOp ex hp hv _ _ _ h).up
  | true =>
    have go : ∀ (v : Vec) (t : St), (do
        setDelta v
        pure Err.none) t = .ok (e, s') → s'.cur.starUp = t.cur.starUp := by
      intro v t h
      obtain ⟨_, s1, h1, h2⟩ := bind_inv h
      cases h2
      exact setDelta_up _ _ h1
    cases hop : p.2.op <;> rw [hop] at hv h <;> first | cases hv; done | skip
    case sFisherman => exact absurd hop hne
    case fRandom =>
      have h : iGoAway s = .ok (e, s') := h
      unfold iGoAway at h
      obtain ⟨_, s1, h1, h⟩ := bind_inv h
      obtain ⟨_, s2, h2, h⟩ := bind_inv h
      have e1 := (straight_getDims _ _ _ h1).up
      have e2 := (straight_random _ _ _ _ _ h2).up
      split at h <;> exact (go _ _ h).trans (e2.trans e1)
    all_goals exact go _ _ h

/-- The states in which a *><> program is: what it remembers is the last level direction. -/
structure Remembers (s : St) : Prop where
  starry : Starry s.cur
  last : Level s.cur.ip.delta.get → s.cur.starCache.get = s.cur.ip.delta.get

theorem remembers_tick {s s' : St} (hs : Remembers s) (h : tick s = .ok ((), s')) :
    Remembers s' ∧ s'.cur.starCache.get = lastLevel s.cur.starCache.get s'.cur.ip.delta.get ∧
      hasMode s'.g.cfg.mode modeHover = hasMode s.g.cfg.mode modeHover := by
  have v := veers_tick hs.starry h
  have hc : s'.cur.starCache.get = lastLevel s.cur.starCache.get s'.cur.ip.delta.get := by
    rcases v.turn with ⟨h1, h2⟩ | h1
    · rw [h1, h2, lastLevel]
      split
      · rename_i hl; exact hs.last hl
      · rfl
    · exact h1 (by rw [hs.starry.strats]; exact List.mem_singleton.2 rfl)
  exact ⟨⟨v.starry hs.starry, fun hl => by rw [hc, lastLevel, if_pos hl]⟩, hc, v.hover⟩

/-- Every *><> program starts in such a state. -/
theorem remembers_start {cfg : Cfg} (hc : cfg.standard = -2) (id : Nat) (pos delta : Vec) (rest : List Runner) (g : Glob) :
    Remembers ⟨newRunner cfg id pos delta, rest, g⟩ := by
  have hf := fishy_newRunner (.inr hc) id pos delta
  have hst : strategiesFor cfg = [.starfish] := by unfold strategiesFor; rw [if_neg (by rw [hc]; decide), if_pos hc]
  have hr : ∃ (r : Runner) (ss : StackStack), newRunner cfg id pos delta = { notifyDelta r with ss := ss } ∧ r.strats = [.starfish] := by
    have h0 := (init_same cfg.fingerprints { id := id, strats := [.starfish] } .starfish).strats
    unfold newRunner
    dsimp only
    rw [hst, List.foldl_cons, List.foldl_nil]
    generalize Strat.init cfg.fingerprints { id := id, strats := [.starfish] } .starfish = r0 at h0 ⊢
    exact ⟨_, _, rfl, h0⟩
  obtain ⟨r, ss, e, hs⟩ := hr
  have hm : Strat.starfish ∈ r.strats := by rw [hs]; exact List.mem_singleton.2 rfl
  refine ⟨⟨hf, ?_⟩, ?_⟩
  · show (newRunner cfg id pos delta).strats = _
    rw [e]; exact (notifyDelta_core _).strats.trans hs
  · show Level (newRunner cfg id pos delta).ip.delta.get → (newRunner cfg id pos delta).starCache.get = _
    rw [e]
    dsimp only
    rw [notifyDelta_ip, notifyDelta_star hm]
    intro hl
    rw [lastLevel, if_pos hl]

theorem remembers_ticks (n : Nat) {s s' : St} (hs : Remembers s) (h : ticks n s = .ok ((), s')) :
    Remembers s' ∧ hasMode s'.g.cfg.mode modeHover = hasMode s.g.cfg.mode modeHover := by
  induction n generalizing s' with
  | zero => cases h; exact ⟨hs, rfl⟩
  | succ n ih =>
    obtain ⟨t, h1, h2⟩ := ticks_succ' n h
    obtain ⟨i1, i2⟩ := ih h1
    obtain ⟨j1, _, j2⟩ := remembers_tick i1 h2
    exact ⟨j1, j2.trans i2⟩

/-- **C107** A fish that meets the fisherman while it does not swim level goes on in the last level direction it had, however long ago that was and whatever it has done since. -/
theorem C107_resumes (ex : Int → Exec Err) {s sk sn : St} (hs : Remembers s) (hh : hasMode s.g.cfg.mode modeHover = false) {k n : Nat} (hkn : k ≤ n)
    (hk : ticks k s = .ok ((), sk)) (hl : Level sk.cur.ip.delta.get) (hn : ticks n s = .ok ((), sn))
    (hsince : ∀ j, k < j → j ≤ n → ∀ sj, ticks j s = .ok ((), sj) → ¬ Level sj.cur.ip.delta.get) (hd : sn.cur.ip.delta.get 1 ≠ 0) :
    ∃ t, runOp ex .sFisherman sn = .ok (.none, t) ∧ t.cur.ip.delta.get = sk.cur.ip.delta.get ∧
      t.cur.ip.pos = sn.cur.ip.pos ∧ t.cur.ss = sn.cur.ss ∧ t.cur.starUp = sn.cur.starUp ∧ t.rest = sn.rest ∧ t.g = sn.g := by
  have cache : ∀ m, k ≤ m → m ≤ n → ∀ sm, ticks m s = .ok ((), sm) → sm.cur.starCache.get = sk.cur.ip.delta.get := by
    intro m
    induction m with
    | zero =>
      intro h1 _ sm hm
      have : k = 0 := by omega
      subst this
      rw [hk] at hm
      cases hm
      exact (remembers_ticks 0 hs hk).1.last hl
    | succ m ih =>
      intro h1 h2 sm hm
      by_cases he : k = m + 1
      · subst he
        rw [hk] at hm
        cases hm
        exact (remembers_ticks _ hs hk).1.last hl
      · obtain ⟨t, ht, hm'⟩ := ticks_succ' m hm
        have e := (remembers_tick (remembers_ticks m hs ht).1 hm').2.1
        rw [e, lastLevel, if_neg (hsince (m + 1) (by omega) h2 sm hm)]
        exact ih (by omega) (by omega) t ht
  obtain ⟨hr, hh'⟩ := remembers_ticks n hs hn
  obtain ⟨a, b, hab⟩ := setDelta_run sn.cur.starCache sn
  rw [hh', hh] at hab
  refine ⟨(sn.setCaches a b).setIP (sn.cur.ip.setDelta false sn.cur.starCache), ?_, ?_, rfl, rfl, rfl, rfl, rfl⟩
  · show siFisherman sn = _
    rw [siFisherman, bind_ok (ipDelta_run _), bind_ok (get_run sn), if_neg hd, bind_ok hab]; rfl
  · exact cache n hkn (Nat.le_refl n) sn hn

/-- A fish that falls at the fisherman, is stopped by another one below, and goes on to the east: 1`2 over 3`4;. -/
def exAngler : St := starProgram [[49, 96, 50], [51, 32, 53], [52, 96, 54, 59]]

/-- The delta after some ticks. -/
def courseAfter (n : Nat) (s : St) : Option (Int × Int) :=
  match ticks n s with
  | .ok (_, t) => some (t.cur.ip.delta.get 0, t.cur.ip.delta.get 1)
  | .error _ => none

example : courseAfter 1 exAngler = some (1, 0) ∧ courseAfter 2 exAngler = some (0, 1) ∧ courseAfter 3 exAngler = some (1, 0) := by
  refine ⟨?_, ?_, ?_⟩ <;> krfl

example : Remembers exAngler ∧ hasMode exAngler.g.cfg.mode modeHover = false ∧ Level exAngler.cur.ip.delta.get :=
  ⟨remembers_start rfl _ _ _ _ _, by krfl, by decide +kernel⟩

/-! ### FISH -/

/-- **C107** `F` of FISH does the same for an IP of Funge … -/
theorem C107_caught_FISH {s : St} (hh : hasMode s.g.cfg.mode modeHover = false) (hd : s.cur.ip.delta.get 1 = 0) :
    fpRun .FISH 70 s = .ok (.none, { s with cur := { s.cur with ip := { s.cur.ip with delta := Vec.ofList [0, if s.cur.fishUp then 1 else -1] }, fishUp := !s.cur.fishUp } }) := by
  show fgFisherman s = _
  have key : ∀ v : Vec, v.get 0 = 0 → setDelta v s = .ok ((), s.setIP { s.cur.ip with delta := v }) := by
    intro v hv
    rw [setDelta, bind_ok (isMode_run _ _), modCur_run, hh]
    unfold notifyDelta
    dsimp only [IP.setDelta]
    rw [if_neg (by simp [hv])]; rfl
  rw [fgFisherman, bind_ok (ipDelta_run _), bind_ok (get_run s), if_pos hd]
  cases hu : s.cur.fishUp with
  | true =>
    rw [if_pos rfl, bind_ok (key _ (by decide))]
    rfl
  | false =>
    rw [if_neg (by decide), bind_ok (key _ (by decide))]
    rfl

theorem resumes_FISH {s : St} (hh : hasMode s.g.cfg.mode modeHover = false) (hd : s.cur.ip.delta.get 1 ≠ 0) :
    ∃ a b, fpRun .FISH 70 s = .ok (.none, (s.setCaches a b).setIP { s.cur.ip with delta := s.cur.fishCache }) := by
  obtain ⟨a, b, hab⟩ := setDelta_run s.cur.fishCache s
  rw [hh] at hab
  refine ⟨a, b, ?_⟩
  show fgFisherman s = _
  rw [fgFisherman, bind_ok (ipDelta_run _), bind_ok (get_run s), if_neg hd, bind_ok hab]; rfl

/-- **C107** (partial: see `C107_false_for_FISH`) … and an IP that has been told its direction by `x`, `<`, `>`, `_` or any other instruction that sets it, meets `F` and then another `F`, goes on in that direction. -/
theorem C107_resumes_FISH_partial {s s1 : St} (hh : hasMode s.g.cfg.mode modeHover = false) (hav : 0x46495348 ∈ s.cur.available) {v : Vec} (hl : Level v.get)
    (h1 : setDelta v s = .ok ((), s1)) : ∃ s2 s3, fpRun .FISH 70 s1 = .ok (.none, s2) ∧ fpRun .FISH 70 s2 = .ok (.none, s3) ∧
      (s2.cur.ip.delta.get 0 = 0 ∧ s2.cur.ip.delta.get 1 ≠ 0) ∧ s3.cur.ip.delta.get = v.get ∧ s3.cur.ip.pos = s.cur.ip.pos ∧ s3.cur.ss = s.cur.ss ∧ s3.g = s.g := by
  have e1 : s1 = { s with cur := notifyDelta { s.cur with ip := { s.cur.ip with delta := v } } } := by
    rw [setDelta, bind_ok (isMode_run _ _), modCur_run, hh] at h1
    cases h1; rfl
  have hc : (notifyDelta { s.cur with ip := { s.cur.ip with delta := v } }).fishCache = v := by
    unfold notifyDelta
    dsimp only
    rw [if_pos (show _ ∧ _ from hl), if_pos hav]
  have hip : s1.cur.ip = { s.cur.ip with delta := v } := by rw [e1]; exact notifyDelta_ip _
  have hg : s1.g = s.g := by rw [e1]
  have hss : s1.cur.ss = s.cur.ss := by rw [e1]; exact (notifyDelta_core _).ss
  have hc1 : s1.cur.fishCache = v := by rw [e1]; exact hc
  have h2 := C107_caught_FISH (s := s1) (by rw [hg]; exact hh) (by rw [hip]; exact hl.2)
  have hd : ∀ b : Bool, (Vec.ofList [0, if b then 1 else -1]).get 0 = 0 ∧ (Vec.ofList [0, if b then 1 else -1]).get 1 ≠ 0 := by intro b; cases b <;> decide
  obtain ⟨a, b, h3⟩ := resumes_FISH (s := { s1 with cur := { s1.cur with ip := { s1.cur.ip with delta := Vec.ofList [0, if s1.cur.fishUp then 1 else -1] }, fishUp := !s1.cur.fishUp } })
    (by show hasMode s1.g.cfg.mode modeHover = false; rw [hg]; exact hh) (hd _).2
  refine ⟨_, _, h2, h3, hd _, ?_, ?_, hss, hg⟩
  · show s1.cur.fishCache.get = v.get
    rw [hc1]
  · show s1.cur.ip.pos = _
    rw [hip]

example : (⟨.sCall, false⟩ : Sem) ∈ Strat.starfish.table.map Prod.snd ∧ Op.sCall ≠ .sFisherman ∧ hasMode exAngler.g.cfg.mode modeHover = false ∧ exAngler.cur.ip.delta.get 1 = 0 := by
  refine ⟨by decide, by decide, by krfl, by krfl⟩

/-- What is missing above: nobody tells FISH of a reflection. An IP that goes level, is reflected, and meets `F` and another `F`, goes on in the direction it had before the reflection, not where it came from. -/
theorem C107_false_for_FISH (ex : Int → Exec Err) {s s1 : St} (hh : hasMode s.g.cfg.mode modeHover = false) (hav : 0x46495348 ∈ s.cur.available) {v : Vec} (hl : Level v.get)
    (h1 : setDelta v s = .ok ((), s1)) : ∃ t s2 s3, runOp ex .reflect s1 = .ok (.none, t) ∧ fpRun .FISH 70 t = .ok (.none, s2) ∧ fpRun .FISH 70 s2 = .ok (.none, s3) ∧
      s3.cur.ip.delta.get 0 = v.get 0 ∧ s3.cur.ip.delta.get 0 ≠ t.cur.ip.delta.get 0 := by
  have e1 : s1 = { s with cur := notifyDelta { s.cur with ip := { s.cur.ip with delta := v } } } := by
    rw [setDelta, bind_ok (isMode_run _ _), modCur_run, hh] at h1
    cases h1; rfl
  have hc : (notifyDelta { s.cur with ip := { s.cur.ip with delta := v } }).fishCache = v := by
    unfold notifyDelta
    dsimp only
    rw [if_pos (show _ ∧ _ from hl), if_pos hav]
  have hip : s1.cur.ip = { s.cur.ip with delta := v } := by rw [e1]; exact notifyDelta_ip _
  have hg : s1.g = s.g := by rw [e1]
  have hc1 : s1.cur.fishCache = v := by rw [e1]; exact hc
  have hrev : ∀ i, s1.cur.ip.delta.reverse.get i = - v.get i := by intro i; rw [Vec.get_reverse, hip]
  have h2 := C107_caught_FISH (s := s1.setIP { s1.cur.ip with delta := s1.cur.ip.delta.reverse }) (by show hasMode s1.g.cfg.mode _ = _; rw [hg]; exact hh)
    (by show s1.cur.ip.delta.reverse.get 1 = 0; rw [hrev, hl.2]; rfl)
  have hd : ∀ b : Bool, (Vec.ofList [0, if b then 1 else -1]).get 0 = 0 ∧ (Vec.ofList [0, if b then 1 else -1]).get 1 ≠ 0 := by intro b; cases b <;> decide
  obtain ⟨a, b, h3⟩ := resumes_FISH (s := { s1 with cur := { s1.cur with ip := { s1.cur.ip with delta := Vec.ofList [0, if s1.cur.fishUp then 1 else -1] }, fishUp := !s1.cur.fishUp } })
    (by show hasMode s1.g.cfg.mode modeHover = false; rw [hg]; exact hh) (hd _).2
  refine ⟨s1.setIP { s1.cur.ip with delta := s1.cur.ip.delta.reverse }, _, _, rfl, h2, h3, ?_, ?_⟩
  · show s1.cur.fishCache.get 0 = v.get 0
    rw [hc1]
  · show s1.cur.fishCache.get 0 ≠ s1.cur.ip.delta.reverse.get 0
    rw [hc1, hrev]
    have := hl.1
    omega

example : ∃ s1, setDelta (Vec.ofList [1]) { exState [] with cur := { (exState []).cur with available := [0x46495348] } } = .ok ((), s1) ∧ Level (Vec.ofList [1]).get :=
  ⟨_, rfl, by decide⟩

/-! ### The other words -/

/-- **C107** `I` makes the next newer stack the current one, `D` the next older one; where there is none they are errors. Nothing else changes. -/
theorem C107_select (ex : Int → Exec Err) (s : St) :
    (∀ k, s.cur.ss.select = k + 1 → runOp ex .sIncrement s = .ok (.none, { s with cur := { s.cur with ss := { s.cur.ss with select := k } } })) ∧
    (s.cur.ss.select = 0 → runOp ex .sIncrement s = .ok (.unspec, s)) ∧
    (s.cur.ss.select + 1 < s.cur.ss.stacks.length →
      runOp ex .sDecrement s = .ok (.none, { s with cur := { s.cur with ss := { s.cur.ss with select := s.cur.ss.select + 1 } } })) ∧
    (s.cur.ss.select + 1 = s.cur.ss.stacks.length → runOp ex .sDecrement s = .ok (.unspec, s)) := by
  refine ⟨?_, ?_, ?_, ?_⟩
  · intro k hk
    show siSelect StackStack.increment s = _
    unfold siSelect StackStack.increment
    rw [if_pos (by omega), hk]; rfl
  · intro hk
    show siSelect StackStack.increment s = _
    unfold siSelect StackStack.increment
    rw [if_neg (by omega)]
  · intro hk
    show siSelect StackStack.decrement s = _
    unfold siSelect StackStack.decrement
    rw [if_pos (.inr (by omega))]
  · intro hk
    show siSelect StackStack.decrement s = _
    unfold siSelect StackStack.decrement
    rw [if_neg (by omega)]

/-- **C107** `D` and `I` of FISH are the same. -/
theorem C107_select_FISH (ex : Int → Exec Err) (s : St) : fpRun .FISH 73 s = runOp ex .sIncrement s ∧ fpRun .FISH 68 s = runOp ex .sDecrement s := ⟨rfl, rfl⟩

/-- **C107** `S` takes the number on top and does nothing else (but wait). -/
theorem C107_sleep (ex : Int → Exec Err) {s : St} (h : s.Lifo) {x : Int} {l : List Int} (hi : s.items = x :: l) :
    ∃ s', runOp ex .sSleep s = .ok (.none, s') ∧ s.Leaves s' l := by
  refine ⟨s.setItems l (s.top.ops + 1), ?_, _, rfl⟩
  show siSleep s = _
  rw [siSleep, checkTop_enough h.1 (by rw [hi]; simp)]
  conv => lhs; rw [← setItems_self h, hi]
  rw [bind_ok (popTop_head h x l _)]; rfl

/-- **C107** `h`, `m` and `s` put what the clock says on top and do nothing else. -/
theorem C107_time (ex : Int → Exec Err) {s : St} (h : s.Lifo) {op : Op} (ho : op = .sHour ∨ op = .sMinute ∨ op = .sSecond) :
    ∃ s', runOp ex op s = .ok (.none, s') ∧ s.asked.Leaves s' (s.g.flt.ofInt (s.g.orc s.g.asked) :: s.items) := by
  have e : siTime s = .ok (.none, s.asked.setItems (s.g.flt.ofInt (s.g.orc s.g.asked) :: s.items) (s.top.ops + 1)) := by
    rw [siTime, bind_ok (ask_run s), checkSelected, bind_ok (numStacks_run _), if_neg (by
      have := h.1
      show ¬ 0 ≥ s.cur.ss.stacks.length
      omega)]
    have := pushTop_run (s := s.asked) h s.items s.top.ops (s.g.flt.ofInt (s.g.orc s.g.asked))
    rw [show s.asked.setItems s.items s.top.ops = s.asked from setItems_self (s := s.asked) h] at this
    have hf : getFlt s.asked = .ok (s.g.flt, s.asked) := rfl
    have hp : fishPush (s.g.orc s.g.asked) s.asked = .ok ((), s.asked.setItems (s.g.flt.ofInt (s.g.orc s.g.asked) :: s.items) (s.top.ops + 1)) := by
      rw [fishPush, bind_ok hf]; exact this
    rw [bind_ok hp]; rfl
  refine ⟨s.asked.setItems (s.g.flt.ofInt (s.g.orc s.g.asked) :: s.items) (s.top.ops + 1), ?_, _, rfl⟩
  rcases ho with rfl | rfl | rfl <;> exact e

example : (exState [5, 6]).Lifo ∧ (exState [5, 6]).items = 5 :: [6] ∧ (exState [5, 6]).cur.ss.select = 0 ∧ (exState [5, 6]).cur.ss.select + 1 < (exState [5, 6]).cur.ss.stacks.length := by decide

end Funge
