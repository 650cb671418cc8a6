import Verif.Lemmas.Even
/-
The instructions that do not look at what the user has allowed do the same, whatever that is.
-/
set_option linter.unusedSectionVars false

namespace Funge
open Exec

variable {W W' : Switches}

theorem even₂_ite {α : Type} {c : Prop} [Decidable c] {a a' b b' : Exec α} (ha : Even₂ W W' a a') (hb : Even₂ W W' b b') :
    Even₂ W W' (if c then a else b) (if c then a' else b') := by
  by_cases hc : c
  · simpa only [if_pos hc] using ha
  · simpa only [if_neg hc] using hb

/-- One step of `evenly`. -/
syntax "evenly1" : tactic
/-- Closes goals `Even W W' m` for programs made of known pieces. -/
macro "evenly" : tactic => `(tactic| repeat' (first
  | ((with_reducible refine even_getbind fun _ => ?_); dsimp only [Switches.st, Switches.glob, Switches.cfg]; (first | with_reducible refine Even.two ?_ | refine Even.two ?_))
  | with_reducible refine even_bind ?_ fun _ => ?_ | with_reducible exact even_pure _ | evenly1))

macro_rules | `(tactic| evenly1) => `(tactic| dsimp only)
macro_rules | `(tactic| evenly1) => `(tactic| split)
macro_rules | `(tactic| evenly1) => `(tactic| with_reducible refine even_bind ?_ fun _ => ?_)
macro_rules | `(tactic| evenly1) => `(tactic| first
  | with_reducible exact even_popTop
  | with_reducible exact even_pushTop _
  | with_reducible exact even_popSecond
  | with_reducible exact even_pushSecond _
  | with_reducible exact even_lift _
  | with_reducible exact even_getDims
  | with_reducible exact even_getFuel
  | with_reducible exact even_getFlt
  | with_reducible exact even_getLng
  | with_reducible exact even_isMode _
  | with_reducible exact even_numStacks
  | with_reducible exact even_ipPos
  | with_reducible exact even_ipDelta
  | with_reducible exact even_ipStorage
  | with_reducible exact even_ipGet
  | with_reducible exact even_fieldGet _
  | with_reducible exact even_subrTarget _
  | with_reducible exact even_sizeTop
  | with_reducible exact even_sizeSecond
  | with_reducible exact even_getTop _
  | with_reducible exact even_clearTop
  | with_reducible exact even_onTop _
  | with_reducible exact even_sizeAt _
  | with_reducible exact even_onStacks _
  | with_reducible exact even_siSelect _
  | with_reducible exact even_ipNext
  | with_reducible exact even_onIP _
  | with_reducible exact even_setDelta _
  | with_reducible exact even_fieldPut _ _
  | with_reducible exact even_ipPut _
  | with_reducible exact even_ask
  | with_reducible exact even_askFile
  | with_reducible exact even_askDir
  | with_reducible exact even_getChar
  | with_reducible exact even_emit _
  | with_reducible exact even_killAll _
  | with_reducible exact even_universeSetMode _
  | with_reducible exact even_universeClearMode _
  | with_reducible exact even_universeToggleMode _
  | with_reducible exact even_growDims _
  | with_reducible exact even_addBreakpoint _
  | with_reducible exact even_addWatchpoint _
  | with_reducible exact even_runnerPush _
  | with_reducible exact even_enterString _
  | with_reducible exact even_modCur _
  | with_reducible exact even_cloneCur
  | with_reducible exact even_pure _
  | with_reducible exact even_fault _)
macro_rules | `(tactic| evenly1) => `(tactic| with_reducible assumption)

theorem even_popN {pop : Exec Int} (h : Even W W' pop) (n : Nat) : Even W W' (popN pop n) := by
  induction n with
  | zero => exact even_pure _
  | succ n ih => unfold popN; evenly
macro_rules | `(tactic| evenly1) => `(tactic| with_reducible refine even_popN ?_ _)

theorem even_pushAll {push : Int → Exec Unit} (h : ∀ v, Even W W' (push v)) (l : List Int) : Even W W' (pushAll push l) := by
  induction l with
  | nil => exact even_pure _
  | cons x l ih => unfold pushAll; have := h x; evenly
macro_rules | `(tactic| evenly1) => `(tactic| with_reducible refine even_pushAll (fun _ => ?_) _)

theorem even_pushVectorOn {push : Int → Exec Unit} (h : ∀ v, Even W W' (push v)) (v) : Even W W' (pushVectorOn push v) := by
  unfold pushVectorOn; evenly; exact h _
macro_rules | `(tactic| evenly1) => `(tactic| with_reducible refine even_pushVectorOn (fun _ => ?_) _)
theorem even_pushVector (v) : Even W W' (pushVector v) := by unfold pushVector; evenly
macro_rules | `(tactic| evenly1) => `(tactic| with_reducible exact even_pushVector _)

theorem even_popVectorLoop {pop : Exec Int} (h : Even W W' pop) (n : Nat) (v) : Even W W' (popVectorLoop pop n v) := by
  induction n generalizing v with
  | zero => exact even_pure _
  | succ n ih => unfold popVectorLoop; exact even_bind h fun _ => ih _
theorem even_popVectorOn {pop : Exec Int} (h : Even W W' pop) : Even W W' (popVectorOn pop) := by
  unfold popVectorOn; exact even_bind (even_getDims) fun _ => even_popVectorLoop h _ _
macro_rules | `(tactic| evenly1) => `(tactic| with_reducible refine even_popVectorOn ?_)
theorem even_popVector : Even W W' popVector := by unfold popVector; evenly
macro_rules | `(tactic| evenly1) => `(tactic| with_reducible exact even_popVector)

theorem even_pushString (v) : Even W W' (pushString v) := by unfold pushString; evenly
macro_rules | `(tactic| evenly1) => `(tactic| with_reducible exact even_pushString _)
theorem even_popStringLoop (n acc) : Even W W' (popStringLoop n acc) := by
  induction n generalizing acc with
  | zero => exact even_fault _
  | succ n ih => unfold popStringLoop; have := fun c => ih (toChar c :: acc); evenly; apply ih
theorem even_popString : Even W W' popString := by
  unfold popString; exact even_bind (even_sizeTop) fun _ => even_popStringLoop _ _
macro_rules | `(tactic| evenly1) => `(tactic| with_reducible exact even_popString)
theorem even_random (a b) : Even W W' (random a b) := by unfold random; evenly
macro_rules | `(tactic| evenly1) => `(tactic| with_reducible exact even_random _ _)
theorem even_iPush (n) : Even W W' (iPush n) := by unfold iPush; evenly
macro_rules | `(tactic| evenly1) => `(tactic| with_reducible exact even_iPush _)
theorem even_iGo (v) : Even W W' (iGo v) := by unfold iGo; evenly
macro_rules | `(tactic| evenly1) => `(tactic| with_reducible exact even_iGo _)
theorem even_iStop : Even W W' (iStop) := by unfold iStop; evenly
macro_rules | `(tactic| evenly1) => `(tactic| with_reducible exact even_iStop)
theorem even_iTrampoline : Even W W' (iTrampoline) := by unfold iTrampoline; evenly
macro_rules | `(tactic| evenly1) => `(tactic| with_reducible exact even_iTrampoline)
theorem even_iIf (a b) : Even W W' (iIf a b) := by unfold iIf; evenly
macro_rules | `(tactic| evenly1) => `(tactic| with_reducible exact even_iIf _ _)
theorem even_iGoAway : Even W W' (iGoAway) := by unfold iGoAway; evenly
macro_rules | `(tactic| evenly1) => `(tactic| with_reducible exact even_iGoAway)
theorem even_iNot : Even W W' (iNot) := by unfold iNot; evenly
macro_rules | `(tactic| evenly1) => `(tactic| with_reducible exact even_iNot)
theorem even_iBin (f) : Even W W' (iBin f) := by unfold iBin; evenly
macro_rules | `(tactic| evenly1) => `(tactic| with_reducible exact even_iBin _)
theorem even_iPop : Even W W' (iPop) := by unfold iPop; evenly
macro_rules | `(tactic| evenly1) => `(tactic| with_reducible exact even_iPop)
theorem even_iDup : Even W W' (iDup) := by unfold iDup; evenly
macro_rules | `(tactic| evenly1) => `(tactic| with_reducible exact even_iDup)
theorem even_iSwap : Even W W' (iSwap) := by unfold iSwap; evenly
macro_rules | `(tactic| evenly1) => `(tactic| with_reducible exact even_iSwap)
theorem even_iNumIn : Even W W' (iNumIn) := by
  rw [iNumIn_taking]
  refine even_bind even_takeNum fun q => ?_
  evenly
macro_rules | `(tactic| evenly1) => `(tactic| with_reducible exact even_iNumIn)
theorem even_iCharIn : Even W W' (iCharIn) := by unfold iCharIn; evenly
macro_rules | `(tactic| evenly1) => `(tactic| with_reducible exact even_iCharIn)
theorem even_iString (q) : Even W W' (iString q) := by unfold iString; evenly
macro_rules | `(tactic| evenly1) => `(tactic| with_reducible exact even_iString _)
theorem even_iCharOut : Even W W' (iCharOut) := by unfold iCharOut; evenly
macro_rules | `(tactic| evenly1) => `(tactic| with_reducible exact even_iCharOut)
theorem even_iNumOut : Even W W' (iNumOut) := by unfold iNumOut; evenly
macro_rules | `(tactic| evenly1) => `(tactic| with_reducible exact even_iNumOut)
theorem even_iGet : Even W W' (iGet) := by unfold iGet; evenly
macro_rules | `(tactic| evenly1) => `(tactic| with_reducible exact even_iGet)
theorem even_iPut : Even W W' (iPut) := by unfold iPut; evenly
macro_rules | `(tactic| evenly1) => `(tactic| with_reducible exact even_iPut)
theorem even_switchPut (c) : Even W W' (switchPut c) := by unfold switchPut; evenly
macro_rules | `(tactic| evenly1) => `(tactic| with_reducible exact even_switchPut _)
theorem even_iLeft : Even W W' (iLeft) := by unfold iLeft; evenly
macro_rules | `(tactic| evenly1) => `(tactic| with_reducible exact even_iLeft)
theorem even_iRight : Even W W' (iRight) := by unfold iRight; evenly
macro_rules | `(tactic| evenly1) => `(tactic| with_reducible exact even_iRight)
theorem even_iCompare : Even W W' (iCompare) := by unfold iCompare; evenly
macro_rules | `(tactic| evenly1) => `(tactic| with_reducible exact even_iCompare)
theorem even_iHigh (h : W.inverthl = W'.inverthl) : Even W W' iHigh := by
  unfold iHigh; refine even_cfgbind fun _ => ?_; dsimp only [Switches.cfg]; rw [h]; refine Even.two ?_; evenly
theorem even_iLow (h : W.inverthl = W'.inverthl) : Even W W' iLow := by
  unfold iLow; refine even_cfgbind fun _ => ?_; dsimp only [Switches.cfg]; rw [h]; refine Even.two ?_; evenly

theorem even_untilSemi (n) : Even W W' (untilSemi n) := by
  induction n with
  | zero => exact even_fault _
  | succ n ih => unfold untilSemi; evenly
theorem even_untilSemiChar (n) : Even W W' (untilSemiChar n) := by
  induction n with
  | zero => exact even_fault _
  | succ n ih => unfold untilSemiChar; evenly
macro_rules | `(tactic| evenly1) => `(tactic| with_reducible exact even_untilSemi _)
macro_rules | `(tactic| evenly1) => `(tactic| with_reducible exact even_untilSemiChar _)
theorem even_ipNextN (n) : Even W W' (ipNextN n) := by
  induction n with
  | zero => exact even_pure _
  | succ n ih => unfold ipNextN; evenly
macro_rules | `(tactic| evenly1) => `(tactic| with_reducible exact even_ipNextN _)
theorem even_iterSearch (n c) : Even W W' (iterSearch n c) := by
  induction n generalizing c with
  | zero => exact even_fault _
  | succ n ih => unfold iterSearch; evenly <;> apply ih
macro_rules | `(tactic| evenly1) => `(tactic| with_reducible exact even_iterSearch _ _)
theorem even_iterRun {exec : Int → Exec Err} (h : ∀ c, Even W W' (exec c)) (c n) : Even W W' (iterRun exec c n) := by
  induction n with
  | zero => exact even_pure _
  | succ n ih => unfold iterRun; exact even_bind (h c) fun _ => ih
macro_rules | `(tactic| evenly1) => `(tactic| with_reducible refine even_iterRun ?_ _ _)
theorem even_iIterate {exec : Int → Exec Err} (h : ∀ c, Even W W' (exec c)) : Even W W' (iIterate exec) := by
  unfold iIterate; evenly
theorem even_moveN {pop : Exec Int} {push : Int → Exec Unit} (h1 : Even W W' pop) (h2 : ∀ v, Even W W' (push v)) (n) :
    Even W W' (moveN pop push n) := by
  induction n with
  | zero => exact even_pure _
  | succ n ih => unfold moveN; evenly; apply h2
macro_rules | `(tactic| evenly1) => `(tactic| with_reducible refine even_moveN ?_ (fun _ => ?_) _)
theorem even_popFingerprint (n acc) : Even W W' (popFingerprint n acc) := by
  induction n generalizing acc with
  | zero => exact even_pure _
  | succ n ih => unfold popFingerprint; evenly; apply ih
macro_rules | `(tactic| evenly1) => `(tactic| with_reducible exact even_popFingerprint _ _)
theorem even_pushStrings (l) : Even W W' (pushStrings l) := by
  induction l with
  | nil => exact even_pure _
  | cons x l ih => unfold pushStrings; evenly
macro_rules | `(tactic| evenly1) => `(tactic| with_reducible exact even_pushStrings _)
theorem even_pushSizes (n) : Even W W' (pushSizes n) := by
  induction n with
  | zero => exact even_pure _
  | succ n ih => unfold pushSizes; evenly
macro_rules | `(tactic| evenly1) => `(tactic| with_reducible exact even_pushSizes _)
theorem even_dropN (n) : Even W W' (dropN n) := by
  induction n with
  | zero => exact even_pure _
  | succ n ih => unfold dropN; evenly
macro_rules | `(tactic| evenly1) => `(tactic| with_reducible exact even_dropN _)
theorem even_iJumpOver : Even W W' (iJumpOver) := by
  unfold iJumpOver
  evenly
macro_rules | `(tactic| evenly1) => `(tactic| with_reducible exact even_iJumpOver)
theorem even_iJumpForward : Even W W' (iJumpForward) := by unfold iJumpForward; evenly
macro_rules | `(tactic| evenly1) => `(tactic| with_reducible exact even_iJumpForward)
theorem even_iReflect : Even W W' (iReflect) := by unfold iReflect; evenly
macro_rules | `(tactic| evenly1) => `(tactic| with_reducible exact even_iReflect)
theorem even_iAbsolute : Even W W' (iAbsolute) := by unfold iAbsolute; evenly
macro_rules | `(tactic| evenly1) => `(tactic| with_reducible exact even_iAbsolute)
theorem even_iQuit : Even W W' (iQuit) := by unfold iQuit; evenly
macro_rules | `(tactic| evenly1) => `(tactic| with_reducible exact even_iQuit)
theorem even_iClear : Even W W' (iClear) := by unfold iClear; evenly
macro_rules | `(tactic| evenly1) => `(tactic| with_reducible exact even_iClear)
theorem even_iUnder : Even W W' (iUnder) := by unfold iUnder; evenly
macro_rules | `(tactic| evenly1) => `(tactic| with_reducible exact even_iUnder)
theorem even_iBegin : Even W W' (iBegin) := by unfold iBegin; evenly
macro_rules | `(tactic| evenly1) => `(tactic| with_reducible exact even_iBegin)
theorem even_iEnd : Even W W' (iEnd) := by unfold iEnd; evenly
macro_rules | `(tactic| evenly1) => `(tactic| with_reducible exact even_iEnd)
theorem even_iFetch : Even W W' (iFetch) := by unfold iFetch; evenly
macro_rules | `(tactic| evenly1) => `(tactic| with_reducible exact even_iFetch)
theorem even_iStore : Even W W' (iStore) := by unfold iStore; evenly
macro_rules | `(tactic| evenly1) => `(tactic| with_reducible exact even_iStore)
theorem even_pushSysInfo (h : W.args = W'.args ∧ W.env = W'.env ∧ W.concurrent = W'.concurrent ∧ W.execute = W'.execute ∧ W.filesystem = W'.filesystem) (n) :
    Even W W' (pushSysInfo n) := by
  obtain ⟨h1, h2, h3, h4, h5⟩ := h
  unfold pushSysInfo
  refine even_bind even_getDims fun _ => even_bind even_sizeTop fun _ => even_cfgbind fun _ => ?_
  dsimp only [Switches.cfg, envFlags]
  rw [h1, h2, h3, h4, h5]
  refine Even.two ?_
  evenly
theorem even_iSysInfo (h : W.args = W'.args ∧ W.env = W'.env ∧ W.concurrent = W'.concurrent ∧ W.execute = W'.execute ∧ W.filesystem = W'.filesystem) :
    Even W W' iSysInfo := by unfold iSysInfo; have := even_pushSysInfo h; evenly; exact this _

theorem even_checkTop (n) {k : Exec Err} (h : Even W W' k) : Even W W' (checkTop n k) := by unfold checkTop; evenly
macro_rules | `(tactic| evenly1) => `(tactic| with_reducible refine even_checkTop _ ?_)
theorem even_checkSecond (n) {k : Exec Err} (h : Even W W' k) : Even W W' (checkSecond n k) := by unfold checkSecond; evenly
macro_rules | `(tactic| evenly1) => `(tactic| with_reducible refine even_checkSecond _ ?_)
theorem even_checkSelected (n) {k : Exec Err} (h : Even W W' k) : Even W W' (checkSelected n k) := by unfold checkSelected; evenly
macro_rules | `(tactic| evenly1) => `(tactic| with_reducible refine even_checkSelected _ ?_)
theorem even_fishPush (n) : Even W W' (fishPush n) := by unfold fishPush; evenly
macro_rules | `(tactic| evenly1) => `(tactic| with_reducible exact even_fishPush _)
theorem even_fishInt (n) : Even W W' (fishInt n) := by unfold fishInt; evenly
macro_rules | `(tactic| evenly1) => `(tactic| with_reducible exact even_fishInt _)
theorem even_fishPopInt : Even W W' (fishPopInt) := by unfold fishPopInt; evenly
macro_rules | `(tactic| evenly1) => `(tactic| with_reducible exact even_fishPopInt)
theorem even_fishPopSize : Even W W' (fishPopSize) := by unfold fishPopSize; evenly
macro_rules | `(tactic| evenly1) => `(tactic| with_reducible exact even_fishPopSize)
theorem even_fishPopChar : Even W W' (fishPopChar) := by unfold fishPopChar; evenly
macro_rules | `(tactic| evenly1) => `(tactic| with_reducible exact even_fishPopChar)
theorem even_fishPopVectorOn {pop : Exec Int} (h : Even W W' pop) : Even W W' (fishPopVectorOn pop) := by
  unfold fishPopVectorOn; evenly
macro_rules | `(tactic| evenly1) => `(tactic| with_reducible refine even_fishPopVectorOn ?_)
theorem even_fishPushVectorOn {push : Int → Exec Unit} (h : ∀ v, Even W W' (push v)) (v) : Even W W' (fishPushVectorOn push v) := by
  unfold fishPushVectorOn; evenly; apply h
macro_rules | `(tactic| evenly1) => `(tactic| with_reducible refine even_fishPushVectorOn (fun _ => ?_) _)
theorem even_fiPush (n) : Even W W' (fiPush n) := by unfold fiPush; evenly
macro_rules | `(tactic| evenly1) => `(tactic| with_reducible exact even_fiPush _)
theorem even_fiMirror1 : Even W W' (fiMirror1) := by unfold fiMirror1; evenly
macro_rules | `(tactic| evenly1) => `(tactic| with_reducible exact even_fiMirror1)
theorem even_fiMirror2 : Even W W' (fiMirror2) := by unfold fiMirror2; evenly
macro_rules | `(tactic| evenly1) => `(tactic| with_reducible exact even_fiMirror2)
theorem even_fiMirrorVert : Even W W' (fiMirrorVert) := by unfold fiMirrorVert; evenly
macro_rules | `(tactic| evenly1) => `(tactic| with_reducible exact even_fiMirrorVert)
theorem even_fiMirrorHori : Even W W' (fiMirrorHori) := by unfold fiMirrorHori; evenly
macro_rules | `(tactic| evenly1) => `(tactic| with_reducible exact even_fiMirrorHori)
theorem even_fiMirrorAll : Even W W' (fiMirrorAll) := by unfold fiMirrorAll; evenly
macro_rules | `(tactic| evenly1) => `(tactic| with_reducible exact even_fiMirrorAll)
theorem even_fiConditional : Even W W' (fiConditional) := by unfold fiConditional; evenly
macro_rules | `(tactic| evenly1) => `(tactic| with_reducible exact even_fiConditional)
theorem even_fiJump : Even W W' (fiJump) := by unfold fiJump; evenly
macro_rules | `(tactic| evenly1) => `(tactic| with_reducible exact even_fiJump)
theorem even_fiBin (f) : Even W W' (fiBin f) := by unfold fiBin; evenly
macro_rules | `(tactic| evenly1) => `(tactic| with_reducible exact even_fiBin _)
theorem even_fiDiv : Even W W' (fiDiv) := by unfold fiDiv; evenly
macro_rules | `(tactic| evenly1) => `(tactic| with_reducible exact even_fiDiv)
theorem even_fiModu : Even W W' (fiModu) := by unfold fiModu; evenly
macro_rules | `(tactic| evenly1) => `(tactic| with_reducible exact even_fiModu)
theorem even_fiDuplicate : Even W W' (fiDuplicate) := by unfold fiDuplicate; evenly
macro_rules | `(tactic| evenly1) => `(tactic| with_reducible exact even_fiDuplicate)
theorem even_fiRemove : Even W W' (fiRemove) := by unfold fiRemove; evenly
macro_rules | `(tactic| evenly1) => `(tactic| with_reducible exact even_fiRemove)
theorem even_fiSwap2 : Even W W' (fiSwap2) := by unfold fiSwap2; evenly
macro_rules | `(tactic| evenly1) => `(tactic| with_reducible exact even_fiSwap2)
theorem even_fiSwap3 : Even W W' (fiSwap3) := by unfold fiSwap3; evenly
macro_rules | `(tactic| evenly1) => `(tactic| with_reducible exact even_fiSwap3)
theorem even_fiLength : Even W W' (fiLength) := by unfold fiLength; evenly
macro_rules | `(tactic| evenly1) => `(tactic| with_reducible exact even_fiLength)
theorem even_fiShiftLeft : Even W W' (fiShiftLeft) := by unfold fiShiftLeft; evenly
macro_rules | `(tactic| evenly1) => `(tactic| with_reducible exact even_fiShiftLeft)
theorem even_fiShiftRight : Even W W' (fiShiftRight) := by unfold fiShiftRight; evenly
macro_rules | `(tactic| evenly1) => `(tactic| with_reducible exact even_fiShiftRight)
theorem even_fiReverse : Even W W' (fiReverse) := by unfold fiReverse; evenly
macro_rules | `(tactic| evenly1) => `(tactic| with_reducible exact even_fiReverse)
theorem even_fiCreateStack : Even W W' (fiCreateStack) := by unfold fiCreateStack; evenly
macro_rules | `(tactic| evenly1) => `(tactic| with_reducible exact even_fiCreateStack)
theorem even_fiRemoveStack : Even W W' (fiRemoveStack) := by unfold fiRemoveStack; evenly
macro_rules | `(tactic| evenly1) => `(tactic| with_reducible exact even_fiRemoveStack)
theorem even_fiOutChar : Even W W' (fiOutChar) := by unfold fiOutChar; evenly
macro_rules | `(tactic| evenly1) => `(tactic| with_reducible exact even_fiOutChar)
theorem even_fiOutInt : Even W W' (fiOutInt) := by unfold fiOutInt; evenly
macro_rules | `(tactic| evenly1) => `(tactic| with_reducible exact even_fiOutInt)
theorem even_fiIn : Even W W' (fiIn) := by unfold fiIn; evenly
macro_rules | `(tactic| evenly1) => `(tactic| with_reducible exact even_fiIn)
theorem even_fiGet : Even W W' (fiGet) := by unfold fiGet; evenly
macro_rules | `(tactic| evenly1) => `(tactic| with_reducible exact even_fiGet)
theorem even_fiPut : Even W W' (fiPut) := by unfold fiPut; evenly
macro_rules | `(tactic| evenly1) => `(tactic| with_reducible exact even_fiPut)
theorem even_fiRegister : Even W W' (fiRegister) := by unfold fiRegister; evenly
macro_rules | `(tactic| evenly1) => `(tactic| with_reducible exact even_fiRegister)
theorem even_siFisherman : Even W W' (siFisherman) := by unfold siFisherman; evenly
macro_rules | `(tactic| evenly1) => `(tactic| with_reducible exact even_siFisherman)
theorem even_siCall : Even W W' (siCall) := by unfold siCall; evenly
macro_rules | `(tactic| evenly1) => `(tactic| with_reducible exact even_siCall)
theorem even_siReturn : Even W W' (siReturn) := by unfold siReturn; evenly
macro_rules | `(tactic| evenly1) => `(tactic| with_reducible exact even_siReturn)
theorem even_siDive : Even W W' (siDive) := by unfold siDive; evenly
macro_rules | `(tactic| evenly1) => `(tactic| with_reducible exact even_siDive)
theorem even_siRise : Even W W' (siRise) := by unfold siRise; evenly
macro_rules | `(tactic| evenly1) => `(tactic| with_reducible exact even_siRise)
theorem even_siSleep : Even W W' (siSleep) := by unfold siSleep; evenly
macro_rules | `(tactic| evenly1) => `(tactic| with_reducible exact even_siSleep)
theorem even_siTime : Even W W' (siTime) := by unfold siTime; evenly
macro_rules | `(tactic| evenly1) => `(tactic| with_reducible exact even_siTime)
theorem even_bitNot : Even W W' (bitNot) := by unfold bitNot; evenly
macro_rules | `(tactic| evenly1) => `(tactic| with_reducible exact even_bitNot)
theorem even_frthDepth : Even W W' (frthDepth) := by unfold frthDepth; evenly
macro_rules | `(tactic| evenly1) => `(tactic| with_reducible exact even_frthDepth)
theorem even_frthRoll : Even W W' (frthRoll) := by unfold frthRoll; evenly
macro_rules | `(tactic| evenly1) => `(tactic| with_reducible exact even_frthRoll)
theorem even_frthOver : Even W W' (frthOver) := by unfold frthOver; evenly
macro_rules | `(tactic| evenly1) => `(tactic| with_reducible exact even_frthOver)
theorem even_frthPick : Even W W' (frthPick) := by unfold frthPick; evenly
macro_rules | `(tactic| evenly1) => `(tactic| with_reducible exact even_frthPick)
theorem even_frthRot : Even W W' (frthRot) := by unfold frthRot; evenly
macro_rules | `(tactic| evenly1) => `(tactic| with_reducible exact even_frthRot)
theorem even_popComplex : Even W W' (popComplex) := by unfold popComplex; evenly
macro_rules | `(tactic| evenly1) => `(tactic| with_reducible exact even_popComplex)
theorem even_pushComplex (a b) : Even W W' (pushComplex a b) := by unfold pushComplex; evenly
macro_rules | `(tactic| evenly1) => `(tactic| with_reducible exact even_pushComplex _ _)
theorem even_cpliAdd : Even W W' (cpliAdd) := by unfold cpliAdd; evenly
macro_rules | `(tactic| evenly1) => `(tactic| with_reducible exact even_cpliAdd)
theorem even_cpliSub : Even W W' (cpliSub) := by unfold cpliSub; evenly
macro_rules | `(tactic| evenly1) => `(tactic| with_reducible exact even_cpliSub)
theorem even_cpliMul : Even W W' (cpliMul) := by unfold cpliMul; evenly
macro_rules | `(tactic| evenly1) => `(tactic| with_reducible exact even_cpliMul)
theorem even_cpliOut : Even W W' (cpliOut) := by unfold cpliOut; evenly
macro_rules | `(tactic| evenly1) => `(tactic| with_reducible exact even_cpliOut)

theorem even_modeToggle (m) : Even W W' (modeToggle m) := by unfold modeToggle; evenly
macro_rules | `(tactic| evenly1) => `(tactic| with_reducible exact even_modeToggle _)
theorem even_mathFn (f c l) : Even W W' (mathFn f c l) := by unfold mathFn; evenly
macro_rules | `(tactic| evenly1) => `(tactic| with_reducible exact even_mathFn _ _ _)
theorem even_cpliDiv : Even W W' (cpliDiv) := by unfold cpliDiv; evenly
macro_rules | `(tactic| evenly1) => `(tactic| with_reducible exact even_cpliDiv)
theorem even_cpliAbs : Even W W' (cpliAbs) := by unfold cpliAbs; evenly
macro_rules | `(tactic| evenly1) => `(tactic| with_reducible exact even_cpliAbs)
theorem even_fixpFn (c) : Even W W' (fixpFn c) := by unfold fixpFn; evenly
macro_rules | `(tactic| evenly1) => `(tactic| with_reducible exact even_fixpFn _)
theorem even_fixpPow : Even W W' (fixpPow) := by unfold fixpPow; evenly
macro_rules | `(tactic| evenly1) => `(tactic| with_reducible exact even_fixpPow)
theorem even_fgConditional : Even W W' (fgConditional) := by unfold fgConditional; evenly
macro_rules | `(tactic| evenly1) => `(tactic| with_reducible exact even_fgConditional)
theorem even_fgFisherman : Even W W' (fgFisherman) := by unfold fgFisherman; evenly
macro_rules | `(tactic| evenly1) => `(tactic| with_reducible exact even_fgFisherman)
theorem even_fgShiftLeft : Even W W' (fgShiftLeft) := by unfold fgShiftLeft; evenly
macro_rules | `(tactic| evenly1) => `(tactic| with_reducible exact even_fgShiftLeft)
theorem even_fgShiftRight : Even W W' (fgShiftRight) := by unfold fgShiftRight; evenly
macro_rules | `(tactic| evenly1) => `(tactic| with_reducible exact even_fgShiftRight)
theorem even_fgReverse : Even W W' (fgReverse) := by unfold fgReverse; evenly
macro_rules | `(tactic| evenly1) => `(tactic| with_reducible exact even_fgReverse)
theorem even_fgSwap3 : Even W W' (fgSwap3) := by unfold fgSwap3; evenly
macro_rules | `(tactic| evenly1) => `(tactic| with_reducible exact even_fgSwap3)
theorem even_fixpRandom : Even W W' (fixpRandom) := by unfold fixpRandom; evenly
macro_rules | `(tactic| evenly1) => `(tactic| with_reducible exact even_fixpRandom)
theorem even_fixpNeg : Even W W' (fixpNeg) := by unfold fixpNeg; evenly
macro_rules | `(tactic| evenly1) => `(tactic| with_reducible exact even_fixpNeg)
theorem even_fixpSign : Even W W' (fixpSign) := by unfold fixpSign; evenly
macro_rules | `(tactic| evenly1) => `(tactic| with_reducible exact even_fixpSign)
theorem even_fixpAbs : Even W W' (fixpAbs) := by unfold fixpAbs; evenly
macro_rules | `(tactic| evenly1) => `(tactic| with_reducible exact even_fixpAbs)
theorem even_hrtiTimer : Even W W' (hrtiTimer) := by unfold hrtiTimer; evenly
macro_rules | `(tactic| evenly1) => `(tactic| with_reducible exact even_hrtiTimer)
theorem even_hrtiMark : Even W W' (hrtiMark) := by unfold hrtiMark; evenly
macro_rules | `(tactic| evenly1) => `(tactic| with_reducible exact even_hrtiMark)
theorem even_hrtiErase : Even W W' (hrtiErase) := by unfold hrtiErase; evenly
macro_rules | `(tactic| evenly1) => `(tactic| with_reducible exact even_hrtiErase)
theorem even_hrtiSecond : Even W W' (hrtiSecond) := by unfold hrtiSecond; evenly
macro_rules | `(tactic| evenly1) => `(tactic| with_reducible exact even_hrtiSecond)
theorem even_jstrGetLoop (vd n v) : Even W W' (jstrGetLoop vd n v) := by
  induction n generalizing v with
  | zero => exact even_pure _
  | succ n ih => unfold jstrGetLoop; evenly; apply ih
macro_rules | `(tactic| evenly1) => `(tactic| with_reducible exact even_jstrGetLoop _ _ _)
theorem even_jstrPutLoop (vd n v) : Even W W' (jstrPutLoop vd n v) := by
  induction n generalizing v with
  | zero => exact even_pure _
  | succ n ih => unfold jstrPutLoop; evenly; apply ih
macro_rules | `(tactic| evenly1) => `(tactic| with_reducible exact even_jstrPutLoop _ _ _)
theorem even_jstrGet : Even W W' (jstrGet) := by unfold jstrGet; evenly
macro_rules | `(tactic| evenly1) => `(tactic| with_reducible exact even_jstrGet)
theorem even_jstrPut : Even W W' (jstrPut) := by unfold jstrPut; evenly
macro_rules | `(tactic| evenly1) => `(tactic| with_reducible exact even_jstrPut)
theorem even_orthGet : Even W W' (orthGet) := by unfold orthGet; evenly
macro_rules | `(tactic| evenly1) => `(tactic| with_reducible exact even_orthGet)
theorem even_orthPut : Even W W' (orthPut) := by unfold orthPut; evenly
macro_rules | `(tactic| evenly1) => `(tactic| with_reducible exact even_orthPut)
theorem even_orthOut : Even W W' (orthOut) := by unfold orthOut; evenly
macro_rules | `(tactic| evenly1) => `(tactic| with_reducible exact even_orthOut)
theorem even_orthDelta (n) : Even W W' (orthDelta n) := by unfold orthDelta; evenly
macro_rules | `(tactic| evenly1) => `(tactic| with_reducible exact even_orthDelta _)
theorem even_orthPos (n) : Even W W' (orthPos n) := by unfold orthPos; evenly
macro_rules | `(tactic| evenly1) => `(tactic| with_reducible exact even_orthPos _)
theorem even_nfunGo (v n) : Even W W' (nfunGo v n) := by unfold nfunGo; evenly
macro_rules | `(tactic| evenly1) => `(tactic| with_reducible exact even_nfunGo _ _)
theorem even_nfunHL (h : W.inverthl = W'.inverthl) (v w n) : Even W W' (nfunHL v w n) := by
  unfold nfunHL; refine even_cfgbind fun _ => ?_; dsimp only [Switches.cfg]; rw [h]; refine Even.two ?_; evenly
theorem even_nfunIf (v w n) : Even W W' (nfunIf v w n) := by unfold nfunIf; evenly
macro_rules | `(tactic| evenly1) => `(tactic| with_reducible exact even_nfunIf _ _ _)
theorem even_axisVec (n x) : Even W W' (axisVec n x) := by unfold axisVec; evenly
macro_rules | `(tactic| evenly1) => `(tactic| with_reducible exact even_axisVec _ _)
theorem even_nfunIfN : Even W W' (nfunIfN) := by unfold nfunIfN; evenly
macro_rules | `(tactic| evenly1) => `(tactic| with_reducible exact even_nfunIfN)
theorem even_nfunGoN (n) : Even W W' (nfunGoN n) := by unfold nfunGoN; evenly
macro_rules | `(tactic| evenly1) => `(tactic| with_reducible exact even_nfunGoN _)
theorem even_subrMode (n) : Even W W' (subrMode n) := by unfold subrMode; evenly
macro_rules | `(tactic| evenly1) => `(tactic| with_reducible exact even_subrMode _)
theorem even_subrPops (n) : Even W W' (subrPops n) := by unfold subrPops; evenly
macro_rules | `(tactic| evenly1) => `(tactic| with_reducible exact even_subrPops _)
theorem even_subrCall : Even W W' (subrCall) := by unfold subrCall; evenly
macro_rules | `(tactic| evenly1) => `(tactic| with_reducible exact even_subrCall)
theorem even_subrJump : Even W W' (subrJump) := by unfold subrJump; evenly
macro_rules | `(tactic| evenly1) => `(tactic| with_reducible exact even_subrJump)
theorem even_subrReturn : Even W W' (subrReturn) := by unfold subrReturn; evenly
macro_rules | `(tactic| evenly1) => `(tactic| with_reducible exact even_subrReturn)
theorem even_refcDeref : Even W W' (refcDeref) := by unfold refcDeref; evenly
macro_rules | `(tactic| evenly1) => `(tactic| with_reducible exact even_refcDeref)
theorem even_printNum (n b) : Even W W' (printNum n b) := by unfold printNum; evenly
macro_rules | `(tactic| evenly1) => `(tactic| with_reducible exact even_printNum _ _)
theorem even_basePrint (n) : Even W W' (basePrint n) := by unfold basePrint; evenly
macro_rules | `(tactic| evenly1) => `(tactic| with_reducible exact even_basePrint _)
theorem even_basePrintN : Even W W' (basePrintN) := by unfold basePrintN; evenly
macro_rules | `(tactic| evenly1) => `(tactic| with_reducible exact even_basePrintN)
theorem even_readNum (n) : Even W W' (readNum n) := by
  rw [readNum_taking]
  refine even_bind even_takeWord fun q => ?_
  evenly
macro_rules | `(tactic| evenly1) => `(tactic| with_reducible exact even_readNum _)
theorem even_baseRead : Even W W' (baseRead) := by unfold baseRead; evenly
macro_rules | `(tactic| evenly1) => `(tactic| with_reducible exact even_baseRead)
theorem even_pushStr (n) : Even W W' (pushStr n) := by unfold pushStr; evenly
macro_rules | `(tactic| evenly1) => `(tactic| with_reducible exact even_pushStr _)
theorem even_strnAppend : Even W W' (strnAppend) := by unfold strnAppend; evenly
macro_rules | `(tactic| evenly1) => `(tactic| with_reducible exact even_strnAppend)
theorem even_strnCompare : Even W W' (strnCompare) := by unfold strnCompare; evenly
macro_rules | `(tactic| evenly1) => `(tactic| with_reducible exact even_strnCompare)
theorem even_strnDisplay : Even W W' (strnDisplay) := by unfold strnDisplay; evenly
macro_rules | `(tactic| evenly1) => `(tactic| with_reducible exact even_strnDisplay)
theorem even_strnFind : Even W W' (strnFind) := by unfold strnFind; evenly
macro_rules | `(tactic| evenly1) => `(tactic| with_reducible exact even_strnFind)
theorem even_strnGetLoop (n v acc) : Even W W' (strnGetLoop n v acc) := by
  induction n generalizing v acc with
  | zero => exact even_fault _
  | succ n ih => unfold strnGetLoop; evenly; apply ih
macro_rules | `(tactic| evenly1) => `(tactic| with_reducible exact even_strnGetLoop _ _ _)
theorem even_strnPutLoop (v l) : Even W W' (strnPutLoop v l) := by
  induction l generalizing v with
  | nil => exact even_fieldPut _ _
  | cons c l ih => unfold strnPutLoop; evenly; apply ih
macro_rules | `(tactic| evenly1) => `(tactic| with_reducible exact even_strnPutLoop _ _)
theorem even_strnGet : Even W W' (strnGet) := by unfold strnGet; evenly
theorem even_strnInput : Even W W' (strnInput) := by
  rw [strnInput_taking]
  refine even_bind even_takeLine fun q => ?_
  evenly
macro_rules | `(tactic| evenly1) => `(tactic| with_reducible exact even_strnInput)
theorem even_strnLeft : Even W W' (strnLeft) := by unfold strnLeft; evenly
macro_rules | `(tactic| evenly1) => `(tactic| with_reducible exact even_strnLeft)
theorem even_strnMid : Even W W' (strnMid) := by unfold strnMid; evenly
macro_rules | `(tactic| evenly1) => `(tactic| with_reducible exact even_strnMid)
theorem even_strnLength : Even W W' (strnLength) := by unfold strnLength; evenly
macro_rules | `(tactic| evenly1) => `(tactic| with_reducible exact even_strnLength)
theorem even_strnPut : Even W W' (strnPut) := by unfold strnPut; evenly
macro_rules | `(tactic| evenly1) => `(tactic| with_reducible exact even_strnPut)
theorem even_strnRight : Even W W' (strnRight) := by unfold strnRight; evenly
macro_rules | `(tactic| evenly1) => `(tactic| with_reducible exact even_strnRight)
theorem even_strnItoa : Even W W' (strnItoa) := by unfold strnItoa; evenly
macro_rules | `(tactic| evenly1) => `(tactic| with_reducible exact even_strnItoa)
theorem even_strnAtoi : Even W W' (strnAtoi) := by unfold strnAtoi; evenly
macro_rules | `(tactic| evenly1) => `(tactic| with_reducible exact even_strnAtoi)
theorem even_iipcDormant : Even W W' (iipcDormant) := by unfold iipcDormant; evenly
macro_rules | `(tactic| evenly1) => `(tactic| with_reducible exact even_iipcDormant)
theorem even_iipcId : Even W W' (iipcId) := by unfold iipcId; evenly
macro_rules | `(tactic| evenly1) => `(tactic| with_reducible exact even_iipcId)
theorem even_dbugBreak : Even W W' (dbugBreak) := by unfold dbugBreak; evenly
macro_rules | `(tactic| evenly1) => `(tactic| with_reducible exact even_dbugBreak)
theorem even_dbugWatch : Even W W' (dbugWatch) := by unfold dbugWatch; evenly
macro_rules | `(tactic| evenly1) => `(tactic| with_reducible exact even_dbugWatch)
theorem even_mvrsName (h : W.name = W'.name) : Even W W' mvrsName := by
  unfold mvrsName; refine even_cfgbind fun _ => ?_; dsimp only [Switches.cfg]; rw [h]; refine Even.two ?_; evenly

theorem even_rangeOf (a b) : Even W W' (rangeOf a b) := by unfold rangeOf; evenly
macro_rules | `(tactic| evenly1) => `(tactic| with_reducible exact even_rangeOf _ _)
theorem even_copyLoop (a b m l) : Even W W' (copyLoop a b m l) := by
  induction l with
  | nil => exact even_pure _
  | cons c l ih => unfold copyLoop; evenly
macro_rules | `(tactic| evenly1) => `(tactic| with_reducible exact even_copyLoop _ _ _ _)
theorem even_foldStack (f n a) : Even W W' (foldStack f n a) := by
  induction n generalizing a with
  | zero => exact even_pure _
  | succ n ih => unfold foldStack; evenly; apply ih
macro_rules | `(tactic| evenly1) => `(tactic| with_reducible exact even_foldStack _ _ _)
theorem even_toysFLoop (a l) : Even W W' (toysFLoop a l) := by
  induction l with
  | nil => exact even_pure _
  | cons c l ih => unfold toysFLoop; evenly
macro_rules | `(tactic| evenly1) => `(tactic| with_reducible exact even_toysFLoop _ _)
theorem even_toysGLoop (a l) : Even W W' (toysGLoop a l) := by
  induction l with
  | nil => exact even_pure _
  | cons c l ih => unfold toysGLoop; evenly
macro_rules | `(tactic| evenly1) => `(tactic| with_reducible exact even_toysGLoop _ _)
theorem even_toysSLoop (a i l) : Even W W' (toysSLoop a i l) := by
  induction l with
  | nil => exact even_pure _
  | cons c l ih => unfold toysSLoop; evenly
macro_rules | `(tactic| evenly1) => `(tactic| with_reducible exact even_toysSLoop _ _ _)
theorem even_copySpace (a b c d e) : Even W W' (copySpace a b c d e) := by unfold copySpace; evenly
macro_rules | `(tactic| evenly1) => `(tactic| with_reducible exact even_copySpace _ _ _ _ _)
theorem even_toysGable : Even W W' (toysGable) := by unfold toysGable; evenly
macro_rules | `(tactic| evenly1) => `(tactic| with_reducible exact even_toysGable)
theorem even_toysButterfly : Even W W' (toysButterfly) := by unfold toysButterfly; evenly
macro_rules | `(tactic| evenly1) => `(tactic| with_reducible exact even_toysButterfly)
theorem even_toysCopy (a b) : Even W W' (toysCopy a b) := by unfold toysCopy; evenly
macro_rules | `(tactic| evenly1) => `(tactic| with_reducible exact even_toysCopy _ _)
theorem even_toysInc (n) : Even W W' (toysInc n) := by unfold toysInc; evenly
macro_rules | `(tactic| evenly1) => `(tactic| with_reducible exact even_toysInc _)
theorem even_toysFold (n f) : Even W W' (toysFold n f) := by unfold toysFold; evenly
macro_rules | `(tactic| evenly1) => `(tactic| with_reducible exact even_toysFold _ _)
theorem even_toysPutBlock : Even W W' (toysPutBlock) := by unfold toysPutBlock; evenly
macro_rules | `(tactic| evenly1) => `(tactic| with_reducible exact even_toysPutBlock)
theorem even_toysGetBlock : Even W W' (toysGetBlock) := by unfold toysGetBlock; evenly
macro_rules | `(tactic| evenly1) => `(tactic| with_reducible exact even_toysGetBlock)
theorem even_toysShift : Even W W' (toysShift) := by unfold toysShift; evenly
macro_rules | `(tactic| evenly1) => `(tactic| with_reducible exact even_toysShift)
theorem even_toysColumn : Even W W' (toysColumn) := by unfold toysColumn; evenly
macro_rules | `(tactic| evenly1) => `(tactic| with_reducible exact even_toysColumn)
theorem even_toysRow : Even W W' (toysRow) := by unfold toysRow; evenly
macro_rules | `(tactic| evenly1) => `(tactic| with_reducible exact even_toysRow)
theorem even_toysLook (n) : Even W W' (toysLook n) := by unfold toysLook; evenly
macro_rules | `(tactic| evenly1) => `(tactic| with_reducible exact even_toysLook _)
theorem even_toysTail : Even W W' (toysTail) := by unfold toysTail; evenly
macro_rules | `(tactic| evenly1) => `(tactic| with_reducible exact even_toysTail)
theorem even_toysFill : Even W W' (toysFill) := by unfold toysFill; evenly
macro_rules | `(tactic| evenly1) => `(tactic| with_reducible exact even_toysFill)
theorem even_toysBranch : Even W W' (toysBranch) := by unfold toysBranch; evenly
macro_rules | `(tactic| evenly1) => `(tactic| with_reducible exact even_toysBranch)
theorem even_toysRandom : Even W W' (toysRandom) := by unfold toysRandom; evenly
macro_rules | `(tactic| evenly1) => `(tactic| with_reducible exact even_toysRandom)
theorem even_toysWait : Even W W' (toysWait) := by unfold toysWait; evenly
macro_rules | `(tactic| evenly1) => `(tactic| with_reducible exact even_toysWait)
theorem even_toysStep (n) : Even W W' (toysStep n) := by unfold toysStep; evenly
macro_rules | `(tactic| evenly1) => `(tactic| with_reducible exact even_toysStep _)
theorem even_fpdpBin (f) : Even W W' (fpdpBin f) := by unfold fpdpBin; evenly
macro_rules | `(tactic| evenly1) => `(tactic| with_reducible exact even_fpdpBin _)
theorem even_fpdpPow : Even W W' (fpdpPow) := by unfold fpdpPow; evenly
macro_rules | `(tactic| evenly1) => `(tactic| with_reducible exact even_fpdpPow)
theorem even_fpdpFn (c) : Even W W' (fpdpFn c) := by unfold fpdpFn; evenly
macro_rules | `(tactic| evenly1) => `(tactic| with_reducible exact even_fpdpFn _)
theorem even_fpdpFromInt : Even W W' (fpdpFromInt) := by unfold fpdpFromInt; evenly
macro_rules | `(tactic| evenly1) => `(tactic| with_reducible exact even_fpdpFromInt)
theorem even_fpdpToInt : Even W W' (fpdpToInt) := by unfold fpdpToInt; evenly
macro_rules | `(tactic| evenly1) => `(tactic| with_reducible exact even_fpdpToInt)
theorem even_floatOut (f) : Even W W' (floatOut f) := by unfold floatOut; evenly
macro_rules | `(tactic| evenly1) => `(tactic| with_reducible exact even_floatOut _)
theorem even_fpdpRead : Even W W' (fpdpRead) := by unfold fpdpRead; evenly
macro_rules | `(tactic| evenly1) => `(tactic| with_reducible exact even_fpdpRead)
theorem even_fpspToStack : Even W W' fpspToStack := even_fault _
macro_rules | `(tactic| evenly1) => `(tactic| with_reducible exact even_fpspToStack)
theorem even_fpspBin : Even W W' (fpspBin) := by unfold fpspBin; evenly
macro_rules | `(tactic| evenly1) => `(tactic| with_reducible exact even_fpspBin)
theorem even_fpspFn : Even W W' (fpspFn) := by unfold fpspFn; evenly
macro_rules | `(tactic| evenly1) => `(tactic| with_reducible exact even_fpspFn)
theorem even_fpspToInt : Even W W' (fpspToInt) := by unfold fpspToInt; evenly
macro_rules | `(tactic| evenly1) => `(tactic| with_reducible exact even_fpspToInt)
theorem even_fpspRead : Even W W' (fpspRead) := by unfold fpspRead; evenly
macro_rules | `(tactic| evenly1) => `(tactic| with_reducible exact even_fpspRead)
theorem even_fprtPrint (c f l) : Even W W' (fprtPrint c f l) := by unfold fprtPrint; evenly
macro_rules | `(tactic| evenly1) => `(tactic| with_reducible exact even_fprtPrint _ _ _)
theorem even_fprtCell (c) : Even W W' (fprtCell c) := by unfold fprtCell; evenly
macro_rules | `(tactic| evenly1) => `(tactic| with_reducible exact even_fprtCell _)
theorem even_fprtLong : Even W W' (fprtLong) := by unfold fprtLong; evenly
macro_rules | `(tactic| evenly1) => `(tactic| with_reducible exact even_fprtLong)
theorem even_fprtStr : Even W W' (fprtStr) := by unfold fprtStr; evenly
macro_rules | `(tactic| evenly1) => `(tactic| with_reducible exact even_fprtStr)
theorem even_popLong : Even W W' (popLong) := by unfold popLong; evenly
macro_rules | `(tactic| evenly1) => `(tactic| with_reducible exact even_popLong)
theorem even_pushLong (n) : Even W W' (pushLong n) := by unfold pushLong; evenly
macro_rules | `(tactic| evenly1) => `(tactic| with_reducible exact even_pushLong _)
theorem even_longBin (f) : Even W W' (longBin f) := by unfold longBin; evenly
macro_rules | `(tactic| evenly1) => `(tactic| with_reducible exact even_longBin _)
theorem even_longDiv (f) : Even W W' (longDiv f) := by unfold longDiv; evenly
macro_rules | `(tactic| evenly1) => `(tactic| with_reducible exact even_longDiv _)
theorem even_longAbs : Even W W' (longAbs) := by unfold longAbs; evenly
macro_rules | `(tactic| evenly1) => `(tactic| with_reducible exact even_longAbs)
theorem even_longExtend : Even W W' (longExtend) := by unfold longExtend; evenly
macro_rules | `(tactic| evenly1) => `(tactic| with_reducible exact even_longExtend)
theorem even_longShift (f) : Even W W' (longShift f) := by unfold longShift; evenly
macro_rules | `(tactic| evenly1) => `(tactic| with_reducible exact even_longShift _)
theorem even_longNeg : Even W W' (longNeg) := by unfold longNeg; evenly
macro_rules | `(tactic| evenly1) => `(tactic| with_reducible exact even_longNeg)
theorem even_longOut : Even W W' (longOut) := by unfold longOut; evenly
macro_rules | `(tactic| evenly1) => `(tactic| with_reducible exact even_longOut)
theorem even_longRead : Even W W' (longRead) := by unfold longRead; evenly
macro_rules | `(tactic| evenly1) => `(tactic| with_reducible exact even_longRead)


end Funge
