import Verif.Lemmas.Blind
/-
The instructions that have nothing to do with the other IPs do the same beside any other IPs.
-/
set_option linter.unusedSectionVars false

namespace Funge
open Exec

variable {R : List Runner → List Runner → Prop} [Guise R]

theorem blind₂_ite {α : Type} {c : Prop} [Decidable c] {a a' b b' : Exec α} (ha : Blind₂ R a a') (hb : Blind₂ R b b') :
    Blind₂ R (if c then a else b) (if c then a' else b') := by
  by_cases hc : c
  · simpa only [if_pos hc] using ha
  · simpa only [if_neg hc] using hb

/-- One step of `blindly`. -/
syntax "blindly1" : tactic
/-- Closes goals `Blind R m` for programs made of known pieces. -/
macro "blindly" : tactic => `(tactic| repeat' (first
  | ((with_reducible refine blind_getbind fun _ _ _ _ => ?_); dsimp only; (first | with_reducible refine Blind.two ?_ | refine Blind.two ?_))
  | with_reducible refine blind_bind ?_ fun _ => ?_ | with_reducible exact blind_pure _ | blindly1))

macro_rules | `(tactic| blindly1) => `(tactic| dsimp only)
macro_rules | `(tactic| blindly1) => `(tactic| split)
macro_rules | `(tactic| blindly1) => `(tactic| with_reducible refine blind_bind ?_ fun _ => ?_)
macro_rules | `(tactic| blindly1) => `(tactic| first
  | with_reducible exact blind_popTop
  | with_reducible exact blind_pushTop _
  | with_reducible exact blind_popSecond
  | with_reducible exact blind_pushSecond _
  | with_reducible exact blind_lift _
  | with_reducible exact blind_getDims
  | with_reducible exact blind_getCfg
  | with_reducible exact blind_getFuel
  | with_reducible exact blind_getFlt
  | with_reducible exact blind_getLng
  | with_reducible exact blind_isMode _
  | with_reducible exact blind_numStacks
  | with_reducible exact blind_ipPos
  | with_reducible exact blind_ipDelta
  | with_reducible exact blind_ipStorage
  | with_reducible exact blind_ipGet
  | with_reducible exact blind_fieldGet _
  | with_reducible exact blind_subrTarget _
  | with_reducible exact blind_sizeTop
  | with_reducible exact blind_sizeSecond
  | with_reducible exact blind_getTop _
  | with_reducible exact blind_clearTop
  | with_reducible exact blind_onTop _
  | with_reducible exact blind_sizeAt _
  | with_reducible exact blind_onStacks _
  | with_reducible exact blind_siSelect _
  | with_reducible exact blind_ipNext
  | with_reducible exact blind_onIP _
  | with_reducible exact blind_setDelta _
  | with_reducible exact blind_fieldPut _ _
  | with_reducible exact blind_ipPut _
  | with_reducible exact blind_ask
  | with_reducible exact blind_askFile
  | with_reducible exact blind_askDir
  | with_reducible exact blind_getChar
  | with_reducible exact blind_emit _
  | with_reducible exact blind_killAll _
  | with_reducible exact blind_universeSetMode _
  | with_reducible exact blind_universeClearMode _
  | with_reducible exact blind_universeToggleMode _
  | with_reducible exact blind_growDims _
  | with_reducible exact blind_addBreakpoint _
  | with_reducible exact blind_addWatchpoint _
  | with_reducible exact blind_runnerPush _
  | with_reducible exact blind_enterString _
  | with_reducible exact blind_modCur _
  | with_reducible exact blind_cloneCur
  | with_reducible exact blind_pure _
  | with_reducible exact blind_fault _)
macro_rules | `(tactic| blindly1) => `(tactic| with_reducible assumption)

theorem blind_popN {pop : Exec Int} (h : Blind R pop) (n : Nat) : Blind R (popN pop n) := by
  induction n with
  | zero => exact blind_pure _
  | succ n ih => unfold popN; blindly
macro_rules | `(tactic| blindly1) => `(tactic| with_reducible refine blind_popN ?_ _)

theorem blind_pushAll {push : Int → Exec Unit} (h : ∀ v, Blind R (push v)) (l : List Int) : Blind R (pushAll push l) := by
  induction l with
  | nil => exact blind_pure _
  | cons x l ih => unfold pushAll; have := h x; blindly
macro_rules | `(tactic| blindly1) => `(tactic| with_reducible refine blind_pushAll (fun _ => ?_) _)

theorem blind_pushVectorOn {push : Int → Exec Unit} (h : ∀ v, Blind R (push v)) (v) : Blind R (pushVectorOn push v) := by
  unfold pushVectorOn; blindly; exact h _
macro_rules | `(tactic| blindly1) => `(tactic| with_reducible refine blind_pushVectorOn (fun _ => ?_) _)
theorem blind_pushVector (v) : Blind R (pushVector v) := by unfold pushVector; blindly
macro_rules | `(tactic| blindly1) => `(tactic| with_reducible exact blind_pushVector _)

theorem blind_popVectorLoop {pop : Exec Int} (h : Blind R pop) (n : Nat) (v) : Blind R (popVectorLoop pop n v) := by
  induction n generalizing v with
  | zero => exact blind_pure _
  | succ n ih => unfold popVectorLoop; exact blind_bind h fun _ => ih _
theorem blind_popVectorOn {pop : Exec Int} (h : Blind R pop) : Blind R (popVectorOn pop) := by
  unfold popVectorOn; exact blind_bind (blind_getDims) fun _ => blind_popVectorLoop h _ _
macro_rules | `(tactic| blindly1) => `(tactic| with_reducible refine blind_popVectorOn ?_)
theorem blind_popVector : Blind R popVector := by unfold popVector; blindly
macro_rules | `(tactic| blindly1) => `(tactic| with_reducible exact blind_popVector)

theorem blind_pushString (v) : Blind R (pushString v) := by unfold pushString; blindly
macro_rules | `(tactic| blindly1) => `(tactic| with_reducible exact blind_pushString _)
theorem blind_popStringLoop (n acc) : Blind R (popStringLoop n acc) := by
  induction n generalizing acc with
  | zero => exact blind_fault _
  | succ n ih => unfold popStringLoop; have := fun c => ih (toChar c :: acc); blindly; apply ih
theorem blind_popString : Blind R popString := by
  unfold popString; exact blind_bind (blind_sizeTop) fun _ => blind_popStringLoop _ _
macro_rules | `(tactic| blindly1) => `(tactic| with_reducible exact blind_popString)
theorem blind_random (a b) : Blind R (random a b) := by unfold random; blindly
macro_rules | `(tactic| blindly1) => `(tactic| with_reducible exact blind_random _ _)
theorem blind_iPush (n) : Blind R (iPush n) := by unfold iPush; blindly
macro_rules | `(tactic| blindly1) => `(tactic| with_reducible exact blind_iPush _)
theorem blind_iGo (v) : Blind R (iGo v) := by unfold iGo; blindly
macro_rules | `(tactic| blindly1) => `(tactic| with_reducible exact blind_iGo _)
theorem blind_iStop : Blind R (iStop) := by unfold iStop; blindly
macro_rules | `(tactic| blindly1) => `(tactic| with_reducible exact blind_iStop)
theorem blind_iTrampoline : Blind R (iTrampoline) := by unfold iTrampoline; blindly
macro_rules | `(tactic| blindly1) => `(tactic| with_reducible exact blind_iTrampoline)
theorem blind_iIf (a b) : Blind R (iIf a b) := by unfold iIf; blindly
macro_rules | `(tactic| blindly1) => `(tactic| with_reducible exact blind_iIf _ _)
theorem blind_iGoAway : Blind R (iGoAway) := by unfold iGoAway; blindly
macro_rules | `(tactic| blindly1) => `(tactic| with_reducible exact blind_iGoAway)
theorem blind_iNot : Blind R (iNot) := by unfold iNot; blindly
macro_rules | `(tactic| blindly1) => `(tactic| with_reducible exact blind_iNot)
theorem blind_iBin (f) : Blind R (iBin f) := by unfold iBin; blindly
macro_rules | `(tactic| blindly1) => `(tactic| with_reducible exact blind_iBin _)
theorem blind_iPop : Blind R (iPop) := by unfold iPop; blindly
macro_rules | `(tactic| blindly1) => `(tactic| with_reducible exact blind_iPop)
theorem blind_iDup : Blind R (iDup) := by unfold iDup; blindly
macro_rules | `(tactic| blindly1) => `(tactic| with_reducible exact blind_iDup)
theorem blind_iSwap : Blind R (iSwap) := by unfold iSwap; blindly
macro_rules | `(tactic| blindly1) => `(tactic| with_reducible exact blind_iSwap)
theorem blind_iNumIn : Blind R (iNumIn) := by
  rw [iNumIn_taking]
  refine blind_bind blind_takeNum fun q => ?_
  blindly
macro_rules | `(tactic| blindly1) => `(tactic| with_reducible exact blind_iNumIn)
theorem blind_iCharIn : Blind R (iCharIn) := by unfold iCharIn; blindly
macro_rules | `(tactic| blindly1) => `(tactic| with_reducible exact blind_iCharIn)
theorem blind_iString (q) : Blind R (iString q) := by unfold iString; blindly
macro_rules | `(tactic| blindly1) => `(tactic| with_reducible exact blind_iString _)
theorem blind_iCharOut : Blind R (iCharOut) := by unfold iCharOut; blindly
macro_rules | `(tactic| blindly1) => `(tactic| with_reducible exact blind_iCharOut)
theorem blind_iNumOut : Blind R (iNumOut) := by unfold iNumOut; blindly
macro_rules | `(tactic| blindly1) => `(tactic| with_reducible exact blind_iNumOut)
theorem blind_iGet : Blind R (iGet) := by unfold iGet; blindly
macro_rules | `(tactic| blindly1) => `(tactic| with_reducible exact blind_iGet)
theorem blind_iPut : Blind R (iPut) := by unfold iPut; blindly
macro_rules | `(tactic| blindly1) => `(tactic| with_reducible exact blind_iPut)
theorem blind_switchPut (c) : Blind R (switchPut c) := by unfold switchPut; blindly
macro_rules | `(tactic| blindly1) => `(tactic| with_reducible exact blind_switchPut _)
theorem blind_iLeft : Blind R (iLeft) := by unfold iLeft; blindly
macro_rules | `(tactic| blindly1) => `(tactic| with_reducible exact blind_iLeft)
theorem blind_iRight : Blind R (iRight) := by unfold iRight; blindly
macro_rules | `(tactic| blindly1) => `(tactic| with_reducible exact blind_iRight)
theorem blind_iCompare : Blind R (iCompare) := by unfold iCompare; blindly
macro_rules | `(tactic| blindly1) => `(tactic| with_reducible exact blind_iCompare)
theorem blind_iHigh : Blind R (iHigh) := by unfold iHigh; blindly
macro_rules | `(tactic| blindly1) => `(tactic| with_reducible exact blind_iHigh)
theorem blind_iLow : Blind R (iLow) := by unfold iLow; blindly
macro_rules | `(tactic| blindly1) => `(tactic| with_reducible exact blind_iLow)

theorem blind_untilSemi (n) : Blind R (untilSemi n) := by
  induction n with
  | zero => exact blind_fault _
  | succ n ih => unfold untilSemi; blindly
theorem blind_untilSemiChar (n) : Blind R (untilSemiChar n) := by
  induction n with
  | zero => exact blind_fault _
  | succ n ih => unfold untilSemiChar; blindly
macro_rules | `(tactic| blindly1) => `(tactic| with_reducible exact blind_untilSemi _)
macro_rules | `(tactic| blindly1) => `(tactic| with_reducible exact blind_untilSemiChar _)
theorem blind_ipNextN (n) : Blind R (ipNextN n) := by
  induction n with
  | zero => exact blind_pure _
  | succ n ih => unfold ipNextN; blindly
macro_rules | `(tactic| blindly1) => `(tactic| with_reducible exact blind_ipNextN _)
theorem blind_iterSearch (n c) : Blind R (iterSearch n c) := by
  induction n generalizing c with
  | zero => exact blind_fault _
  | succ n ih => unfold iterSearch; blindly <;> apply ih
macro_rules | `(tactic| blindly1) => `(tactic| with_reducible exact blind_iterSearch _ _)
theorem blind_iterRun {exec : Int → Exec Err} (h : ∀ c, Blind R (exec c)) (c n) : Blind R (iterRun exec c n) := by
  induction n with
  | zero => exact blind_pure _
  | succ n ih => unfold iterRun; exact blind_bind (h c) fun _ => ih
macro_rules | `(tactic| blindly1) => `(tactic| with_reducible refine blind_iterRun ?_ _ _)
theorem blind_iIterate {exec : Int → Exec Err} (h : ∀ c, Blind R (exec c)) : Blind R (iIterate exec) := by
  unfold iIterate; blindly
theorem blind_moveN {pop : Exec Int} {push : Int → Exec Unit} (h1 : Blind R pop) (h2 : ∀ v, Blind R (push v)) (n) :
    Blind R (moveN pop push n) := by
  induction n with
  | zero => exact blind_pure _
  | succ n ih => unfold moveN; blindly; apply h2
macro_rules | `(tactic| blindly1) => `(tactic| with_reducible refine blind_moveN ?_ (fun _ => ?_) _)
theorem blind_popFingerprint (n acc) : Blind R (popFingerprint n acc) := by
  induction n generalizing acc with
  | zero => exact blind_pure _
  | succ n ih => unfold popFingerprint; blindly; apply ih
macro_rules | `(tactic| blindly1) => `(tactic| with_reducible exact blind_popFingerprint _ _)
theorem blind_pushStrings (l) : Blind R (pushStrings l) := by
  induction l with
  | nil => exact blind_pure _
  | cons x l ih => unfold pushStrings; blindly
macro_rules | `(tactic| blindly1) => `(tactic| with_reducible exact blind_pushStrings _)
theorem blind_pushSizes (n) : Blind R (pushSizes n) := by
  induction n with
  | zero => exact blind_pure _
  | succ n ih => unfold pushSizes; blindly
macro_rules | `(tactic| blindly1) => `(tactic| with_reducible exact blind_pushSizes _)
theorem blind_dropN (n) : Blind R (dropN n) := by
  induction n with
  | zero => exact blind_pure _
  | succ n ih => unfold dropN; blindly
macro_rules | `(tactic| blindly1) => `(tactic| with_reducible exact blind_dropN _)
theorem blind_iJumpOver : Blind R (iJumpOver) := by
  unfold iJumpOver
  blindly
macro_rules | `(tactic| blindly1) => `(tactic| with_reducible exact blind_iJumpOver)
theorem blind_iJumpForward : Blind R (iJumpForward) := by unfold iJumpForward; blindly
macro_rules | `(tactic| blindly1) => `(tactic| with_reducible exact blind_iJumpForward)
theorem blind_iReflect : Blind R (iReflect) := by unfold iReflect; blindly
macro_rules | `(tactic| blindly1) => `(tactic| with_reducible exact blind_iReflect)
theorem blind_iAbsolute : Blind R (iAbsolute) := by unfold iAbsolute; blindly
macro_rules | `(tactic| blindly1) => `(tactic| with_reducible exact blind_iAbsolute)
theorem blind_iQuit : Blind R (iQuit) := by unfold iQuit; blindly
macro_rules | `(tactic| blindly1) => `(tactic| with_reducible exact blind_iQuit)
theorem blind_iClear : Blind R (iClear) := by unfold iClear; blindly
macro_rules | `(tactic| blindly1) => `(tactic| with_reducible exact blind_iClear)
theorem blind_iUnder : Blind R (iUnder) := by unfold iUnder; blindly
macro_rules | `(tactic| blindly1) => `(tactic| with_reducible exact blind_iUnder)
theorem blind_iBegin : Blind R (iBegin) := by unfold iBegin; blindly
macro_rules | `(tactic| blindly1) => `(tactic| with_reducible exact blind_iBegin)
theorem blind_iEnd : Blind R (iEnd) := by unfold iEnd; blindly
macro_rules | `(tactic| blindly1) => `(tactic| with_reducible exact blind_iEnd)
theorem blind_iFetch : Blind R (iFetch) := by unfold iFetch; blindly
macro_rules | `(tactic| blindly1) => `(tactic| with_reducible exact blind_iFetch)
theorem blind_iStore : Blind R (iStore) := by unfold iStore; blindly
macro_rules | `(tactic| blindly1) => `(tactic| with_reducible exact blind_iStore)
theorem blind_pushSysInfo (n) : Blind R (pushSysInfo n) := by unfold pushSysInfo; blindly
macro_rules | `(tactic| blindly1) => `(tactic| with_reducible exact blind_pushSysInfo _)
theorem blind_iSysInfo : Blind R (iSysInfo) := by unfold iSysInfo; blindly
macro_rules | `(tactic| blindly1) => `(tactic| with_reducible exact blind_iSysInfo)

theorem blind_checkTop (n) {k : Exec Err} (h : Blind R k) : Blind R (checkTop n k) := by unfold checkTop; blindly
macro_rules | `(tactic| blindly1) => `(tactic| with_reducible refine blind_checkTop _ ?_)
theorem blind_checkSecond (n) {k : Exec Err} (h : Blind R k) : Blind R (checkSecond n k) := by unfold checkSecond; blindly
macro_rules | `(tactic| blindly1) => `(tactic| with_reducible refine blind_checkSecond _ ?_)
theorem blind_checkSelected (n) {k : Exec Err} (h : Blind R k) : Blind R (checkSelected n k) := by unfold checkSelected; blindly
macro_rules | `(tactic| blindly1) => `(tactic| with_reducible refine blind_checkSelected _ ?_)
theorem blind_fishPush (n) : Blind R (fishPush n) := by unfold fishPush; blindly
macro_rules | `(tactic| blindly1) => `(tactic| with_reducible exact blind_fishPush _)
theorem blind_fishInt (n) : Blind R (fishInt n) := by unfold fishInt; blindly
macro_rules | `(tactic| blindly1) => `(tactic| with_reducible exact blind_fishInt _)
theorem blind_fishPopInt : Blind R (fishPopInt) := by unfold fishPopInt; blindly
macro_rules | `(tactic| blindly1) => `(tactic| with_reducible exact blind_fishPopInt)
theorem blind_fishPopSize : Blind R (fishPopSize) := by unfold fishPopSize; blindly
macro_rules | `(tactic| blindly1) => `(tactic| with_reducible exact blind_fishPopSize)
theorem blind_fishPopChar : Blind R (fishPopChar) := by unfold fishPopChar; blindly
macro_rules | `(tactic| blindly1) => `(tactic| with_reducible exact blind_fishPopChar)
theorem blind_fishPopVectorOn {pop : Exec Int} (h : Blind R pop) : Blind R (fishPopVectorOn pop) := by
  unfold fishPopVectorOn; blindly
macro_rules | `(tactic| blindly1) => `(tactic| with_reducible refine blind_fishPopVectorOn ?_)
theorem blind_fishPushVectorOn {push : Int → Exec Unit} (h : ∀ v, Blind R (push v)) (v) : Blind R (fishPushVectorOn push v) := by
  unfold fishPushVectorOn; blindly; apply h
macro_rules | `(tactic| blindly1) => `(tactic| with_reducible refine blind_fishPushVectorOn (fun _ => ?_) _)
theorem blind_fiPush (n) : Blind R (fiPush n) := by unfold fiPush; blindly
macro_rules | `(tactic| blindly1) => `(tactic| with_reducible exact blind_fiPush _)
theorem blind_fiMirror1 : Blind R (fiMirror1) := by unfold fiMirror1; blindly
macro_rules | `(tactic| blindly1) => `(tactic| with_reducible exact blind_fiMirror1)
theorem blind_fiMirror2 : Blind R (fiMirror2) := by unfold fiMirror2; blindly
macro_rules | `(tactic| blindly1) => `(tactic| with_reducible exact blind_fiMirror2)
theorem blind_fiMirrorVert : Blind R (fiMirrorVert) := by unfold fiMirrorVert; blindly
macro_rules | `(tactic| blindly1) => `(tactic| with_reducible exact blind_fiMirrorVert)
theorem blind_fiMirrorHori : Blind R (fiMirrorHori) := by unfold fiMirrorHori; blindly
macro_rules | `(tactic| blindly1) => `(tactic| with_reducible exact blind_fiMirrorHori)
theorem blind_fiMirrorAll : Blind R (fiMirrorAll) := by unfold fiMirrorAll; blindly
macro_rules | `(tactic| blindly1) => `(tactic| with_reducible exact blind_fiMirrorAll)
theorem blind_fiConditional : Blind R (fiConditional) := by unfold fiConditional; blindly
macro_rules | `(tactic| blindly1) => `(tactic| with_reducible exact blind_fiConditional)
theorem blind_fiJump : Blind R (fiJump) := by unfold fiJump; blindly
macro_rules | `(tactic| blindly1) => `(tactic| with_reducible exact blind_fiJump)
theorem blind_fiBin (f) : Blind R (fiBin f) := by unfold fiBin; blindly
macro_rules | `(tactic| blindly1) => `(tactic| with_reducible exact blind_fiBin _)
theorem blind_fiDiv : Blind R (fiDiv) := by unfold fiDiv; blindly
macro_rules | `(tactic| blindly1) => `(tactic| with_reducible exact blind_fiDiv)
theorem blind_fiModu : Blind R (fiModu) := by unfold fiModu; blindly
macro_rules | `(tactic| blindly1) => `(tactic| with_reducible exact blind_fiModu)
theorem blind_fiDuplicate : Blind R (fiDuplicate) := by unfold fiDuplicate; blindly
macro_rules | `(tactic| blindly1) => `(tactic| with_reducible exact blind_fiDuplicate)
theorem blind_fiRemove : Blind R (fiRemove) := by unfold fiRemove; blindly
macro_rules | `(tactic| blindly1) => `(tactic| with_reducible exact blind_fiRemove)
theorem blind_fiSwap2 : Blind R (fiSwap2) := by unfold fiSwap2; blindly
macro_rules | `(tactic| blindly1) => `(tactic| with_reducible exact blind_fiSwap2)
theorem blind_fiSwap3 : Blind R (fiSwap3) := by unfold fiSwap3; blindly
macro_rules | `(tactic| blindly1) => `(tactic| with_reducible exact blind_fiSwap3)
theorem blind_fiLength : Blind R (fiLength) := by unfold fiLength; blindly
macro_rules | `(tactic| blindly1) => `(tactic| with_reducible exact blind_fiLength)
theorem blind_fiShiftLeft : Blind R (fiShiftLeft) := by unfold fiShiftLeft; blindly
macro_rules | `(tactic| blindly1) => `(tactic| with_reducible exact blind_fiShiftLeft)
theorem blind_fiShiftRight : Blind R (fiShiftRight) := by unfold fiShiftRight; blindly
macro_rules | `(tactic| blindly1) => `(tactic| with_reducible exact blind_fiShiftRight)
theorem blind_fiReverse : Blind R (fiReverse) := by unfold fiReverse; blindly
macro_rules | `(tactic| blindly1) => `(tactic| with_reducible exact blind_fiReverse)
theorem blind_fiCreateStack : Blind R (fiCreateStack) := by unfold fiCreateStack; blindly
macro_rules | `(tactic| blindly1) => `(tactic| with_reducible exact blind_fiCreateStack)
theorem blind_fiRemoveStack : Blind R (fiRemoveStack) := by unfold fiRemoveStack; blindly
macro_rules | `(tactic| blindly1) => `(tactic| with_reducible exact blind_fiRemoveStack)
theorem blind_fiOutChar : Blind R (fiOutChar) := by unfold fiOutChar; blindly
macro_rules | `(tactic| blindly1) => `(tactic| with_reducible exact blind_fiOutChar)
theorem blind_fiOutInt : Blind R (fiOutInt) := by unfold fiOutInt; blindly
macro_rules | `(tactic| blindly1) => `(tactic| with_reducible exact blind_fiOutInt)
theorem blind_fiIn : Blind R (fiIn) := by unfold fiIn; blindly
macro_rules | `(tactic| blindly1) => `(tactic| with_reducible exact blind_fiIn)
theorem blind_fiGet : Blind R (fiGet) := by unfold fiGet; blindly
macro_rules | `(tactic| blindly1) => `(tactic| with_reducible exact blind_fiGet)
theorem blind_fiPut : Blind R (fiPut) := by unfold fiPut; blindly
macro_rules | `(tactic| blindly1) => `(tactic| with_reducible exact blind_fiPut)
theorem blind_fiRegister : Blind R (fiRegister) := by unfold fiRegister; blindly
macro_rules | `(tactic| blindly1) => `(tactic| with_reducible exact blind_fiRegister)
theorem blind_siFisherman : Blind R (siFisherman) := by unfold siFisherman; blindly
macro_rules | `(tactic| blindly1) => `(tactic| with_reducible exact blind_siFisherman)
theorem blind_siCall : Blind R (siCall) := by unfold siCall; blindly
macro_rules | `(tactic| blindly1) => `(tactic| with_reducible exact blind_siCall)
theorem blind_siReturn : Blind R (siReturn) := by unfold siReturn; blindly
macro_rules | `(tactic| blindly1) => `(tactic| with_reducible exact blind_siReturn)
theorem blind_siDive : Blind R (siDive) := by unfold siDive; blindly
macro_rules | `(tactic| blindly1) => `(tactic| with_reducible exact blind_siDive)
theorem blind_siRise : Blind R (siRise) := by unfold siRise; blindly
macro_rules | `(tactic| blindly1) => `(tactic| with_reducible exact blind_siRise)
theorem blind_siSleep : Blind R (siSleep) := by unfold siSleep; blindly
macro_rules | `(tactic| blindly1) => `(tactic| with_reducible exact blind_siSleep)
theorem blind_siTime : Blind R (siTime) := by unfold siTime; blindly
macro_rules | `(tactic| blindly1) => `(tactic| with_reducible exact blind_siTime)
theorem blind_bitNot : Blind R (bitNot) := by unfold bitNot; blindly
macro_rules | `(tactic| blindly1) => `(tactic| with_reducible exact blind_bitNot)
theorem blind_frthDepth : Blind R (frthDepth) := by unfold frthDepth; blindly
macro_rules | `(tactic| blindly1) => `(tactic| with_reducible exact blind_frthDepth)
theorem blind_frthRoll : Blind R (frthRoll) := by unfold frthRoll; blindly
macro_rules | `(tactic| blindly1) => `(tactic| with_reducible exact blind_frthRoll)
theorem blind_frthOver : Blind R (frthOver) := by unfold frthOver; blindly
macro_rules | `(tactic| blindly1) => `(tactic| with_reducible exact blind_frthOver)
theorem blind_frthPick : Blind R (frthPick) := by unfold frthPick; blindly
macro_rules | `(tactic| blindly1) => `(tactic| with_reducible exact blind_frthPick)
theorem blind_frthRot : Blind R (frthRot) := by unfold frthRot; blindly
macro_rules | `(tactic| blindly1) => `(tactic| with_reducible exact blind_frthRot)
theorem blind_popComplex : Blind R (popComplex) := by unfold popComplex; blindly
macro_rules | `(tactic| blindly1) => `(tactic| with_reducible exact blind_popComplex)
theorem blind_pushComplex (a b) : Blind R (pushComplex a b) := by unfold pushComplex; blindly
macro_rules | `(tactic| blindly1) => `(tactic| with_reducible exact blind_pushComplex _ _)
theorem blind_cpliAdd : Blind R (cpliAdd) := by unfold cpliAdd; blindly
macro_rules | `(tactic| blindly1) => `(tactic| with_reducible exact blind_cpliAdd)
theorem blind_cpliSub : Blind R (cpliSub) := by unfold cpliSub; blindly
macro_rules | `(tactic| blindly1) => `(tactic| with_reducible exact blind_cpliSub)
theorem blind_cpliMul : Blind R (cpliMul) := by unfold cpliMul; blindly
macro_rules | `(tactic| blindly1) => `(tactic| with_reducible exact blind_cpliMul)
theorem blind_cpliOut : Blind R (cpliOut) := by unfold cpliOut; blindly
macro_rules | `(tactic| blindly1) => `(tactic| with_reducible exact blind_cpliOut)

theorem blind_modeToggle (m) : Blind R (modeToggle m) := by unfold modeToggle; blindly
macro_rules | `(tactic| blindly1) => `(tactic| with_reducible exact blind_modeToggle _)
theorem blind_mathFn (f c l) : Blind R (mathFn f c l) := by unfold mathFn; blindly
macro_rules | `(tactic| blindly1) => `(tactic| with_reducible exact blind_mathFn _ _ _)
theorem blind_cpliDiv : Blind R (cpliDiv) := by unfold cpliDiv; blindly
macro_rules | `(tactic| blindly1) => `(tactic| with_reducible exact blind_cpliDiv)
theorem blind_cpliAbs : Blind R (cpliAbs) := by unfold cpliAbs; blindly
macro_rules | `(tactic| blindly1) => `(tactic| with_reducible exact blind_cpliAbs)
theorem blind_fixpFn (c) : Blind R (fixpFn c) := by unfold fixpFn; blindly
macro_rules | `(tactic| blindly1) => `(tactic| with_reducible exact blind_fixpFn _)
theorem blind_fixpPow : Blind R (fixpPow) := by unfold fixpPow; blindly
macro_rules | `(tactic| blindly1) => `(tactic| with_reducible exact blind_fixpPow)
theorem blind_fgConditional : Blind R (fgConditional) := by unfold fgConditional; blindly
macro_rules | `(tactic| blindly1) => `(tactic| with_reducible exact blind_fgConditional)
theorem blind_fgFisherman : Blind R (fgFisherman) := by unfold fgFisherman; blindly
macro_rules | `(tactic| blindly1) => `(tactic| with_reducible exact blind_fgFisherman)
theorem blind_fgShiftLeft : Blind R (fgShiftLeft) := by unfold fgShiftLeft; blindly
macro_rules | `(tactic| blindly1) => `(tactic| with_reducible exact blind_fgShiftLeft)
theorem blind_fgShiftRight : Blind R (fgShiftRight) := by unfold fgShiftRight; blindly
macro_rules | `(tactic| blindly1) => `(tactic| with_reducible exact blind_fgShiftRight)
theorem blind_fgReverse : Blind R (fgReverse) := by unfold fgReverse; blindly
macro_rules | `(tactic| blindly1) => `(tactic| with_reducible exact blind_fgReverse)
theorem blind_fgSwap3 : Blind R (fgSwap3) := by unfold fgSwap3; blindly
macro_rules | `(tactic| blindly1) => `(tactic| with_reducible exact blind_fgSwap3)
theorem blind_fixpRandom : Blind R (fixpRandom) := by unfold fixpRandom; blindly
macro_rules | `(tactic| blindly1) => `(tactic| with_reducible exact blind_fixpRandom)
theorem blind_fixpNeg : Blind R (fixpNeg) := by unfold fixpNeg; blindly
macro_rules | `(tactic| blindly1) => `(tactic| with_reducible exact blind_fixpNeg)
theorem blind_fixpSign : Blind R (fixpSign) := by unfold fixpSign; blindly
macro_rules | `(tactic| blindly1) => `(tactic| with_reducible exact blind_fixpSign)
theorem blind_fixpAbs : Blind R (fixpAbs) := by unfold fixpAbs; blindly
macro_rules | `(tactic| blindly1) => `(tactic| with_reducible exact blind_fixpAbs)
theorem blind_hrtiTimer : Blind R (hrtiTimer) := by unfold hrtiTimer; blindly
macro_rules | `(tactic| blindly1) => `(tactic| with_reducible exact blind_hrtiTimer)
theorem blind_hrtiMark : Blind R (hrtiMark) := by unfold hrtiMark; blindly
macro_rules | `(tactic| blindly1) => `(tactic| with_reducible exact blind_hrtiMark)
theorem blind_hrtiErase : Blind R (hrtiErase) := by unfold hrtiErase; blindly
macro_rules | `(tactic| blindly1) => `(tactic| with_reducible exact blind_hrtiErase)
theorem blind_hrtiSecond : Blind R (hrtiSecond) := by unfold hrtiSecond; blindly
macro_rules | `(tactic| blindly1) => `(tactic| with_reducible exact blind_hrtiSecond)
theorem blind_jstrGetLoop (vd n v) : Blind R (jstrGetLoop vd n v) := by
  induction n generalizing v with
  | zero => exact blind_pure _
  | succ n ih => unfold jstrGetLoop; blindly; apply ih
macro_rules | `(tactic| blindly1) => `(tactic| with_reducible exact blind_jstrGetLoop _ _ _)
theorem blind_jstrPutLoop (vd n v) : Blind R (jstrPutLoop vd n v) := by
  induction n generalizing v with
  | zero => exact blind_pure _
  | succ n ih => unfold jstrPutLoop; blindly; apply ih
macro_rules | `(tactic| blindly1) => `(tactic| with_reducible exact blind_jstrPutLoop _ _ _)
theorem blind_jstrGet : Blind R (jstrGet) := by unfold jstrGet; blindly
macro_rules | `(tactic| blindly1) => `(tactic| with_reducible exact blind_jstrGet)
theorem blind_jstrPut : Blind R (jstrPut) := by unfold jstrPut; blindly
macro_rules | `(tactic| blindly1) => `(tactic| with_reducible exact blind_jstrPut)
theorem blind_orthGet : Blind R (orthGet) := by unfold orthGet; blindly
macro_rules | `(tactic| blindly1) => `(tactic| with_reducible exact blind_orthGet)
theorem blind_orthPut : Blind R (orthPut) := by unfold orthPut; blindly
macro_rules | `(tactic| blindly1) => `(tactic| with_reducible exact blind_orthPut)
theorem blind_orthOut : Blind R (orthOut) := by unfold orthOut; blindly
macro_rules | `(tactic| blindly1) => `(tactic| with_reducible exact blind_orthOut)
theorem blind_orthDelta (n) : Blind R (orthDelta n) := by unfold orthDelta; blindly
macro_rules | `(tactic| blindly1) => `(tactic| with_reducible exact blind_orthDelta _)
theorem blind_orthPos (n) : Blind R (orthPos n) := by unfold orthPos; blindly
macro_rules | `(tactic| blindly1) => `(tactic| with_reducible exact blind_orthPos _)
theorem blind_nfunGo (v n) : Blind R (nfunGo v n) := by unfold nfunGo; blindly
macro_rules | `(tactic| blindly1) => `(tactic| with_reducible exact blind_nfunGo _ _)
theorem blind_nfunHL (v w n) : Blind R (nfunHL v w n) := by unfold nfunHL; blindly
macro_rules | `(tactic| blindly1) => `(tactic| with_reducible exact blind_nfunHL _ _ _)
theorem blind_nfunIf (v w n) : Blind R (nfunIf v w n) := by unfold nfunIf; blindly
macro_rules | `(tactic| blindly1) => `(tactic| with_reducible exact blind_nfunIf _ _ _)
theorem blind_axisVec (n x) : Blind R (axisVec n x) := by unfold axisVec; blindly
macro_rules | `(tactic| blindly1) => `(tactic| with_reducible exact blind_axisVec _ _)
theorem blind_nfunIfN : Blind R (nfunIfN) := by unfold nfunIfN; blindly
macro_rules | `(tactic| blindly1) => `(tactic| with_reducible exact blind_nfunIfN)
theorem blind_nfunGoN (n) : Blind R (nfunGoN n) := by unfold nfunGoN; blindly
macro_rules | `(tactic| blindly1) => `(tactic| with_reducible exact blind_nfunGoN _)
theorem blind_subrMode (n) : Blind R (subrMode n) := by unfold subrMode; blindly
macro_rules | `(tactic| blindly1) => `(tactic| with_reducible exact blind_subrMode _)
theorem blind_subrPops (n) : Blind R (subrPops n) := by unfold subrPops; blindly
macro_rules | `(tactic| blindly1) => `(tactic| with_reducible exact blind_subrPops _)
theorem blind_subrCall : Blind R (subrCall) := by unfold subrCall; blindly
macro_rules | `(tactic| blindly1) => `(tactic| with_reducible exact blind_subrCall)
theorem blind_subrJump : Blind R (subrJump) := by unfold subrJump; blindly
macro_rules | `(tactic| blindly1) => `(tactic| with_reducible exact blind_subrJump)
theorem blind_subrReturn : Blind R (subrReturn) := by unfold subrReturn; blindly
macro_rules | `(tactic| blindly1) => `(tactic| with_reducible exact blind_subrReturn)
theorem blind_refcDeref : Blind R (refcDeref) := by unfold refcDeref; blindly
macro_rules | `(tactic| blindly1) => `(tactic| with_reducible exact blind_refcDeref)
theorem blind_printNum (n b) : Blind R (printNum n b) := by unfold printNum; blindly
macro_rules | `(tactic| blindly1) => `(tactic| with_reducible exact blind_printNum _ _)
theorem blind_basePrint (n) : Blind R (basePrint n) := by unfold basePrint; blindly
macro_rules | `(tactic| blindly1) => `(tactic| with_reducible exact blind_basePrint _)
theorem blind_basePrintN : Blind R (basePrintN) := by unfold basePrintN; blindly
macro_rules | `(tactic| blindly1) => `(tactic| with_reducible exact blind_basePrintN)
theorem blind_readNum (n) : Blind R (readNum n) := by
  rw [readNum_taking]
  refine blind_bind blind_takeWord fun q => ?_
  blindly
macro_rules | `(tactic| blindly1) => `(tactic| with_reducible exact blind_readNum _)
theorem blind_baseRead : Blind R (baseRead) := by unfold baseRead; blindly
macro_rules | `(tactic| blindly1) => `(tactic| with_reducible exact blind_baseRead)
theorem blind_pushStr (n) : Blind R (pushStr n) := by unfold pushStr; blindly
macro_rules | `(tactic| blindly1) => `(tactic| with_reducible exact blind_pushStr _)
theorem blind_strnAppend : Blind R (strnAppend) := by unfold strnAppend; blindly
macro_rules | `(tactic| blindly1) => `(tactic| with_reducible exact blind_strnAppend)
theorem blind_strnCompare : Blind R (strnCompare) := by unfold strnCompare; blindly
macro_rules | `(tactic| blindly1) => `(tactic| with_reducible exact blind_strnCompare)
theorem blind_strnDisplay : Blind R (strnDisplay) := by unfold strnDisplay; blindly
macro_rules | `(tactic| blindly1) => `(tactic| with_reducible exact blind_strnDisplay)
theorem blind_strnFind : Blind R (strnFind) := by unfold strnFind; blindly
macro_rules | `(tactic| blindly1) => `(tactic| with_reducible exact blind_strnFind)
theorem blind_strnGetLoop (n v acc) : Blind R (strnGetLoop n v acc) := by
  induction n generalizing v acc with
  | zero => exact blind_fault _
  | succ n ih => unfold strnGetLoop; blindly; apply ih
macro_rules | `(tactic| blindly1) => `(tactic| with_reducible exact blind_strnGetLoop _ _ _)
theorem blind_strnPutLoop (v l) : Blind R (strnPutLoop v l) := by
  induction l generalizing v with
  | nil => exact blind_fieldPut _ _
  | cons c l ih => unfold strnPutLoop; blindly; apply ih
macro_rules | `(tactic| blindly1) => `(tactic| with_reducible exact blind_strnPutLoop _ _)
theorem blind_strnGet : Blind R (strnGet) := by unfold strnGet; blindly
theorem blind_strnInput : Blind R (strnInput) := by
  rw [strnInput_taking]
  refine blind_bind blind_takeLine fun q => ?_
  blindly
macro_rules | `(tactic| blindly1) => `(tactic| with_reducible exact blind_strnInput)
theorem blind_strnLeft : Blind R (strnLeft) := by unfold strnLeft; blindly
macro_rules | `(tactic| blindly1) => `(tactic| with_reducible exact blind_strnLeft)
theorem blind_strnMid : Blind R (strnMid) := by unfold strnMid; blindly
macro_rules | `(tactic| blindly1) => `(tactic| with_reducible exact blind_strnMid)
theorem blind_strnLength : Blind R (strnLength) := by unfold strnLength; blindly
macro_rules | `(tactic| blindly1) => `(tactic| with_reducible exact blind_strnLength)
theorem blind_strnPut : Blind R (strnPut) := by unfold strnPut; blindly
macro_rules | `(tactic| blindly1) => `(tactic| with_reducible exact blind_strnPut)
theorem blind_strnRight : Blind R (strnRight) := by unfold strnRight; blindly
macro_rules | `(tactic| blindly1) => `(tactic| with_reducible exact blind_strnRight)
theorem blind_strnItoa : Blind R (strnItoa) := by unfold strnItoa; blindly
macro_rules | `(tactic| blindly1) => `(tactic| with_reducible exact blind_strnItoa)
theorem blind_strnAtoi : Blind R (strnAtoi) := by unfold strnAtoi; blindly
macro_rules | `(tactic| blindly1) => `(tactic| with_reducible exact blind_strnAtoi)
theorem blind_iipcDormant : Blind R (iipcDormant) := by unfold iipcDormant; blindly
macro_rules | `(tactic| blindly1) => `(tactic| with_reducible exact blind_iipcDormant)
theorem blind_iipcId : Blind R (iipcId) := by unfold iipcId; blindly
macro_rules | `(tactic| blindly1) => `(tactic| with_reducible exact blind_iipcId)
theorem blind_dbugBreak : Blind R (dbugBreak) := by unfold dbugBreak; blindly
macro_rules | `(tactic| blindly1) => `(tactic| with_reducible exact blind_dbugBreak)
theorem blind_dbugWatch : Blind R (dbugWatch) := by unfold dbugWatch; blindly
macro_rules | `(tactic| blindly1) => `(tactic| with_reducible exact blind_dbugWatch)
theorem blind_mvrsName : Blind R (mvrsName) := by unfold mvrsName; blindly
macro_rules | `(tactic| blindly1) => `(tactic| with_reducible exact blind_mvrsName)

theorem blind_rangeOf (a b) : Blind R (rangeOf a b) := by unfold rangeOf; blindly
macro_rules | `(tactic| blindly1) => `(tactic| with_reducible exact blind_rangeOf _ _)
theorem blind_copyLoop (a b m l) : Blind R (copyLoop a b m l) := by
  induction l with
  | nil => exact blind_pure _
  | cons c l ih => unfold copyLoop; blindly
macro_rules | `(tactic| blindly1) => `(tactic| with_reducible exact blind_copyLoop _ _ _ _)
theorem blind_foldStack (f n a) : Blind R (foldStack f n a) := by
  induction n generalizing a with
  | zero => exact blind_pure _
  | succ n ih => unfold foldStack; blindly; apply ih
macro_rules | `(tactic| blindly1) => `(tactic| with_reducible exact blind_foldStack _ _ _)
theorem blind_toysFLoop (a l) : Blind R (toysFLoop a l) := by
  induction l with
  | nil => exact blind_pure _
  | cons c l ih => unfold toysFLoop; blindly
macro_rules | `(tactic| blindly1) => `(tactic| with_reducible exact blind_toysFLoop _ _)
theorem blind_toysGLoop (a l) : Blind R (toysGLoop a l) := by
  induction l with
  | nil => exact blind_pure _
  | cons c l ih => unfold toysGLoop; blindly
macro_rules | `(tactic| blindly1) => `(tactic| with_reducible exact blind_toysGLoop _ _)
theorem blind_toysSLoop (a i l) : Blind R (toysSLoop a i l) := by
  induction l with
  | nil => exact blind_pure _
  | cons c l ih => unfold toysSLoop; blindly
macro_rules | `(tactic| blindly1) => `(tactic| with_reducible exact blind_toysSLoop _ _ _)
theorem blind_copySpace (a b c d e) : Blind R (copySpace a b c d e) := by unfold copySpace; blindly
macro_rules | `(tactic| blindly1) => `(tactic| with_reducible exact blind_copySpace _ _ _ _ _)
theorem blind_toysGable : Blind R (toysGable) := by unfold toysGable; blindly
macro_rules | `(tactic| blindly1) => `(tactic| with_reducible exact blind_toysGable)
theorem blind_toysButterfly : Blind R (toysButterfly) := by unfold toysButterfly; blindly
macro_rules | `(tactic| blindly1) => `(tactic| with_reducible exact blind_toysButterfly)
theorem blind_toysCopy (a b) : Blind R (toysCopy a b) := by unfold toysCopy; blindly
macro_rules | `(tactic| blindly1) => `(tactic| with_reducible exact blind_toysCopy _ _)
theorem blind_toysInc (n) : Blind R (toysInc n) := by unfold toysInc; blindly
macro_rules | `(tactic| blindly1) => `(tactic| with_reducible exact blind_toysInc _)
theorem blind_toysFold (n f) : Blind R (toysFold n f) := by unfold toysFold; blindly
macro_rules | `(tactic| blindly1) => `(tactic| with_reducible exact blind_toysFold _ _)
theorem blind_toysPutBlock : Blind R (toysPutBlock) := by unfold toysPutBlock; blindly
macro_rules | `(tactic| blindly1) => `(tactic| with_reducible exact blind_toysPutBlock)
theorem blind_toysGetBlock : Blind R (toysGetBlock) := by unfold toysGetBlock; blindly
macro_rules | `(tactic| blindly1) => `(tactic| with_reducible exact blind_toysGetBlock)
theorem blind_toysShift : Blind R (toysShift) := by unfold toysShift; blindly
macro_rules | `(tactic| blindly1) => `(tactic| with_reducible exact blind_toysShift)
theorem blind_toysColumn : Blind R (toysColumn) := by unfold toysColumn; blindly
macro_rules | `(tactic| blindly1) => `(tactic| with_reducible exact blind_toysColumn)
theorem blind_toysRow : Blind R (toysRow) := by unfold toysRow; blindly
macro_rules | `(tactic| blindly1) => `(tactic| with_reducible exact blind_toysRow)
theorem blind_toysLook (n) : Blind R (toysLook n) := by unfold toysLook; blindly
macro_rules | `(tactic| blindly1) => `(tactic| with_reducible exact blind_toysLook _)
theorem blind_toysTail : Blind R (toysTail) := by unfold toysTail; blindly
macro_rules | `(tactic| blindly1) => `(tactic| with_reducible exact blind_toysTail)
theorem blind_toysFill : Blind R (toysFill) := by unfold toysFill; blindly
macro_rules | `(tactic| blindly1) => `(tactic| with_reducible exact blind_toysFill)
theorem blind_toysBranch : Blind R (toysBranch) := by unfold toysBranch; blindly
macro_rules | `(tactic| blindly1) => `(tactic| with_reducible exact blind_toysBranch)
theorem blind_toysRandom : Blind R (toysRandom) := by unfold toysRandom; blindly
macro_rules | `(tactic| blindly1) => `(tactic| with_reducible exact blind_toysRandom)
theorem blind_toysWait : Blind R (toysWait) := by unfold toysWait; blindly
macro_rules | `(tactic| blindly1) => `(tactic| with_reducible exact blind_toysWait)
theorem blind_toysStep (n) : Blind R (toysStep n) := by unfold toysStep; blindly
macro_rules | `(tactic| blindly1) => `(tactic| with_reducible exact blind_toysStep _)
theorem blind_fpdpBin (f) : Blind R (fpdpBin f) := by unfold fpdpBin; blindly
macro_rules | `(tactic| blindly1) => `(tactic| with_reducible exact blind_fpdpBin _)
theorem blind_fpdpPow : Blind R (fpdpPow) := by unfold fpdpPow; blindly
macro_rules | `(tactic| blindly1) => `(tactic| with_reducible exact blind_fpdpPow)
theorem blind_fpdpFn (c) : Blind R (fpdpFn c) := by unfold fpdpFn; blindly
macro_rules | `(tactic| blindly1) => `(tactic| with_reducible exact blind_fpdpFn _)
theorem blind_fpdpFromInt : Blind R (fpdpFromInt) := by unfold fpdpFromInt; blindly
macro_rules | `(tactic| blindly1) => `(tactic| with_reducible exact blind_fpdpFromInt)
theorem blind_fpdpToInt : Blind R (fpdpToInt) := by unfold fpdpToInt; blindly
macro_rules | `(tactic| blindly1) => `(tactic| with_reducible exact blind_fpdpToInt)
theorem blind_floatOut (f) : Blind R (floatOut f) := by unfold floatOut; blindly
macro_rules | `(tactic| blindly1) => `(tactic| with_reducible exact blind_floatOut _)
theorem blind_fpdpRead : Blind R (fpdpRead) := by unfold fpdpRead; blindly
macro_rules | `(tactic| blindly1) => `(tactic| with_reducible exact blind_fpdpRead)
theorem blind_fpspToStack : Blind R fpspToStack := blind_fault _
macro_rules | `(tactic| blindly1) => `(tactic| with_reducible exact blind_fpspToStack)
theorem blind_fpspBin : Blind R (fpspBin) := by unfold fpspBin; blindly
macro_rules | `(tactic| blindly1) => `(tactic| with_reducible exact blind_fpspBin)
theorem blind_fpspFn : Blind R (fpspFn) := by unfold fpspFn; blindly
macro_rules | `(tactic| blindly1) => `(tactic| with_reducible exact blind_fpspFn)
theorem blind_fpspToInt : Blind R (fpspToInt) := by unfold fpspToInt; blindly
macro_rules | `(tactic| blindly1) => `(tactic| with_reducible exact blind_fpspToInt)
theorem blind_fpspRead : Blind R (fpspRead) := by unfold fpspRead; blindly
macro_rules | `(tactic| blindly1) => `(tactic| with_reducible exact blind_fpspRead)
theorem blind_fprtPrint (c f l) : Blind R (fprtPrint c f l) := by unfold fprtPrint; blindly
macro_rules | `(tactic| blindly1) => `(tactic| with_reducible exact blind_fprtPrint _ _ _)
theorem blind_fprtCell (c) : Blind R (fprtCell c) := by unfold fprtCell; blindly
macro_rules | `(tactic| blindly1) => `(tactic| with_reducible exact blind_fprtCell _)
theorem blind_fprtLong : Blind R (fprtLong) := by unfold fprtLong; blindly
macro_rules | `(tactic| blindly1) => `(tactic| with_reducible exact blind_fprtLong)
theorem blind_fprtStr : Blind R (fprtStr) := by unfold fprtStr; blindly
macro_rules | `(tactic| blindly1) => `(tactic| with_reducible exact blind_fprtStr)
theorem blind_popLong : Blind R (popLong) := by unfold popLong; blindly
macro_rules | `(tactic| blindly1) => `(tactic| with_reducible exact blind_popLong)
theorem blind_pushLong (n) : Blind R (pushLong n) := by unfold pushLong; blindly
macro_rules | `(tactic| blindly1) => `(tactic| with_reducible exact blind_pushLong _)
theorem blind_longBin (f) : Blind R (longBin f) := by unfold longBin; blindly
macro_rules | `(tactic| blindly1) => `(tactic| with_reducible exact blind_longBin _)
theorem blind_longDiv (f) : Blind R (longDiv f) := by unfold longDiv; blindly
macro_rules | `(tactic| blindly1) => `(tactic| with_reducible exact blind_longDiv _)
theorem blind_longAbs : Blind R (longAbs) := by unfold longAbs; blindly
macro_rules | `(tactic| blindly1) => `(tactic| with_reducible exact blind_longAbs)
theorem blind_longExtend : Blind R (longExtend) := by unfold longExtend; blindly
macro_rules | `(tactic| blindly1) => `(tactic| with_reducible exact blind_longExtend)
theorem blind_longShift (f) : Blind R (longShift f) := by unfold longShift; blindly
macro_rules | `(tactic| blindly1) => `(tactic| with_reducible exact blind_longShift _)
theorem blind_longNeg : Blind R (longNeg) := by unfold longNeg; blindly
macro_rules | `(tactic| blindly1) => `(tactic| with_reducible exact blind_longNeg)
theorem blind_longOut : Blind R (longOut) := by unfold longOut; blindly
macro_rules | `(tactic| blindly1) => `(tactic| with_reducible exact blind_longOut)
theorem blind_longRead : Blind R (longRead) := by unfold longRead; blindly
macro_rules | `(tactic| blindly1) => `(tactic| with_reducible exact blind_longRead)


end Funge
