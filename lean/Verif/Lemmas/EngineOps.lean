import Verif.Lemmas.Engine
/-
Every instruction is made of the elementary changes of `Engine`.
-/
namespace Funge
open Exec

variable {R : St → St → Prop}

/-- One step of `keep`. -/
syntax "keep1" term:max : tactic
/-- Closes goals `Keeps R m` for programs made of known pieces. -/
macro "keep" E:term:max : tactic => `(tactic| repeat' (first | with_reducible refine keeps_bind $E ?_ fun _ => ?_ | with_reducible exact keeps_pure $E _ | keep1 $E))

macro_rules | `(tactic| keep1 $_) => `(tactic| dsimp only)
macro_rules | `(tactic| keep1 $_) => `(tactic| split)
macro_rules | `(tactic| keep1 $E) => `(tactic| with_reducible refine keeps_bind $E ?_ fun _ => ?_)
macro_rules | `(tactic| keep1 $E) => `(tactic| first
  | with_reducible exact keeps_popTop $E
  | with_reducible exact keeps_pushTop $E _
  | with_reducible exact keeps_popSecond $E
  | with_reducible exact keeps_pushSecond $E _
  | with_reducible exact keeps_lift $E _
  | with_reducible exact keeps_get $E
  | with_reducible exact keeps_getDims $E
  | with_reducible exact keeps_getCfg $E
  | with_reducible exact keeps_getFuel $E
  | with_reducible exact keeps_getFlt $E
  | with_reducible exact keeps_getLng $E
  | with_reducible exact keeps_isMode $E _
  | with_reducible exact keeps_numStacks $E
  | with_reducible exact keeps_ipPos $E
  | with_reducible exact keeps_ipDelta $E
  | with_reducible exact keeps_ipStorage $E
  | with_reducible exact keeps_ipGet $E
  | with_reducible exact keeps_fieldGet $E _
  | with_reducible exact keeps_subrTarget $E _
  | with_reducible exact keeps_sizeTop $E
  | with_reducible exact keeps_sizeSecond $E
  | with_reducible exact keeps_getTop $E _
  | with_reducible exact keeps_clearTop $E
  | with_reducible exact keeps_age $E
  | with_reducible exact keeps_sizeAt $E _
  | with_reducible exact keeps_ssPush $E
  | with_reducible exact keeps_ssPop $E
  | with_reducible exact keeps_ssInsert $E _
  | with_reducible exact keeps_ssRemove $E _
  | with_reducible exact keeps_inc $E
  | with_reducible exact keeps_dec $E
  | with_reducible exact keeps_ipNext $E
  | with_reducible exact keeps_reflect $E
  | with_reducible exact keeps_left $E
  | with_reducible exact keeps_right $E
  | with_reducible exact keeps_setPos $E _
  | with_reducible exact keeps_setPos' $E _
  | with_reducible exact keeps_setStorage $E _
  | with_reducible exact keeps_stop $E
  | with_reducible exact keeps_setDelta $E _
  | with_reducible exact keeps_fieldPut (by assumption) _ _
  | with_reducible exact keeps_ipPut (by assumption) _
  | with_reducible exact keeps_ask $E
  | with_reducible exact keeps_askFile $E
  | with_reducible exact keeps_askDir $E
  | with_reducible exact keeps_inp $E _
  | with_reducible exact keeps_getChar $E
  | with_reducible exact keeps_out $E _
  | with_reducible exact keeps_killAll $E _
  | with_reducible exact keeps_universeSetMode $E _ (by decide)
  | with_reducible exact keeps_universeClearMode $E _ (by decide)
  | with_reducible exact keeps_universeToggleMode (by assumption) _
  | with_reducible exact keeps_growDims $E _
  | with_reducible exact keeps_addBreakpoint $E _
  | with_reducible exact keeps_addWatchpoint $E _
  | with_reducible exact keeps_runnerPush $E _
  | with_reducible exact keeps_enterString $E _
  | with_reducible exact keeps_modCur $E _ fun _ => ⟨rfl, rfl, rfl, rfl, rfl, rfl, rfl, rfl, rfl, rfl⟩
  | with_reducible exact keeps_pure $E _
  | with_reducible exact keeps_fault _)
macro_rules | `(tactic| keep1 $_) => `(tactic| with_reducible assumption)

theorem keeps_popN (E : EngineC R) {pop : Exec Int} (h : Keeps R pop) (n : Nat) : Keeps R (popN pop n) := by
  induction n with
  | zero => exact keeps_pure E _
  | succ n ih => unfold popN; keep E
macro_rules | `(tactic| keep1 $E) => `(tactic| with_reducible refine keeps_popN $E ?_ _)

theorem keeps_pushAll (E : EngineC R) {push : Int → Exec Unit} (h : ∀ v, Keeps R (push v)) (l : List Int) : Keeps R (pushAll push l) := by
  induction l with
  | nil => exact keeps_pure E _
  | cons x l ih => unfold pushAll; have := h x; keep E
macro_rules | `(tactic| keep1 $E) => `(tactic| with_reducible refine keeps_pushAll $E (fun _ => ?_) _)

theorem keeps_pushVectorOn (E : EngineC R) {push : Int → Exec Unit} (h : ∀ v, Keeps R (push v)) (v) : Keeps R (pushVectorOn push v) := by
  unfold pushVectorOn; keep E; exact h _
macro_rules | `(tactic| keep1 $E) => `(tactic| with_reducible refine keeps_pushVectorOn $E (fun _ => ?_) _)
theorem keeps_pushVector (E : EngineC R) (v) : Keeps R (pushVector v) := by unfold pushVector; keep E
macro_rules | `(tactic| keep1 $E) => `(tactic| with_reducible exact keeps_pushVector $E _)

theorem keeps_popVectorLoop (E : EngineC R) {pop : Exec Int} (h : Keeps R pop) (n : Nat) (v) : Keeps R (popVectorLoop pop n v) := by
  induction n generalizing v with
  | zero => exact keeps_pure E _
  | succ n ih => unfold popVectorLoop; exact keeps_bind E h fun _ => ih _
theorem keeps_popVectorOn (E : EngineC R) {pop : Exec Int} (h : Keeps R pop) : Keeps R (popVectorOn pop) := by
  unfold popVectorOn; exact keeps_bind E (keeps_getDims E) fun _ => keeps_popVectorLoop E h _ _
macro_rules | `(tactic| keep1 $E) => `(tactic| with_reducible refine keeps_popVectorOn $E ?_)
theorem keeps_popVector (E : EngineC R) : Keeps R popVector := by unfold popVector; keep E
macro_rules | `(tactic| keep1 $E) => `(tactic| with_reducible exact keeps_popVector $E)

theorem keeps_pushString (E : EngineC R) (v) : Keeps R (pushString v) := by unfold pushString; keep E
macro_rules | `(tactic| keep1 $E) => `(tactic| with_reducible exact keeps_pushString $E _)
theorem keeps_popStringLoop (E : EngineC R) (n acc) : Keeps R (popStringLoop n acc) := by
  induction n generalizing acc with
  | zero => exact keeps_fault _
  | succ n ih => unfold popStringLoop; have := fun c => ih (toChar c :: acc); keep E; apply ih
theorem keeps_popString (E : EngineC R) : Keeps R popString := by
  unfold popString; exact keeps_bind E (keeps_sizeTop E) fun _ => keeps_popStringLoop E _ _
macro_rules | `(tactic| keep1 $E) => `(tactic| with_reducible exact keeps_popString $E)
theorem keeps_random (E : EngineC R) (a b) : Keeps R (random a b) := by unfold random; keep E
macro_rules | `(tactic| keep1 $E) => `(tactic| with_reducible exact keeps_random $E _ _)
theorem keeps_iPush (E : EngineC R) (n) : Keeps R (iPush n) := by unfold iPush; keep E
macro_rules | `(tactic| keep1 $E) => `(tactic| with_reducible exact keeps_iPush $E _)
theorem keeps_iGo (E : EngineC R) (v) : Keeps R (iGo v) := by unfold iGo; keep E
macro_rules | `(tactic| keep1 $E) => `(tactic| with_reducible exact keeps_iGo $E _)
theorem keeps_iStop (E : EngineC R) : Keeps R (iStop) := by unfold iStop; keep E
macro_rules | `(tactic| keep1 $E) => `(tactic| with_reducible exact keeps_iStop $E)
theorem keeps_iTrampoline (E : EngineC R) : Keeps R (iTrampoline) := by unfold iTrampoline; keep E
macro_rules | `(tactic| keep1 $E) => `(tactic| with_reducible exact keeps_iTrampoline $E)
theorem keeps_iIf (E : EngineC R) (a b) : Keeps R (iIf a b) := by unfold iIf; keep E
macro_rules | `(tactic| keep1 $E) => `(tactic| with_reducible exact keeps_iIf $E _ _)
theorem keeps_iGoAway (E : EngineC R) : Keeps R (iGoAway) := by unfold iGoAway; keep E
macro_rules | `(tactic| keep1 $E) => `(tactic| with_reducible exact keeps_iGoAway $E)
theorem keeps_iNot (E : EngineC R) : Keeps R (iNot) := by unfold iNot; keep E
macro_rules | `(tactic| keep1 $E) => `(tactic| with_reducible exact keeps_iNot $E)
theorem keeps_iBin (E : EngineC R) (f) : Keeps R (iBin f) := by unfold iBin; keep E
macro_rules | `(tactic| keep1 $E) => `(tactic| with_reducible exact keeps_iBin $E _)
theorem keeps_iPop (E : EngineC R) : Keeps R (iPop) := by unfold iPop; keep E
macro_rules | `(tactic| keep1 $E) => `(tactic| with_reducible exact keeps_iPop $E)
theorem keeps_iDup (E : EngineC R) : Keeps R (iDup) := by unfold iDup; keep E
macro_rules | `(tactic| keep1 $E) => `(tactic| with_reducible exact keeps_iDup $E)
theorem keeps_iSwap (E : EngineC R) : Keeps R (iSwap) := by unfold iSwap; keep E
macro_rules | `(tactic| keep1 $E) => `(tactic| with_reducible exact keeps_iSwap $E)
theorem keeps_iNumIn (E : EngineC R) : Keeps R (iNumIn) := by unfold iNumIn; keep E
macro_rules | `(tactic| keep1 $E) => `(tactic| with_reducible exact keeps_iNumIn $E)
theorem keeps_iCharIn (E : EngineC R) : Keeps R (iCharIn) := by unfold iCharIn; keep E
macro_rules | `(tactic| keep1 $E) => `(tactic| with_reducible exact keeps_iCharIn $E)
theorem keeps_iString (E : EngineC R) (q) : Keeps R (iString q) := by unfold iString; keep E
macro_rules | `(tactic| keep1 $E) => `(tactic| with_reducible exact keeps_iString $E _)
theorem keeps_iCharOut (E : EngineC R) : Keeps R (iCharOut) := by unfold iCharOut; keep E
macro_rules | `(tactic| keep1 $E) => `(tactic| with_reducible exact keeps_iCharOut $E)
theorem keeps_iNumOut (E : EngineC R) : Keeps R (iNumOut) := by unfold iNumOut; keep E
macro_rules | `(tactic| keep1 $E) => `(tactic| with_reducible exact keeps_iNumOut $E)
theorem keeps_iGet (E : EngineC R) : Keeps R (iGet) := by unfold iGet; keep E
macro_rules | `(tactic| keep1 $E) => `(tactic| with_reducible exact keeps_iGet $E)
theorem keeps_iPut (E : EngineC R) (W : Stores R) : Keeps R (iPut) := by unfold iPut; keep E
macro_rules | `(tactic| keep1 $E) => `(tactic| with_reducible exact keeps_iPut $E (by assumption))
theorem keeps_switchPut (E : EngineC R) (c) : Keeps R (switchPut c) := by
  intro s a s' h
  unfold switchPut at h
  rw [bind_ok (isMode_run _ _)] at h
  split at h
  · rename_i hm; cases h; exact E.switch s c hm
  · cases h; exact E.refl s
macro_rules | `(tactic| keep1 $E) => `(tactic| with_reducible exact keeps_switchPut $E _)
theorem keeps_iLeft (E : EngineC R) : Keeps R (iLeft) := by unfold iLeft; keep E
macro_rules | `(tactic| keep1 $E) => `(tactic| with_reducible exact keeps_iLeft $E)
theorem keeps_iRight (E : EngineC R) : Keeps R (iRight) := by unfold iRight; keep E
macro_rules | `(tactic| keep1 $E) => `(tactic| with_reducible exact keeps_iRight $E)
theorem keeps_iCompare (E : EngineC R) : Keeps R (iCompare) := by unfold iCompare; keep E
macro_rules | `(tactic| keep1 $E) => `(tactic| with_reducible exact keeps_iCompare $E)
theorem keeps_iHigh (E : EngineC R) : Keeps R (iHigh) := by unfold iHigh; keep E
macro_rules | `(tactic| keep1 $E) => `(tactic| with_reducible exact keeps_iHigh $E)
theorem keeps_iLow (E : EngineC R) : Keeps R (iLow) := by unfold iLow; keep E
macro_rules | `(tactic| keep1 $E) => `(tactic| with_reducible exact keeps_iLow $E)

theorem keeps_untilSemi (E : EngineC R) (n) : Keeps R (untilSemi n) := by
  induction n with
  | zero => exact keeps_fault _
  | succ n ih => unfold untilSemi; keep E
macro_rules | `(tactic| keep1 $E) => `(tactic| with_reducible exact keeps_untilSemi $E _)
theorem keeps_untilSemiChar (E : EngineC R) (n) : Keeps R (untilSemiChar n) := by
  induction n with
  | zero => exact keeps_fault _
  | succ n ih => unfold untilSemiChar; keep E
macro_rules | `(tactic| keep1 $E) => `(tactic| with_reducible exact keeps_untilSemiChar $E _)
theorem keeps_ipNextN (E : EngineC R) (n) : Keeps R (ipNextN n) := by
  induction n with
  | zero => exact keeps_pure E _
  | succ n ih => unfold ipNextN; keep E
macro_rules | `(tactic| keep1 $E) => `(tactic| with_reducible exact keeps_ipNextN $E _)
theorem keeps_iterSearch (E : EngineC R) (n c) : Keeps R (iterSearch n c) := by
  induction n generalizing c with
  | zero => exact keeps_fault _
  | succ n ih => unfold iterSearch; keep E <;> apply ih
macro_rules | `(tactic| keep1 $E) => `(tactic| with_reducible exact keeps_iterSearch $E _ _)
theorem keeps_iterRun (E : EngineC R) {exec : Int → Exec Err} (h : ∀ c, Keeps R (exec c)) (c n) : Keeps R (iterRun exec c n) := by
  have := h c
  induction n with
  | zero => exact keeps_pure E _
  | succ n ih => unfold iterRun; keep E
theorem keeps_iIterate (E : EngineC R) {exec : Int → Exec Err} (h : ∀ c, Keeps R (exec c)) : Keeps R (iIterate exec) := by
  have := fun c n => keeps_iterRun E h c n
  unfold iIterate; keep E; apply this
theorem keeps_moveN (E : EngineC R) {pop : Exec Int} {push : Int → Exec Unit} (h1 : Keeps R pop) (h2 : ∀ v, Keeps R (push v)) (n) :
    Keeps R (moveN pop push n) := by
  induction n with
  | zero => exact keeps_pure E _
  | succ n ih => unfold moveN; keep E; apply h2
macro_rules | `(tactic| keep1 $E) => `(tactic| with_reducible refine keeps_moveN $E ?_ (fun _ => ?_) _)
theorem keeps_popFingerprint (E : EngineC R) (n acc) : Keeps R (popFingerprint n acc) := by
  induction n generalizing acc with
  | zero => exact keeps_pure E _
  | succ n ih => unfold popFingerprint; keep E; apply ih
macro_rules | `(tactic| keep1 $E) => `(tactic| with_reducible exact keeps_popFingerprint $E _ _)
theorem keeps_pushStrings (E : EngineC R) (l) : Keeps R (pushStrings l) := by
  induction l with
  | nil => exact keeps_pure E _
  | cons x l ih => unfold pushStrings; keep E
macro_rules | `(tactic| keep1 $E) => `(tactic| with_reducible exact keeps_pushStrings $E _)
theorem keeps_pushSizes (E : EngineC R) (n) : Keeps R (pushSizes n) := by
  induction n with
  | zero => exact keeps_pure E _
  | succ n ih => unfold pushSizes; keep E
macro_rules | `(tactic| keep1 $E) => `(tactic| with_reducible exact keeps_pushSizes $E _)
theorem keeps_dropN (E : EngineC R) (n) : Keeps R (dropN n) := by
  induction n with
  | zero => exact keeps_pure E _
  | succ n ih => unfold dropN; keep E
macro_rules | `(tactic| keep1 $E) => `(tactic| with_reducible exact keeps_dropN $E _)
theorem keeps_iJumpOver (E : EngineC R) : Keeps R (iJumpOver) := by unfold iJumpOver; keep E
macro_rules | `(tactic| keep1 $E) => `(tactic| with_reducible exact keeps_iJumpOver $E)
theorem keeps_iJumpForward (E : EngineC R) : Keeps R (iJumpForward) := by unfold iJumpForward; keep E
macro_rules | `(tactic| keep1 $E) => `(tactic| with_reducible exact keeps_iJumpForward $E)
theorem keeps_iReflect (E : EngineC R) : Keeps R (iReflect) := by unfold iReflect; keep E
macro_rules | `(tactic| keep1 $E) => `(tactic| with_reducible exact keeps_iReflect $E)
theorem keeps_iAbsolute (E : EngineC R) : Keeps R (iAbsolute) := by unfold iAbsolute; keep E
macro_rules | `(tactic| keep1 $E) => `(tactic| with_reducible exact keeps_iAbsolute $E)
theorem keeps_iQuit (E : EngineC R) : Keeps R (iQuit) := by unfold iQuit; keep E
macro_rules | `(tactic| keep1 $E) => `(tactic| with_reducible exact keeps_iQuit $E)
theorem keeps_iClear (E : EngineC R) : Keeps R (iClear) := by unfold iClear; keep E
macro_rules | `(tactic| keep1 $E) => `(tactic| with_reducible exact keeps_iClear $E)
theorem keeps_iUnder (E : EngineC R) : Keeps R (iUnder) := by unfold iUnder; keep E
macro_rules | `(tactic| keep1 $E) => `(tactic| with_reducible exact keeps_iUnder $E)
theorem keeps_iBegin (E : EngineC R) : Keeps R (iBegin) := by unfold iBegin; keep E
macro_rules | `(tactic| keep1 $E) => `(tactic| with_reducible exact keeps_iBegin $E)
theorem keeps_iEnd (E : EngineC R) : Keeps R (iEnd) := by unfold iEnd; keep E
macro_rules | `(tactic| keep1 $E) => `(tactic| with_reducible exact keeps_iEnd $E)
theorem keeps_iFetch (E : EngineC R) : Keeps R (iFetch) := by unfold iFetch; keep E
macro_rules | `(tactic| keep1 $E) => `(tactic| with_reducible exact keeps_iFetch $E)
theorem keeps_iStore (E : EngineC R) (W : Stores R) : Keeps R (iStore) := by unfold iStore; keep E
macro_rules | `(tactic| keep1 $E) => `(tactic| with_reducible exact keeps_iStore $E (by assumption))
theorem keeps_pushSysInfo (E : EngineC R) (n) : Keeps R (pushSysInfo n) := by unfold pushSysInfo; keep E
macro_rules | `(tactic| keep1 $E) => `(tactic| with_reducible exact keeps_pushSysInfo $E _)
theorem keeps_iSysInfo (E : EngineC R) : Keeps R (iSysInfo) := by unfold iSysInfo; keep E
macro_rules | `(tactic| keep1 $E) => `(tactic| with_reducible exact keeps_iSysInfo $E)

theorem keeps_checkTop (E : EngineC R) (n) {k : Exec Err} (h : Keeps R k) : Keeps R (checkTop n k) := by unfold checkTop; keep E
macro_rules | `(tactic| keep1 $E) => `(tactic| with_reducible refine keeps_checkTop $E _ ?_)
theorem keeps_checkSecond (E : EngineC R) (n) {k : Exec Err} (h : Keeps R k) : Keeps R (checkSecond n k) := by unfold checkSecond; keep E
macro_rules | `(tactic| keep1 $E) => `(tactic| with_reducible refine keeps_checkSecond $E _ ?_)
theorem keeps_checkSelected (E : EngineC R) (n) {k : Exec Err} (h : Keeps R k) : Keeps R (checkSelected n k) := by unfold checkSelected; keep E
macro_rules | `(tactic| keep1 $E) => `(tactic| with_reducible refine keeps_checkSelected $E _ ?_)
theorem keeps_fishPush (E : EngineC R) (n) : Keeps R (fishPush n) := by unfold fishPush; keep E
macro_rules | `(tactic| keep1 $E) => `(tactic| with_reducible exact keeps_fishPush $E _)
theorem keeps_fishInt (E : EngineC R) (n) : Keeps R (fishInt n) := by unfold fishInt; keep E
macro_rules | `(tactic| keep1 $E) => `(tactic| with_reducible exact keeps_fishInt $E _)
theorem keeps_fishPopInt (E : EngineC R) : Keeps R (fishPopInt) := by unfold fishPopInt; keep E
macro_rules | `(tactic| keep1 $E) => `(tactic| with_reducible exact keeps_fishPopInt $E)
theorem keeps_fishPopSize (E : EngineC R) : Keeps R (fishPopSize) := by unfold fishPopSize; keep E
macro_rules | `(tactic| keep1 $E) => `(tactic| with_reducible exact keeps_fishPopSize $E)
theorem keeps_fishPopChar (E : EngineC R) : Keeps R (fishPopChar) := by unfold fishPopChar; keep E
macro_rules | `(tactic| keep1 $E) => `(tactic| with_reducible exact keeps_fishPopChar $E)
theorem keeps_fishPopVectorOn (E : EngineC R) {pop : Exec Int} (h : Keeps R pop) : Keeps R (fishPopVectorOn pop) := by
  unfold fishPopVectorOn; keep E
macro_rules | `(tactic| keep1 $E) => `(tactic| with_reducible refine keeps_fishPopVectorOn $E ?_)
theorem keeps_fishPushVectorOn (E : EngineC R) {push : Int → Exec Unit} (h : ∀ v, Keeps R (push v)) (v) : Keeps R (fishPushVectorOn push v) := by
  unfold fishPushVectorOn; keep E; apply h
macro_rules | `(tactic| keep1 $E) => `(tactic| with_reducible refine keeps_fishPushVectorOn $E (fun _ => ?_) _)
theorem keeps_fiPush (E : EngineC R) (n) : Keeps R (fiPush n) := by unfold fiPush; keep E
macro_rules | `(tactic| keep1 $E) => `(tactic| with_reducible exact keeps_fiPush $E _)
theorem keeps_fiMirror1 (E : EngineC R) : Keeps R (fiMirror1) := by unfold fiMirror1; keep E
macro_rules | `(tactic| keep1 $E) => `(tactic| with_reducible exact keeps_fiMirror1 $E)
theorem keeps_fiMirror2 (E : EngineC R) : Keeps R (fiMirror2) := by unfold fiMirror2; keep E
macro_rules | `(tactic| keep1 $E) => `(tactic| with_reducible exact keeps_fiMirror2 $E)
theorem keeps_fiMirrorVert (E : EngineC R) : Keeps R (fiMirrorVert) := by unfold fiMirrorVert; keep E
macro_rules | `(tactic| keep1 $E) => `(tactic| with_reducible exact keeps_fiMirrorVert $E)
theorem keeps_fiMirrorHori (E : EngineC R) : Keeps R (fiMirrorHori) := by unfold fiMirrorHori; keep E
macro_rules | `(tactic| keep1 $E) => `(tactic| with_reducible exact keeps_fiMirrorHori $E)
theorem keeps_fiMirrorAll (E : EngineC R) : Keeps R (fiMirrorAll) := by unfold fiMirrorAll; keep E
macro_rules | `(tactic| keep1 $E) => `(tactic| with_reducible exact keeps_fiMirrorAll $E)
theorem keeps_fiConditional (E : EngineC R) : Keeps R (fiConditional) := by unfold fiConditional; keep E
macro_rules | `(tactic| keep1 $E) => `(tactic| with_reducible exact keeps_fiConditional $E)
theorem keeps_fiJump (E : EngineC R) : Keeps R (fiJump) := by unfold fiJump; keep E
macro_rules | `(tactic| keep1 $E) => `(tactic| with_reducible exact keeps_fiJump $E)
theorem keeps_fiBin (E : EngineC R) (f) : Keeps R (fiBin f) := by unfold fiBin; keep E
macro_rules | `(tactic| keep1 $E) => `(tactic| with_reducible exact keeps_fiBin $E _)
theorem keeps_fiDiv (E : EngineC R) : Keeps R (fiDiv) := by unfold fiDiv; keep E
macro_rules | `(tactic| keep1 $E) => `(tactic| with_reducible exact keeps_fiDiv $E)
theorem keeps_fiModu (E : EngineC R) : Keeps R (fiModu) := by unfold fiModu; keep E
macro_rules | `(tactic| keep1 $E) => `(tactic| with_reducible exact keeps_fiModu $E)
theorem keeps_fiDuplicate (E : EngineC R) : Keeps R (fiDuplicate) := by unfold fiDuplicate; keep E
macro_rules | `(tactic| keep1 $E) => `(tactic| with_reducible exact keeps_fiDuplicate $E)
theorem keeps_fiRemove (E : EngineC R) : Keeps R (fiRemove) := by unfold fiRemove; keep E
macro_rules | `(tactic| keep1 $E) => `(tactic| with_reducible exact keeps_fiRemove $E)
theorem keeps_fiSwap2 (E : EngineC R) : Keeps R (fiSwap2) := by unfold fiSwap2; keep E
macro_rules | `(tactic| keep1 $E) => `(tactic| with_reducible exact keeps_fiSwap2 $E)
theorem keeps_fiSwap3 (E : EngineC R) : Keeps R (fiSwap3) := by unfold fiSwap3; keep E
macro_rules | `(tactic| keep1 $E) => `(tactic| with_reducible exact keeps_fiSwap3 $E)
theorem keeps_fiLength (E : EngineC R) : Keeps R (fiLength) := by unfold fiLength; keep E
macro_rules | `(tactic| keep1 $E) => `(tactic| with_reducible exact keeps_fiLength $E)
theorem keeps_fiShiftLeft (E : EngineC R) : Keeps R (fiShiftLeft) := by unfold fiShiftLeft; keep E
macro_rules | `(tactic| keep1 $E) => `(tactic| with_reducible exact keeps_fiShiftLeft $E)
theorem keeps_fiShiftRight (E : EngineC R) : Keeps R (fiShiftRight) := by unfold fiShiftRight; keep E
macro_rules | `(tactic| keep1 $E) => `(tactic| with_reducible exact keeps_fiShiftRight $E)
theorem keeps_fiReverse (E : EngineC R) : Keeps R (fiReverse) := by unfold fiReverse; keep E
macro_rules | `(tactic| keep1 $E) => `(tactic| with_reducible exact keeps_fiReverse $E)
theorem keeps_fiCreateStack (E : EngineC R) : Keeps R (fiCreateStack) := by unfold fiCreateStack; keep E
macro_rules | `(tactic| keep1 $E) => `(tactic| with_reducible exact keeps_fiCreateStack $E)
theorem keeps_fiRemoveStack (E : EngineC R) : Keeps R (fiRemoveStack) := by unfold fiRemoveStack; keep E
macro_rules | `(tactic| keep1 $E) => `(tactic| with_reducible exact keeps_fiRemoveStack $E)
theorem keeps_fiOutChar (E : EngineC R) : Keeps R (fiOutChar) := by unfold fiOutChar; keep E
macro_rules | `(tactic| keep1 $E) => `(tactic| with_reducible exact keeps_fiOutChar $E)
theorem keeps_fiOutInt (E : EngineC R) : Keeps R (fiOutInt) := by unfold fiOutInt; keep E
macro_rules | `(tactic| keep1 $E) => `(tactic| with_reducible exact keeps_fiOutInt $E)
theorem keeps_fiIn (E : EngineC R) : Keeps R (fiIn) := by unfold fiIn; keep E
macro_rules | `(tactic| keep1 $E) => `(tactic| with_reducible exact keeps_fiIn $E)
theorem keeps_fiGet (E : EngineC R) : Keeps R (fiGet) := by unfold fiGet; keep E
macro_rules | `(tactic| keep1 $E) => `(tactic| with_reducible exact keeps_fiGet $E)
theorem keeps_fiPut (E : EngineC R) (W : Stores R) : Keeps R (fiPut) := by unfold fiPut; keep E
macro_rules | `(tactic| keep1 $E) => `(tactic| with_reducible exact keeps_fiPut $E (by assumption))
theorem keeps_fiRegister (E : EngineC R) : Keeps R (fiRegister) := by unfold fiRegister; keep E
macro_rules | `(tactic| keep1 $E) => `(tactic| with_reducible exact keeps_fiRegister $E)
theorem keeps_siFisherman (E : EngineC R) : Keeps R (siFisherman) := by unfold siFisherman; keep E
macro_rules | `(tactic| keep1 $E) => `(tactic| with_reducible exact keeps_siFisherman $E)
theorem keeps_siCall (E : EngineC R) : Keeps R (siCall) := by unfold siCall; keep E
macro_rules | `(tactic| keep1 $E) => `(tactic| with_reducible exact keeps_siCall $E)
theorem keeps_siReturn (E : EngineC R) : Keeps R (siReturn) := by unfold siReturn; keep E
macro_rules | `(tactic| keep1 $E) => `(tactic| with_reducible exact keeps_siReturn $E)
theorem keeps_siDive (E : EngineC R) : Keeps R (siDive) := by unfold siDive; keep E
macro_rules | `(tactic| keep1 $E) => `(tactic| with_reducible exact keeps_siDive $E)
theorem keeps_siRise (E : EngineC R) : Keeps R (siRise) := by unfold siRise; keep E
macro_rules | `(tactic| keep1 $E) => `(tactic| with_reducible exact keeps_siRise $E)
theorem keeps_siSleep (E : EngineC R) : Keeps R (siSleep) := by unfold siSleep; keep E
macro_rules | `(tactic| keep1 $E) => `(tactic| with_reducible exact keeps_siSleep $E)
theorem keeps_siTime (E : EngineC R) : Keeps R (siTime) := by unfold siTime; keep E
macro_rules | `(tactic| keep1 $E) => `(tactic| with_reducible exact keeps_siTime $E)
theorem keeps_bitNot (E : EngineC R) : Keeps R (bitNot) := by unfold bitNot; keep E
macro_rules | `(tactic| keep1 $E) => `(tactic| with_reducible exact keeps_bitNot $E)
theorem keeps_frthDepth (E : EngineC R) : Keeps R (frthDepth) := by unfold frthDepth; keep E
macro_rules | `(tactic| keep1 $E) => `(tactic| with_reducible exact keeps_frthDepth $E)
theorem keeps_frthRoll (E : EngineC R) : Keeps R (frthRoll) := by unfold frthRoll; keep E
macro_rules | `(tactic| keep1 $E) => `(tactic| with_reducible exact keeps_frthRoll $E)
theorem keeps_frthOver (E : EngineC R) : Keeps R (frthOver) := by unfold frthOver; keep E
macro_rules | `(tactic| keep1 $E) => `(tactic| with_reducible exact keeps_frthOver $E)
theorem keeps_frthPick (E : EngineC R) : Keeps R (frthPick) := by unfold frthPick; keep E
macro_rules | `(tactic| keep1 $E) => `(tactic| with_reducible exact keeps_frthPick $E)
theorem keeps_frthRot (E : EngineC R) : Keeps R (frthRot) := by unfold frthRot; keep E
macro_rules | `(tactic| keep1 $E) => `(tactic| with_reducible exact keeps_frthRot $E)
theorem keeps_popComplex (E : EngineC R) : Keeps R (popComplex) := by unfold popComplex; keep E
macro_rules | `(tactic| keep1 $E) => `(tactic| with_reducible exact keeps_popComplex $E)
theorem keeps_pushComplex (E : EngineC R) (a b) : Keeps R (pushComplex a b) := by unfold pushComplex; keep E
macro_rules | `(tactic| keep1 $E) => `(tactic| with_reducible exact keeps_pushComplex $E _ _)
theorem keeps_cpliAdd (E : EngineC R) : Keeps R (cpliAdd) := by unfold cpliAdd; keep E
macro_rules | `(tactic| keep1 $E) => `(tactic| with_reducible exact keeps_cpliAdd $E)
theorem keeps_cpliSub (E : EngineC R) : Keeps R (cpliSub) := by unfold cpliSub; keep E
macro_rules | `(tactic| keep1 $E) => `(tactic| with_reducible exact keeps_cpliSub $E)
theorem keeps_cpliMul (E : EngineC R) : Keeps R (cpliMul) := by unfold cpliMul; keep E
macro_rules | `(tactic| keep1 $E) => `(tactic| with_reducible exact keeps_cpliMul $E)
theorem keeps_cpliOut (E : EngineC R) : Keeps R (cpliOut) := by unfold cpliOut; keep E
macro_rules | `(tactic| keep1 $E) => `(tactic| with_reducible exact keeps_cpliOut $E)
theorem keeps_modeToggle' (E : EngineC R) (m) (hm : m &&& modeSwitch = 0) : Keeps R (modeToggle m) := by
  unfold modeToggle
  exact keeps_bind E (keeps_universeToggle E m hm) fun _ => keeps_pure E _
theorem keeps_modeToggle (E : EngineC R) (W : Stores R) (m) : Keeps R (modeToggle m) := by unfold modeToggle; keep E
macro_rules | `(tactic| keep1 $E) => `(tactic| with_reducible exact keeps_modeToggle $E (by assumption) _)
theorem keeps_mathFn (E : EngineC R) (f c l) : Keeps R (mathFn f c l) := by unfold mathFn; keep E
macro_rules | `(tactic| keep1 $E) => `(tactic| with_reducible exact keeps_mathFn $E _ _ _)
theorem keeps_cpliDiv (E : EngineC R) : Keeps R (cpliDiv) := by unfold cpliDiv; keep E
macro_rules | `(tactic| keep1 $E) => `(tactic| with_reducible exact keeps_cpliDiv $E)
theorem keeps_cpliAbs (E : EngineC R) : Keeps R (cpliAbs) := by unfold cpliAbs; keep E
macro_rules | `(tactic| keep1 $E) => `(tactic| with_reducible exact keeps_cpliAbs $E)
theorem keeps_fixpFn (E : EngineC R) (c) : Keeps R (fixpFn c) := by unfold fixpFn; keep E
macro_rules | `(tactic| keep1 $E) => `(tactic| with_reducible exact keeps_fixpFn $E _)
theorem keeps_fixpPow (E : EngineC R) : Keeps R (fixpPow) := by unfold fixpPow; keep E
macro_rules | `(tactic| keep1 $E) => `(tactic| with_reducible exact keeps_fixpPow $E)
theorem keeps_fgConditional (E : EngineC R) : Keeps R (fgConditional) := by unfold fgConditional; keep E
macro_rules | `(tactic| keep1 $E) => `(tactic| with_reducible exact keeps_fgConditional $E)
theorem keeps_fgFisherman (E : EngineC R) : Keeps R (fgFisherman) := by unfold fgFisherman; keep E
macro_rules | `(tactic| keep1 $E) => `(tactic| with_reducible exact keeps_fgFisherman $E)
theorem keeps_fgShiftLeft (E : EngineC R) : Keeps R (fgShiftLeft) := by unfold fgShiftLeft; keep E
macro_rules | `(tactic| keep1 $E) => `(tactic| with_reducible exact keeps_fgShiftLeft $E)
theorem keeps_fgShiftRight (E : EngineC R) : Keeps R (fgShiftRight) := by unfold fgShiftRight; keep E
macro_rules | `(tactic| keep1 $E) => `(tactic| with_reducible exact keeps_fgShiftRight $E)
theorem keeps_fgReverse (E : EngineC R) : Keeps R (fgReverse) := by unfold fgReverse; keep E
macro_rules | `(tactic| keep1 $E) => `(tactic| with_reducible exact keeps_fgReverse $E)
theorem keeps_fgSwap3 (E : EngineC R) : Keeps R (fgSwap3) := by unfold fgSwap3; keep E
macro_rules | `(tactic| keep1 $E) => `(tactic| with_reducible exact keeps_fgSwap3 $E)
theorem keeps_fixpRandom (E : EngineC R) : Keeps R (fixpRandom) := by unfold fixpRandom; keep E
macro_rules | `(tactic| keep1 $E) => `(tactic| with_reducible exact keeps_fixpRandom $E)
theorem keeps_fixpNeg (E : EngineC R) : Keeps R (fixpNeg) := by unfold fixpNeg; keep E
macro_rules | `(tactic| keep1 $E) => `(tactic| with_reducible exact keeps_fixpNeg $E)
theorem keeps_fixpSign (E : EngineC R) : Keeps R (fixpSign) := by unfold fixpSign; keep E
macro_rules | `(tactic| keep1 $E) => `(tactic| with_reducible exact keeps_fixpSign $E)
theorem keeps_fixpAbs (E : EngineC R) : Keeps R (fixpAbs) := by unfold fixpAbs; keep E
macro_rules | `(tactic| keep1 $E) => `(tactic| with_reducible exact keeps_fixpAbs $E)
theorem keeps_hrtiTimer (E : EngineC R) : Keeps R (hrtiTimer) := by unfold hrtiTimer; keep E
macro_rules | `(tactic| keep1 $E) => `(tactic| with_reducible exact keeps_hrtiTimer $E)
theorem keeps_hrtiMark (E : EngineC R) : Keeps R (hrtiMark) := by unfold hrtiMark; keep E
macro_rules | `(tactic| keep1 $E) => `(tactic| with_reducible exact keeps_hrtiMark $E)
theorem keeps_hrtiErase (E : EngineC R) : Keeps R (hrtiErase) := by unfold hrtiErase; keep E
macro_rules | `(tactic| keep1 $E) => `(tactic| with_reducible exact keeps_hrtiErase $E)
theorem keeps_hrtiSecond (E : EngineC R) : Keeps R (hrtiSecond) := by unfold hrtiSecond; keep E
macro_rules | `(tactic| keep1 $E) => `(tactic| with_reducible exact keeps_hrtiSecond $E)
theorem keeps_jstrGetLoop (E : EngineC R) (vd n v) : Keeps R (jstrGetLoop vd n v) := by
  induction n generalizing v with
  | zero => exact keeps_pure E _
  | succ n ih => unfold jstrGetLoop; keep E; apply ih
macro_rules | `(tactic| keep1 $E) => `(tactic| with_reducible exact keeps_jstrGetLoop $E _ _ _)
theorem keeps_jstrPutLoop (E : EngineC R) (W : Stores R) (vd n v) : Keeps R (jstrPutLoop vd n v) := by
  induction n generalizing v with
  | zero => exact keeps_pure E _
  | succ n ih => unfold jstrPutLoop; keep E; apply ih
macro_rules | `(tactic| keep1 $E) => `(tactic| with_reducible exact keeps_jstrPutLoop $E (by assumption) _ _ _)
theorem keeps_jstrGet (E : EngineC R) : Keeps R (jstrGet) := by unfold jstrGet; keep E
macro_rules | `(tactic| keep1 $E) => `(tactic| with_reducible exact keeps_jstrGet $E)
theorem keeps_jstrPut (E : EngineC R) (W : Stores R) : Keeps R (jstrPut) := by unfold jstrPut; keep E
macro_rules | `(tactic| keep1 $E) => `(tactic| with_reducible exact keeps_jstrPut $E (by assumption))
theorem keeps_orthGet (E : EngineC R) : Keeps R (orthGet) := by unfold orthGet; keep E
macro_rules | `(tactic| keep1 $E) => `(tactic| with_reducible exact keeps_orthGet $E)
theorem keeps_orthPut (E : EngineC R) (W : Stores R) : Keeps R (orthPut) := by unfold orthPut; keep E
macro_rules | `(tactic| keep1 $E) => `(tactic| with_reducible exact keeps_orthPut $E (by assumption))
theorem keeps_orthOut (E : EngineC R) : Keeps R (orthOut) := by unfold orthOut; keep E
macro_rules | `(tactic| keep1 $E) => `(tactic| with_reducible exact keeps_orthOut $E)
theorem keeps_orthDelta (E : EngineC R) (n) : Keeps R (orthDelta n) := by unfold orthDelta; keep E
macro_rules | `(tactic| keep1 $E) => `(tactic| with_reducible exact keeps_orthDelta $E _)
theorem keeps_orthPos (E : EngineC R) (n) : Keeps R (orthPos n) := by unfold orthPos; keep E
macro_rules | `(tactic| keep1 $E) => `(tactic| with_reducible exact keeps_orthPos $E _)
theorem keeps_nfunGo (E : EngineC R) (v n) : Keeps R (nfunGo v n) := by unfold nfunGo; keep E
macro_rules | `(tactic| keep1 $E) => `(tactic| with_reducible exact keeps_nfunGo $E _ _)
theorem keeps_nfunHL (E : EngineC R) (v w n) : Keeps R (nfunHL v w n) := by unfold nfunHL; keep E
macro_rules | `(tactic| keep1 $E) => `(tactic| with_reducible exact keeps_nfunHL $E _ _ _)
theorem keeps_nfunIf (E : EngineC R) (v w n) : Keeps R (nfunIf v w n) := by unfold nfunIf; keep E
macro_rules | `(tactic| keep1 $E) => `(tactic| with_reducible exact keeps_nfunIf $E _ _ _)
theorem keeps_axisVec (E : EngineC R) (n x) : Keeps R (axisVec n x) := by unfold axisVec; keep E
macro_rules | `(tactic| keep1 $E) => `(tactic| with_reducible exact keeps_axisVec $E _ _)
theorem keeps_nfunIfN (E : EngineC R) : Keeps R (nfunIfN) := by unfold nfunIfN; keep E
macro_rules | `(tactic| keep1 $E) => `(tactic| with_reducible exact keeps_nfunIfN $E)
theorem keeps_nfunGoN (E : EngineC R) (n) : Keeps R (nfunGoN n) := by unfold nfunGoN; keep E
macro_rules | `(tactic| keep1 $E) => `(tactic| with_reducible exact keeps_nfunGoN $E _)
theorem keeps_subrMode (E : EngineC R) (n) : Keeps R (subrMode n) := by unfold subrMode; keep E
macro_rules | `(tactic| keep1 $E) => `(tactic| with_reducible exact keeps_subrMode $E _)
theorem keeps_subrPops (E : EngineC R) (n) : Keeps R (subrPops n) := by unfold subrPops; keep E
macro_rules | `(tactic| keep1 $E) => `(tactic| with_reducible exact keeps_subrPops $E _)
theorem keeps_subrCall (E : EngineC R) : Keeps R (subrCall) := by unfold subrCall; keep E
macro_rules | `(tactic| keep1 $E) => `(tactic| with_reducible exact keeps_subrCall $E)
theorem keeps_subrJump (E : EngineC R) : Keeps R (subrJump) := by unfold subrJump; keep E
macro_rules | `(tactic| keep1 $E) => `(tactic| with_reducible exact keeps_subrJump $E)
theorem keeps_subrReturn (E : EngineC R) : Keeps R (subrReturn) := by unfold subrReturn; keep E
macro_rules | `(tactic| keep1 $E) => `(tactic| with_reducible exact keeps_subrReturn $E)
theorem keeps_refcDeref (E : EngineC R) : Keeps R (refcDeref) := by unfold refcDeref; keep E
macro_rules | `(tactic| keep1 $E) => `(tactic| with_reducible exact keeps_refcDeref $E)
theorem keeps_printNum (E : EngineC R) (n b) : Keeps R (printNum n b) := by unfold printNum; keep E
macro_rules | `(tactic| keep1 $E) => `(tactic| with_reducible exact keeps_printNum $E _ _)
theorem keeps_basePrint (E : EngineC R) (n) : Keeps R (basePrint n) := by unfold basePrint; keep E
macro_rules | `(tactic| keep1 $E) => `(tactic| with_reducible exact keeps_basePrint $E _)
theorem keeps_basePrintN (E : EngineC R) : Keeps R (basePrintN) := by unfold basePrintN; keep E
macro_rules | `(tactic| keep1 $E) => `(tactic| with_reducible exact keeps_basePrintN $E)
theorem keeps_readNum (E : EngineC R) (n) : Keeps R (readNum n) := by unfold readNum; keep E
macro_rules | `(tactic| keep1 $E) => `(tactic| with_reducible exact keeps_readNum $E _)
theorem keeps_baseRead (E : EngineC R) : Keeps R (baseRead) := by unfold baseRead; keep E
macro_rules | `(tactic| keep1 $E) => `(tactic| with_reducible exact keeps_baseRead $E)
theorem keeps_pushStr (E : EngineC R) (n) : Keeps R (pushStr n) := by unfold pushStr; keep E
macro_rules | `(tactic| keep1 $E) => `(tactic| with_reducible exact keeps_pushStr $E _)
theorem keeps_strnAppend (E : EngineC R) : Keeps R (strnAppend) := by unfold strnAppend; keep E
macro_rules | `(tactic| keep1 $E) => `(tactic| with_reducible exact keeps_strnAppend $E)
theorem keeps_strnCompare (E : EngineC R) : Keeps R (strnCompare) := by unfold strnCompare; keep E
macro_rules | `(tactic| keep1 $E) => `(tactic| with_reducible exact keeps_strnCompare $E)
theorem keeps_strnDisplay (E : EngineC R) : Keeps R (strnDisplay) := by unfold strnDisplay; keep E
macro_rules | `(tactic| keep1 $E) => `(tactic| with_reducible exact keeps_strnDisplay $E)
theorem keeps_strnFind (E : EngineC R) : Keeps R (strnFind) := by unfold strnFind; keep E
macro_rules | `(tactic| keep1 $E) => `(tactic| with_reducible exact keeps_strnFind $E)
theorem keeps_strnGetLoop (E : EngineC R) (n v acc) : Keeps R (strnGetLoop n v acc) := by
  induction n generalizing v acc with
  | zero => exact keeps_fault _
  | succ n ih => unfold strnGetLoop; keep E; apply ih
macro_rules | `(tactic| keep1 $E) => `(tactic| with_reducible exact keeps_strnGetLoop $E _ _ _)
theorem keeps_strnPutLoop (E : EngineC R) (W : Stores R) (v l) : Keeps R (strnPutLoop v l) := by
  induction l generalizing v with
  | nil => exact keeps_fieldPut W _ _
  | cons c l ih => unfold strnPutLoop; keep E; apply ih
macro_rules | `(tactic| keep1 $E) => `(tactic| with_reducible exact keeps_strnPutLoop $E (by assumption) _ _)
theorem keeps_strnGet (E : EngineC R) : Keeps R (strnGet) := by unfold strnGet; keep E
macro_rules | `(tactic| keep1 $E) => `(tactic| with_reducible exact keeps_strnGet $E)
theorem keeps_strnInput (E : EngineC R) : Keeps R (strnInput) := by unfold strnInput; keep E
macro_rules | `(tactic| keep1 $E) => `(tactic| with_reducible exact keeps_strnInput $E)
theorem keeps_strnLeft (E : EngineC R) : Keeps R (strnLeft) := by unfold strnLeft; keep E
macro_rules | `(tactic| keep1 $E) => `(tactic| with_reducible exact keeps_strnLeft $E)
theorem keeps_strnMid (E : EngineC R) : Keeps R (strnMid) := by unfold strnMid; keep E
macro_rules | `(tactic| keep1 $E) => `(tactic| with_reducible exact keeps_strnMid $E)
theorem keeps_strnLength (E : EngineC R) : Keeps R (strnLength) := by unfold strnLength; keep E
macro_rules | `(tactic| keep1 $E) => `(tactic| with_reducible exact keeps_strnLength $E)
theorem keeps_strnPut (E : EngineC R) (W : Stores R) : Keeps R (strnPut) := by unfold strnPut; keep E
macro_rules | `(tactic| keep1 $E) => `(tactic| with_reducible exact keeps_strnPut $E (by assumption))
theorem keeps_strnRight (E : EngineC R) : Keeps R (strnRight) := by unfold strnRight; keep E
macro_rules | `(tactic| keep1 $E) => `(tactic| with_reducible exact keeps_strnRight $E)
theorem keeps_strnItoa (E : EngineC R) : Keeps R (strnItoa) := by unfold strnItoa; keep E
macro_rules | `(tactic| keep1 $E) => `(tactic| with_reducible exact keeps_strnItoa $E)
theorem keeps_strnAtoi (E : EngineC R) : Keeps R (strnAtoi) := by unfold strnAtoi; keep E
macro_rules | `(tactic| keep1 $E) => `(tactic| with_reducible exact keeps_strnAtoi $E)
theorem keeps_iipcAncestor (E : EngineC R) : Keeps R (iipcAncestor) := by unfold iipcAncestor; keep E
macro_rules | `(tactic| keep1 $E) => `(tactic| with_reducible exact keeps_iipcAncestor $E)
theorem keeps_iipcDormant (E : EngineC R) : Keeps R (iipcDormant) := by unfold iipcDormant; keep E
macro_rules | `(tactic| keep1 $E) => `(tactic| with_reducible exact keeps_iipcDormant $E)
theorem keeps_iipcId (E : EngineC R) : Keeps R (iipcId) := by unfold iipcId; keep E
macro_rules | `(tactic| keep1 $E) => `(tactic| with_reducible exact keeps_iipcId $E)
theorem keeps_dbugBreak (E : EngineC R) : Keeps R (dbugBreak) := by unfold dbugBreak; keep E
macro_rules | `(tactic| keep1 $E) => `(tactic| with_reducible exact keeps_dbugBreak $E)
theorem keeps_dbugWatch (E : EngineC R) : Keeps R (dbugWatch) := by unfold dbugWatch; keep E
macro_rules | `(tactic| keep1 $E) => `(tactic| with_reducible exact keeps_dbugWatch $E)
theorem keeps_mvrsName (E : EngineC R) : Keeps R (mvrsName) := by unfold mvrsName; keep E
macro_rules | `(tactic| keep1 $E) => `(tactic| with_reducible exact keeps_mvrsName $E)

theorem keeps_rangeOf (E : EngineC R) (a b) : Keeps R (rangeOf a b) := by unfold rangeOf; keep E
macro_rules | `(tactic| keep1 $E) => `(tactic| with_reducible exact keeps_rangeOf $E _ _)
theorem keeps_copyLoop (E : EngineC R) (W : Stores R) (a b m l) : Keeps R (copyLoop a b m l) := by
  induction l with
  | nil => exact keeps_pure E _
  | cons c l ih => unfold copyLoop; keep E
macro_rules | `(tactic| keep1 $E) => `(tactic| with_reducible exact keeps_copyLoop $E (by assumption) _ _ _ _)
theorem keeps_foldStack (E : EngineC R) (f n a) : Keeps R (foldStack f n a) := by
  induction n generalizing a with
  | zero => exact keeps_pure E _
  | succ n ih => unfold foldStack; keep E; apply ih
macro_rules | `(tactic| keep1 $E) => `(tactic| with_reducible exact keeps_foldStack $E _ _ _)
theorem keeps_toysFLoop (E : EngineC R) (W : Stores R) (a l) : Keeps R (toysFLoop a l) := by
  induction l with
  | nil => exact keeps_pure E _
  | cons c l ih => unfold toysFLoop; keep E
macro_rules | `(tactic| keep1 $E) => `(tactic| with_reducible exact keeps_toysFLoop $E (by assumption) _ _)
theorem keeps_toysGLoop (E : EngineC R) (a l) : Keeps R (toysGLoop a l) := by
  induction l with
  | nil => exact keeps_pure E _
  | cons c l ih => unfold toysGLoop; keep E
macro_rules | `(tactic| keep1 $E) => `(tactic| with_reducible exact keeps_toysGLoop $E _ _)
theorem keeps_toysSLoop (E : EngineC R) (W : Stores R) (a i l) : Keeps R (toysSLoop a i l) := by
  induction l with
  | nil => exact keeps_pure E _
  | cons c l ih => unfold toysSLoop; keep E
macro_rules | `(tactic| keep1 $E) => `(tactic| with_reducible exact keeps_toysSLoop $E (by assumption) _ _ _)
theorem keeps_copySpace (E : EngineC R) (W : Stores R) (a b c d e) : Keeps R (copySpace a b c d e) := by unfold copySpace; keep E
macro_rules | `(tactic| keep1 $E) => `(tactic| with_reducible exact keeps_copySpace $E (by assumption) _ _ _ _ _)
theorem keeps_toysGable (E : EngineC R) : Keeps R (toysGable) := by unfold toysGable; keep E
macro_rules | `(tactic| keep1 $E) => `(tactic| with_reducible exact keeps_toysGable $E)
theorem keeps_toysButterfly (E : EngineC R) : Keeps R (toysButterfly) := by unfold toysButterfly; keep E
macro_rules | `(tactic| keep1 $E) => `(tactic| with_reducible exact keeps_toysButterfly $E)
theorem keeps_toysCopy (E : EngineC R) (W : Stores R) (a b) : Keeps R (toysCopy a b) := by unfold toysCopy; keep E
macro_rules | `(tactic| keep1 $E) => `(tactic| with_reducible exact keeps_toysCopy $E (by assumption) _ _)
theorem keeps_toysInc (E : EngineC R) (n) : Keeps R (toysInc n) := by unfold toysInc; keep E
macro_rules | `(tactic| keep1 $E) => `(tactic| with_reducible exact keeps_toysInc $E _)
theorem keeps_toysFold (E : EngineC R) (n f) : Keeps R (toysFold n f) := by unfold toysFold; keep E
macro_rules | `(tactic| keep1 $E) => `(tactic| with_reducible exact keeps_toysFold $E _ _)
theorem keeps_toysPutBlock (E : EngineC R) (W : Stores R) : Keeps R (toysPutBlock) := by unfold toysPutBlock; keep E
macro_rules | `(tactic| keep1 $E) => `(tactic| with_reducible exact keeps_toysPutBlock $E (by assumption))
theorem keeps_toysGetBlock (E : EngineC R) : Keeps R (toysGetBlock) := by unfold toysGetBlock; keep E
macro_rules | `(tactic| keep1 $E) => `(tactic| with_reducible exact keeps_toysGetBlock $E)
theorem keeps_toysShift (E : EngineC R) : Keeps R (toysShift) := by unfold toysShift; keep E
macro_rules | `(tactic| keep1 $E) => `(tactic| with_reducible exact keeps_toysShift $E)
theorem keeps_toysColumn (E : EngineC R) (W : Stores R) : Keeps R (toysColumn) := by unfold toysColumn; keep E
macro_rules | `(tactic| keep1 $E) => `(tactic| with_reducible exact keeps_toysColumn $E (by assumption))
theorem keeps_toysRow (E : EngineC R) (W : Stores R) : Keeps R (toysRow) := by unfold toysRow; keep E
macro_rules | `(tactic| keep1 $E) => `(tactic| with_reducible exact keeps_toysRow $E (by assumption))
theorem keeps_toysLook (E : EngineC R) (n) : Keeps R (toysLook n) := by unfold toysLook; keep E
macro_rules | `(tactic| keep1 $E) => `(tactic| with_reducible exact keeps_toysLook $E _)
theorem keeps_toysTail (E : EngineC R) (W : Stores R) : Keeps R (toysTail) := by unfold toysTail; keep E
macro_rules | `(tactic| keep1 $E) => `(tactic| with_reducible exact keeps_toysTail $E (by assumption))
theorem keeps_toysFill (E : EngineC R) (W : Stores R) : Keeps R (toysFill) := by unfold toysFill; keep E
macro_rules | `(tactic| keep1 $E) => `(tactic| with_reducible exact keeps_toysFill $E (by assumption))
theorem keeps_toysBranch (E : EngineC R) : Keeps R (toysBranch) := by unfold toysBranch; keep E
macro_rules | `(tactic| keep1 $E) => `(tactic| with_reducible exact keeps_toysBranch $E)
theorem keeps_toysRandom (E : EngineC R) (W : Stores R) : Keeps R (toysRandom) := by unfold toysRandom; keep E
macro_rules | `(tactic| keep1 $E) => `(tactic| with_reducible exact keeps_toysRandom $E (by assumption))
theorem keeps_toysWait (E : EngineC R) : Keeps R (toysWait) := by unfold toysWait; keep E
macro_rules | `(tactic| keep1 $E) => `(tactic| with_reducible exact keeps_toysWait $E)
theorem keeps_toysStep (E : EngineC R) (n) : Keeps R (toysStep n) := by unfold toysStep; keep E
macro_rules | `(tactic| keep1 $E) => `(tactic| with_reducible exact keeps_toysStep $E _)
theorem keeps_fpdpBin (E : EngineC R) (f) : Keeps R (fpdpBin f) := by unfold fpdpBin; keep E
macro_rules | `(tactic| keep1 $E) => `(tactic| with_reducible exact keeps_fpdpBin $E _)
theorem keeps_fpdpPow (E : EngineC R) : Keeps R (fpdpPow) := by unfold fpdpPow; keep E
macro_rules | `(tactic| keep1 $E) => `(tactic| with_reducible exact keeps_fpdpPow $E)
theorem keeps_fpdpFn (E : EngineC R) (c) : Keeps R (fpdpFn c) := by unfold fpdpFn; keep E
macro_rules | `(tactic| keep1 $E) => `(tactic| with_reducible exact keeps_fpdpFn $E _)
theorem keeps_fpdpFromInt (E : EngineC R) : Keeps R (fpdpFromInt) := by unfold fpdpFromInt; keep E
macro_rules | `(tactic| keep1 $E) => `(tactic| with_reducible exact keeps_fpdpFromInt $E)
theorem keeps_fpdpToInt (E : EngineC R) : Keeps R (fpdpToInt) := by unfold fpdpToInt; keep E
macro_rules | `(tactic| keep1 $E) => `(tactic| with_reducible exact keeps_fpdpToInt $E)
theorem keeps_floatOut (E : EngineC R) (f) : Keeps R (floatOut f) := by unfold floatOut; keep E
macro_rules | `(tactic| keep1 $E) => `(tactic| with_reducible exact keeps_floatOut $E _)
theorem keeps_fpdpRead (E : EngineC R) : Keeps R (fpdpRead) := by unfold fpdpRead; keep E
macro_rules | `(tactic| keep1 $E) => `(tactic| with_reducible exact keeps_fpdpRead $E)
theorem keeps_fpspToStack : Keeps R fpspToStack := keeps_fault _
macro_rules | `(tactic| keep1 $_) => `(tactic| with_reducible exact keeps_fpspToStack)
theorem keeps_fpspBin (E : EngineC R) : Keeps R (fpspBin) := by unfold fpspBin; keep E
macro_rules | `(tactic| keep1 $E) => `(tactic| with_reducible exact keeps_fpspBin $E)
theorem keeps_fpspFn (E : EngineC R) : Keeps R (fpspFn) := by unfold fpspFn; keep E
macro_rules | `(tactic| keep1 $E) => `(tactic| with_reducible exact keeps_fpspFn $E)
theorem keeps_fpspToInt (E : EngineC R) : Keeps R (fpspToInt) := by unfold fpspToInt; keep E
macro_rules | `(tactic| keep1 $E) => `(tactic| with_reducible exact keeps_fpspToInt $E)
theorem keeps_fpspRead (E : EngineC R) : Keeps R (fpspRead) := by unfold fpspRead; keep E
macro_rules | `(tactic| keep1 $E) => `(tactic| with_reducible exact keeps_fpspRead $E)
theorem keeps_fprtPrint (E : EngineC R) (c f l) : Keeps R (fprtPrint c f l) := by unfold fprtPrint; keep E
macro_rules | `(tactic| keep1 $E) => `(tactic| with_reducible exact keeps_fprtPrint $E _ _ _)
theorem keeps_fprtCell (E : EngineC R) (c) : Keeps R (fprtCell c) := by unfold fprtCell; keep E
macro_rules | `(tactic| keep1 $E) => `(tactic| with_reducible exact keeps_fprtCell $E _)
theorem keeps_fprtLong (E : EngineC R) : Keeps R (fprtLong) := by unfold fprtLong; keep E
macro_rules | `(tactic| keep1 $E) => `(tactic| with_reducible exact keeps_fprtLong $E)
theorem keeps_fprtStr (E : EngineC R) : Keeps R (fprtStr) := by unfold fprtStr; keep E
macro_rules | `(tactic| keep1 $E) => `(tactic| with_reducible exact keeps_fprtStr $E)
theorem keeps_popLong (E : EngineC R) : Keeps R (popLong) := by unfold popLong; keep E
macro_rules | `(tactic| keep1 $E) => `(tactic| with_reducible exact keeps_popLong $E)
theorem keeps_pushLong (E : EngineC R) (n) : Keeps R (pushLong n) := by unfold pushLong; keep E
macro_rules | `(tactic| keep1 $E) => `(tactic| with_reducible exact keeps_pushLong $E _)
theorem keeps_longBin (E : EngineC R) (f) : Keeps R (longBin f) := by unfold longBin; keep E
macro_rules | `(tactic| keep1 $E) => `(tactic| with_reducible exact keeps_longBin $E _)
theorem keeps_longDiv (E : EngineC R) (f) : Keeps R (longDiv f) := by unfold longDiv; keep E
macro_rules | `(tactic| keep1 $E) => `(tactic| with_reducible exact keeps_longDiv $E _)
theorem keeps_longAbs (E : EngineC R) : Keeps R (longAbs) := by unfold longAbs; keep E
macro_rules | `(tactic| keep1 $E) => `(tactic| with_reducible exact keeps_longAbs $E)
theorem keeps_longExtend (E : EngineC R) : Keeps R (longExtend) := by unfold longExtend; keep E
macro_rules | `(tactic| keep1 $E) => `(tactic| with_reducible exact keeps_longExtend $E)
theorem keeps_longShift (E : EngineC R) (f) : Keeps R (longShift f) := by unfold longShift; keep E
macro_rules | `(tactic| keep1 $E) => `(tactic| with_reducible exact keeps_longShift $E _)
theorem keeps_longNeg (E : EngineC R) : Keeps R (longNeg) := by unfold longNeg; keep E
macro_rules | `(tactic| keep1 $E) => `(tactic| with_reducible exact keeps_longNeg $E)
theorem keeps_longOut (E : EngineC R) : Keeps R (longOut) := by unfold longOut; keep E
macro_rules | `(tactic| keep1 $E) => `(tactic| with_reducible exact keeps_longOut $E)
theorem keeps_longRead (E : EngineC R) : Keeps R (longRead) := by unfold longRead; keep E
macro_rules | `(tactic| keep1 $E) => `(tactic| with_reducible exact keeps_longRead $E)

/-! ### Instructions that depend on a permission -/

/-- The permissions. -/
def SamePerm (s s' : St) : Prop :=
  s'.g.cfg.execute = s.g.cfg.execute ∧ s'.g.cfg.filesystem = s.g.cfg.filesystem ∧ s'.g.cfg.concurrent = s.g.cfg.concurrent ∧
    s'.g.cfg.fingerprint = s.g.cfg.fingerprint

theorem SamePerm.rfl' (s : St) : SamePerm s s := ⟨rfl, rfl, rfl, rfl⟩

theorem engine_samePerm : Engine SamePerm where
  refl _ := ⟨rfl, rfl, rfl, rfl⟩
  trans _ _ _ h h' := ⟨h'.1.trans h.1, h'.2.1.trans h.2.1, h'.2.2.1.trans h.2.2.1, h'.2.2.2.trans h.2.2.2⟩
  stack _ _ _ _ _ _ := ⟨rfl, rfl, rfl, rfl⟩
  ssPush _ := ⟨rfl, rfl, rfl, rfl⟩
  ssPop _ _ _ := ⟨rfl, rfl, rfl, rfl⟩
  ssInsert _ _ _ _ := ⟨rfl, rfl, rfl, rfl⟩
  ssRemove _ _ _ _ := ⟨rfl, rfl, rfl, rfl⟩
  ssInc _ := ⟨rfl, rfl, rfl, rfl⟩
  ssDec _ := ⟨rfl, rfl, rfl, rfl⟩
  ip _ _ _ := ⟨rfl, rfl, rfl, rfl⟩
  stop _ := ⟨rfl, rfl, rfl, rfl⟩
  core _ _ _ := ⟨rfl, rfl, rfl, rfl⟩
  sems _ _ _ _ _ := ⟨rfl, rfl, rfl, rfl⟩
  load _ _ _ _ _ := ⟨rfl, rfl, rfl, rfl⟩
  glob _ _ _ _ _ := ⟨rfl, rfl, rfl, rfl⟩
  ref _ _ _ _ := ⟨rfl, rfl, rfl, rfl⟩
  out _ _ := ⟨rfl, rfl, rfl, rfl⟩
  system _ _ _ := ⟨rfl, rfl, rfl, rfl⟩
  openRead _ _ _ := ⟨rfl, rfl, rfl, rfl⟩
  openWrite _ _ _ := ⟨rfl, rfl, rfl, rfl⟩
  writeFile _ _ _ _ := ⟨rfl, rfl, rfl, rfl⟩
  put _ _ _ := ⟨rfl, rfl, rfl, rfl⟩
  parse _ _ _ _ _ := ⟨rfl, rfl, rfl, rfl⟩
  dims _ _ _ := ⟨rfl, rfl, rfl, rfl⟩
  clone _ _ _ _ := ⟨rfl, rfl, rfl, rfl⟩
  kill _ _ := ⟨rfl, rfl, rfl, rfl⟩
  mode _ _ := ⟨rfl, rfl, rfl, rfl⟩

end Funge

