import Verif.Lemmas.Twist
/-
Every instruction does the same in both runs.
-/
namespace Funge
open Exec

variable {T : Twist}

theorem comm₂_ite {α : Type} {c : Prop} [Decidable c] {a a' b b' : Exec α} (ha : Comm₂ T a a') (hb : Comm₂ T b b') :
    Comm₂ T (if c then a else b) (if c then a' else b') := by
  by_cases hc : c
  · simpa only [if_pos hc] using ha
  · simpa only [if_neg hc] using hb

/-- One step of `commute`. -/
syntax "commute1" : tactic
/-- Closes goals `Comm T m` for programs made of known pieces. -/
macro "commute" : tactic => `(tactic| repeat' (first
  | ((with_reducible refine comm_getbind fun _ => ?_); (dsimp only [Twist.st_cur, Twist.st_rest, Twist.st_field, Twist.st_cfg, Twist.st_refc, Twist.st_flt, Twist.st_nextId]); (first | with_reducible refine Comm.two ?_ | refine Comm.two ?_))
  | with_reducible refine comm_bind ?_ fun _ => ?_ | with_reducible exact comm_pure _ | commute1))

macro_rules | `(tactic| commute1) => `(tactic| dsimp only)
macro_rules | `(tactic| commute1) => `(tactic| split)
macro_rules | `(tactic| commute1) => `(tactic| with_reducible refine comm_bind ?_ fun _ => ?_)
macro_rules | `(tactic| commute1) => `(tactic| first
  | with_reducible exact comm_popTop
  | with_reducible exact comm_pushTop _
  | with_reducible exact comm_popSecond
  | with_reducible exact comm_pushSecond _
  | with_reducible exact comm_lift _
  | with_reducible exact comm_getDims
  | with_reducible exact comm_getCfg
  | with_reducible exact comm_getFlt
  | with_reducible exact comm_getLng
  | with_reducible exact comm_isMode _
  | with_reducible exact comm_numStacks
  | with_reducible exact comm_ipPos
  | with_reducible exact comm_ipDelta
  | with_reducible exact comm_ipStorage
  | with_reducible exact comm_ipGet
  | with_reducible exact comm_fieldGet _
  | with_reducible exact comm_subrTarget _
  | with_reducible exact comm_sizeTop
  | with_reducible exact comm_sizeSecond
  | with_reducible exact comm_getTop _
  | with_reducible exact comm_clearTop
  | with_reducible exact comm_onTop _
  | with_reducible exact comm_sizeAt _
  | with_reducible exact comm_onStacks _
  | with_reducible exact comm_siSelect _
  | with_reducible exact comm_ipNext
  | with_reducible exact comm_onIP _
  | with_reducible exact comm_setDelta _
  | with_reducible exact comm_fieldPut _ _
  | with_reducible exact comm_ipPut _
  | with_reducible exact comm_ask
  | with_reducible exact comm_askFile
  | with_reducible exact comm_askDir
  | with_reducible exact comm_getChar
  | with_reducible exact comm_emit _
  | with_reducible exact comm_killAll _
  | with_reducible exact comm_universeSetMode _
  | with_reducible exact comm_universeClearMode _
  | with_reducible exact comm_universeToggleMode _
  | with_reducible exact comm_growDims _
  | with_reducible exact comm_addBreakpoint _
  | with_reducible exact comm_addWatchpoint _
  | with_reducible exact comm_runnerPush _
  | with_reducible exact comm_enterString _
  | with_reducible exact comm_modCur _
  | with_reducible exact comm_cloneCur
  | with_reducible exact comm_onRunnerTop _ _
  | with_reducible exact comm_pure _
  | with_reducible exact comm_fault _)
macro_rules | `(tactic| commute1) => `(tactic| with_reducible assumption)

theorem comm_popN {pop : Exec Int} (h : Comm T pop) (n : Nat) : Comm T (popN pop n) := by
  induction n with
  | zero => exact comm_pure _
  | succ n ih => unfold popN; commute
macro_rules | `(tactic| commute1) => `(tactic| with_reducible refine comm_popN ?_ _)

theorem comm_pushAll {push : Int → Exec Unit} (h : ∀ v, Comm T (push v)) (l : List Int) : Comm T (pushAll push l) := by
  induction l with
  | nil => exact comm_pure _
  | cons x l ih => unfold pushAll; have := h x; commute
macro_rules | `(tactic| commute1) => `(tactic| with_reducible refine comm_pushAll (fun _ => ?_) _)

theorem comm_pushVectorOn {push : Int → Exec Unit} (h : ∀ v, Comm T (push v)) (v) : Comm T (pushVectorOn push v) := by
  unfold pushVectorOn; commute; exact h _
macro_rules | `(tactic| commute1) => `(tactic| with_reducible refine comm_pushVectorOn (fun _ => ?_) _)
theorem comm_pushVector (v) : Comm T (pushVector v) := by unfold pushVector; commute
macro_rules | `(tactic| commute1) => `(tactic| with_reducible exact comm_pushVector _)

theorem comm_popVectorLoop {pop : Exec Int} (h : Comm T pop) (n : Nat) (v) : Comm T (popVectorLoop pop n v) := by
  induction n generalizing v with
  | zero => exact comm_pure _
  | succ n ih => unfold popVectorLoop; exact comm_bind h fun _ => ih _
theorem comm_popVectorOn {pop : Exec Int} (h : Comm T pop) : Comm T (popVectorOn pop) := by
  unfold popVectorOn; exact comm_bind (comm_getDims) fun _ => comm_popVectorLoop h _ _
macro_rules | `(tactic| commute1) => `(tactic| with_reducible refine comm_popVectorOn ?_)
theorem comm_popVector : Comm T popVector := by unfold popVector; commute
macro_rules | `(tactic| commute1) => `(tactic| with_reducible exact comm_popVector)

theorem comm_pushString (v) : Comm T (pushString v) := by unfold pushString; commute
macro_rules | `(tactic| commute1) => `(tactic| with_reducible exact comm_pushString _)
theorem comm_popStringLoop (n acc) : Comm T (popStringLoop n acc) := by
  induction n generalizing acc with
  | zero => exact comm_fault _
  | succ n ih => unfold popStringLoop; have := fun c => ih (toChar c :: acc); commute; apply ih
theorem comm_popString : Comm T popString := by
  unfold popString; exact comm_bind (comm_sizeTop) fun _ => comm_popStringLoop _ _
macro_rules | `(tactic| commute1) => `(tactic| with_reducible exact comm_popString)
theorem comm_random (a b) : Comm T (random a b) := by unfold random; commute
macro_rules | `(tactic| commute1) => `(tactic| with_reducible exact comm_random _ _)
theorem comm_iPush (n) : Comm T (iPush n) := by unfold iPush; commute
macro_rules | `(tactic| commute1) => `(tactic| with_reducible exact comm_iPush _)
theorem comm_iGo (v) : Comm T (iGo v) := by unfold iGo; commute
macro_rules | `(tactic| commute1) => `(tactic| with_reducible exact comm_iGo _)
theorem comm_iStop : Comm T (iStop) := by unfold iStop; commute
macro_rules | `(tactic| commute1) => `(tactic| with_reducible exact comm_iStop)
theorem comm_iTrampoline : Comm T (iTrampoline) := by unfold iTrampoline; commute
macro_rules | `(tactic| commute1) => `(tactic| with_reducible exact comm_iTrampoline)
theorem comm_iIf (a b) : Comm T (iIf a b) := by unfold iIf; commute
macro_rules | `(tactic| commute1) => `(tactic| with_reducible exact comm_iIf _ _)
theorem comm_iGoAway : Comm T (iGoAway) := by unfold iGoAway; commute
macro_rules | `(tactic| commute1) => `(tactic| with_reducible exact comm_iGoAway)
theorem comm_iNot : Comm T (iNot) := by unfold iNot; commute
macro_rules | `(tactic| commute1) => `(tactic| with_reducible exact comm_iNot)
theorem comm_iBin (f) : Comm T (iBin f) := by unfold iBin; commute
macro_rules | `(tactic| commute1) => `(tactic| with_reducible exact comm_iBin _)
theorem comm_iPop : Comm T (iPop) := by unfold iPop; commute
macro_rules | `(tactic| commute1) => `(tactic| with_reducible exact comm_iPop)
theorem comm_iDup : Comm T (iDup) := by unfold iDup; commute
macro_rules | `(tactic| commute1) => `(tactic| with_reducible exact comm_iDup)
theorem comm_iSwap : Comm T (iSwap) := by unfold iSwap; commute
macro_rules | `(tactic| commute1) => `(tactic| with_reducible exact comm_iSwap)
theorem comm_iNumIn : Comm T (iNumIn) := by
  rw [iNumIn_taking]
  refine comm_bind comm_takeNum fun q => ?_
  commute
macro_rules | `(tactic| commute1) => `(tactic| with_reducible exact comm_iNumIn)
theorem comm_iCharIn : Comm T (iCharIn) := by unfold iCharIn; commute
macro_rules | `(tactic| commute1) => `(tactic| with_reducible exact comm_iCharIn)
theorem comm_iString (q) : Comm T (iString q) := by unfold iString; commute
macro_rules | `(tactic| commute1) => `(tactic| with_reducible exact comm_iString _)
theorem comm_iCharOut : Comm T (iCharOut) := by unfold iCharOut; commute
macro_rules | `(tactic| commute1) => `(tactic| with_reducible exact comm_iCharOut)
theorem comm_iNumOut : Comm T (iNumOut) := by unfold iNumOut; commute
macro_rules | `(tactic| commute1) => `(tactic| with_reducible exact comm_iNumOut)
theorem comm_iGet : Comm T (iGet) := by unfold iGet; commute
macro_rules | `(tactic| commute1) => `(tactic| with_reducible exact comm_iGet)
theorem comm_iPut : Comm T (iPut) := by unfold iPut; commute
macro_rules | `(tactic| commute1) => `(tactic| with_reducible exact comm_iPut)
theorem comm_switchPut (c) : Comm T (switchPut c) := by unfold switchPut; commute
macro_rules | `(tactic| commute1) => `(tactic| with_reducible exact comm_switchPut _)
theorem comm_iLeft : Comm T (iLeft) := by unfold iLeft; commute
macro_rules | `(tactic| commute1) => `(tactic| with_reducible exact comm_iLeft)
theorem comm_iRight : Comm T (iRight) := by unfold iRight; commute
macro_rules | `(tactic| commute1) => `(tactic| with_reducible exact comm_iRight)
theorem comm_iCompare : Comm T (iCompare) := by unfold iCompare; commute
macro_rules | `(tactic| commute1) => `(tactic| with_reducible exact comm_iCompare)
theorem comm_iHigh : Comm T (iHigh) := by unfold iHigh; commute
macro_rules | `(tactic| commute1) => `(tactic| with_reducible exact comm_iHigh)
theorem comm_iLow : Comm T (iLow) := by unfold iLow; commute
macro_rules | `(tactic| commute1) => `(tactic| with_reducible exact comm_iLow)

theorem comm₂_untilSemi : ∀ n n', n ≤ n' → Comm₂ T (untilSemi n) (untilSemi n') := by
  intro n
  induction n with
  | zero => exact fun _ _ => comm₂_fuel
  | succ n ih =>
    intro n' h
    cases n' with
    | zero => omega
    | succ n' =>
      unfold untilSemi
      exact comm₂_bind comm_ipNext fun _ => comm₂_bind comm_ipGet fun c => comm₂_ite (comm_pure _) (ih _ (by omega))
theorem comm₂_untilSemiChar : ∀ n n', n ≤ n' → Comm₂ T (untilSemiChar n) (untilSemiChar n') := by
  intro n
  induction n with
  | zero => exact fun _ _ => comm₂_fuel
  | succ n ih =>
    intro n' h
    cases n' with
    | zero => omega
    | succ n' =>
      unfold untilSemiChar
      exact comm₂_bind comm_ipNext fun _ => comm₂_bind comm_ipGet fun c => comm₂_ite (comm_pure _) (ih _ (by omega))
theorem comm_ipNextN (n) : Comm T (ipNextN n) := by
  induction n with
  | zero => exact comm_pure _
  | succ n ih => unfold ipNextN; commute
macro_rules | `(tactic| commute1) => `(tactic| with_reducible exact comm_ipNextN _)
theorem comm₂_iterSearch : ∀ n n', n ≤ n' → ∀ c, Comm₂ T (iterSearch n c) (iterSearch n' c) := by
  intro n
  induction n with
  | zero => exact fun _ _ _ => comm₂_fuel
  | succ n ih =>
    intro n' h c
    cases n' with
    | zero => omega
    | succ n' =>
      unfold iterSearch
      refine comm₂_ite ?_ (comm₂_ite ?_ (comm_pure _))
      · exact comm₂_bind (comm₂_untilSemiChar _ _ (by omega)) fun _ => comm₂_bind comm_ipNext fun _ => comm₂_bind comm_ipGet fun c => ih _ (by omega) _
      · exact comm₂_bind comm_ipNext fun _ => comm₂_bind comm_ipGet fun c => ih _ (by omega) _
theorem comm₂_iterRun {exec exec' : Int → Exec Err} (h : ∀ c, Comm₂ T (exec c) (exec' c)) (c n) : Comm₂ T (iterRun exec c n) (iterRun exec' c n) := by
  induction n with
  | zero => exact comm_pure _
  | succ n ih => unfold iterRun; exact comm₂_bind (h c) fun _ => ih
theorem comm₂_getFuel {α : Type} {f f' : Nat → Exec α} (h : ∀ n n', n ≤ n' → Comm₂ T (f n) (f' n')) : Comm₂ T (getFuel >>= f) (getFuel >>= f') :=
  fun s => h s.g.fuel (s.g.fuel + T.extra) (Nat.le_add_right ..) s
theorem comm₂_iIterate {exec exec' : Int → Exec Err} (h : ∀ c, Comm₂ T (exec c) (exec' c)) : Comm₂ T (iIterate exec) (iIterate exec') := by
  unfold iIterate
  refine comm₂_bind comm_ipPos fun v => comm₂_bind comm_ipNext fun _ => comm₂_bind comm_ipGet fun c => comm₂_getFuel fun n n' hn => ?_
  refine comm₂_bind (comm₂_iterSearch _ _ hn _) fun c => comm₂_bind (comm_onIP _) fun _ => comm₂_bind comm_popTop fun x => ?_
  dsimp only
  refine comm₂_bind (comm₂_iterRun h _ _) fun _ => Comm.two ?_
  commute
theorem comm_moveN {pop : Exec Int} {push : Int → Exec Unit} (h1 : Comm T pop) (h2 : ∀ v, Comm T (push v)) (n) :
    Comm T (moveN pop push n) := by
  induction n with
  | zero => exact comm_pure _
  | succ n ih => unfold moveN; commute; apply h2
macro_rules | `(tactic| commute1) => `(tactic| with_reducible refine comm_moveN ?_ (fun _ => ?_) _)
theorem comm_popFingerprint (n acc) : Comm T (popFingerprint n acc) := by
  induction n generalizing acc with
  | zero => exact comm_pure _
  | succ n ih => unfold popFingerprint; commute; apply ih
macro_rules | `(tactic| commute1) => `(tactic| with_reducible exact comm_popFingerprint _ _)
theorem comm_pushStrings (l) : Comm T (pushStrings l) := by
  induction l with
  | nil => exact comm_pure _
  | cons x l ih => unfold pushStrings; commute
macro_rules | `(tactic| commute1) => `(tactic| with_reducible exact comm_pushStrings _)
theorem comm_pushSizes (n) : Comm T (pushSizes n) := by
  induction n with
  | zero => exact comm_pure _
  | succ n ih => unfold pushSizes; commute
macro_rules | `(tactic| commute1) => `(tactic| with_reducible exact comm_pushSizes _)
theorem comm_dropN (n) : Comm T (dropN n) := by
  induction n with
  | zero => exact comm_pure _
  | succ n ih => unfold dropN; commute
macro_rules | `(tactic| commute1) => `(tactic| with_reducible exact comm_dropN _)
theorem comm_iJumpOver : Comm T (iJumpOver) := by
  unfold iJumpOver
  exact comm_getFuel fun n n' h => comm₂_bind (comm₂_untilSemi _ _ h) fun _ => comm_pure _
macro_rules | `(tactic| commute1) => `(tactic| with_reducible exact comm_iJumpOver)
theorem comm_iJumpForward : Comm T (iJumpForward) := by unfold iJumpForward; commute
macro_rules | `(tactic| commute1) => `(tactic| with_reducible exact comm_iJumpForward)
theorem comm_iReflect : Comm T (iReflect) := by unfold iReflect; commute
macro_rules | `(tactic| commute1) => `(tactic| with_reducible exact comm_iReflect)
theorem comm_iAbsolute : Comm T (iAbsolute) := by unfold iAbsolute; commute
macro_rules | `(tactic| commute1) => `(tactic| with_reducible exact comm_iAbsolute)
theorem comm_iQuit : Comm T (iQuit) := by unfold iQuit; commute
macro_rules | `(tactic| commute1) => `(tactic| with_reducible exact comm_iQuit)
theorem comm_iClear : Comm T (iClear) := by unfold iClear; commute
macro_rules | `(tactic| commute1) => `(tactic| with_reducible exact comm_iClear)
theorem comm_iUnder : Comm T (iUnder) := by unfold iUnder; commute
macro_rules | `(tactic| commute1) => `(tactic| with_reducible exact comm_iUnder)
theorem comm_iBegin : Comm T (iBegin) := by unfold iBegin; commute
macro_rules | `(tactic| commute1) => `(tactic| with_reducible exact comm_iBegin)
theorem comm_iEnd : Comm T (iEnd) := by unfold iEnd; commute
macro_rules | `(tactic| commute1) => `(tactic| with_reducible exact comm_iEnd)
theorem comm_iFetch : Comm T (iFetch) := by unfold iFetch; commute
macro_rules | `(tactic| commute1) => `(tactic| with_reducible exact comm_iFetch)
theorem comm_iStore : Comm T (iStore) := by unfold iStore; commute
macro_rules | `(tactic| commute1) => `(tactic| with_reducible exact comm_iStore)
theorem comm_pushSysInfo (n) : Comm T (pushSysInfo n) := by unfold pushSysInfo; commute
macro_rules | `(tactic| commute1) => `(tactic| with_reducible exact comm_pushSysInfo _)
theorem comm_iSysInfo : Comm T (iSysInfo) := by unfold iSysInfo; commute
macro_rules | `(tactic| commute1) => `(tactic| with_reducible exact comm_iSysInfo)

theorem comm_checkTop (n) {k : Exec Err} (h : Comm T k) : Comm T (checkTop n k) := by unfold checkTop; commute
macro_rules | `(tactic| commute1) => `(tactic| with_reducible refine comm_checkTop _ ?_)
theorem comm_checkSecond (n) {k : Exec Err} (h : Comm T k) : Comm T (checkSecond n k) := by unfold checkSecond; commute
macro_rules | `(tactic| commute1) => `(tactic| with_reducible refine comm_checkSecond _ ?_)
theorem comm_checkSelected (n) {k : Exec Err} (h : Comm T k) : Comm T (checkSelected n k) := by unfold checkSelected; commute
macro_rules | `(tactic| commute1) => `(tactic| with_reducible refine comm_checkSelected _ ?_)
theorem comm_fishPush (n) : Comm T (fishPush n) := by unfold fishPush; commute
macro_rules | `(tactic| commute1) => `(tactic| with_reducible exact comm_fishPush _)
theorem comm_fishInt (n) : Comm T (fishInt n) := by unfold fishInt; commute
macro_rules | `(tactic| commute1) => `(tactic| with_reducible exact comm_fishInt _)
theorem comm_fishPopInt : Comm T (fishPopInt) := by unfold fishPopInt; commute
macro_rules | `(tactic| commute1) => `(tactic| with_reducible exact comm_fishPopInt)
theorem comm_fishPopSize : Comm T (fishPopSize) := by unfold fishPopSize; commute
macro_rules | `(tactic| commute1) => `(tactic| with_reducible exact comm_fishPopSize)
theorem comm_fishPopChar : Comm T (fishPopChar) := by unfold fishPopChar; commute
macro_rules | `(tactic| commute1) => `(tactic| with_reducible exact comm_fishPopChar)
theorem comm_fishPopVectorOn {pop : Exec Int} (h : Comm T pop) : Comm T (fishPopVectorOn pop) := by
  unfold fishPopVectorOn; commute
macro_rules | `(tactic| commute1) => `(tactic| with_reducible refine comm_fishPopVectorOn ?_)
theorem comm_fishPushVectorOn {push : Int → Exec Unit} (h : ∀ v, Comm T (push v)) (v) : Comm T (fishPushVectorOn push v) := by
  unfold fishPushVectorOn; commute; apply h
macro_rules | `(tactic| commute1) => `(tactic| with_reducible refine comm_fishPushVectorOn (fun _ => ?_) _)
theorem comm_fiPush (n) : Comm T (fiPush n) := by unfold fiPush; commute
macro_rules | `(tactic| commute1) => `(tactic| with_reducible exact comm_fiPush _)
theorem comm_fiMirror1 : Comm T (fiMirror1) := by unfold fiMirror1; commute
macro_rules | `(tactic| commute1) => `(tactic| with_reducible exact comm_fiMirror1)
theorem comm_fiMirror2 : Comm T (fiMirror2) := by unfold fiMirror2; commute
macro_rules | `(tactic| commute1) => `(tactic| with_reducible exact comm_fiMirror2)
theorem comm_fiMirrorVert : Comm T (fiMirrorVert) := by unfold fiMirrorVert; commute
macro_rules | `(tactic| commute1) => `(tactic| with_reducible exact comm_fiMirrorVert)
theorem comm_fiMirrorHori : Comm T (fiMirrorHori) := by unfold fiMirrorHori; commute
macro_rules | `(tactic| commute1) => `(tactic| with_reducible exact comm_fiMirrorHori)
theorem comm_fiMirrorAll : Comm T (fiMirrorAll) := by unfold fiMirrorAll; commute
macro_rules | `(tactic| commute1) => `(tactic| with_reducible exact comm_fiMirrorAll)
theorem comm_fiConditional : Comm T (fiConditional) := by unfold fiConditional; commute
macro_rules | `(tactic| commute1) => `(tactic| with_reducible exact comm_fiConditional)
theorem comm_fiJump : Comm T (fiJump) := by unfold fiJump; commute
macro_rules | `(tactic| commute1) => `(tactic| with_reducible exact comm_fiJump)
theorem comm_fiBin (f) : Comm T (fiBin f) := by unfold fiBin; commute
macro_rules | `(tactic| commute1) => `(tactic| with_reducible exact comm_fiBin _)
theorem comm_fiDiv : Comm T (fiDiv) := by unfold fiDiv; commute
macro_rules | `(tactic| commute1) => `(tactic| with_reducible exact comm_fiDiv)
theorem comm_fiModu : Comm T (fiModu) := by unfold fiModu; commute
macro_rules | `(tactic| commute1) => `(tactic| with_reducible exact comm_fiModu)
theorem comm_fiDuplicate : Comm T (fiDuplicate) := by unfold fiDuplicate; commute
macro_rules | `(tactic| commute1) => `(tactic| with_reducible exact comm_fiDuplicate)
theorem comm_fiRemove : Comm T (fiRemove) := by unfold fiRemove; commute
macro_rules | `(tactic| commute1) => `(tactic| with_reducible exact comm_fiRemove)
theorem comm_fiSwap2 : Comm T (fiSwap2) := by unfold fiSwap2; commute
macro_rules | `(tactic| commute1) => `(tactic| with_reducible exact comm_fiSwap2)
theorem comm_fiSwap3 : Comm T (fiSwap3) := by unfold fiSwap3; commute
macro_rules | `(tactic| commute1) => `(tactic| with_reducible exact comm_fiSwap3)
theorem comm_fiLength : Comm T (fiLength) := by unfold fiLength; commute
macro_rules | `(tactic| commute1) => `(tactic| with_reducible exact comm_fiLength)
theorem comm_fiShiftLeft : Comm T (fiShiftLeft) := by unfold fiShiftLeft; commute
macro_rules | `(tactic| commute1) => `(tactic| with_reducible exact comm_fiShiftLeft)
theorem comm_fiShiftRight : Comm T (fiShiftRight) := by unfold fiShiftRight; commute
macro_rules | `(tactic| commute1) => `(tactic| with_reducible exact comm_fiShiftRight)
theorem comm_fiReverse : Comm T (fiReverse) := by unfold fiReverse; commute
macro_rules | `(tactic| commute1) => `(tactic| with_reducible exact comm_fiReverse)
theorem comm_fiCreateStack : Comm T (fiCreateStack) := by unfold fiCreateStack; commute
macro_rules | `(tactic| commute1) => `(tactic| with_reducible exact comm_fiCreateStack)
theorem comm_fiRemoveStack : Comm T (fiRemoveStack) := by unfold fiRemoveStack; commute
macro_rules | `(tactic| commute1) => `(tactic| with_reducible exact comm_fiRemoveStack)
theorem comm_fiOutChar : Comm T (fiOutChar) := by unfold fiOutChar; commute
macro_rules | `(tactic| commute1) => `(tactic| with_reducible exact comm_fiOutChar)
theorem comm_fiOutInt : Comm T (fiOutInt) := by unfold fiOutInt; commute
macro_rules | `(tactic| commute1) => `(tactic| with_reducible exact comm_fiOutInt)
theorem comm_fiIn : Comm T (fiIn) := by unfold fiIn; commute
macro_rules | `(tactic| commute1) => `(tactic| with_reducible exact comm_fiIn)
theorem comm_fiGet : Comm T (fiGet) := by unfold fiGet; commute
macro_rules | `(tactic| commute1) => `(tactic| with_reducible exact comm_fiGet)
theorem comm_fiPut : Comm T (fiPut) := by unfold fiPut; commute
macro_rules | `(tactic| commute1) => `(tactic| with_reducible exact comm_fiPut)
theorem comm_fiRegister : Comm T (fiRegister) := by unfold fiRegister; commute
macro_rules | `(tactic| commute1) => `(tactic| with_reducible exact comm_fiRegister)
theorem comm_siFisherman : Comm T (siFisherman) := by unfold siFisherman; commute
macro_rules | `(tactic| commute1) => `(tactic| with_reducible exact comm_siFisherman)
theorem comm_siCall : Comm T (siCall) := by unfold siCall; commute
macro_rules | `(tactic| commute1) => `(tactic| with_reducible exact comm_siCall)
theorem comm_siReturn : Comm T (siReturn) := by unfold siReturn; commute
macro_rules | `(tactic| commute1) => `(tactic| with_reducible exact comm_siReturn)
theorem comm_siDive : Comm T (siDive) := by unfold siDive; commute
macro_rules | `(tactic| commute1) => `(tactic| with_reducible exact comm_siDive)
theorem comm_siRise : Comm T (siRise) := by unfold siRise; commute
macro_rules | `(tactic| commute1) => `(tactic| with_reducible exact comm_siRise)
theorem comm_siSleep : Comm T (siSleep) := by unfold siSleep; commute
macro_rules | `(tactic| commute1) => `(tactic| with_reducible exact comm_siSleep)
theorem comm_siTime : Comm T (siTime) := by unfold siTime; commute
macro_rules | `(tactic| commute1) => `(tactic| with_reducible exact comm_siTime)
theorem comm_bitNot : Comm T (bitNot) := by unfold bitNot; commute
macro_rules | `(tactic| commute1) => `(tactic| with_reducible exact comm_bitNot)
theorem comm_frthDepth : Comm T (frthDepth) := by unfold frthDepth; commute
macro_rules | `(tactic| commute1) => `(tactic| with_reducible exact comm_frthDepth)
theorem comm_frthRoll : Comm T (frthRoll) := by unfold frthRoll; commute
macro_rules | `(tactic| commute1) => `(tactic| with_reducible exact comm_frthRoll)
theorem comm_frthOver : Comm T (frthOver) := by unfold frthOver; commute
macro_rules | `(tactic| commute1) => `(tactic| with_reducible exact comm_frthOver)
theorem comm_frthPick : Comm T (frthPick) := by unfold frthPick; commute
macro_rules | `(tactic| commute1) => `(tactic| with_reducible exact comm_frthPick)
theorem comm_frthRot : Comm T (frthRot) := by unfold frthRot; commute
macro_rules | `(tactic| commute1) => `(tactic| with_reducible exact comm_frthRot)
theorem comm_popComplex : Comm T (popComplex) := by unfold popComplex; commute
macro_rules | `(tactic| commute1) => `(tactic| with_reducible exact comm_popComplex)
theorem comm_pushComplex (a b) : Comm T (pushComplex a b) := by unfold pushComplex; commute
macro_rules | `(tactic| commute1) => `(tactic| with_reducible exact comm_pushComplex _ _)
theorem comm_cpliAdd : Comm T (cpliAdd) := by unfold cpliAdd; commute
macro_rules | `(tactic| commute1) => `(tactic| with_reducible exact comm_cpliAdd)
theorem comm_cpliSub : Comm T (cpliSub) := by unfold cpliSub; commute
macro_rules | `(tactic| commute1) => `(tactic| with_reducible exact comm_cpliSub)
theorem comm_cpliMul : Comm T (cpliMul) := by unfold cpliMul; commute
macro_rules | `(tactic| commute1) => `(tactic| with_reducible exact comm_cpliMul)
theorem comm_cpliOut : Comm T (cpliOut) := by unfold cpliOut; commute
macro_rules | `(tactic| commute1) => `(tactic| with_reducible exact comm_cpliOut)

theorem comm_modeToggle (m) : Comm T (modeToggle m) := by unfold modeToggle; commute
macro_rules | `(tactic| commute1) => `(tactic| with_reducible exact comm_modeToggle _)
theorem comm_mathFn (f c l) : Comm T (mathFn f c l) := by unfold mathFn; commute
macro_rules | `(tactic| commute1) => `(tactic| with_reducible exact comm_mathFn _ _ _)
theorem comm_cpliDiv : Comm T (cpliDiv) := by unfold cpliDiv; commute
macro_rules | `(tactic| commute1) => `(tactic| with_reducible exact comm_cpliDiv)
theorem comm_cpliAbs : Comm T (cpliAbs) := by unfold cpliAbs; commute
macro_rules | `(tactic| commute1) => `(tactic| with_reducible exact comm_cpliAbs)
theorem comm_fixpFn (c) : Comm T (fixpFn c) := by unfold fixpFn; commute
macro_rules | `(tactic| commute1) => `(tactic| with_reducible exact comm_fixpFn _)
theorem comm_fixpPow : Comm T (fixpPow) := by unfold fixpPow; commute
macro_rules | `(tactic| commute1) => `(tactic| with_reducible exact comm_fixpPow)
theorem comm_fgConditional : Comm T (fgConditional) := by unfold fgConditional; commute
macro_rules | `(tactic| commute1) => `(tactic| with_reducible exact comm_fgConditional)
theorem comm_fgFisherman : Comm T (fgFisherman) := by unfold fgFisherman; commute
macro_rules | `(tactic| commute1) => `(tactic| with_reducible exact comm_fgFisherman)
theorem comm_fgShiftLeft : Comm T (fgShiftLeft) := by unfold fgShiftLeft; commute
macro_rules | `(tactic| commute1) => `(tactic| with_reducible exact comm_fgShiftLeft)
theorem comm_fgShiftRight : Comm T (fgShiftRight) := by unfold fgShiftRight; commute
macro_rules | `(tactic| commute1) => `(tactic| with_reducible exact comm_fgShiftRight)
theorem comm_fgReverse : Comm T (fgReverse) := by unfold fgReverse; commute
macro_rules | `(tactic| commute1) => `(tactic| with_reducible exact comm_fgReverse)
theorem comm_fgSwap3 : Comm T (fgSwap3) := by unfold fgSwap3; commute
macro_rules | `(tactic| commute1) => `(tactic| with_reducible exact comm_fgSwap3)
theorem comm_fixpRandom : Comm T (fixpRandom) := by unfold fixpRandom; commute
macro_rules | `(tactic| commute1) => `(tactic| with_reducible exact comm_fixpRandom)
theorem comm_fixpNeg : Comm T (fixpNeg) := by unfold fixpNeg; commute
macro_rules | `(tactic| commute1) => `(tactic| with_reducible exact comm_fixpNeg)
theorem comm_fixpSign : Comm T (fixpSign) := by unfold fixpSign; commute
macro_rules | `(tactic| commute1) => `(tactic| with_reducible exact comm_fixpSign)
theorem comm_fixpAbs : Comm T (fixpAbs) := by unfold fixpAbs; commute
macro_rules | `(tactic| commute1) => `(tactic| with_reducible exact comm_fixpAbs)
theorem comm_hrtiTimer : Comm T (hrtiTimer) := by unfold hrtiTimer; commute
macro_rules | `(tactic| commute1) => `(tactic| with_reducible exact comm_hrtiTimer)
theorem comm_hrtiMark : Comm T (hrtiMark) := by unfold hrtiMark; commute
macro_rules | `(tactic| commute1) => `(tactic| with_reducible exact comm_hrtiMark)
theorem comm_hrtiErase : Comm T (hrtiErase) := by unfold hrtiErase; commute
macro_rules | `(tactic| commute1) => `(tactic| with_reducible exact comm_hrtiErase)
theorem comm_hrtiSecond : Comm T (hrtiSecond) := by unfold hrtiSecond; commute
macro_rules | `(tactic| commute1) => `(tactic| with_reducible exact comm_hrtiSecond)
theorem comm_jstrGetLoop (vd n v) : Comm T (jstrGetLoop vd n v) := by
  induction n generalizing v with
  | zero => exact comm_pure _
  | succ n ih => unfold jstrGetLoop; commute; apply ih
macro_rules | `(tactic| commute1) => `(tactic| with_reducible exact comm_jstrGetLoop _ _ _)
theorem comm_jstrPutLoop (vd n v) : Comm T (jstrPutLoop vd n v) := by
  induction n generalizing v with
  | zero => exact comm_pure _
  | succ n ih => unfold jstrPutLoop; commute; apply ih
macro_rules | `(tactic| commute1) => `(tactic| with_reducible exact comm_jstrPutLoop _ _ _)
theorem comm_jstrGet : Comm T (jstrGet) := by unfold jstrGet; commute
macro_rules | `(tactic| commute1) => `(tactic| with_reducible exact comm_jstrGet)
theorem comm_jstrPut : Comm T (jstrPut) := by unfold jstrPut; commute
macro_rules | `(tactic| commute1) => `(tactic| with_reducible exact comm_jstrPut)
theorem comm_orthGet : Comm T (orthGet) := by unfold orthGet; commute
macro_rules | `(tactic| commute1) => `(tactic| with_reducible exact comm_orthGet)
theorem comm_orthPut : Comm T (orthPut) := by unfold orthPut; commute
macro_rules | `(tactic| commute1) => `(tactic| with_reducible exact comm_orthPut)
theorem comm_orthOut : Comm T (orthOut) := by unfold orthOut; commute
macro_rules | `(tactic| commute1) => `(tactic| with_reducible exact comm_orthOut)
theorem comm_orthDelta (n) : Comm T (orthDelta n) := by unfold orthDelta; commute
macro_rules | `(tactic| commute1) => `(tactic| with_reducible exact comm_orthDelta _)
theorem comm_orthPos (n) : Comm T (orthPos n) := by unfold orthPos; commute
macro_rules | `(tactic| commute1) => `(tactic| with_reducible exact comm_orthPos _)
theorem comm_nfunGo (v n) : Comm T (nfunGo v n) := by unfold nfunGo; commute
macro_rules | `(tactic| commute1) => `(tactic| with_reducible exact comm_nfunGo _ _)
theorem comm_nfunHL (v w n) : Comm T (nfunHL v w n) := by unfold nfunHL; commute
macro_rules | `(tactic| commute1) => `(tactic| with_reducible exact comm_nfunHL _ _ _)
theorem comm_nfunIf (v w n) : Comm T (nfunIf v w n) := by unfold nfunIf; commute
macro_rules | `(tactic| commute1) => `(tactic| with_reducible exact comm_nfunIf _ _ _)
theorem comm_axisVec (n x) : Comm T (axisVec n x) := by unfold axisVec; commute
macro_rules | `(tactic| commute1) => `(tactic| with_reducible exact comm_axisVec _ _)
theorem comm_nfunIfN : Comm T (nfunIfN) := by unfold nfunIfN; commute
macro_rules | `(tactic| commute1) => `(tactic| with_reducible exact comm_nfunIfN)
theorem comm_nfunGoN (n) : Comm T (nfunGoN n) := by unfold nfunGoN; commute
macro_rules | `(tactic| commute1) => `(tactic| with_reducible exact comm_nfunGoN _)
theorem comm_subrMode (n) : Comm T (subrMode n) := by unfold subrMode; commute
macro_rules | `(tactic| commute1) => `(tactic| with_reducible exact comm_subrMode _)
theorem comm_subrPops (n) : Comm T (subrPops n) := by unfold subrPops; commute
macro_rules | `(tactic| commute1) => `(tactic| with_reducible exact comm_subrPops _)
theorem comm_subrCall : Comm T (subrCall) := by unfold subrCall; commute
macro_rules | `(tactic| commute1) => `(tactic| with_reducible exact comm_subrCall)
theorem comm_subrJump : Comm T (subrJump) := by unfold subrJump; commute
macro_rules | `(tactic| commute1) => `(tactic| with_reducible exact comm_subrJump)
theorem comm_subrReturn : Comm T (subrReturn) := by unfold subrReturn; commute
macro_rules | `(tactic| commute1) => `(tactic| with_reducible exact comm_subrReturn)
theorem comm_refcDeref : Comm T (refcDeref) := by unfold refcDeref; commute
macro_rules | `(tactic| commute1) => `(tactic| with_reducible exact comm_refcDeref)
theorem comm_printNum (n b) : Comm T (printNum n b) := by unfold printNum; commute
macro_rules | `(tactic| commute1) => `(tactic| with_reducible exact comm_printNum _ _)
theorem comm_basePrint (n) : Comm T (basePrint n) := by unfold basePrint; commute
macro_rules | `(tactic| commute1) => `(tactic| with_reducible exact comm_basePrint _)
theorem comm_basePrintN : Comm T (basePrintN) := by unfold basePrintN; commute
macro_rules | `(tactic| commute1) => `(tactic| with_reducible exact comm_basePrintN)
theorem comm_readNum (n) : Comm T (readNum n) := by
  rw [readNum_taking]
  refine comm_bind comm_takeWord fun q => ?_
  commute
macro_rules | `(tactic| commute1) => `(tactic| with_reducible exact comm_readNum _)
theorem comm_baseRead : Comm T (baseRead) := by unfold baseRead; commute
macro_rules | `(tactic| commute1) => `(tactic| with_reducible exact comm_baseRead)
theorem comm_pushStr (n) : Comm T (pushStr n) := by unfold pushStr; commute
macro_rules | `(tactic| commute1) => `(tactic| with_reducible exact comm_pushStr _)
theorem comm_strnAppend : Comm T (strnAppend) := by unfold strnAppend; commute
macro_rules | `(tactic| commute1) => `(tactic| with_reducible exact comm_strnAppend)
theorem comm_strnCompare : Comm T (strnCompare) := by unfold strnCompare; commute
macro_rules | `(tactic| commute1) => `(tactic| with_reducible exact comm_strnCompare)
theorem comm_strnDisplay : Comm T (strnDisplay) := by unfold strnDisplay; commute
macro_rules | `(tactic| commute1) => `(tactic| with_reducible exact comm_strnDisplay)
theorem comm_strnFind : Comm T (strnFind) := by unfold strnFind; commute
macro_rules | `(tactic| commute1) => `(tactic| with_reducible exact comm_strnFind)
theorem comm₂_strnGetLoop : ∀ n n', n ≤ n' → ∀ v acc, Comm₂ T (strnGetLoop n v acc) (strnGetLoop n' v acc) := by
  intro n
  induction n with
  | zero => exact fun _ _ _ _ => comm₂_fuel
  | succ n ih =>
    intro n' h v acc
    cases n' with
    | zero => omega
    | succ n' =>
      unfold strnGetLoop
      exact comm₂_bind (comm_fieldGet _) fun c => comm₂_ite (comm_pure _) (ih _ (by omega) _ _)
theorem comm_strnPutLoop (v l) : Comm T (strnPutLoop v l) := by
  induction l generalizing v with
  | nil => exact comm_fieldPut _ _
  | cons c l ih => unfold strnPutLoop; commute; apply ih
macro_rules | `(tactic| commute1) => `(tactic| with_reducible exact comm_strnPutLoop _ _)
theorem comm_strnGet : Comm T (strnGet) := by
  unfold strnGet
  refine comm_bind comm_popVector fun va => comm_bind comm_ipStorage fun st => comm_getFuel fun n n' h => ?_
  refine comm₂_bind (comm₂_strnGetLoop _ _ h _ _) fun str => Comm.two ?_
  commute
theorem comm_strnInput : Comm T (strnInput) := by
  rw [strnInput_taking]
  refine comm_bind comm_takeLine fun q => ?_
  commute
macro_rules | `(tactic| commute1) => `(tactic| with_reducible exact comm_strnInput)
theorem comm_strnLeft : Comm T (strnLeft) := by unfold strnLeft; commute
macro_rules | `(tactic| commute1) => `(tactic| with_reducible exact comm_strnLeft)
theorem comm_strnMid : Comm T (strnMid) := by unfold strnMid; commute
macro_rules | `(tactic| commute1) => `(tactic| with_reducible exact comm_strnMid)
theorem comm_strnLength : Comm T (strnLength) := by unfold strnLength; commute
macro_rules | `(tactic| commute1) => `(tactic| with_reducible exact comm_strnLength)
theorem comm_strnPut : Comm T (strnPut) := by unfold strnPut; commute
macro_rules | `(tactic| commute1) => `(tactic| with_reducible exact comm_strnPut)
theorem comm_strnRight : Comm T (strnRight) := by unfold strnRight; commute
macro_rules | `(tactic| commute1) => `(tactic| with_reducible exact comm_strnRight)
theorem comm_strnItoa : Comm T (strnItoa) := by unfold strnItoa; commute
macro_rules | `(tactic| commute1) => `(tactic| with_reducible exact comm_strnItoa)
theorem comm_strnAtoi : Comm T (strnAtoi) := by unfold strnAtoi; commute
macro_rules | `(tactic| commute1) => `(tactic| with_reducible exact comm_strnAtoi)
theorem comm_iipcAncestor : Comm T (iipcAncestor) := by unfold iipcAncestor; commute
macro_rules | `(tactic| commute1) => `(tactic| with_reducible exact comm_iipcAncestor)
theorem comm_iipcDormant : Comm T (iipcDormant) := by unfold iipcDormant; commute
macro_rules | `(tactic| commute1) => `(tactic| with_reducible exact comm_iipcDormant)
theorem comm_iipcId : Comm T (iipcId) := by unfold iipcId; commute
macro_rules | `(tactic| commute1) => `(tactic| with_reducible exact comm_iipcId)
theorem comm_dbugBreak : Comm T (dbugBreak) := by unfold dbugBreak; commute
macro_rules | `(tactic| commute1) => `(tactic| with_reducible exact comm_dbugBreak)
theorem comm_dbugWatch : Comm T (dbugWatch) := by unfold dbugWatch; commute
macro_rules | `(tactic| commute1) => `(tactic| with_reducible exact comm_dbugWatch)
theorem comm_mvrsName : Comm T (mvrsName) := by unfold mvrsName; commute
macro_rules | `(tactic| commute1) => `(tactic| with_reducible exact comm_mvrsName)

theorem visit_mono : ∀ n n', n ≤ n' → ∀ r l, VecRange.visit n r = some l → VecRange.visit n' r = some l := by
  intro n
  induction n with
  | zero => intro n' _ r l h; cases h
  | succ n ih =>
    intro n' h r l hl
    cases n' with
    | zero => omega
    | succ n' =>
      unfold VecRange.visit at hl ⊢
      split
      · rename_i hc; rw [if_pos hc] at hl; exact hl
      · rename_i hc
        rw [if_neg hc] at hl
        cases hv : VecRange.visit n r.step with
        | none => rw [hv] at hl; cases hl
        | some l' => rw [hv] at hl; rw [ih n' (by omega) _ _ hv]; exact hl
theorem comm_rangeOf (a b) : Comm T (rangeOf a b) := by
  unfold rangeOf
  refine comm_getFuel fun n n' h => ?_
  cases hv : (VecRange.new a b).visit n with
  | none => exact comm₂_fuel
  | some l => rw [visit_mono n n' h _ _ hv]; exact comm_pure _
macro_rules | `(tactic| commute1) => `(tactic| with_reducible exact comm_rangeOf _ _)
theorem comm_copyLoop (a b m l) : Comm T (copyLoop a b m l) := by
  induction l with
  | nil => exact comm_pure _
  | cons c l ih => unfold copyLoop; commute
macro_rules | `(tactic| commute1) => `(tactic| with_reducible exact comm_copyLoop _ _ _ _)
theorem comm_foldStack (f n a) : Comm T (foldStack f n a) := by
  induction n generalizing a with
  | zero => exact comm_pure _
  | succ n ih => unfold foldStack; commute; apply ih
macro_rules | `(tactic| commute1) => `(tactic| with_reducible exact comm_foldStack _ _ _)
theorem comm_toysFLoop (a l) : Comm T (toysFLoop a l) := by
  induction l with
  | nil => exact comm_pure _
  | cons c l ih => unfold toysFLoop; commute
macro_rules | `(tactic| commute1) => `(tactic| with_reducible exact comm_toysFLoop _ _)
theorem comm_toysGLoop (a l) : Comm T (toysGLoop a l) := by
  induction l with
  | nil => exact comm_pure _
  | cons c l ih => unfold toysGLoop; commute
macro_rules | `(tactic| commute1) => `(tactic| with_reducible exact comm_toysGLoop _ _)
theorem comm_toysSLoop (a i l) : Comm T (toysSLoop a i l) := by
  induction l with
  | nil => exact comm_pure _
  | cons c l ih => unfold toysSLoop; commute
macro_rules | `(tactic| commute1) => `(tactic| with_reducible exact comm_toysSLoop _ _ _)
theorem comm_copySpace (a b c d e) : Comm T (copySpace a b c d e) := by unfold copySpace; commute
macro_rules | `(tactic| commute1) => `(tactic| with_reducible exact comm_copySpace _ _ _ _ _)
theorem comm_toysGable : Comm T (toysGable) := by unfold toysGable; commute
macro_rules | `(tactic| commute1) => `(tactic| with_reducible exact comm_toysGable)
theorem comm_toysButterfly : Comm T (toysButterfly) := by unfold toysButterfly; commute
macro_rules | `(tactic| commute1) => `(tactic| with_reducible exact comm_toysButterfly)
theorem comm_toysCopy (a b) : Comm T (toysCopy a b) := by unfold toysCopy; commute
macro_rules | `(tactic| commute1) => `(tactic| with_reducible exact comm_toysCopy _ _)
theorem comm_toysInc (n) : Comm T (toysInc n) := by unfold toysInc; commute
macro_rules | `(tactic| commute1) => `(tactic| with_reducible exact comm_toysInc _)
theorem comm_toysFold (n f) : Comm T (toysFold n f) := by unfold toysFold; commute
macro_rules | `(tactic| commute1) => `(tactic| with_reducible exact comm_toysFold _ _)
theorem comm_toysPutBlock : Comm T (toysPutBlock) := by unfold toysPutBlock; commute
macro_rules | `(tactic| commute1) => `(tactic| with_reducible exact comm_toysPutBlock)
theorem comm_toysGetBlock : Comm T (toysGetBlock) := by unfold toysGetBlock; commute
macro_rules | `(tactic| commute1) => `(tactic| with_reducible exact comm_toysGetBlock)
theorem comm_toysShift : Comm T (toysShift) := by unfold toysShift; commute
macro_rules | `(tactic| commute1) => `(tactic| with_reducible exact comm_toysShift)
theorem comm_toysColumn : Comm T (toysColumn) := by unfold toysColumn; commute
macro_rules | `(tactic| commute1) => `(tactic| with_reducible exact comm_toysColumn)
theorem comm_toysRow : Comm T (toysRow) := by unfold toysRow; commute
macro_rules | `(tactic| commute1) => `(tactic| with_reducible exact comm_toysRow)
theorem comm_toysLook (n) : Comm T (toysLook n) := by unfold toysLook; commute
macro_rules | `(tactic| commute1) => `(tactic| with_reducible exact comm_toysLook _)
theorem comm_toysTail : Comm T (toysTail) := by unfold toysTail; commute
macro_rules | `(tactic| commute1) => `(tactic| with_reducible exact comm_toysTail)
theorem comm_toysFill : Comm T (toysFill) := by unfold toysFill; commute
macro_rules | `(tactic| commute1) => `(tactic| with_reducible exact comm_toysFill)
theorem comm_toysBranch : Comm T (toysBranch) := by unfold toysBranch; commute
macro_rules | `(tactic| commute1) => `(tactic| with_reducible exact comm_toysBranch)
theorem comm_toysRandom : Comm T (toysRandom) := by unfold toysRandom; commute
macro_rules | `(tactic| commute1) => `(tactic| with_reducible exact comm_toysRandom)
theorem comm_toysWait : Comm T (toysWait) := by unfold toysWait; commute
macro_rules | `(tactic| commute1) => `(tactic| with_reducible exact comm_toysWait)
theorem comm_toysStep (n) : Comm T (toysStep n) := by unfold toysStep; commute
macro_rules | `(tactic| commute1) => `(tactic| with_reducible exact comm_toysStep _)
theorem comm_fpdpBin (f) : Comm T (fpdpBin f) := by unfold fpdpBin; commute
macro_rules | `(tactic| commute1) => `(tactic| with_reducible exact comm_fpdpBin _)
theorem comm_fpdpPow : Comm T (fpdpPow) := by unfold fpdpPow; commute
macro_rules | `(tactic| commute1) => `(tactic| with_reducible exact comm_fpdpPow)
theorem comm_fpdpFn (c) : Comm T (fpdpFn c) := by unfold fpdpFn; commute
macro_rules | `(tactic| commute1) => `(tactic| with_reducible exact comm_fpdpFn _)
theorem comm_fpdpFromInt : Comm T (fpdpFromInt) := by unfold fpdpFromInt; commute
macro_rules | `(tactic| commute1) => `(tactic| with_reducible exact comm_fpdpFromInt)
theorem comm_fpdpToInt : Comm T (fpdpToInt) := by unfold fpdpToInt; commute
macro_rules | `(tactic| commute1) => `(tactic| with_reducible exact comm_fpdpToInt)
theorem comm_floatOut (f) : Comm T (floatOut f) := by unfold floatOut; commute
macro_rules | `(tactic| commute1) => `(tactic| with_reducible exact comm_floatOut _)
theorem comm_fpdpRead : Comm T (fpdpRead) := by unfold fpdpRead; commute
macro_rules | `(tactic| commute1) => `(tactic| with_reducible exact comm_fpdpRead)
theorem comm_fpspToStack : Comm T fpspToStack := comm_fault _
macro_rules | `(tactic| commute1) => `(tactic| with_reducible exact comm_fpspToStack)
theorem comm_fpspBin : Comm T (fpspBin) := by unfold fpspBin; commute
macro_rules | `(tactic| commute1) => `(tactic| with_reducible exact comm_fpspBin)
theorem comm_fpspFn : Comm T (fpspFn) := by unfold fpspFn; commute
macro_rules | `(tactic| commute1) => `(tactic| with_reducible exact comm_fpspFn)
theorem comm_fpspToInt : Comm T (fpspToInt) := by unfold fpspToInt; commute
macro_rules | `(tactic| commute1) => `(tactic| with_reducible exact comm_fpspToInt)
theorem comm_fpspRead : Comm T (fpspRead) := by unfold fpspRead; commute
macro_rules | `(tactic| commute1) => `(tactic| with_reducible exact comm_fpspRead)
theorem comm_fprtPrint (c f l) : Comm T (fprtPrint c f l) := by unfold fprtPrint; commute
macro_rules | `(tactic| commute1) => `(tactic| with_reducible exact comm_fprtPrint _ _ _)
theorem comm_fprtCell (c) : Comm T (fprtCell c) := by unfold fprtCell; commute
macro_rules | `(tactic| commute1) => `(tactic| with_reducible exact comm_fprtCell _)
theorem comm_fprtLong : Comm T (fprtLong) := by unfold fprtLong; commute
macro_rules | `(tactic| commute1) => `(tactic| with_reducible exact comm_fprtLong)
theorem comm_fprtStr : Comm T (fprtStr) := by unfold fprtStr; commute
macro_rules | `(tactic| commute1) => `(tactic| with_reducible exact comm_fprtStr)
theorem comm_popLong : Comm T (popLong) := by unfold popLong; commute
macro_rules | `(tactic| commute1) => `(tactic| with_reducible exact comm_popLong)
theorem comm_pushLong (n) : Comm T (pushLong n) := by unfold pushLong; commute
macro_rules | `(tactic| commute1) => `(tactic| with_reducible exact comm_pushLong _)
theorem comm_longBin (f) : Comm T (longBin f) := by unfold longBin; commute
macro_rules | `(tactic| commute1) => `(tactic| with_reducible exact comm_longBin _)
theorem comm_longDiv (f) : Comm T (longDiv f) := by unfold longDiv; commute
macro_rules | `(tactic| commute1) => `(tactic| with_reducible exact comm_longDiv _)
theorem comm_longAbs : Comm T (longAbs) := by unfold longAbs; commute
macro_rules | `(tactic| commute1) => `(tactic| with_reducible exact comm_longAbs)
theorem comm_longExtend : Comm T (longExtend) := by unfold longExtend; commute
macro_rules | `(tactic| commute1) => `(tactic| with_reducible exact comm_longExtend)
theorem comm_longShift (f) : Comm T (longShift f) := by unfold longShift; commute
macro_rules | `(tactic| commute1) => `(tactic| with_reducible exact comm_longShift _)
theorem comm_longNeg : Comm T (longNeg) := by unfold longNeg; commute
macro_rules | `(tactic| commute1) => `(tactic| with_reducible exact comm_longNeg)
theorem comm_longOut : Comm T (longOut) := by unfold longOut; commute
macro_rules | `(tactic| commute1) => `(tactic| with_reducible exact comm_longOut)
theorem comm_longRead : Comm T (longRead) := by unfold longRead; commute
macro_rules | `(tactic| commute1) => `(tactic| with_reducible exact comm_longRead)


end Funge
