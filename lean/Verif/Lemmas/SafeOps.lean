import Verif.Lemmas.Safe
/-
Every instruction of the 93 and 98 standards and of most fingerprints is memory safe.
-/
namespace Funge
open Exec

variable {k : Nat}

/-- Once the number of stacks is known, it stays known. -/
theorem safe_bindNum {α : Type} {f : Nat → Exec α} (h : ∀ n, k ≤ n → 1 ≤ n → Safe n (f n)) : Safe k (numStacks >>= f) := by
  intro s hs
  rw [bind_ok (rfl : numStacks s = .ok (s.cur.ss.size, s))]
  have h1 : SafeRes s.cur.ss.size _ := h s.cur.ss.size hs.many (List.length_pos_iff.2 hs.cur.2) s ⟨hs.cur, hs.rest, Nat.le_refl _⟩
  revert h1
  unfold SafeRes
  split
  · exact fun h1 => good_weaken h1 hs.many
  · exact id

/-- One step of `safe`. -/
syntax "safe1" : tactic
/-- Closes goals `Safe k m` for programs made of known pieces. -/
macro "safe" : tactic => `(tactic| repeat' (first | with_reducible refine safe_bindNum fun _ _ _ => ?_ | with_reducible refine safe_bind ?_ fun _ => ?_ | with_reducible exact safe_pure _ | safe1))

macro_rules | `(tactic| safe1) => `(tactic| dsimp only)
macro_rules | `(tactic| safe1) => `(tactic| split)
macro_rules | `(tactic| safe1) => `(tactic| with_reducible refine safe_bind ?_ fun _ => ?_)
macro_rules | `(tactic| safe1) => `(tactic| first
  | with_reducible exact safe_popTop
  | with_reducible exact safe_pushTop _
  | with_reducible exact safe_popSecond (by omega)
  | with_reducible exact safe_pushSecond _ (by omega)
  | (with_reducible refine safe_lift ?_; mild; done)
  | with_reducible exact safe_get
  | with_reducible exact safe_getDims
  | with_reducible exact safe_getCfg
  | with_reducible exact safe_getFuel
  | with_reducible exact safe_getFlt
  | with_reducible exact safe_getLng
  | with_reducible exact safe_isMode _
  | with_reducible exact safe_numStacks
  | with_reducible exact safe_ipPos
  | with_reducible exact safe_ipDelta
  | with_reducible exact safe_ipStorage
  | with_reducible exact safe_ipGet
  | with_reducible exact safe_fieldGet _
  | with_reducible exact safe_subrTarget _
  | with_reducible exact safe_sizeTop
  | with_reducible exact safe_getTop _
  | with_reducible exact safe_clearTop
  | with_reducible exact safe_age
  | with_reducible exact safe_ipNext
  | with_reducible exact safe_onIP _
  | with_reducible exact safe_setDelta _
  | with_reducible exact safe_fieldPut _ _
  | with_reducible exact safe_ipPut _
  | with_reducible exact safe_ask
  | with_reducible exact safe_askFile
  | with_reducible exact safe_askDir
  | with_reducible exact safe_modG _
  | with_reducible exact safe_getChar
  | with_reducible exact safe_emit _
  | with_reducible exact safe_killAll _
  | with_reducible exact safe_universeSetMode _
  | with_reducible exact safe_universeClearMode _
  | with_reducible exact safe_universeToggleMode _
  | with_reducible exact safe_growDims _
  | with_reducible exact safe_addBreakpoint _
  | with_reducible exact safe_addWatchpoint _
  | with_reducible exact safe_runnerPush _
  | with_reducible exact safe_enterString _
  | with_reducible exact safe_modCur _ fun _ => rfl
  | with_reducible exact safe_pure _
  | with_reducible exact safe_fault rfl)
macro_rules | `(tactic| safe1) => `(tactic| with_reducible assumption)

theorem safe_iBin {f} (hf : ∀ b a, Mild (f b a)) : Safe k (iBin f) := by
  unfold iBin
  refine safe_bind safe_popTop fun a => safe_bind safe_popTop fun b => safe_bind (safe_lift (hf _ _)) fun r => ?_
  safe
macro_rules | `(tactic| safe1) => `(tactic| first
  | with_reducible exact safe_iBin mild_add | with_reducible exact safe_iBin mild_sub | with_reducible exact safe_iBin mild_mul
  | with_reducible exact safe_iBin mild_div | with_reducible exact safe_iBin mild_rem | with_reducible exact safe_iBin mild_gt
  | with_reducible exact safe_iBin mild_and | with_reducible exact safe_iBin mild_or | with_reducible exact safe_iBin mild_xor
  | with_reducible exact safe_iBin mild_shl | with_reducible exact safe_iBin mild_shr)
theorem safe_sizeAt {i : Nat} (h : i < k) : Safe k (sizeAt i) := fun _ hs => safe_onStack _ hs (Nat.lt_of_lt_of_le h hs.many)
theorem safe_pushSizes {n : Nat} (h : n + 1 ≤ k) : Safe k (pushSizes n) := by
  induction n with
  | zero => exact safe_pure _
  | succ n ih => unfold pushSizes; exact safe_bind (safe_sizeAt (by omega)) fun _ => safe_bind (safe_pushTop _) fun _ => ih (by omega)
macro_rules | `(tactic| safe1) => `(tactic| with_reducible exact safe_pushSizes (by omega))
theorem safe_foldStack (f n a) : Safe k (foldStack f n a) := by
  induction n generalizing a with
  | zero => exact safe_pure _
  | succ n ih => unfold foldStack; safe; apply ih
macro_rules | `(tactic| safe1) => `(tactic| with_reducible exact safe_foldStack _ _ _)

theorem safe_popN {pop : Exec Int} (h : Safe k pop) (n : Nat) : Safe k (popN pop n) := by
  induction n with
  | zero => exact safe_pure _
  | succ n ih => unfold popN; safe
macro_rules | `(tactic| safe1) => `(tactic| with_reducible refine safe_popN ?_ _)

theorem safe_pushAll {push : Int → Exec Unit} (h : ∀ v, Safe k (push v)) (l : List Int) : Safe k (pushAll push l) := by
  induction l with
  | nil => exact safe_pure _
  | cons x l ih => unfold pushAll; have := h x; safe
macro_rules | `(tactic| safe1) => `(tactic| with_reducible refine safe_pushAll (fun _ => ?_) _)

theorem safe_pushVectorOn {push : Int → Exec Unit} (h : ∀ v, Safe k (push v)) (v) : Safe k (pushVectorOn push v) := by
  unfold pushVectorOn; safe; exact h _
macro_rules | `(tactic| safe1) => `(tactic| with_reducible refine safe_pushVectorOn (fun _ => ?_) _)
theorem safe_pushVector (v) : Safe k (pushVector v) := by unfold pushVector; safe
macro_rules | `(tactic| safe1) => `(tactic| with_reducible exact safe_pushVector _)

theorem safe_popVectorLoop {pop : Exec Int} (h : Safe k pop) (n : Nat) (v) : Safe k (popVectorLoop pop n v) := by
  induction n generalizing v with
  | zero => exact safe_pure _
  | succ n ih => unfold popVectorLoop; exact safe_bind h fun _ => ih _
theorem safe_popVectorOn {pop : Exec Int} (h : Safe k pop) : Safe k (popVectorOn pop) := by
  unfold popVectorOn; exact safe_bind (safe_getDims) fun _ => safe_popVectorLoop h _ _
macro_rules | `(tactic| safe1) => `(tactic| with_reducible refine safe_popVectorOn ?_)
theorem safe_popVector : Safe k popVector := by unfold popVector; safe
macro_rules | `(tactic| safe1) => `(tactic| with_reducible exact safe_popVector)

theorem safe_pushString (v) : Safe k (pushString v) := by unfold pushString; safe
macro_rules | `(tactic| safe1) => `(tactic| with_reducible exact safe_pushString _)
theorem safe_popStringLoop (n acc) : Safe k (popStringLoop n acc) := by
  induction n generalizing acc with
  | zero => exact safe_fault rfl
  | succ n ih => unfold popStringLoop; have := fun c => ih (toChar c :: acc); safe; apply ih
theorem safe_popString : Safe k popString := by
  unfold popString; exact safe_bind (safe_sizeTop) fun _ => safe_popStringLoop _ _
macro_rules | `(tactic| safe1) => `(tactic| with_reducible exact safe_popString)
theorem safe_random (a b) : Safe k (random a b) := by unfold random; safe
macro_rules | `(tactic| safe1) => `(tactic| with_reducible exact safe_random _ _)
theorem safe_iPush (n) : Safe k (iPush n) := by unfold iPush; safe
macro_rules | `(tactic| safe1) => `(tactic| with_reducible exact safe_iPush _)
theorem safe_iGo (v) : Safe k (iGo v) := by unfold iGo; safe
macro_rules | `(tactic| safe1) => `(tactic| with_reducible exact safe_iGo _)
theorem safe_iStop : Safe k (iStop) := by unfold iStop; safe
macro_rules | `(tactic| safe1) => `(tactic| with_reducible exact safe_iStop)
theorem safe_iTrampoline : Safe k (iTrampoline) := by unfold iTrampoline; safe
macro_rules | `(tactic| safe1) => `(tactic| with_reducible exact safe_iTrampoline)
theorem safe_iIf (a b) : Safe k (iIf a b) := by unfold iIf; safe
macro_rules | `(tactic| safe1) => `(tactic| with_reducible exact safe_iIf _ _)
theorem safe_iGoAway : Safe k (iGoAway) := by unfold iGoAway; safe
macro_rules | `(tactic| safe1) => `(tactic| with_reducible exact safe_iGoAway)
theorem safe_iNot : Safe k (iNot) := by unfold iNot; safe
macro_rules | `(tactic| safe1) => `(tactic| with_reducible exact safe_iNot)
theorem safe_iPop : Safe k (iPop) := by unfold iPop; safe
macro_rules | `(tactic| safe1) => `(tactic| with_reducible exact safe_iPop)
theorem safe_iDup : Safe k (iDup) := by unfold iDup; safe
macro_rules | `(tactic| safe1) => `(tactic| with_reducible exact safe_iDup)
theorem safe_iSwap : Safe k (iSwap) := by unfold iSwap; safe
macro_rules | `(tactic| safe1) => `(tactic| with_reducible exact safe_iSwap)
theorem safe_iNumIn : Safe k (iNumIn) := by unfold iNumIn; safe
macro_rules | `(tactic| safe1) => `(tactic| with_reducible exact safe_iNumIn)
theorem safe_iCharIn : Safe k (iCharIn) := by unfold iCharIn; safe
macro_rules | `(tactic| safe1) => `(tactic| with_reducible exact safe_iCharIn)
theorem safe_iString (q) : Safe k (iString q) := by unfold iString; safe
macro_rules | `(tactic| safe1) => `(tactic| with_reducible exact safe_iString _)
theorem safe_iCharOut : Safe k (iCharOut) := by unfold iCharOut; safe
macro_rules | `(tactic| safe1) => `(tactic| with_reducible exact safe_iCharOut)
theorem safe_iNumOut : Safe k (iNumOut) := by unfold iNumOut; safe
macro_rules | `(tactic| safe1) => `(tactic| with_reducible exact safe_iNumOut)
theorem safe_iGet : Safe k (iGet) := by unfold iGet; safe
macro_rules | `(tactic| safe1) => `(tactic| with_reducible exact safe_iGet)
theorem safe_iPut : Safe k (iPut) := by unfold iPut; safe
macro_rules | `(tactic| safe1) => `(tactic| with_reducible exact safe_iPut)
theorem safe_switchPut (c) : Safe k (switchPut c) := by unfold switchPut; safe
macro_rules | `(tactic| safe1) => `(tactic| with_reducible exact safe_switchPut _)
theorem safe_iLeft : Safe k (iLeft) := by unfold iLeft; safe
macro_rules | `(tactic| safe1) => `(tactic| with_reducible exact safe_iLeft)
theorem safe_iRight : Safe k (iRight) := by unfold iRight; safe
macro_rules | `(tactic| safe1) => `(tactic| with_reducible exact safe_iRight)
theorem safe_iCompare : Safe k (iCompare) := by unfold iCompare; safe
macro_rules | `(tactic| safe1) => `(tactic| with_reducible exact safe_iCompare)
theorem safe_iHigh : Safe k (iHigh) := by unfold iHigh; safe
macro_rules | `(tactic| safe1) => `(tactic| with_reducible exact safe_iHigh)
theorem safe_iLow : Safe k (iLow) := by unfold iLow; safe
macro_rules | `(tactic| safe1) => `(tactic| with_reducible exact safe_iLow)

theorem safe_untilSemi (n) : Safe k (untilSemi n) := by
  induction n with
  | zero => exact safe_fault rfl
  | succ n ih => unfold untilSemi; safe
macro_rules | `(tactic| safe1) => `(tactic| with_reducible exact safe_untilSemi _)
theorem safe_untilSemiChar (n) : Safe k (untilSemiChar n) := by
  induction n with
  | zero => exact safe_fault rfl
  | succ n ih => unfold untilSemiChar; safe
macro_rules | `(tactic| safe1) => `(tactic| with_reducible exact safe_untilSemiChar _)
theorem safe_ipNextN (n) : Safe k (ipNextN n) := by
  induction n with
  | zero => exact safe_pure _
  | succ n ih => unfold ipNextN; safe
macro_rules | `(tactic| safe1) => `(tactic| with_reducible exact safe_ipNextN _)
theorem safe_iterSearch (n c) : Safe k (iterSearch n c) := by
  induction n generalizing c with
  | zero => exact safe_fault rfl
  | succ n ih => unfold iterSearch; safe <;> apply ih
macro_rules | `(tactic| safe1) => `(tactic| with_reducible exact safe_iterSearch _ _)
theorem safe_moveN {pop : Exec Int} {push : Int → Exec Unit} (h1 : Safe k pop) (h2 : ∀ v, Safe k (push v)) (n) :
    Safe k (moveN pop push n) := by
  induction n with
  | zero => exact safe_pure _
  | succ n ih => unfold moveN; safe; apply h2
macro_rules | `(tactic| safe1) => `(tactic| with_reducible refine safe_moveN ?_ (fun _ => ?_) _)
theorem safe_popFingerprint (n acc) : Safe k (popFingerprint n acc) := by
  induction n generalizing acc with
  | zero => exact safe_pure _
  | succ n ih => unfold popFingerprint; safe; apply ih
macro_rules | `(tactic| safe1) => `(tactic| with_reducible exact safe_popFingerprint _ _)
theorem safe_pushStrings (l) : Safe k (pushStrings l) := by
  induction l with
  | nil => exact safe_pure _
  | cons x l ih => unfold pushStrings; safe
macro_rules | `(tactic| safe1) => `(tactic| with_reducible exact safe_pushStrings _)
theorem safe_dropN (n) : Safe k (dropN n) := by
  induction n with
  | zero => exact safe_pure _
  | succ n ih => unfold dropN; safe
macro_rules | `(tactic| safe1) => `(tactic| with_reducible exact safe_dropN _)
theorem safe_iJumpOver : Safe k (iJumpOver) := by unfold iJumpOver; safe
macro_rules | `(tactic| safe1) => `(tactic| with_reducible exact safe_iJumpOver)
theorem safe_iJumpForward : Safe k (iJumpForward) := by unfold iJumpForward; safe
macro_rules | `(tactic| safe1) => `(tactic| with_reducible exact safe_iJumpForward)
theorem safe_iReflect : Safe k (iReflect) := by unfold iReflect; safe
macro_rules | `(tactic| safe1) => `(tactic| with_reducible exact safe_iReflect)
theorem safe_iAbsolute : Safe k (iAbsolute) := by unfold iAbsolute; safe
macro_rules | `(tactic| safe1) => `(tactic| with_reducible exact safe_iAbsolute)
theorem safe_iQuit : Safe k (iQuit) := by unfold iQuit; safe
macro_rules | `(tactic| safe1) => `(tactic| with_reducible exact safe_iQuit)
theorem safe_iClear : Safe k (iClear) := by unfold iClear; safe
macro_rules | `(tactic| safe1) => `(tactic| with_reducible exact safe_iClear)
theorem safe_iFetch : Safe k (iFetch) := by unfold iFetch; safe
macro_rules | `(tactic| safe1) => `(tactic| with_reducible exact safe_iFetch)
theorem safe_iStore : Safe k (iStore) := by unfold iStore; safe
macro_rules | `(tactic| safe1) => `(tactic| with_reducible exact safe_iStore)
theorem safe_pushSysInfo (n) : Safe k (pushSysInfo n) := by unfold pushSysInfo; safe
macro_rules | `(tactic| safe1) => `(tactic| with_reducible exact safe_pushSysInfo _)
theorem safe_iSysInfo : Safe k (iSysInfo) := by unfold iSysInfo; safe
macro_rules | `(tactic| safe1) => `(tactic| with_reducible exact safe_iSysInfo)

theorem safe_bitNot : Safe k (bitNot) := by unfold bitNot; safe
macro_rules | `(tactic| safe1) => `(tactic| with_reducible exact safe_bitNot)
theorem safe_frthDepth : Safe k (frthDepth) := by unfold frthDepth; safe
macro_rules | `(tactic| safe1) => `(tactic| with_reducible exact safe_frthDepth)
theorem safe_frthRoll : Safe k (frthRoll) := by unfold frthRoll; safe
macro_rules | `(tactic| safe1) => `(tactic| with_reducible exact safe_frthRoll)
theorem safe_frthOver : Safe k (frthOver) := by unfold frthOver; safe
macro_rules | `(tactic| safe1) => `(tactic| with_reducible exact safe_frthOver)
theorem safe_frthPick : Safe k (frthPick) := by unfold frthPick; safe
macro_rules | `(tactic| safe1) => `(tactic| with_reducible exact safe_frthPick)
theorem safe_frthRot : Safe k (frthRot) := by unfold frthRot; safe
macro_rules | `(tactic| safe1) => `(tactic| with_reducible exact safe_frthRot)
theorem safe_popComplex : Safe k (popComplex) := by unfold popComplex; safe
macro_rules | `(tactic| safe1) => `(tactic| with_reducible exact safe_popComplex)
theorem safe_pushComplex (a b) : Safe k (pushComplex a b) := by unfold pushComplex; safe
macro_rules | `(tactic| safe1) => `(tactic| with_reducible exact safe_pushComplex _ _)
theorem safe_cpliAdd : Safe k (cpliAdd) := by unfold cpliAdd; safe
macro_rules | `(tactic| safe1) => `(tactic| with_reducible exact safe_cpliAdd)
theorem safe_cpliSub : Safe k (cpliSub) := by unfold cpliSub; safe
macro_rules | `(tactic| safe1) => `(tactic| with_reducible exact safe_cpliSub)
theorem safe_cpliMul : Safe k (cpliMul) := by unfold cpliMul; safe
macro_rules | `(tactic| safe1) => `(tactic| with_reducible exact safe_cpliMul)
theorem safe_cpliOut : Safe k (cpliOut) := by unfold cpliOut; safe
macro_rules | `(tactic| safe1) => `(tactic| with_reducible exact safe_cpliOut)
theorem safe_modeToggle (m) : Safe k (modeToggle m) := by unfold modeToggle; safe
macro_rules | `(tactic| safe1) => `(tactic| with_reducible exact safe_modeToggle _)
theorem safe_mathFn (f c l) : Safe k (mathFn f c l) := by unfold mathFn; safe
macro_rules | `(tactic| safe1) => `(tactic| with_reducible exact safe_mathFn _ _ _)
theorem safe_cpliDiv : Safe k (cpliDiv) := by unfold cpliDiv; safe
macro_rules | `(tactic| safe1) => `(tactic| with_reducible exact safe_cpliDiv)
theorem safe_cpliAbs : Safe k (cpliAbs) := by unfold cpliAbs; safe
macro_rules | `(tactic| safe1) => `(tactic| with_reducible exact safe_cpliAbs)
theorem safe_fixpFn (c) : Safe k (fixpFn c) := by unfold fixpFn; safe
macro_rules | `(tactic| safe1) => `(tactic| with_reducible exact safe_fixpFn _)
theorem safe_fixpPow : Safe k (fixpPow) := by unfold fixpPow; safe
macro_rules | `(tactic| safe1) => `(tactic| with_reducible exact safe_fixpPow)
theorem safe_fgConditional : Safe k (fgConditional) := by unfold fgConditional; safe
macro_rules | `(tactic| safe1) => `(tactic| with_reducible exact safe_fgConditional)
theorem safe_fixpRandom : Safe k (fixpRandom) := by unfold fixpRandom; safe
macro_rules | `(tactic| safe1) => `(tactic| with_reducible exact safe_fixpRandom)
theorem safe_fixpNeg : Safe k (fixpNeg) := by unfold fixpNeg; safe
macro_rules | `(tactic| safe1) => `(tactic| with_reducible exact safe_fixpNeg)
theorem safe_fixpSign : Safe k (fixpSign) := by unfold fixpSign; safe
macro_rules | `(tactic| safe1) => `(tactic| with_reducible exact safe_fixpSign)
theorem safe_fixpAbs : Safe k (fixpAbs) := by unfold fixpAbs; safe
macro_rules | `(tactic| safe1) => `(tactic| with_reducible exact safe_fixpAbs)
theorem safe_hrtiTimer : Safe k (hrtiTimer) := by unfold hrtiTimer; safe
macro_rules | `(tactic| safe1) => `(tactic| with_reducible exact safe_hrtiTimer)
theorem safe_hrtiMark : Safe k (hrtiMark) := by unfold hrtiMark; safe
macro_rules | `(tactic| safe1) => `(tactic| with_reducible exact safe_hrtiMark)
theorem safe_hrtiErase : Safe k (hrtiErase) := by unfold hrtiErase; safe
macro_rules | `(tactic| safe1) => `(tactic| with_reducible exact safe_hrtiErase)
theorem safe_hrtiSecond : Safe k (hrtiSecond) := by unfold hrtiSecond; safe
macro_rules | `(tactic| safe1) => `(tactic| with_reducible exact safe_hrtiSecond)
theorem safe_jstrGetLoop (vd n v) : Safe k (jstrGetLoop vd n v) := by
  induction n generalizing v with
  | zero => exact safe_pure _
  | succ n ih => unfold jstrGetLoop; safe; apply ih
macro_rules | `(tactic| safe1) => `(tactic| with_reducible exact safe_jstrGetLoop _ _ _)
theorem safe_jstrPutLoop (vd n v) : Safe k (jstrPutLoop vd n v) := by
  induction n generalizing v with
  | zero => exact safe_pure _
  | succ n ih => unfold jstrPutLoop; safe; apply ih
macro_rules | `(tactic| safe1) => `(tactic| with_reducible exact safe_jstrPutLoop _ _ _)
theorem safe_jstrGet : Safe k (jstrGet) := by unfold jstrGet; safe
macro_rules | `(tactic| safe1) => `(tactic| with_reducible exact safe_jstrGet)
theorem safe_jstrPut : Safe k (jstrPut) := by unfold jstrPut; safe
macro_rules | `(tactic| safe1) => `(tactic| with_reducible exact safe_jstrPut)
theorem safe_orthGet : Safe k (orthGet) := by unfold orthGet; safe
macro_rules | `(tactic| safe1) => `(tactic| with_reducible exact safe_orthGet)
theorem safe_orthPut : Safe k (orthPut) := by unfold orthPut; safe
macro_rules | `(tactic| safe1) => `(tactic| with_reducible exact safe_orthPut)
theorem safe_orthOut : Safe k (orthOut) := by unfold orthOut; safe
macro_rules | `(tactic| safe1) => `(tactic| with_reducible exact safe_orthOut)
theorem safe_orthDelta (n) : Safe k (orthDelta n) := by unfold orthDelta; safe
macro_rules | `(tactic| safe1) => `(tactic| with_reducible exact safe_orthDelta _)
theorem safe_orthPos (n) : Safe k (orthPos n) := by unfold orthPos; safe
macro_rules | `(tactic| safe1) => `(tactic| with_reducible exact safe_orthPos _)
theorem safe_nfunGo (v n) : Safe k (nfunGo v n) := by unfold nfunGo; safe
macro_rules | `(tactic| safe1) => `(tactic| with_reducible exact safe_nfunGo _ _)
theorem safe_nfunHL (v w n) : Safe k (nfunHL v w n) := by unfold nfunHL; safe
macro_rules | `(tactic| safe1) => `(tactic| with_reducible exact safe_nfunHL _ _ _)
theorem safe_nfunIf (v w n) : Safe k (nfunIf v w n) := by unfold nfunIf; safe
macro_rules | `(tactic| safe1) => `(tactic| with_reducible exact safe_nfunIf _ _ _)
theorem safe_axisVec (n x) : Safe k (axisVec n x) := by unfold axisVec; safe
macro_rules | `(tactic| safe1) => `(tactic| with_reducible exact safe_axisVec _ _)
theorem safe_nfunIfN : Safe k (nfunIfN) := by unfold nfunIfN; safe
macro_rules | `(tactic| safe1) => `(tactic| with_reducible exact safe_nfunIfN)
theorem safe_nfunGoN (n) : Safe k (nfunGoN n) := by unfold nfunGoN; safe
macro_rules | `(tactic| safe1) => `(tactic| with_reducible exact safe_nfunGoN _)
theorem safe_refcDeref : Safe k (refcDeref) := by unfold refcDeref; safe
macro_rules | `(tactic| safe1) => `(tactic| with_reducible exact safe_refcDeref)
theorem safe_pushStr (n) : Safe k (pushStr n) := by unfold pushStr; safe
macro_rules | `(tactic| safe1) => `(tactic| with_reducible exact safe_pushStr _)
theorem safe_strnAppend : Safe k (strnAppend) := by unfold strnAppend; safe
macro_rules | `(tactic| safe1) => `(tactic| with_reducible exact safe_strnAppend)
theorem safe_strnCompare : Safe k (strnCompare) := by unfold strnCompare; safe
macro_rules | `(tactic| safe1) => `(tactic| with_reducible exact safe_strnCompare)
theorem safe_strnDisplay : Safe k (strnDisplay) := by unfold strnDisplay; safe
macro_rules | `(tactic| safe1) => `(tactic| with_reducible exact safe_strnDisplay)
theorem safe_strnFind : Safe k (strnFind) := by unfold strnFind; safe
macro_rules | `(tactic| safe1) => `(tactic| with_reducible exact safe_strnFind)
theorem safe_strnGetLoop (n v acc) : Safe k (strnGetLoop n v acc) := by
  induction n generalizing v acc with
  | zero => exact safe_fault rfl
  | succ n ih => unfold strnGetLoop; safe; apply ih
macro_rules | `(tactic| safe1) => `(tactic| with_reducible exact safe_strnGetLoop _ _ _)
theorem safe_strnPutLoop (v l) : Safe k (strnPutLoop v l) := by
  induction l generalizing v with
  | nil => exact safe_fieldPut _ _
  | cons c l ih => unfold strnPutLoop; safe; apply ih
macro_rules | `(tactic| safe1) => `(tactic| with_reducible exact safe_strnPutLoop _ _)
theorem safe_strnGet : Safe k (strnGet) := by unfold strnGet; safe
macro_rules | `(tactic| safe1) => `(tactic| with_reducible exact safe_strnGet)
theorem safe_strnInput : Safe k (strnInput) := by unfold strnInput; safe
macro_rules | `(tactic| safe1) => `(tactic| with_reducible exact safe_strnInput)
theorem safe_strnLeft : Safe k (strnLeft) := by unfold strnLeft; safe
macro_rules | `(tactic| safe1) => `(tactic| with_reducible exact safe_strnLeft)
theorem safe_strnMid : Safe k (strnMid) := by unfold strnMid; safe
macro_rules | `(tactic| safe1) => `(tactic| with_reducible exact safe_strnMid)
theorem safe_strnLength : Safe k (strnLength) := by unfold strnLength; safe
macro_rules | `(tactic| safe1) => `(tactic| with_reducible exact safe_strnLength)
theorem safe_strnPut : Safe k (strnPut) := by unfold strnPut; safe
macro_rules | `(tactic| safe1) => `(tactic| with_reducible exact safe_strnPut)
theorem safe_strnRight : Safe k (strnRight) := by unfold strnRight; safe
macro_rules | `(tactic| safe1) => `(tactic| with_reducible exact safe_strnRight)
theorem safe_strnItoa : Safe k (strnItoa) := by unfold strnItoa; safe
macro_rules | `(tactic| safe1) => `(tactic| with_reducible exact safe_strnItoa)
theorem safe_strnAtoi : Safe k (strnAtoi) := by unfold strnAtoi; safe
macro_rules | `(tactic| safe1) => `(tactic| with_reducible exact safe_strnAtoi)
theorem safe_iipcDormant : Safe k (iipcDormant) := by unfold iipcDormant; safe
macro_rules | `(tactic| safe1) => `(tactic| with_reducible exact safe_iipcDormant)
theorem safe_iipcId : Safe k (iipcId) := by unfold iipcId; safe
macro_rules | `(tactic| safe1) => `(tactic| with_reducible exact safe_iipcId)
theorem safe_dbugBreak : Safe k (dbugBreak) := by unfold dbugBreak; safe
macro_rules | `(tactic| safe1) => `(tactic| with_reducible exact safe_dbugBreak)
theorem safe_dbugWatch : Safe k (dbugWatch) := by unfold dbugWatch; safe
macro_rules | `(tactic| safe1) => `(tactic| with_reducible exact safe_dbugWatch)
theorem safe_mvrsName : Safe k (mvrsName) := by unfold mvrsName; safe
macro_rules | `(tactic| safe1) => `(tactic| with_reducible exact safe_mvrsName)

theorem safe_rangeOf (a b) : Safe k (rangeOf a b) := by unfold rangeOf; safe
macro_rules | `(tactic| safe1) => `(tactic| with_reducible exact safe_rangeOf _ _)
theorem safe_copyLoop (a b m l) : Safe k (copyLoop a b m l) := by
  induction l with
  | nil => exact safe_pure _
  | cons c l ih => unfold copyLoop; safe
macro_rules | `(tactic| safe1) => `(tactic| with_reducible exact safe_copyLoop _ _ _ _)
theorem safe_toysFLoop (a l) : Safe k (toysFLoop a l) := by
  induction l with
  | nil => exact safe_pure _
  | cons c l ih => unfold toysFLoop; safe
macro_rules | `(tactic| safe1) => `(tactic| with_reducible exact safe_toysFLoop _ _)
theorem safe_toysGLoop (a l) : Safe k (toysGLoop a l) := by
  induction l with
  | nil => exact safe_pure _
  | cons c l ih => unfold toysGLoop; safe
macro_rules | `(tactic| safe1) => `(tactic| with_reducible exact safe_toysGLoop _ _)
theorem safe_toysSLoop (a i l) : Safe k (toysSLoop a i l) := by
  induction l with
  | nil => exact safe_pure _
  | cons c l ih => unfold toysSLoop; safe
macro_rules | `(tactic| safe1) => `(tactic| with_reducible exact safe_toysSLoop _ _ _)
theorem safe_copySpace (a b c d e) : Safe k (copySpace a b c d e) := by unfold copySpace; safe
macro_rules | `(tactic| safe1) => `(tactic| with_reducible exact safe_copySpace _ _ _ _ _)
theorem safe_toysGable : Safe k (toysGable) := by unfold toysGable; safe
macro_rules | `(tactic| safe1) => `(tactic| with_reducible exact safe_toysGable)
theorem safe_toysButterfly : Safe k (toysButterfly) := by unfold toysButterfly; safe
macro_rules | `(tactic| safe1) => `(tactic| with_reducible exact safe_toysButterfly)
theorem safe_toysCopy (a b) : Safe k (toysCopy a b) := by unfold toysCopy; safe
macro_rules | `(tactic| safe1) => `(tactic| with_reducible exact safe_toysCopy _ _)
theorem safe_toysInc (n) : Safe k (toysInc n) := by unfold toysInc; safe
macro_rules | `(tactic| safe1) => `(tactic| with_reducible exact safe_toysInc _)
theorem safe_toysFold (n f) : Safe k (toysFold n f) := by unfold toysFold; safe
macro_rules | `(tactic| safe1) => `(tactic| with_reducible exact safe_toysFold _ _)
theorem safe_toysPutBlock : Safe k (toysPutBlock) := by unfold toysPutBlock; safe
macro_rules | `(tactic| safe1) => `(tactic| with_reducible exact safe_toysPutBlock)
theorem safe_toysGetBlock : Safe k (toysGetBlock) := by unfold toysGetBlock; safe
macro_rules | `(tactic| safe1) => `(tactic| with_reducible exact safe_toysGetBlock)
theorem safe_toysShift : Safe k (toysShift) := by unfold toysShift; safe
macro_rules | `(tactic| safe1) => `(tactic| with_reducible exact safe_toysShift)
theorem safe_toysColumn : Safe k (toysColumn) := by unfold toysColumn; safe
macro_rules | `(tactic| safe1) => `(tactic| with_reducible exact safe_toysColumn)
theorem safe_toysRow : Safe k (toysRow) := by unfold toysRow; safe
macro_rules | `(tactic| safe1) => `(tactic| with_reducible exact safe_toysRow)
theorem safe_toysLook (n) : Safe k (toysLook n) := by unfold toysLook; safe
macro_rules | `(tactic| safe1) => `(tactic| with_reducible exact safe_toysLook _)
theorem safe_toysTail : Safe k (toysTail) := by unfold toysTail; safe
macro_rules | `(tactic| safe1) => `(tactic| with_reducible exact safe_toysTail)
theorem safe_toysFill : Safe k (toysFill) := by unfold toysFill; safe
macro_rules | `(tactic| safe1) => `(tactic| with_reducible exact safe_toysFill)
theorem safe_toysBranch : Safe k (toysBranch) := by unfold toysBranch; safe
macro_rules | `(tactic| safe1) => `(tactic| with_reducible exact safe_toysBranch)
theorem safe_toysRandom : Safe k (toysRandom) := by unfold toysRandom; safe
macro_rules | `(tactic| safe1) => `(tactic| with_reducible exact safe_toysRandom)
theorem safe_toysWait : Safe k (toysWait) := by unfold toysWait; safe
macro_rules | `(tactic| safe1) => `(tactic| with_reducible exact safe_toysWait)
theorem safe_toysStep (n) : Safe k (toysStep n) := by unfold toysStep; safe
macro_rules | `(tactic| safe1) => `(tactic| with_reducible exact safe_toysStep _)

theorem safe_fpdpBin (f) : Safe k (fpdpBin f) := by unfold fpdpBin; safe
macro_rules | `(tactic| safe1) => `(tactic| with_reducible exact safe_fpdpBin _)
theorem safe_fpdpPow : Safe k (fpdpPow) := by unfold fpdpPow; safe
macro_rules | `(tactic| safe1) => `(tactic| with_reducible exact safe_fpdpPow)
theorem safe_fpdpFn (c) : Safe k (fpdpFn c) := by unfold fpdpFn; safe
macro_rules | `(tactic| safe1) => `(tactic| with_reducible exact safe_fpdpFn _)
theorem safe_fpdpFromInt : Safe k (fpdpFromInt) := by unfold fpdpFromInt; safe
macro_rules | `(tactic| safe1) => `(tactic| with_reducible exact safe_fpdpFromInt)
theorem safe_fishInt (n) : Safe k (fishInt n) := by unfold fishInt; safe
macro_rules | `(tactic| safe1) => `(tactic| with_reducible exact safe_fishInt _)
theorem safe_fpdpToInt : Safe k (fpdpToInt) := by unfold fpdpToInt; safe
macro_rules | `(tactic| safe1) => `(tactic| with_reducible exact safe_fpdpToInt)
theorem safe_floatOut (f) : Safe k (floatOut f) := by unfold floatOut; safe
macro_rules | `(tactic| safe1) => `(tactic| with_reducible exact safe_floatOut _)
theorem safe_fpdpRead : Safe k (fpdpRead) := by unfold fpdpRead; safe
macro_rules | `(tactic| safe1) => `(tactic| with_reducible exact safe_fpdpRead)
theorem safe_fpspToInt : Safe k (fpspToInt) := by unfold fpspToInt; safe
macro_rules | `(tactic| safe1) => `(tactic| with_reducible exact safe_fpspToInt)
theorem safe_popLong : Safe k (popLong) := by unfold popLong; safe
macro_rules | `(tactic| safe1) => `(tactic| with_reducible exact safe_popLong)
theorem safe_pushLong (n) : Safe k (pushLong n) := by unfold pushLong; safe
macro_rules | `(tactic| safe1) => `(tactic| with_reducible exact safe_pushLong _)
theorem safe_longBin (f) : Safe k (longBin f) := by unfold longBin; safe
macro_rules | `(tactic| safe1) => `(tactic| with_reducible exact safe_longBin _)
theorem safe_longDiv (f) : Safe k (longDiv f) := by unfold longDiv; safe
macro_rules | `(tactic| safe1) => `(tactic| with_reducible exact safe_longDiv _)
theorem safe_longAbs : Safe k (longAbs) := by unfold longAbs; safe
macro_rules | `(tactic| safe1) => `(tactic| with_reducible exact safe_longAbs)
theorem safe_longExtend : Safe k (longExtend) := by unfold longExtend; safe
macro_rules | `(tactic| safe1) => `(tactic| with_reducible exact safe_longExtend)
theorem safe_longShift (f) : Safe k (longShift f) := by unfold longShift; safe
macro_rules | `(tactic| safe1) => `(tactic| with_reducible exact safe_longShift _)
theorem safe_longNeg : Safe k (longNeg) := by unfold longNeg; safe
macro_rules | `(tactic| safe1) => `(tactic| with_reducible exact safe_longNeg)
theorem safe_longOut : Safe k (longOut) := by unfold longOut; safe
macro_rules | `(tactic| safe1) => `(tactic| with_reducible exact safe_longOut)
theorem safe_longRead : Safe k (longRead) := by unfold longRead; safe
macro_rules | `(tactic| safe1) => `(tactic| with_reducible exact safe_longRead)

end Funge
