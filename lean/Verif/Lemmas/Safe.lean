import Verif.Lemmas.EngineRun
import Verif.Props.C15_Motion
/-
Memory safety of single steps. `Good n s`: every runner of the universe has the top of its stack-stack selected and at least one stack on it,
and the running one has at least `n`. `Safe n m`: from a `Good n` state, `m` either ends in a `Good n` state or stops for another reason than
an access outside a container or through a bad pointer.
-/
namespace Funge
open Exec

/-- Faults that are accesses outside a container or through a pointer to nothing. -/
def Fault.isMem : Fault → Bool
  | .outOfRange | .nullDeref | .dangling => true
  | _ => false

/-- A stack-stack as standard instructions expect it. -/
def StackStack.Fine (ss : StackStack) : Prop := ss.select = 0 ∧ ss.stacks ≠ []

structure Good (n : Nat) (s : St) : Prop where
  cur : s.cur.ss.Fine
  rest : ∀ r ∈ s.rest, r.ss.Fine
  many : n ≤ s.cur.ss.stacks.length

/-- The result of a safe step. -/
def SafeRes {α : Type} (n : Nat) : Except Fault (α × St) → Prop
  | .ok (_, s) => Good n s
  | .error e => e.isMem = false

def Safe {α : Type} (n : Nat) (m : Exec α) : Prop := ∀ s, Good n s → SafeRes n (m s)

/-- A computation that does not fail for a bad access. -/
def Mild {α : Type} (x : Except Fault α) : Prop := ∀ e, x = .error e → e.isMem = false

theorem good_weaken {n k : Nat} {s : St} (h : Good n s) (hk : k ≤ n) : Good k s := ⟨h.cur, h.rest, Nat.le_trans hk h.many⟩

variable {n : Nat}

theorem safe_pure {α : Type} (a : α) : Safe n (pure a : Exec α) := fun _ h => h
theorem safe_fault {α : Type} {e : Fault} (h : e.isMem = false) : Safe n (fault e : Exec α) := fun _ _ => h

theorem safeRes_bind {α β : Type} {k l : Nat} {m : Exec α} {f : α → Exec β} {s : St} (hm : SafeRes k (m s))
    (hf : ∀ a s', m s = .ok (a, s') → Good k s' → SafeRes l (f a s')) : SafeRes l ((m >>= f) s) := by
  show SafeRes l (seq m f s)
  unfold seq
  split
  · rename_i a s1 h1
    rw [h1] at hm
    exact hf _ _ h1 hm
  · rename_i e h1
    rw [h1] at hm
    exact hm

theorem safe_bind {α β : Type} {m : Exec α} {f : α → Exec β} (hm : Safe n m) (hf : ∀ a, Safe n (f a)) : Safe n (m >>= f) :=
  fun s h => safeRes_bind (hm s h) fun a s' _ h' => hf a s' h'

theorem safe_lift {α : Type} {x : Except Fault α} (hx : Mild x) : Safe n (lift x) := by
  intro s h
  unfold lift
  split
  · exact h
  · exact hx _ rfl

theorem safe_get : Safe n Exec.get := fun _ h => h
theorem safe_getDims : Safe n getDims := fun _ h => h
theorem safe_getCfg : Safe n getCfg := fun _ h => h
theorem safe_getFuel : Safe n getFuel := fun _ h => h
theorem safe_getFlt : Safe n getFlt := fun _ h => h
theorem safe_getLng : Safe n getLng := fun _ h => h
theorem safe_isMode (m) : Safe n (isMode m) := fun _ h => h
theorem safe_numStacks : Safe n numStacks := fun _ h => h
theorem safe_ipPos : Safe n ipPos := fun _ h => h
theorem safe_ipDelta : Safe n ipDelta := fun _ h => h
theorem safe_ipStorage : Safe n ipStorage := fun _ h => h
theorem safe_ipGet : Safe n ipGet := fun _ h => h
theorem safe_fieldGet (v) : Safe n (fieldGet v) := fun _ h => h
theorem safe_subrTarget (v) : Safe n (subrTarget v) := fun _ h => h

theorem fine_setAt {ss : StackStack} (h : ss.Fine) (x : Nat) (st : Stack) : (ss.setAt x st).Fine := by
  refine ⟨h.1, fun e => h.2 ?_⟩
  have : (ss.stacks.set x st).length = 0 := by rw [show ss.stacks.set x st = [] from e]; rfl
  rw [List.length_set] at this
  exact List.length_eq_zero_iff.1 this

theorem safe_onStack {α : Type} {x : Nat} (f : Stack → α × Stack) {s : St} (h : Good n s) (hx : x < s.cur.ss.stacks.length) :
    SafeRes n (onStack x f s) := by
  unfold onStack StackStack.at'
  rw [List.getElem?_eq_getElem hx]
  dsimp only
  refine ⟨fine_setAt h.cur _ _, h.rest, ?_⟩
  show n ≤ (s.cur.ss.stacks.set _ _).length
  rw [List.length_set]
  exact h.many

theorem safe_onTop {α : Type} (f : Stack → α × Stack) : Safe n (onTop f) := by
  intro s h
  refine safe_onStack f h ?_
  rw [h.cur.1]
  exact List.length_pos_iff.2 h.cur.2

theorem safe_onSecond {α : Type} (f : Stack → α × Stack) (hn : 2 ≤ n) : Safe n (onSecond f) := by
  intro s h
  refine safe_onStack f h ?_
  rw [h.cur.1]
  have := h.many
  omega

theorem safe_popTop : Safe n popTop := safe_onTop _
theorem safe_pushTop (v) : Safe n (pushTop v) := safe_onTop _
theorem safe_sizeTop : Safe n sizeTop := safe_onTop _
theorem safe_getTop (i) : Safe n (getTop i) := safe_onTop _
theorem safe_clearTop : Safe n clearTop := safe_onTop _
theorem safe_age : Safe n (onTop fun st => (st.age, st)) := safe_onTop _
theorem safe_popSecond (hn : 2 ≤ n) : Safe n popSecond := safe_onSecond _ hn
theorem safe_pushSecond (v) (hn : 2 ≤ n) : Safe n (pushSecond v) := safe_onSecond _ hn

/-- What does not touch the stack-stacks. -/
theorem safe_of_same {α : Type} {m : Exec α} (h : ∀ s a s', m s = .ok (a, s') → s'.cur.ss = s.cur.ss ∧ s'.rest = s.rest)
    (he : ∀ s e, m s = .error e → e.isMem = false) : Safe n m := by
  intro s hs
  cases hm : m s with
  | error e => exact he s e hm
  | ok p =>
    obtain ⟨a, s'⟩ := p
    obtain ⟨h1, h2⟩ := h s a s' hm
    exact ⟨by rw [h1]; exact hs.cur, by rw [h2]; exact hs.rest, by rw [h1]; exact hs.many⟩

theorem safe_onIP (f : IP → IP) : Safe n (onIP f) := fun _ h => ⟨h.cur, h.rest, h.many⟩
theorem safe_ipNext : Safe n ipNext := by
  refine safe_of_same (fun s a s' h => ?_) fun s e h => ?_
  · unfold ipNext at h
    split at h
    · cases h
    · cases h; exact ⟨rfl, rfl⟩
  · unfold ipNext at h
    obtain ⟨ip, hip⟩ := IP.C15_always_terminates s.g.cfg.dims s.g.cfg.topo s.g.field s.cur.ip
    rw [hip] at h
    cases h

theorem safe_setDelta (v) : Safe n (setDelta v) := by
  unfold setDelta
  refine safe_bind (safe_isMode _) fun hov => ?_
  refine safe_of_same (fun s a s' h => ?_) fun s e h => by cases h
  cases h
  exact ⟨notifyDelta_ss _, rfl⟩

theorem safe_modCur (f : Runner → Runner) (hf : ∀ r, (f r).ss = r.ss) : Safe n (modCur f) :=
  safe_of_same (fun s a s' h => by cases h; exact ⟨hf _, rfl⟩) fun s e h => by cases h
theorem safe_modG (f : Glob → Glob) : Safe n (modG f) := fun _ h => ⟨h.cur, h.rest, h.many⟩
theorem safe_fieldPut (v i) : Safe n (fieldPut v i) := fun _ h => ⟨h.cur, h.rest, h.many⟩
theorem safe_ipPut (i) : Safe n (ipPut i) := fun _ h => ⟨h.cur, h.rest, h.many⟩
theorem safe_ask : Safe n ask := fun _ h => ⟨h.cur, h.rest, h.many⟩
theorem safe_askFile : Safe n askFile := fun _ h => ⟨h.cur, h.rest, h.many⟩
theorem safe_askDir : Safe n askDir := fun _ h => ⟨h.cur, h.rest, h.many⟩
theorem safe_emit (e) : Safe n (emit e) := fun _ h => ⟨h.cur, h.rest, h.many⟩
theorem safe_getChar : Safe n getChar := by
  intro s h
  unfold getChar
  split
  · exact h
  · exact ⟨h.cur, h.rest, h.many⟩
theorem safe_killAll (c) : Safe n (killAll c) := by
  intro s h
  refine ⟨h.cur, fun r hr => ?_, h.many⟩
  obtain ⟨r0, h0, rfl⟩ := List.mem_map.1 hr
  exact h.rest r0 h0

theorem fine_setMode {ss : StackStack} (h : ss.Fine) (m : Nat) : (ss.setMode m).Fine :=
  ⟨h.1, fun e => h.2 (List.map_eq_nil_iff.1 e)⟩

theorem safe_setModeWord (f : St → Nat) : Safe n (fun s => setModeWord (f s) s) := by
  intro s h
  refine ⟨fine_setMode h.cur _, fun r hr => ?_, ?_⟩
  · obtain ⟨r0, h0, rfl⟩ := List.mem_map.1 hr
    exact fine_setMode (h.rest r0 h0) _
  · show n ≤ (s.cur.ss.stacks.map _).length
    rw [List.length_map]
    exact h.many
theorem safe_universeSetMode (m) : Safe n (universeSetMode m) := safe_setModeWord _
theorem safe_universeClearMode (m) : Safe n (universeClearMode m) := safe_setModeWord _
theorem safe_universeToggleMode (m) : Safe n (universeToggleMode m) := safe_setModeWord _

theorem safe_growDims (k) : Safe n (growDims k) := by
  refine safe_of_same (fun s a s' h => ?_) fun s e h => by cases h
  cases h
  exact ⟨rfl, rfl⟩
theorem safe_addBreakpoint (v) : Safe n (addBreakpoint v) := by
  refine safe_of_same (fun s a s' h => ?_) fun s e h => by cases h
  cases h
  exact ⟨rfl, rfl⟩
theorem safe_addWatchpoint (v) : Safe n (addWatchpoint v) := by
  refine safe_of_same (fun s a s' h => ?_) fun s e h => by cases h
  cases h
  exact ⟨rfl, rfl⟩

theorem safe_runnerPush (v) : Safe n (runnerPush v) := by
  intro s h
  unfold runnerPush
  split
  · exact h
  all_goals exact safe_pushTop _ _ h

theorem safe_enterString (q) : Safe n (enterString q) := safe_modCur _ fun _ => rfl

/-! ### Computations -/

theorem mild_ok {α : Type} (a : α) : Mild (.ok a : Except Fault α) := fun _ h => by cases h
theorem mild_ck (x) : Mild (ck x) := by
  intro e h
  unfold ck at h
  split at h
  · cases h
  · cases h; rfl
theorem mild_error {α : Type} {e : Fault} (h : e.isMem = false) : Mild (.error e : Except Fault α) := by intro e' h'; cases h'; exact h
theorem mild_ite {α : Type} {c : Prop} [Decidable c] {a b : Except Fault α} (ha : Mild a) (hb : Mild b) : Mild (if c then a else b) := by
  split <;> assumption

theorem mild_add (b a) : Mild (addOp b a) := mild_ck _
theorem mild_sub (b a) : Mild (subOp b a) := mild_ck _
theorem mild_mul (b a) : Mild (mulOp b a) := mild_ck _
theorem mild_div (b a) : Mild (divOp b a) := mild_ite (mild_ok _) (mild_ck _)
theorem mild_rem (b a) : Mild (remOp b a) := mild_ite (mild_ok _) (mild_ite (mild_error rfl) (mild_ok _))
theorem mild_gt (b a) : Mild (gtOp b a) := mild_ok _
theorem mild_and (b a) : Mild (andOp b a) := mild_ok _
theorem mild_or (b a) : Mild (orOp b a) := mild_ok _
theorem mild_xor (b a) : Mild (xorOp b a) := mild_ok _
theorem mild_shl (b a) : Mild (shlOp b a) := mild_ite (mild_ok _) (mild_error rfl)
theorem mild_shr (b a) : Mild (shrOp b a) := mild_ite (mild_ok _) (mild_error rfl)

theorem mild_numDigits (num l) : Mild (numDigits num l) := by
  induction l generalizing num with
  | nil => exact mild_ok _
  | cons c l ih =>
    unfold numDigits
    split
    · split
      · rename_i e he
        exact mild_error (mild_ck _ _ he)
      · exact ih _
    · exact mild_ok _

theorem mild_stoi (l) : Mild (stoi l) := by
  unfold stoi
  dsimp only
  split
  · exact mild_ite (mild_ite (mild_ok _) (mild_error rfl)) (mild_error rfl)
  · exact mild_error rfl

/-- Closes goals `Mild x`. -/
macro "mild" : tactic => `(tactic| repeat' (first
  | exact mild_ok _
  | exact mild_ck _
  | exact mild_shl _ _
  | exact mild_shr _ _
  | exact mild_numDigits _ _
  | exact mild_stoi _
  | exact mild_error rfl
  | refine mild_ite ?_ ?_))

end Funge
