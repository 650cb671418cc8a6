import Verif.Lemmas.EngineOps
/-
`Engine` for whole instructions, ticks and runs.
-/
namespace Funge
open Exec

variable {R : St → St → Prop}

/-- `Keeps` in states with a given property. -/
def KeepsIf {α : Type} (P : St → Prop) (R : St → St → Prop) (m : Exec α) : Prop := ∀ s a s', P s → m s = .ok (a, s') → R s s'

theorem keepsIf_bind {α β : Type} {P : St → Prop} (E : EngineC R) {m : Exec α} {f : α → Exec β} (hm : Keeps R m) (hP : Keeps SamePerm m)
    (hPP : ∀ s s', SamePerm s s' → P s → P s') (hf : ∀ a, KeepsIf P R (f a)) : KeepsIf P R (m >>= f) := by
  intro s b s' hs h
  change seq m f s = _ at h
  unfold seq at h
  split at h
  · rename_i a s1 h1
    exact E.trans _ _ _ (hm _ _ _ h1) (hf _ _ _ _ (hPP _ _ (hP _ _ _ h1) hs) h)
  · cases h

theorem keepsIf_then {α β : Type} {P : St → Prop} (E : EngineC R) {m : Exec α} {f : α → Exec β} (hm : KeepsIf P R m)
    (hf : ∀ a, Keeps R (f a)) : KeepsIf P R (m >>= f) := by
  intro s b s' hs h
  change seq m f s = _ at h
  unfold seq at h
  split at h
  · rename_i a s1 h1
    exact E.trans _ _ _ (hm _ _ _ hs h1) (hf _ _ _ _ h)
  · cases h

theorem Keeps.if {α : Type} {P : St → Prop} {m : Exec α} (h : Keeps R m) : KeepsIf P R m := fun s a s' _ => h s a s'

/-- An instruction that first looks at a permission. -/
theorem keeps_perm {α : Type} (p : Cfg → Bool) {f : Cfg → Exec α} (h : ∀ c, p c = true → KeepsIf (fun s => p s.g.cfg = true) R (f c))
    (h' : ∀ c, ¬ p c = true → Keeps R (f c)) : Keeps R (getCfg >>= f) := by
  intro s a s' hs
  change f s.g.cfg s = _ at hs
  by_cases hp : p s.g.cfg = true
  · exact h _ hp _ _ _ hp hs
  · exact h' _ hp _ _ _ hs

/-! ### Programs run -/

theorem ex_perm {s s' : St} (h : SamePerm s s') : s.g.cfg.execute = true → s'.g.cfg.execute = true := fun e => h.1.trans e
theorem fs_perm {s s' : St} (h : SamePerm s s') : s.g.cfg.filesystem = true → s'.g.cfg.filesystem = true := fun e => h.2.1.trans e

theorem keepsIf_system (E : EngineC R) (b) : KeepsIf (fun s => s.g.cfg.execute = true) R (emit (.system b)) := by
  intro s a s' hs h; cases h; exact E.system s b hs
theorem keepsIf_openRead (E : EngineC R) (b) : KeepsIf (fun s => s.g.cfg.filesystem = true) R (emit (.openRead b)) := by
  intro s a s' hs h; cases h; exact E.openRead s b hs
theorem keepsIf_openWrite (E : EngineC R) (b) : KeepsIf (fun s => s.g.cfg.filesystem = true) R (emit (.openWrite b)) := by
  intro s a s' hs h; cases h; exact E.openWrite s b hs
theorem keepsIf_writeFile (E : EngineC R) (b c) : KeepsIf (fun s => s.g.cfg.filesystem = true) R (emit (.writeFile b c)) := by
  intro s a s' hs h; cases h; exact E.writeFile s b c hs

theorem perm_emit (e : Eff) : Keeps SamePerm (emit e) := by intro s a s' h; cases h; exact .rfl' s

theorem keeps_iExecute (E : EngineC R) : Keeps R iExecute := by
  unfold iExecute
  refine keeps_perm Cfg.execute (fun c hc => ?_) fun c hc => ?_
  · rw [if_pos hc]
    refine keepsIf_bind E (keeps_popString E) (keeps_popString engine_samePerm.toEngineB.base) (fun _ _ => ex_perm) fun sys => ?_
    refine keepsIf_then E (keepsIf_system E _) fun _ => ?_
    keep E
  · rw [if_neg hc]; keep E

theorem keepsIf_perl (E : EngineC R) (code) : KeepsIf (fun s => s.g.cfg.execute = true) R (perl code) := by
  unfold perl
  refine keepsIf_then E (keepsIf_system E _) fun _ => ?_
  keep E

theorem keeps_perlEval (E : EngineC R) : Keeps R perlEval := by
  unfold perlEval
  refine keeps_perm Cfg.execute (fun c hc => ?_) fun c hc => ?_
  · rw [if_pos hc]
    refine keepsIf_bind E (keeps_popString E) (keeps_popString engine_samePerm.toEngineB.base) (fun _ _ => ex_perm) fun sys => ?_
    refine keepsIf_then E (keepsIf_perl E _) fun _ => ?_
    keep E
  · rw [if_neg hc]; keep E

theorem keeps_perlInt (E : EngineC R) : Keeps R perlInt := by
  unfold perlInt
  refine keeps_perm Cfg.execute (fun c hc => ?_) fun c hc => ?_
  · rw [if_pos hc]
    refine keepsIf_bind E (keeps_popString E) (keeps_popString engine_samePerm.toEngineB.base) (fun _ _ => ex_perm) fun sys => ?_
    refine keepsIf_then E (keepsIf_perl E _) fun _ => ?_
    keep E
  · rw [if_neg hc]; keep E

/-! ### Files -/

/-- A step of a program that has looked at the permission. -/
theorem fs_bind {α β : Type} (E : EngineC R) {m : Exec α} {f : α → Exec β} (hm : Keeps R m) (hP : Keeps SamePerm m)
    (hf : ∀ a, KeepsIf (fun s => s.g.cfg.filesystem = true) R (f a)) : KeepsIf (fun s => s.g.cfg.filesystem = true) R (m >>= f) :=
  keepsIf_bind E hm hP (fun _ _ => fs_perm) hf

theorem fs_bind' {α β : Type} (E : EngineC R) {m : Exec α} {f : α → Exec β} (hm : KeepsIf (fun s => s.g.cfg.filesystem = true) R m)
    (hP : Keeps SamePerm m) (hf : ∀ a, KeepsIf (fun s => s.g.cfg.filesystem = true) R (f a)) :
    KeepsIf (fun s => s.g.cfg.filesystem = true) R (m >>= f) := by
  intro s b s' hs h
  change seq m f s = _ at h
  unfold seq at h
  split at h
  · rename_i a s1 h1
    exact E.trans _ _ _ (hm _ _ _ hs h1) (hf _ _ _ _ (fs_perm (hP _ _ _ h1) hs) h)
  · cases h

theorem keeps_iFileIn (E : EngineC R) (W : Stores R) : Keeps R iFileIn := by
  unfold iFileIn
  have P := engine_samePerm.toEngineB.base
  refine keeps_perm Cfg.filesystem (fun c hc => ?_) fun c hc => ?_
  · rw [if_pos hc]
    refine fs_bind E (keeps_popString E) (keeps_popString P) fun path => ?_
    refine fs_bind E (keeps_popTop E) (keeps_popTop P) fun flags => ?_
    refine fs_bind E (keeps_popVector E) (keeps_popVector P) fun va => ?_
    refine fs_bind E (keeps_ipStorage E) (keeps_ipStorage P) fun st => ?_
    refine fs_bind' E (keepsIf_openRead E _) (perm_emit _) fun _ => ?_
    refine fs_bind E (keeps_askFile E) (keeps_askFile P) fun file => ?_
    split
    · rename_i bytes
      intro s a s' hs h
      change (_ >>= _ : Exec Err) _ = _ at h
      rw [bind_ok (get_run s), bind_ok (rfl : modG (fun g => { g with field := (s.g.field.parse (va.add st) (flags % 2 = 1) bytes).2 }) s = _)] at h
      have hk : Keeps R (do
          pushVector (s.g.field.parse (va.add st) (flags % 2 = 1) bytes).1
          pushVector (va.add st)
          pure Err.none) := by keep E
      exact E.trans _ _ _ (W.parse s (va.add st) _ bytes hs) (hk _ _ _ h)
    · exact (keeps_pure E _).if
  · rw [if_neg hc]; keep E

theorem keeps_iFileOut (E : EngineC R) : Keeps R iFileOut := by
  unfold iFileOut
  have P := engine_samePerm.toEngineB.base
  refine keeps_perm Cfg.filesystem (fun c hc => ?_) fun c hc => ?_
  · rw [if_pos hc]
    refine fs_bind E (keeps_popString E) (keeps_popString P) fun path => ?_
    refine fs_bind E (keeps_popTop E) (keeps_popTop P) fun flags => ?_
    refine fs_bind E (keeps_popVector E) (keeps_popVector P) fun va => ?_
    refine fs_bind E (keeps_ipStorage E) (keeps_ipStorage P) fun st => ?_
    refine fs_bind E (keeps_popVector E) (keeps_popVector P) fun vb => ?_
    refine fs_bind' E (keepsIf_openWrite E _) (perm_emit _) fun _ => ?_
    refine fs_bind E (keeps_askFile E) (keeps_askFile P) fun file => ?_
    split
    · refine fs_bind E (keeps_get E) (keeps_get P) fun s => ?_
      split
      · exact (keeps_fault _).if
      · refine fs_bind' E (keepsIf_writeFile E _ _) (perm_emit _) fun _ => ?_
        exact (keeps_pure E _).if
    · exact (keeps_pure E _).if
  · rw [if_neg hc]; keep E

theorem keepsIf_ite {α : Type} {P : St → Prop} {c : Prop} [Decidable c] {a b : Exec α} (ha : KeepsIf P R a) (hb : KeepsIf P R b) :
    KeepsIf P R (if c then a else b) := by split <;> assumption

theorem keeps_siFile (E : EngineC R) : Keeps R siFile := by
  unfold siFile
  have P := engine_samePerm.toEngineB.base
  refine keeps_perm Cfg.filesystem (fun c hc => ?_) fun c hc => ?_
  · rw [if_pos hc]
    unfold checkTop
    refine fs_bind E (keeps_sizeTop E) (keeps_sizeTop P) fun z => ?_
    refine keepsIf_ite (keeps_pure E _).if ?_
    refine fs_bind E (keeps_fishPopSize E) (keeps_fishPopSize P) fun x => ?_
    refine fs_bind E (keeps_sizeTop E) (keeps_sizeTop P) fun z => ?_
    refine keepsIf_ite (keeps_pure E _).if ?_
    refine fs_bind E (keeps_get E) (keeps_get P) fun s => ?_
    have hP : Keeps SamePerm (popN fishPopChar x) := keeps_popN P (keeps_fishPopChar P) _
    split
    · refine fs_bind E (keeps_popN E (keeps_fishPopChar E) _) hP fun l => ?_
      refine fs_bind' E (keepsIf_openRead E _) (perm_emit _) fun _ => ?_
      apply Keeps.if
      keep E
    · refine fs_bind E (keeps_modCur E _ fun _ => ⟨rfl, rfl, rfl, rfl, rfl, rfl, rfl, rfl, rfl, rfl⟩)
        (keeps_modCur P _ fun _ => ⟨rfl, rfl, rfl, rfl, rfl, rfl, rfl, rfl, rfl, rfl⟩) fun _ => ?_
      refine fs_bind' E (keepsIf_openWrite E _) (perm_emit _) fun _ => ?_
      refine fs_bind E (keeps_askFile E) (keeps_askFile P) fun ok => ?_
      refine fs_bind E (keeps_popN E (keeps_fishPopChar E) _) hP fun l => ?_
      dsimp only
      split
      · exact fs_bind' E (keepsIf_writeFile E _ _) (perm_emit _) fun _ => (keeps_pure E _).if
      · apply Keeps.if; keep E
  · rw [if_neg hc]; keep E

/-! ### Threads -/

theorem keeps_iThread (E : EngineC R) : Keeps R iThread := by
  unfold iThread
  refine keeps_perm Cfg.concurrent (fun c hc => ?_) fun c hc => ?_
  · rw [if_pos hc]
    refine keepsIf_then E ?_ fun _ => keeps_pure E _
    intro s a s' hs h
    unfold cloneCur at h
    split at h
    · cases h
    · rename_i r hr
      cases h
      exact E.clone s r hs hr
  · rw [if_neg hc]; keep E

/-! ### Tables of meanings -/

theorem letter_of_fing {a b : Int} (h : fingLetter a = some b) : isLetter b := by
  have key : ∀ x : Int, (if 65 ≤ x ∧ x ≤ 90 then some x else none) = some b → isLetter b := by
    intro x hx
    split at hx
    · rename_i hh; cases hx; exact hh
    · cases hx
  exact key _ h

theorem Rebound.refl (t) : Rebound t t := ⟨fun _ _ => rfl, fun c _ hm => .inl ⟨c, hm⟩⟩
theorem Rebound.trans {t u v} (h : Rebound t u) (h' : Rebound u v) : Rebound t v where
  others c hc := (h'.others c hc).trans (h.others c hc)
  known c m hm := by
    rcases h'.known c m hm with ⟨c', hc'⟩ | h1
    · exact h.known c' m hc'
    · exact .inr h1

theorem rebound_pop (r : Runner) {a : Int} (ha : isLetter a) : Rebound r.sems (r.popSem a).2.sems := by
  refine ⟨fun c hc => ?_, fun c m hm => ?_⟩
  · show (if c = a then (r.sems a).tail else r.sems c) = _
    rw [if_neg]; rintro rfl; exact hc ha
  · change m ∈ (if c = a then (r.sems a).tail else r.sems c) at hm
    split at hm
    · exact .inl ⟨a, List.mem_of_mem_tail hm⟩
    · exact .inl ⟨c, hm⟩

theorem rebound_push (r : Runner) {a : Int} (ha : isLetter a) {t : Int → List Sem} (ht : Rebound t r.sems) {m : Sem}
    (hm : (∃ c, m ∈ t c) ∨ m = ⟨.fingReflect, false⟩) : Rebound t (r.pushSem a m).sems := by
  refine ⟨fun c hc => ?_, fun c m' hm' => ?_⟩
  · rw [pushSem_sems, if_neg, ht.others c hc]; rintro rfl; exact hc ha
  · rw [pushSem_sems] at hm'
    split at hm'
    · rcases List.mem_cons.1 hm' with rfl | h
      · exact hm
      · exact ht.known _ _ h
    · exact ht.known _ _ hm'

theorem semOr_known {t : Int → List Sem} {o : Option Sem} (h : ∀ m, o = some m → ∃ c, m ∈ t c) :
    (∃ c, semOr o ∈ t c) ∨ semOr o = ⟨.fingReflect, false⟩ := by
  cases o with
  | none => exact .inr rfl
  | some m => exact .inl (h m rfl)

theorem popSem_mem {r : Runner} {a : Int} {m : Sem} (h : (r.popSem a).1 = some m) : m ∈ r.sems a := List.mem_of_mem_head? h

theorem keeps_fingSwap (E : EngineC R) (T : Tables R) : Keeps R fingSwap := by
  unfold fingSwap
  refine keeps_bind E (keeps_popTop E) fun a => ?_
  split
  · keep E
  · rename_i a' ha
    refine keeps_bind E (keeps_popTop E) fun b => ?_
    split
    · keep E
    · rename_i b' hb
      refine keeps_bind E ?_ fun _ => keeps_pure E _
      intro s x s' h
      cases h
      have la := letter_of_fing ha
      have lb := letter_of_fing hb
      refine T.sems s _ s.cur.loaded (fun _ h => h) (rebound_push _ lb (rebound_push _ la ((rebound_pop _ la).trans (rebound_pop _ lb)) ?_) ?_)
      · refine semOr_known fun m hm => ?_
        have := popSem_mem hm
        rcases (rebound_pop s.cur la).known _ _ this with h1 | h1
        · exact h1
        · change m ∈ (if b' = a' then (s.cur.sems a').tail else s.cur.sems b') at this
          split at this
          · exact ⟨a', List.mem_of_mem_tail this⟩
          · exact ⟨b', this⟩
      · exact semOr_known fun m hm => ⟨_, popSem_mem hm⟩

theorem keeps_fingPop (E : EngineC R) (T : Tables R) : Keeps R fingPop := by
  unfold fingPop
  refine keeps_bind E (keeps_popTop E) fun a => ?_
  split
  · keep E
  · rename_i a' ha
    refine keeps_bind E ?_ fun _ => keeps_pure E _
    intro s x s' h
    cases h
    exact T.sems s _ s.cur.loaded (fun _ h => h) (rebound_pop _ (letter_of_fing ha))

theorem keeps_fingCopy (E : EngineC R) (T : Tables R) : Keeps R fingCopy := by
  unfold fingCopy
  refine keeps_bind E (keeps_popTop E) fun a => ?_
  split
  · keep E
  · rename_i a' ha
    refine keeps_bind E (keeps_popTop E) fun b => ?_
    split
    · keep E
    · rename_i b' hb
      refine keeps_bind E ?_ fun _ => keeps_pure E _
      intro s x s' h
      cases h
      exact T.sems s _ s.cur.loaded (fun _ h => h) (rebound_push _ (letter_of_fing ha) (Rebound.refl _)
        (semOr_known fun m hm => ⟨b', List.mem_of_mem_head? hm⟩))

theorem rebound_pops (l : List Int) (hl : ∀ c ∈ l, isLetter c) (r : Runner) :
    ∃ t, l.foldl (fun r i => (r.popSem i).2) r = { r with sems := t } ∧ Rebound r.sems t := by
  induction l generalizing r with
  | nil => exact ⟨r.sems, rfl, Rebound.refl _⟩
  | cons c l ih =>
    obtain ⟨t, h1, h2⟩ := ih (fun x hx => hl x (List.mem_cons_of_mem _ hx)) (r.popSem c).2
    refine ⟨t, ?_, (rebound_pop r (hl c (List.mem_cons_self ..))).trans h2⟩
    rw [List.foldl_cons, h1]
    rfl

theorem unloadFp_eq {r r' : Runner} {id : Nat} (h : r.unloadFp id = some r') :
    ∃ t l, r' = { r with sems := t, loaded := l } ∧ Rebound r.sems t ∧ ∀ x ∈ l, x ∈ r.loaded := by
  unfold Runner.unloadFp at h
  split at h
  · split at h
    · cases h
    · rename_i f hf
      obtain ⟨t, h1, h2⟩ := rebound_pops f.insts (insts_letters f) r
      rw [h1] at h
      cases h
      exact ⟨t, _, rfl, h2, fun x hx => by
        unfold eraseLast at hx
        exact List.mem_reverse.1 (List.mem_of_mem_erase (List.mem_reverse.1 hx))⟩
  · cases h

theorem keeps_iLoad (E : EngineC R) (T : Tables R) : Keeps R iLoad := by
  unfold iLoad
  refine keeps_perm Cfg.fingerprint (fun c hc => ?_) fun c hc => ?_
  · rw [if_pos hc]
    refine keepsIf_then E ?_ fun _ => by keep E
    refine keepsIf_bind E (keeps_popTop E) (keeps_popTop engine_samePerm.toEngineB.base) (fun _ _ h e => h.2.2.2.trans e) fun count => ?_
    refine keepsIf_bind E (keeps_popFingerprint E _ _) (keeps_popFingerprint engine_samePerm.toEngineB.base _ _) (fun _ _ h e => h.2.2.2.trans e) fun fp => ?_
    intro s a s' hs h
    change (_ >>= _ : Exec Err) _ = _ at h
    rw [bind_ok (get_run s)] at h
    cases hr : s.cur.loadFp fp.toNat with
    | none => rw [hr] at h; cases h; exact E.refl s
    | some r =>
      rw [hr] at h
      change (_ >>= _ : Exec Err) _ = _ at h
      rw [bind_ok (rfl : modCur (fun _ => r) s = .ok ((), { s with cur := r }))] at h
      have hk : Keeps R (do
          pushTop (toI64 fp)
          pushTop 1
          pure Err.none) := by keep E
      exact E.trans _ _ _ (T.load s _ r hs hr) (hk _ _ _ h)
  · rw [if_neg hc]; keep E

theorem keeps_iUnload (E : EngineC R) (T : Tables R) : Keeps R iUnload := by
  unfold iUnload
  refine keeps_bind E (keeps_getCfg E) fun c => ?_
  refine keeps_bind E ?_ fun _ => by keep E
  split
  · refine keeps_bind E (keeps_popTop E) fun count => ?_
    refine keeps_bind E (keeps_popFingerprint E _ _) fun fp => ?_
    intro s a s' h
    change (_ >>= _ : Exec Err) _ = _ at h
    rw [bind_ok (get_run s)] at h
    cases hr : s.cur.unloadFp fp.toNat with
    | none => rw [hr] at h; cases h; exact E.refl s
    | some r =>
      rw [hr] at h
      obtain ⟨t, l, rfl, ht, hl⟩ := unloadFp_eq hr
      cases h
      exact T.sems s t l hl ht
  · exact keeps_pure E _

/-! ### REFC -/

theorem refcFresh_spec (E : EngineC R) (n : Nat) : ∀ s r s', refcFresh n s = .ok (r, s') →
    R s s' ∧ refcFind s'.g.refc r = none := by
  induction n with
  | zero => intro s r s' h; cases h
  | succ n ih =>
    intro s r s' h
    unfold refcFresh at h
    rw [bind_ok (rfl : ask s = .ok (s.g.orc s.g.asked, { s with g := { s.g with asked := s.g.asked + 1 } }))] at h
    change (_ >>= _ : Exec Int) _ = _ at h
    rw [bind_ok (get_run _)] at h
    cases hn : refcFind s.g.refc (s.g.orc s.g.asked % 2147483648) with
    | none =>
      dsimp only at h
      rw [hn] at h
      cases h
      exact ⟨E.glob s _ _ _ _, hn⟩
    | some v =>
      dsimp only at h
      rw [hn] at h
      obtain ⟨h1, h2⟩ := ih _ _ _ h
      exact ⟨E.trans _ _ _ (E.glob s _ _ _ _) h1, h2⟩

theorem keeps_refcRef (E : EngineC R) : Keeps R refcRef := by
  unfold refcRef
  refine keeps_bind E (keeps_popVector E) fun v => ?_
  refine keeps_bind E (keeps_getFuel E) fun n => ?_
  intro s a s' h
  change seq _ _ s = _ at h
  unfold seq at h
  split at h
  · rename_i r s1 h1
    obtain ⟨h2, h3⟩ := refcFresh_spec E n _ _ _ h1
    change (_ >>= _ : Exec Err) _ = _ at h
    rw [bind_ok (rfl : modG (fun g => { g with refc := (r, v) :: g.refc }) s1 = .ok ((), _))] at h
    have hk : Keeps R (do
        pushTop r
        pure Err.none) := by keep E
    exact E.trans _ _ _ h2 (E.trans _ _ _ (E.ref s1 r v h3) (hk _ _ _ h))
  · cases h

/-! ### IIPC -/

theorem onListTop_ok {α : Type} {id : Int} {f : Stack → α × Stack} {l l' : List Runner} {x : α} (h : onListTop id f l = some (.ok (x, l'))) :
    ∃ a r b st, l = a ++ r :: b ∧ (∀ r' ∈ a, (r'.id : Int) ≠ id) ∧ (r.id : Int) = id ∧ r.ss.at' r.ss.select = .ok st ∧ x = (f st).1 ∧
      l' = a ++ { r with ss := r.ss.setAt r.ss.select (f st).2 } :: b := by
  induction l generalizing l' with
  | nil => cases h
  | cons r t ih =>
    unfold onListTop at h
    split at h
    · rename_i hid
      split at h
      · cases h
      · rename_i st hst
        cases h
        exact ⟨[], r, t, st, rfl, by simp, hid, hst, rfl, rfl⟩
    · rename_i hid
      split at h
      · cases h
      · cases h
      · rename_i a t' ht
        cases h
        obtain ⟨a', r', b', st, h1, h2, h3, h4, h5, h6⟩ := ih ht
        refine ⟨r :: a', r', b', st, by rw [h1]; rfl, ?_, h3, h4, h5, by rw [h6]; rfl⟩
        intro q hq
        rcases List.mem_cons.1 hq with rfl | hq
        · exact hid
        · exact h2 q hq

theorem keeps_onRunnerTop (E : EngineC R) (O : Others R) {α : Type} (id : Int) (f : Stack → α × Stack) (hf : ∀ st, (f st).2.mode = st.mode) :
    Keeps R (onRunnerTop id f) := by
  intro s a s' h
  unfold onRunnerTop at h
  split at h
  · split at h
    · cases h
    · rename_i b s1 h1
      cases h
      exact keeps_onTop E f hf _ _ _ h1
  · split at h
    · cases h; exact E.refl s
    · cases h
    · rename_i x rest hr
      cases h
      obtain ⟨a, r, b, st, h1, _, _, h4, _, h6⟩ := onListTop_ok hr
      rw [h6]
      exact O s a b r st _ h1 h4 (hf st)

theorem set_self {l : List Stack} {n : Nat} {st : Stack} (h : l[n]? = some st) : l.set n st = l := by
  apply List.ext_getElem?
  intro i
  rw [List.getElem?_set]
  split
  · rename_i hi
    subst hi
    rw [h]
    split
    · rfl
    · rename_i hlt
      rw [List.getElem?_eq_none (by omega)] at h
      cases h
  · rfl

theorem setAt_self {ss : StackStack} {x : Nat} {st : Stack} (h : ss.at' x = .ok st) : ss.setAt x st = ss := by
  unfold StackStack.at' at h
  split at h
  · rename_i hx; cases h
    unfold StackStack.setAt
    rw [set_self hx]
  · cases h

/-- Looking changes nothing. -/
theorem onRunnerTop_look {α : Type} (id : Int) (f : Stack → α) {s s' : St} {a} (h : onRunnerTop id (fun st => (f st, st)) s = .ok (a, s')) :
    s' = s := by
  unfold onRunnerTop at h
  split at h
  · split at h
    · cases h
    · rename_i b s1 h1
      cases h
      unfold onTop onStack at h1
      split at h1
      · cases h1
      · rename_i st hst
        cases h1
        rw [setAt_self hst]
  · split at h
    · cases h; rfl
    · cases h
    · rename_i x rest hr
      cases h
      obtain ⟨a, r, b, st, h1, _, _, h4, _, h6⟩ := onListTop_ok hr
      rw [h6, setAt_self h4, ← h1]

theorem keeps_iipcLook (E : EngineC R) : Keeps R iipcLook := by
  unfold iipcLook
  refine keeps_bind E (keeps_popTop E) fun id => ?_
  refine keeps_bind E ?_ fun r => by keep E
  intro s a s' h
  rw [onRunnerTop_look id Stack.peek h]
  exact E.refl s

theorem keeps_iipcGet (E : EngineC R) (O : Others R) : Keeps R iipcGet := by
  unfold iipcGet
  have := fun id => keeps_onRunnerTop E O id Stack.pop pop_mode
  refine keeps_bind E (keeps_popTop E) fun id => ?_
  refine keeps_bind E (this id) fun r => by keep E

theorem keeps_iipcPut (E : EngineC R) (O : Others R) : Keeps R iipcPut := by
  unfold iipcPut
  refine keeps_bind E (keeps_popTop E) fun id => ?_
  refine keeps_bind E (keeps_popTop E) fun v => ?_
  refine keeps_bind E (keeps_onRunnerTop E O id _ fun st => push_mode st v) fun r => by keep E

/-! ### DIRF -/

theorem keeps_dirfRun (E : EngineC R) (D : Dirs R) (c : Int) : Keeps R (dirfRun c) := by
  have h1 : ∀ b, Keeps R (emit (.chdir b)) := by intro b s a s' h; cases h; exact D.1 s b
  have h2 : ∀ b, Keeps R (emit (.mkdir b)) := by intro b s a s' h; cases h; exact D.2.1 s b
  have h3 : ∀ b, Keeps R (emit (.rmdir b)) := by intro b s a s' h; cases h; exact D.2.2 s b
  unfold dirfRun
  split
  · unfold dirfChange; keep E; exact h1 _
  · unfold dirfMake; keep E; exact h2 _
  · unfold dirfRemove; keep E; exact h3 _
  · keep E

/-! ### All instructions -/

theorem keeps_iipcRun (E : EngineC R) (c : Int) (O : (c = 71 ∨ c = 80) → Others R) : Keeps R (iipcRun c) := by
  unfold iipcRun
  split
  · keep E
  · keep E
  · exact keeps_iipcGet E (O (.inl rfl))
  · keep E
  · exact keeps_iipcLook E
  · exact keeps_iipcPut E (O (.inr rfl))
  · keep E

/-- Is this `G` or `P` of IIPC? -/
def Op.touchesOthers : Op → Prop
  | .fing .IIPC c => c = 71 ∨ c = 80
  | _ => False

/-- Is this an instruction of DIRF? -/
def Op.changesDirs : Op → Prop
  | .fing .DIRF _ => True
  | _ => False

/-- Is this an instruction that may change the table of meanings? -/
def Op.changesTable : Op → Prop
  | .load => True
  | .unload => True
  | .fing .FING _ => True
  | _ => False

/-- Is this an instruction that may change the space, or have others change it? -/
def Op.stores : Op → Prop
  | .put => True
  | .store => True
  | .fileIn => True
  | .fPut => True
  | .fing .JSTR c => c = 80
  | .fing .MODE c => c = 83
  | .fing .ORTH c => c = 80
  | .fing .STRN c => c = 80
  | .fing .TOYS c => c ∈ [67, 70, 74, 75, 77, 79, 81, 83, 85, 86]
  | _ => False

theorem keepsC_fpRun (E : EngineC R) (f : Fp) (c : Int) (O : (Op.fing f c).touchesOthers → Others R) (D : (Op.fing f c).changesDirs → Dirs R)
    (T : (Op.fing f c).changesTable → Tables R) (W : (Op.fing f c).stores → Stores R) :
    Keeps R (fpRun f c) := by
  cases f <;> unfold fpRun <;> dsimp only
  case BASE => unfold baseRun; split <;> keep E
  case BITW => unfold bitwRun; split <;> keep E
  case BOOL => unfold boolRun; split <;> keep E
  case CPLI => unfold cpliRun; split <;> keep E
  case DBUG => unfold dbugRun; split <;> keep E
  case DIRF => exact keeps_dirfRun E (D trivial) c
  case FING =>
    unfold fingRun; split
    · exact keeps_fingSwap E (T trivial)
    · exact keeps_fingPop E (T trivial)
    · exact keeps_fingCopy E (T trivial)
    · keep E
  case FISH => unfold fishRun; split <;> keep E
  case FIXP => unfold fixpRun; split <;> keep E
  case FPDP => unfold fpdpRun; split <;> keep E
  case FPRT => unfold fprtRun; split <;> keep E
  case FPSP => unfold fpspRun; split <;> keep E
  case LONG => unfold longRun; split <;> keep E
  case FRTH => unfold frthRun; split <;> keep E
  case HRTI => unfold hrtiRun; split <;> keep E
  case IIPC => exact keeps_iipcRun E c O
  case JSTR => unfold jstrRun; split <;> first | (have W' := W (by first | rfl | (unfold Op.stores; decide)); keep E; done) | exact keeps_modeToggle' E _ (by decide) | (keep E; done)
  case MODE => unfold modeRun; split <;> first | (have W' := W (by first | rfl | (unfold Op.stores; decide)); keep E; done) | exact keeps_modeToggle' E _ (by decide) | (keep E; done)
  case MVRS => unfold mvrsRun; split <;> keep E
  case NFUN => unfold nfunRun; split <;> keep E
  case ORTH => unfold orthRun; split <;> first | (have W' := W (by first | rfl | (unfold Op.stores; decide)); keep E; done) | exact keeps_modeToggle' E _ (by decide) | (keep E; done)
  case PERL =>
    unfold perlRun; split
    · exact keeps_perlEval E
    · exact keeps_perlInt E
    · keep E
    · keep E
  case REFC =>
    unfold refcRun; split
    · exact keeps_refcRef E
    · keep E
    · keep E
  case STRN => unfold strnRun; split <;> first | (have W' := W (by first | rfl | (unfold Op.stores; decide)); keep E; done) | exact keeps_modeToggle' E _ (by decide) | (keep E; done)
  case SUBR => unfold subrRun; split <;> keep E
  case TOYS => unfold toysRun; split <;> first | (have W' := W (by first | rfl | (unfold Op.stores; decide)); keep E; done) | exact keeps_modeToggle' E _ (by decide) | (keep E; done)
  all_goals keep E

/-- **Every instruction** is made of elementary changes. -/
theorem keepsC_runOp (E : EngineC R) {exec : Int → Exec Err} (hexec : ∀ i, Keeps R (exec i)) (op : Op) (O : op.touchesOthers → Others R)
    (D : op.changesDirs → Dirs R) (T : op.changesTable → Tables R) (W : op.stores → Stores R) : Keeps R (runOp exec op) := by
  cases op <;> unfold runOp <;> dsimp only
  case iterate => exact keeps_iIterate E hexec
  case thread => exact keeps_iThread E
  case fileIn => exact keeps_iFileIn E (W trivial)
  case fileOut => exact keeps_iFileOut E
  case execute => exact keeps_iExecute E
  case load => exact keeps_iLoad E (T trivial)
  case unload => exact keeps_iUnload E (T trivial)
  case sFile => exact keeps_siFile E
  case put => exact keeps_iPut E (W trivial)
  case store => exact keeps_iStore E (W trivial)
  case fPut => exact keeps_fiPut E (W trivial)
  case fing f c => exact keepsC_fpRun E f c O D T W
  all_goals keep E

theorem keeps_runOp (E : EngineB R) {exec : Int → Exec Err} (hexec : ∀ i, Keeps R (exec i)) (op : Op) (O : op.touchesOthers → Others R)
    (D : op.changesDirs → Dirs R) (T : op.changesTable → Tables R) : Keeps R (runOp exec op) :=
  keepsC_runOp E.base hexec op O D T fun _ => E.stores

/-- What the instructions a runner knows need of a relation; nothing if the relation does not constrain what happens to that runner. -/
def FitsB (R : St → St → Prop) : Prop := ∀ s i sem, s.cur.getSem i = some sem →
  ((sem.op.touchesOthers → Others R) ∧ (sem.op.changesDirs → Dirs R) ∧ (sem.op.changesTable → Tables R)) ∨ ∀ s', R s s'

/-- Likewise, for a relation that contains the changes of the table of meanings. -/
def Fits (R : St → St → Prop) : Prop := ∀ s i sem, s.cur.getSem i = some sem →
  ((sem.op.touchesOthers → Others R) ∧ (sem.op.changesDirs → Dirs R)) ∨ ∀ s', R s s'

theorem fits_of (O : Others R) (D : Dirs R) : Fits R := fun _ _ _ _ => .inl ⟨fun _ => O, fun _ => D⟩

theorem Fits.toB (E : Engine R) (H : Fits R) : FitsB R := fun s i sem h => by
  rcases H s i sem h with ⟨O, D⟩ | hall
  · exact .inl ⟨O, D, fun _ => E.toTables⟩
  · exact .inr hall

theorem keepsB_execNormal (E : EngineB R) (H : FitsB R) {exec : Int → Exec Err} (hexec : ∀ i, Keeps R (exec i)) (i : Int) :
    Keeps R (execNormal exec i) := by
  intro s a s' h
  unfold execNormal at h
  split at h
  · cases h; exact E.refl s
  · rename_i sem hsem
    split at h
    · cases h; exact E.refl s
    · rcases H s i sem hsem with ⟨O, D, T⟩ | hall
      · exact keeps_runOp E hexec _ O D T _ _ _ h
      · exact hall s'

theorem keeps_execNormal (E : Engine R) (H : Fits R) {exec : Int → Exec Err} (hexec : ∀ i, Keeps R (exec i)) (i : Int) :
    Keeps R (execNormal exec i) := keepsB_execNormal E.toEngineB (H.toB E) hexec i

theorem keeps_isSpace (E : EngineC R) (x) : Keeps R (isSpace x) := by unfold isSpace; keep E
macro_rules | `(tactic| keep1 $E) => `(tactic| with_reducible exact keeps_isSpace $E _)
theorem keeps_execSGML (E : EngineC R) (x) : Keeps R (execSGML x) := by unfold execSGML; keep E
macro_rules | `(tactic| keep1 $E) => `(tactic| with_reducible exact keeps_execSGML $E _)
theorem keeps_execC (E : EngineC R) (x) : Keeps R (execC x) := by unfold execC; keep E
macro_rules | `(tactic| keep1 $E) => `(tactic| with_reducible exact keeps_execC $E _)
theorem keeps_execString (E : EngineC R) (x) : Keeps R (execString x) := by unfold execString; keep E

theorem keepsB_execute (E : EngineB R) (H : FitsB R) (n : Nat) (i : Int) : Keeps R (execute n i) := by
  induction n generalizing i with
  | zero => exact keeps_fault _
  | succ n ih =>
    intro s a s' h
    unfold execute at h
    split at h
    · exact keeps_execString E i _ _ _ h
    · exact keepsB_execNormal E H ih i _ _ _ h

theorem keeps_execute (E : Engine R) (H : Fits R) (n : Nat) (i : Int) : Keeps R (execute n i) := keepsB_execute E.toEngineB (H.toB E) n i

theorem keeps_handle (E : EngineC R) (e : Err) : Keeps R (handle e) := by unfold handle; keep E
theorem keeps_afterExec (E : EngineC R) (e : Err) : Keeps R (afterExec e) := by
  unfold afterExec; split <;> first | exact keeps_pure E _ | exact keeps_handle E _

theorem keepsB_tickLoop (E : EngineB R) (H : FitsB R) (n : Nat) : Keeps R (tickLoop n) := by
  have h1 := fun n i => keepsB_execute E H n i
  have h2 := fun e => keeps_afterExec E.base e
  induction n with
  | zero => exact keeps_fault _
  | succ n ih =>
    unfold tickLoop
    keep E
    all_goals first | apply h1 | apply h2

theorem keeps_tickLoop (E : Engine R) (H : Fits R) (n : Nat) : Keeps R (tickLoop n) := keepsB_tickLoop E.toEngineB (H.toB E) n

/-- **Every tick** is made of elementary changes. -/
theorem keepsB_tick (E : EngineB R) (H : FitsB R) : Keeps R tick := by
  unfold tick
  exact keeps_bind E (keeps_getFuel E) fun _ => keepsB_tickLoop E H _

theorem keeps_tick_if (E : Engine R) (H : Fits R) : Keeps R tick := keepsB_tick E.toEngineB (H.toB E)

theorem keeps_tick (E : Engine R) (O : Others R) (D : Dirs R) : Keeps R tick := keeps_tick_if E (fits_of O D)

end Funge
