import Verif.Lemmas.SafeOps
import Verif.Lemmas.Tables
/-
Memory safety of the remaining instructions, of ticks and of runs.
-/
namespace Funge
open Exec

variable {k : Nat}

theorem safeRes_weaken {α : Type} {n : Nat} {x : Except Fault (α × St)} (h : SafeRes n x) (hk : k ≤ n) : SafeRes k x := by
  cases x with
  | error e => exact h
  | ok p => exact good_weaken h hk

theorem safe_iUnder : Safe k iUnder := by
  unfold iUnder
  refine safe_bindNum fun sz _ _ => ?_
  split
  · rename_i h
    have h2 : 2 ≤ sz := h
    safe
  · exact safe_pure _

theorem safe_iBegin : Safe k iBegin := by
  unfold iBegin
  refine safe_bind safe_popTop fun n => ?_
  intro s hs
  rw [bind_ok (rfl : onStacks (fun ss => .ok ss.push) s = .ok ((), { s with cur := { s.cur with ss := s.cur.ss.push } }))]
  have hg : Good (s.cur.ss.stacks.length + 1) { s with cur := { s.cur with ss := s.cur.ss.push } } :=
    ⟨⟨hs.cur.1, nofun⟩, hs.rest, Nat.le_refl _⟩
  have h2 : 2 ≤ s.cur.ss.stacks.length + 1 := Nat.succ_le_succ (List.length_pos_iff.2 hs.cur.2)
  generalize hm : ((do
      if n > 0 then do
        let trans ← popN popSecond n.toNat
        pushAll pushTop trans.reverse
      else if n = i64Min then fault .overflow
      else pushAll pushSecond (List.replicate (-n).toNat 0)
      let st ← ipStorage
      pushVectorOn pushSecond st
      onIP fun ip => ip.setStorage (ip.pos.add ip.delta)
      switchPut 125
      pure Err.none) : Exec Err) = m
  have hsafe : Safe (s.cur.ss.stacks.length + 1) m := by
    rw [← hm]
    safe
  exact safeRes_weaken (hsafe _ hg) (Nat.le_succ_of_le hs.many)

theorem safe_dropStack {s : St} (h : Good 2 s) : SafeRes 0 ((do
    onStacks StackStack.pop
    switchPut 123
    pure Err.none : Exec Err) s) := by
  obtain ⟨⟨hsel, hne⟩, hrest, hmany⟩ := h
  refine safeRes_bind (k := 0) ?_ fun _ s5 _ h5 => ?_
  · unfold onStacks StackStack.pop
    cases hst : s.cur.ss.stacks with
    | nil => exact absurd hst hne
    | cons a t =>
      refine ⟨⟨hsel, ?_⟩, hrest, Nat.zero_le _⟩
      rintro rfl
      rw [hst] at hmany
      simp at hmany
  · exact (by safe : Safe 0 (switchPut 123 >>= fun _ => pure Err.none)) _ h5

theorem safe_iEnd : Safe 0 iEnd := by
  unfold iEnd
  intro s hs
  rw [bind_ok (rfl : numStacks s = .ok (s.cur.ss.size, s))]
  split
  · rename_i h
    have hg : Good 2 s := ⟨hs.cur, hs.rest, h⟩
    refine safeRes_bind (k := 2) (safe_popTop _ hg) fun n s1 _ h1 => ?_
    refine safeRes_bind (k := 2) ((by safe : Safe 2 (popVectorOn popSecond)) _ h1) fun v s2 _ h2 => ?_
    refine safeRes_bind (k := 2) (safe_onIP _ _ h2) fun _ s3 _ h3 => ?_
    split
    · refine safeRes_bind (k := 2) ((by safe : Safe 2 (popN popTop n.toNat)) _ h3) fun l s4 _ h4 => ?_
      refine safeRes_bind (k := 2) ((by safe : Safe 2 (pushAll pushSecond l.reverse)) _ h4) fun _ s5 _ h5 => ?_
      exact safe_dropStack h5
    · split
      · exact rfl
      · refine safeRes_bind (k := 2) ((by safe : Safe 2 (popN popSecond (-n).toNat)) _ h3) fun l s4 _ h4 => ?_
        exact safe_dropStack h4
  · exact (by safe : Safe 0 (switchPut 123 >>= fun _ => pure Err.unspec)) _ hs

theorem safe_iFileIn : Safe k iFileIn := by unfold iFileIn; safe
theorem safe_iFileOut : Safe k iFileOut := by unfold iFileOut; safe
theorem safe_iExecute : Safe k iExecute := by unfold iExecute; safe
theorem safe_perlEval : Safe k perlEval := by unfold perlEval perl; safe
theorem safe_perlInt : Safe k perlInt := by unfold perlInt perl; safe

theorem fine_copy {ss : StackStack} (h : ss.Fine) : ss.copy.Fine := by
  refine ⟨h.1, fun e => h.2 ?_⟩
  have key : ∀ (l acc : List Stack), (l.foldl (fun acc s => s.copy :: acc) acc).length = l.length + acc.length := by
    intro l
    induction l with
    | nil => intro acc; simp
    | cons a l ih => intro acc; rw [List.foldl_cons, ih]; simp; omega
  have h0 := key ss.stacks []
  rw [show ss.stacks.foldl (fun acc s => s.copy :: acc) [] = [] from e] at h0
  exact List.length_eq_zero_iff.1 (by simpa using h0.symm)

theorem fine_clone {p r : Runner} {g : Glob} {id : Nat} (h : p.clone g id = .ok r) (hp : p.ss.Fine) : r.ss.Fine := by
  unfold Runner.clone at h
  dsimp only at h
  split at h
  · cases h
  · cases h
    dsimp only
    rw [(inits_same p.loaded _ _).ss]
    exact fine_setMode (fine_copy hp) _

theorem safe_iThread : Safe k iThread := by
  unfold iThread
  refine safe_bind safe_getCfg fun c => ?_
  split
  · refine safe_bind ?_ fun _ => safe_pure _
    intro s hs
    unfold cloneCur
    split
    · rename_i e he
      unfold Runner.clone at he
      dsimp only at he
      split at he
      · rename_i e' he'
        obtain ⟨ip, hip⟩ := IP.C15_always_terminates s.g.cfg.dims s.g.cfg.topo s.g.field
          (List.foldl (Strat.init s.cur.loaded) { id := s.g.nextId, strats := s.cur.strats.map Strat.cloned, ss := s.cur.ss.copy, ip := s.cur.ip, parent := some s.cur.id : Runner }
            (s.cur.strats.map Strat.cloned)).ip.reflect
        rw [hip] at he'
        cases he'
      · cases he
    · rename_i r hr
      refine ⟨hs.cur, fun x hx => ?_, hs.many⟩
      rcases List.mem_append.1 hx with hx | hx
      · exact hs.rest x hx
      · cases List.mem_singleton.1 hx
        exact fine_clone hr hs.cur
  · exact safe_pure _

/-- Replacing the runner by one with the same stacks. -/
theorem safeRes_modCur {s : St} (hs : Good k s) (r : Runner) (hr : r.ss = s.cur.ss) : SafeRes k (modCur (fun _ => r) s) :=
  ⟨by show r.ss.Fine; rw [hr]; exact hs.cur, hs.rest, by show k ≤ r.ss.stacks.length; rw [hr]; exact hs.many⟩

theorem safe_iLoad : Safe k iLoad := by
  unfold iLoad
  refine safe_bind safe_getCfg fun c => ?_
  refine safe_bind ?_ fun _ => by safe
  split
  · refine safe_bind safe_popTop fun count => ?_
    refine safe_bind (safe_popFingerprint _ _) fun fp => ?_
    intro s hs
    rw [bind_ok (get_run s)]
    cases hr : s.cur.loadFp fp.toNat with
    | none => exact hs
    | some r =>
      refine safeRes_bind (k := k) (safeRes_modCur hs r (loadFp_same hr).ss) fun _ s' _ hs' => ?_
      exact (by safe : Safe k (do pushTop (toI64 fp); pushTop 1; pure Err.none)) _ hs'
  · exact safe_pure _

theorem safe_iUnload : Safe k iUnload := by
  unfold iUnload
  refine safe_bind safe_getCfg fun c => ?_
  refine safe_bind ?_ fun _ => by safe
  split
  · refine safe_bind safe_popTop fun count => ?_
    refine safe_bind (safe_popFingerprint _ _) fun fp => ?_
    intro s hs
    rw [bind_ok (get_run s)]
    cases hr : s.cur.unloadFp fp.toNat with
    | none => exact hs
    | some r =>
      obtain ⟨t, l, rfl, _, _⟩ := unloadFp_eq hr
      exact safeRes_bind (k := k) (safeRes_modCur hs _ rfl) fun _ s' _ hs' => hs'
  · exact safe_pure _

theorem safe_fingSwap : Safe k fingSwap := by unfold fingSwap; safe
theorem safe_fingPop : Safe k fingPop := by unfold fingPop; safe
theorem safe_fingCopy : Safe k fingCopy := by unfold fingCopy; safe

theorem safe_refcFresh (n) : Safe k (refcFresh n) := by
  induction n with
  | zero => exact safe_fault rfl
  | succ n ih => unfold refcFresh; safe
theorem safe_refcRef : Safe k refcRef := by
  unfold refcRef
  have := fun n => safe_refcFresh (k := k) n
  refine safe_bind (by safe) fun v => safe_bind safe_getFuel fun n => safe_bind (this n) fun r => ?_
  safe

theorem safe_dirfRun (c : Int) : Safe k (dirfRun c) := by
  unfold dirfRun
  split
  · unfold dirfChange; safe
  · unfold dirfMake; safe
  · unfold dirfRemove; safe
  · safe

theorem onListTop_safe {α : Type} {id : Int} {f : Stack → α × Stack} {l : List Runner} (h : ∀ r ∈ l, r.ss.Fine) :
    onListTop id f l = none ∨ ∃ a l', onListTop id f l = some (.ok (a, l')) ∧ ∀ r ∈ l', r.ss.Fine := by
  induction l with
  | nil => exact .inl rfl
  | cons r t ih =>
    have hr := h r List.mem_cons_self
    have ht := fun x hx => h x (List.mem_cons_of_mem _ hx)
    unfold onListTop
    split
    · refine .inr ?_
      unfold StackStack.at'
      have hlt : r.ss.select < r.ss.stacks.length := by rw [hr.1]; exact List.length_pos_iff.2 hr.2
      rw [List.getElem?_eq_getElem hlt]
      refine ⟨_, _, rfl, fun x hx => ?_⟩
      rcases List.mem_cons.1 hx with rfl | hx
      · exact fine_setAt hr _ _
      · exact ht x hx
    · rcases ih ht with h0 | ⟨a, l', h0, h1⟩
      · rw [h0]; exact .inl rfl
      · rw [h0]
        refine .inr ⟨a, r :: l', rfl, fun x hx => ?_⟩
        rcases List.mem_cons.1 hx with rfl | hx
        · exact hr
        · exact h1 x hx

theorem safe_onRunnerTop {α : Type} (id : Int) (f : Stack → α × Stack) : Safe k (onRunnerTop id f) := by
  intro s hs
  unfold onRunnerTop
  split
  · have h := safe_onTop (n := k) f s hs
    split
    · rename_i e he; rw [he] at h; exact h
    · rename_i a s' he; rw [he] at h; exact h
  · rcases onListTop_safe (id := id) (f := f) hs.rest with h0 | ⟨a, l', h0, h1⟩
    · rw [h0]; exact hs
    · rw [h0]; exact ⟨hs.cur, h1, hs.many⟩

theorem safe_iipcLook : Safe k iipcLook := by
  unfold iipcLook
  exact safe_bind safe_popTop fun _ => safe_bind (safe_onRunnerTop _ _) fun _ => by safe
theorem safe_iipcGet : Safe k iipcGet := by
  unfold iipcGet
  exact safe_bind safe_popTop fun _ => safe_bind (safe_onRunnerTop _ _) fun _ => by safe
theorem safe_iipcPut : Safe k iipcPut := by
  unfold iipcPut
  exact safe_bind safe_popTop fun _ => safe_bind safe_popTop fun _ => safe_bind (safe_onRunnerTop _ _) fun _ => by safe

end Funge
