import Verif.Lemmas.TwistOps
import Verif.Lemmas.Univ
/-
Every tick and every run does the same in both runs.
-/
namespace Funge
open Exec

variable {T : Twist}

theorem comm_iExecute : Comm T iExecute := by unfold iExecute; commute
theorem comm_perl (c) : Comm T (perl c) := by unfold perl; commute
macro_rules | `(tactic| commute1) => `(tactic| with_reducible exact comm_perl _)
theorem comm_perlEval : Comm T perlEval := by unfold perlEval; commute
theorem comm_perlInt : Comm T perlInt := by unfold perlInt; commute
theorem comm_setField (f : Field) : Comm T (modG fun g => { g with field := f }) := comm_modG _ (fun _ => rfl) (fun _ => rfl) fun _ => rfl
macro_rules | `(tactic| commute1) => `(tactic| with_reducible exact comm_setField _)
theorem comm_iFileIn : Comm T iFileIn := by unfold iFileIn; commute

theorem dumpLoop_step (f : Field) (a e : Vec) (b : Bool) (d : Field.DState) :
    ∃ (c : Prop) (_ : Decidable c) (l : List Int) (d' : Field.DState), ∀ n, f.dumpLoop a e b (n + 1) d = if c then some l else f.dumpLoop a e b n d' := by
  by_cases hc : d.v.lt e = true
  · let p := if f.get d.v ≠ 32 ∨ b = true then (d.out ++ (d.buffer ++ [toChar (f.get d.v)]), []) else (d.out, d.buffer ++ [toChar (f.get d.v)])
    let v := d.v.set 0 (d.v.get 0 + 1)
    let q := if v.get 0 ≥ e.get 0 then (((v.set 1 (v.get 1 + 1)).set 0 (a.get 0)), p.1 ++ [10], if b = true then p.2 else []) else (v, p.1, p.2)
    exact ⟨q.1.get 1 ≥ e.get 1, inferInstance, q.2.1, ⟨q.1, q.2.2, q.2.1⟩, fun n => by rw [Field.dumpLoop, if_pos hc]⟩
  · exact ⟨True, inferInstance, d.out, d, fun n => by rw [Field.dumpLoop, if_neg hc, if_pos trivial]⟩

theorem dumpLoop_mono {f : Field} {a e : Vec} {b : Bool} : ∀ n n', n ≤ n' → ∀ d l, f.dumpLoop a e b n d = some l → f.dumpLoop a e b n' d = some l := by
  intro n
  induction n with
  | zero => intro n' _ d l h; cases h
  | succ n ih =>
    intro n' h d l hl
    cases n' with
    | zero => omega
    | succ n' =>
      obtain ⟨c, _, l', d', hd⟩ := dumpLoop_step f a e b d
      rw [hd] at hl ⊢
      by_cases hc : c
      · rw [if_pos hc] at hl ⊢; exact hl
      · rw [if_neg hc] at hl ⊢; exact ih _ (by omega) _ _ hl

theorem comm_iFileOut : Comm T iFileOut := by
  unfold iFileOut
  refine comm_bind comm_getCfg fun c => ?_
  split
  · refine comm_bind comm_popString fun path => comm_bind comm_popTop fun flags => comm_bind comm_popVector fun va => comm_bind comm_ipStorage fun st => ?_
    dsimp only
    refine comm_bind comm_popVector fun vb => comm_bind (comm_emit _) fun _ => comm_bind comm_askFile fun file => ?_
    split
    · refine comm_getbind fun s => ?_
      cases hd : s.g.field.dump s.g.fuel (va.add st) vb (flags % 2 = 0) with
      | none => exact comm₂_fuel
      | some l =>
        have : (T.st s).g.field.dump (T.st s).g.fuel (va.add st) vb (flags % 2 = 0) = some l :=
          dumpLoop_mono s.g.fuel (s.g.fuel + T.extra) (Nat.le_add_right ..) _ _ hd
        rw [this]
        refine Comm.two ?_
        commute
    · exact comm_pure _
  · exact comm_pure _

theorem comm_siFile : Comm T siFile := by unfold siFile; commute
theorem comm_iThread : Comm T iThread := by unfold iThread; commute
theorem comm_fingSwap : Comm T fingSwap := by unfold fingSwap; commute
theorem comm_fingPop : Comm T fingPop := by unfold fingPop; commute
theorem comm_fingCopy : Comm T fingCopy := by unfold fingCopy; commute
theorem comm_iLoad : Comm T iLoad := by unfold iLoad; commute
theorem comm_iUnload : Comm T iUnload := by unfold iUnload; commute

theorem comm₂_getbind {α : Type} {f f' : St → Exec α} (h : ∀ s, Comm₂ T (f s) (f' (T.st s))) : Comm₂ T (get >>= f) (get >>= f') := fun s => h s s

theorem comm₂_refcFresh : ∀ n n', n ≤ n' → Comm₂ T (refcFresh n) (refcFresh n') := by
  intro n
  induction n with
  | zero => exact fun _ _ => comm₂_fuel
  | succ n ih =>
    intro n' h
    cases n' with
    | zero => omega
    | succ n' =>
      unfold refcFresh
      refine comm₂_bind comm_ask fun r => ?_
      dsimp only
      refine comm₂_getbind fun s => ?_
      simp only [T.st_refc]
      cases refcFind s.g.refc (r % 2147483648) with
      | none => exact comm_pure _
      | some _ => exact ih _ (Nat.le_of_succ_le_succ h)

theorem comm_addRef (r : Int) (v : Vec) : Comm T (modG fun g => { g with refc := (r, v) :: g.refc }) :=
  comm_modG _ (fun _ => rfl) (fun _ => rfl) fun _ => rfl
macro_rules | `(tactic| commute1) => `(tactic| with_reducible exact comm_addRef _ _)
theorem comm_refcRef : Comm T refcRef := by
  unfold refcRef
  refine comm_bind comm_popVector fun va => comm_getFuel fun n n' h => ?_
  refine comm₂_bind (comm₂_refcFresh _ _ h) fun r => Comm.two ?_
  commute

theorem comm_iipcLook : Comm T iipcLook := by unfold iipcLook; commute
theorem comm_iipcGet : Comm T iipcGet := by unfold iipcGet; commute
theorem comm_iipcPut : Comm T iipcPut := by unfold iipcPut; commute
theorem comm_dirfChange : Comm T dirfChange := by unfold dirfChange; commute
theorem comm_dirfMake : Comm T dirfMake := by unfold dirfMake; commute
theorem comm_dirfRemove : Comm T dirfRemove := by unfold dirfRemove; commute
macro_rules | `(tactic| commute1) => `(tactic| first
  | with_reducible exact comm_iExecute | with_reducible exact comm_perlEval | with_reducible exact comm_perlInt | with_reducible exact comm_iFileIn
  | with_reducible exact comm_iFileOut | with_reducible exact comm_siFile | with_reducible exact comm_iThread | with_reducible exact comm_fingSwap
  | with_reducible exact comm_fingPop | with_reducible exact comm_fingCopy | with_reducible exact comm_iLoad | with_reducible exact comm_iUnload
  | with_reducible exact comm_refcRef | with_reducible exact comm_iipcLook | with_reducible exact comm_iipcGet | with_reducible exact comm_iipcPut
  | with_reducible exact comm_strnGet | with_reducible exact comm_dirfChange | with_reducible exact comm_dirfMake | with_reducible exact comm_dirfRemove)

theorem comm_fpRun (f : Fp) (c : Int) : Comm T (fpRun f c) := by
  cases f <;> unfold fpRun <;> dsimp only
  case BASE => unfold baseRun; split <;> commute
  case BITW => unfold bitwRun; split <;> commute
  case BOOL => unfold boolRun; split <;> commute
  case CPLI => unfold cpliRun; split <;> commute
  case DBUG => unfold dbugRun; split <;> commute
  case DIRF => unfold dirfRun; split <;> commute
  case FING => unfold fingRun; split <;> commute
  case FISH => unfold fishRun; split <;> commute
  case FIXP => unfold fixpRun; split <;> commute
  case FPDP => unfold fpdpRun; split <;> commute
  case FPRT => unfold fprtRun; split <;> commute
  case FPSP => unfold fpspRun; split <;> commute
  case LONG => unfold longRun; split <;> commute
  case FRTH => unfold frthRun; split <;> commute
  case HRTI => unfold hrtiRun; split <;> commute
  case IIPC => unfold iipcRun; split <;> commute
  case JSTR => unfold jstrRun; split <;> commute
  case MODE => unfold modeRun; split <;> commute
  case MVRS => unfold mvrsRun; split <;> commute
  case NFUN => unfold nfunRun; split <;> commute
  case ORTH => unfold orthRun; split <;> commute
  case PERL => unfold perlRun; split <;> commute
  case REFC => unfold refcRun; split <;> commute
  case STRN => unfold strnRun; split <;> commute
  case SUBR => unfold subrRun; split <;> commute
  case TOYS => unfold toysRun; split <;> commute
macro_rules | `(tactic| commute1) => `(tactic| with_reducible exact comm_fpRun _ _)

/-- **Every instruction** does the same in both runs. -/
theorem comm₂_runOp {exec exec' : Int → Exec Err} (h : ∀ i, Comm₂ T (exec i) (exec' i)) (op : Op) : Comm₂ T (runOp exec op) (runOp exec' op) := by
  cases op <;> unfold runOp <;> dsimp only
  case iterate => exact comm₂_iIterate h
  all_goals (refine Comm.two ?_; commute)

theorem comm₂_execNormal {exec exec' : Int → Exec Err} (h : ∀ i, Comm₂ T (exec i) (exec' i)) (i : Int) :
    Comm₂ T (execNormal exec i) (execNormal exec' i) := fun s => by
  have h1 : s.cur.getSem i = (T.st s).cur.getSem i := rfl
  cases hg : s.cur.getSem i with
  | none =>
    have e1 : execNormal exec i s = .ok (.unimp, s) := by unfold execNormal; rw [hg]
    have e2 : execNormal exec' i (T.st s) = .ok (.unimp, T.st s) := by unfold execNormal; rw [← h1, hg]
    rw [e1, e2]
    exact comm_pure (T := T) Err.unimp s
  | some sem =>
    by_cases hd : (hasMode s.g.cfg.mode modeDive && !sem.movement) = true
    · have e1 : execNormal exec i s = .ok (.skip, s) := by unfold execNormal; rw [hg]; dsimp only; rw [if_pos hd]
      have e2 : execNormal exec' i (T.st s) = .ok (.skip, T.st s) := by unfold execNormal; rw [← h1, hg]; exact if_pos hd
      rw [e1, e2]
      exact comm_pure (T := T) Err.skip s
    · have e1 : execNormal exec i s = runOp exec sem.op s := by unfold execNormal; rw [hg]; dsimp only; rw [if_neg hd]
      have e2 : execNormal exec' i (T.st s) = runOp exec' sem.op (T.st s) := by unfold execNormal; rw [← h1, hg]; exact if_neg hd
      rw [e1, e2]
      exact comm₂_runOp h sem.op s

theorem comm_isSpace (x) : Comm T (isSpace x) := by unfold isSpace; commute
macro_rules | `(tactic| commute1) => `(tactic| with_reducible exact comm_isSpace _)
theorem comm_execSGML (x) : Comm T (execSGML x) := by unfold execSGML; commute
macro_rules | `(tactic| commute1) => `(tactic| with_reducible exact comm_execSGML _)
theorem comm_execC (x) : Comm T (execC x) := by unfold execC; commute
macro_rules | `(tactic| commute1) => `(tactic| with_reducible exact comm_execC _)
theorem comm_execString (x) : Comm T (execString x) := by unfold execString; commute

theorem comm₂_execute : ∀ n n', n ≤ n' → ∀ i, Comm₂ T (execute n i) (execute n' i) := by
  intro n
  induction n with
  | zero => exact fun _ _ _ => comm₂_fuel
  | succ n ih =>
    intro n' h i
    cases n' with
    | zero => omega
    | succ n' =>
      intro s
      by_cases hs : s.cur.inString = true
      · have e1 : execute (n + 1) i s = execString i s := by unfold execute; exact if_pos hs
        have e2 : execute (n' + 1) i (T.st s) = execString i (T.st s) := by unfold execute; exact if_pos hs
        rw [e1, e2]
        exact comm_execString i s
      · have e1 : execute (n + 1) i s = execNormal (execute n) i s := by unfold execute; exact if_neg hs
        have e2 : execute (n' + 1) i (T.st s) = execNormal (execute n') i (T.st s) := by unfold execute; exact if_neg hs
        rw [e1, e2]
        exact comm₂_execNormal (ih n' (by omega)) i s

theorem comm_handle (e : Err) : Comm T (handle e) := by unfold handle; commute
theorem comm_afterExec (e : Err) : Comm T (afterExec e) := by
  unfold afterExec; split <;> first | exact comm_pure _ | exact comm_handle _

theorem comm₂_tickLoop : ∀ n n', n ≤ n' → Comm₂ T (tickLoop n) (tickLoop n') := by
  intro n
  induction n with
  | zero => exact fun _ _ => comm₂_fuel
  | succ n ih =>
    intro n' h
    cases n' with
    | zero => omega
    | succ n' =>
      unfold tickLoop
      refine comm₂_bind comm_ipGet fun i => comm₂_getFuel fun m m' hm => comm₂_bind (comm₂_execute _ _ hm i) fun e => comm₂_bind (comm_afterExec e) fun e => ?_
      have hr : Comm₂ T (if e = .skip then tickLoop n else pure ()) (if e = .skip then tickLoop n' else pure ()) :=
        comm₂_ite (ih _ (Nat.le_of_succ_le_succ h)) (comm_pure _)
      exact comm₂_ite (comm₂_bind comm_ipNext fun _ => hr) hr

/-- **Every tick** does the same in both runs. -/
theorem comm_tick : Comm T tick := by
  unfold tick
  exact comm_getFuel fun n n' h => comm₂_tickLoop n n' h

/-! ### Runs -/

/-- The universe in the second run. -/
def Twist.univ (T : Twist) (u : Univ) : Univ := ⟨u.runners, T.glob u.g⟩

/-- Up to here the runs cannot be told apart. -/
def Twist.Good' (T : Twist) (g : Glob) : Prop := (T.cut = 0 ∧ T.later = [] ∨ T.cut < g.inp.length) ∧ ∀ a < g.asked, T.past a = true

theorem turn_twist {u v : Univ} (h : u.turn = .ok v) (hv : T.Good' v.g) : T.Good' u.g ∧ (T.univ u).turn = .ok (T.univ v) := by
  obtain ⟨rs, g⟩ := u
  rcases turn_cases h with ⟨hr, rfl⟩ | ⟨r, rest, hr, ⟨hs, rfl⟩ | ⟨hs, s, ht, rfl⟩⟩
  · cases hr; exact ⟨hv, rfl⟩
  · cases hr; exact ⟨hv, turn_stopped hs rest (T.glob g)⟩
  · cases hr
    obtain ⟨h1, h2⟩ := (comm_tick (T := T) ⟨r, rest, g⟩).1 _ _ ht hv
    exact ⟨h1, turn_tick hs h2⟩

theorem turns_twist {n : Nat} : ∀ {u v : Univ}, u.turns n = .ok v → T.Good' v.g → T.Good' u.g ∧ (T.univ u).turns n = .ok (T.univ v) := by
  induction n with
  | zero => intro u v h hv; cases h; exact ⟨hv, rfl⟩
  | succ n ih =>
    intro u v h hv
    unfold Univ.turns at h
    split at h
    · cases h
    · rename_i w hw
      obtain ⟨h1, h2⟩ := ih h hv
      obtain ⟨h3, h4⟩ := turn_twist hw h1
      refine ⟨h3, ?_⟩
      unfold Univ.turns
      rw [h4]
      exact h2

theorem turn_twist_error {u : Univ} {e : Fault} (hT : T.Free) (he : e ≠ .fuel) (h : u.turn = .error e) : (T.univ u).turn = .error e := by
  obtain ⟨rs, g⟩ := u
  cases rs with
  | nil => cases h
  | cons r rest =>
    cases hs : r.ip.stopped with
    | true => rw [turn_stopped hs] at h; cases h
    | false =>
      unfold Univ.turn at h ⊢
      unfold Twist.univ
      simp only [hs] at h ⊢
      cases ht : tick ⟨r, rest, g⟩ with
      | ok p => rw [ht] at h; cases h
      | error e' =>
        rw [ht] at h
        cases h
        have := (comm_tick (T := T) ⟨r, rest, g⟩).2 hT _ ht he
        change tick ⟨r, rest, T.glob g⟩ = _ at this
        simp only [this]
        rfl

theorem turns_twist_error {n : Nat} (hT : T.Free) {e : Fault} (he : e ≠ .fuel) : ∀ {u : Univ}, u.turns n = .error e → (T.univ u).turns n = .error e := by
  induction n with
  | zero => intro u h; cases h
  | succ n ih =>
    intro u h
    unfold Univ.turns at h ⊢
    split at h
    · rename_i e' h'
      cases h
      rw [turn_twist_error hT he h']
    · rename_i w hw
      rw [(turn_twist hw ⟨.inl hT.1, fun a _ => hT.2 a⟩).2]
      exact ih h

end Funge
