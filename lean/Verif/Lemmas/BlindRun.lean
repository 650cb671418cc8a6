import Verif.Lemmas.BlindOps
/-
Every tick does the same beside any other IPs that have the same IDs and stacks.
-/
set_option linter.unusedSectionVars false

namespace Funge
open Exec

variable {R : List Runner → List Runner → Prop} [Guise R]

theorem blind_iExecute : Blind R iExecute := by unfold iExecute; blindly
theorem blind_perl (c) : Blind R (perl c) := by unfold perl; blindly
macro_rules | `(tactic| blindly1) => `(tactic| with_reducible exact blind_perl _)
theorem blind_perlEval : Blind R perlEval := by unfold perlEval; blindly
theorem blind_perlInt : Blind R perlInt := by unfold perlInt; blindly
theorem blind_setField (f : Field) : Blind R (modG fun g => { g with field := f }) := blind_modG _
macro_rules | `(tactic| blindly1) => `(tactic| with_reducible exact blind_setField _)
theorem blind_iFileIn : Blind R iFileIn := by unfold iFileIn; blindly

theorem blind_iFileOut : Blind R iFileOut := by unfold iFileOut; blindly

theorem blind_siFile : Blind R siFile := by unfold siFile; blindly
theorem blind_iThread : Blind R iThread := by unfold iThread; blindly
theorem blind_fingSwap : Blind R fingSwap := by unfold fingSwap; blindly
theorem blind_fingPop : Blind R fingPop := by unfold fingPop; blindly
theorem blind_fingCopy : Blind R fingCopy := by unfold fingCopy; blindly
theorem blind_iLoad : Blind R iLoad := by unfold iLoad; blindly
theorem blind_iUnload : Blind R iUnload := by unfold iUnload; blindly

theorem blind_refcFresh (n) : Blind R (refcFresh n) := by
  induction n with
  | zero => exact blind_fault _
  | succ n ih => unfold refcFresh; blindly
macro_rules | `(tactic| blindly1) => `(tactic| with_reducible exact blind_refcFresh _)
theorem blind_addRef (r : Int) (v : Vec) : Blind R (modG fun g => { g with refc := (r, v) :: g.refc }) := blind_modG _
macro_rules | `(tactic| blindly1) => `(tactic| with_reducible exact blind_addRef _ _)
theorem blind_refcRef : Blind R refcRef := by unfold refcRef; blindly

theorem blind_iipcAncestor (hS : Shows R) : Blind R iipcAncestor := fun c l l' g hl => by
  have ha : ∀ p : Nat, (c :: l).any (fun r => r.id = p) = (c :: l').any (fun r => r.id = p) := fun p => by
    have h := congrArg (fun k => k.any (· = p)) (hS.ids l l' hl)
    rw [List.any_map, List.any_map] at h
    rw [List.any_cons, List.any_cons]
    exact congrArg _ h
  show (_ ∨ _)
  cases hp : c.parent with
  | none =>
    refine .inl ⟨.nullDeref, ?_, ?_⟩ <;>
    · show (match c.parent with | none => fault .nullDeref | some p => _ : Exec Err) _ = _
      rw [hp]
      rfl
  | some p =>
    have h1 : ∀ k, iipcAncestor ⟨c, k, g⟩ = (if (c :: k).any (fun r => r.id = p) then (pushTop p >>= fun _ => pure Err.none) else fault .dangling : Exec Err) ⟨c, k, g⟩ := fun k => by
      show (match c.parent with | none => fault .nullDeref | some p => _ : Exec Err) _ = _
      rw [hp]
    rw [h1, h1, ← ha]
    split
    · exact blind_bind (blind_pushTop _) (fun _ => blind_pure _) c l l' g hl
    · exact blind_fault _ c l l' g hl
theorem blind_iipcLook (hS : Shows R) : Blind R iipcLook := by unfold iipcLook; blindly; exact blind_onRunnerTop hS _ _
theorem blind_iipcGet (hS : Shows R) : Blind R iipcGet := by unfold iipcGet; blindly; exact blind_onRunnerTop hS _ _
theorem blind_iipcPut (hS : Shows R) : Blind R iipcPut := by unfold iipcPut; blindly; exact blind_onRunnerTop hS _ _
theorem blind_dirfChange : Blind R dirfChange := by unfold dirfChange; blindly
theorem blind_dirfMake : Blind R dirfMake := by unfold dirfMake; blindly
theorem blind_dirfRemove : Blind R dirfRemove := by unfold dirfRemove; blindly
macro_rules | `(tactic| blindly1) => `(tactic| first
  | with_reducible exact blind_iExecute | with_reducible exact blind_perlEval | with_reducible exact blind_perlInt | with_reducible exact blind_iFileIn
  | with_reducible exact blind_iFileOut | with_reducible exact blind_siFile | with_reducible exact blind_iThread | with_reducible exact blind_fingSwap
  | with_reducible exact blind_fingPop | with_reducible exact blind_fingCopy | with_reducible exact blind_iLoad | with_reducible exact blind_iUnload
  | with_reducible exact blind_refcRef
  | with_reducible exact blind_strnGet | with_reducible exact blind_dirfChange | with_reducible exact blind_dirfMake | with_reducible exact blind_dirfRemove)

theorem blind_fpRun (f : Fp) (c : Int) (hS : f = .IIPC → Shows R) : Blind R (fpRun f c) := by
  cases f <;> unfold fpRun <;> dsimp only
  case BASE => unfold baseRun; split <;> blindly
  case BITW => unfold bitwRun; split <;> blindly
  case BOOL => unfold boolRun; split <;> blindly
  case CPLI => unfold cpliRun; split <;> blindly
  case DBUG => unfold dbugRun; split <;> blindly
  case DIRF => unfold dirfRun; split <;> blindly
  case FING => unfold fingRun; split <;> blindly
  case FISH => unfold fishRun; split <;> blindly
  case FIXP => unfold fixpRun; split <;> blindly
  case FPDP => unfold fpdpRun; split <;> blindly
  case FPRT => unfold fprtRun; split <;> blindly
  case FPSP => unfold fpspRun; split <;> blindly
  case LONG => unfold longRun; split <;> blindly
  case FRTH => unfold frthRun; split <;> blindly
  case HRTI => unfold hrtiRun; split <;> blindly
  case IIPC =>
    unfold iipcRun
    split
    · exact blind_iipcAncestor (hS rfl)
    · blindly
    · exact blind_iipcGet (hS rfl)
    · blindly
    · exact blind_iipcLook (hS rfl)
    · exact blind_iipcPut (hS rfl)
    · blindly
  case JSTR => unfold jstrRun; split <;> blindly
  case MODE => unfold modeRun; split <;> blindly
  case MVRS => unfold mvrsRun; split <;> blindly
  case NFUN => unfold nfunRun; split <;> blindly
  case ORTH => unfold orthRun; split <;> blindly
  case PERL => unfold perlRun; split <;> blindly
  case REFC => unfold refcRun; split <;> blindly
  case STRN => unfold strnRun; split <;> blindly
  case SUBR => unfold subrRun; split <;> blindly
  case TOYS => unfold toysRun; split <;> blindly

/-- **Every instruction** does the same beside any other IPs, those of IIPC if the other IPs have the same IDs and stacks. -/
theorem blind_runOp {exec : Int → Exec Err} (h : ∀ i, Blind R (exec i)) (op : Op) (hS : (∃ c, op = .fing .IIPC c) → Shows R) : Blind R (runOp exec op) := by
  cases op <;> unfold runOp <;> dsimp only
  case iterate => exact blind_iIterate h
  case fing f c => exact blind_fpRun f c fun hf => hS ⟨c, by rw [hf]⟩
  all_goals blindly

theorem blind_execNormal {exec : Int → Exec Err} (hS : Shows R) (h : ∀ i, Blind R (exec i)) (i : Int) : Blind R (execNormal exec i) := fun c l l' g hl => by
  unfold execNormal
  dsimp only
  cases hg : c.getSem i with
  | none => exact blind_pure Err.unimp c l l' g hl
  | some sem =>
    dsimp only
    split
    · exact blind_pure Err.skip c l l' g hl
    · exact blind_runOp h sem.op (fun _ => hS) c l l' g hl

theorem blind_isSpace (x) : Blind R (isSpace x) := by unfold isSpace; blindly
macro_rules | `(tactic| blindly1) => `(tactic| with_reducible exact blind_isSpace _)
theorem blind_execSGML (x) : Blind R (execSGML x) := by unfold execSGML; blindly
macro_rules | `(tactic| blindly1) => `(tactic| with_reducible exact blind_execSGML _)
theorem blind_execC (x) : Blind R (execC x) := by unfold execC; blindly
macro_rules | `(tactic| blindly1) => `(tactic| with_reducible exact blind_execC _)
theorem blind_execString (x) : Blind R (execString x) := by unfold execString; blindly

theorem blind_execute (hS : Shows R) (n i) : Blind R (execute n i) := by
  induction n generalizing i with
  | zero => exact blind_fault _
  | succ n ih =>
    intro c l l' g hl
    unfold execute
    dsimp only
    split
    · exact blind_execString i c l l' g hl
    · exact blind_execNormal hS ih i c l l' g hl

theorem blind_handle (e : Err) : Blind R (handle e) := by unfold handle; blindly
theorem blind_afterExec (e : Err) : Blind R (afterExec e) := by
  unfold afterExec; split <;> first | exact blind_pure _ | exact blind_handle _

theorem blind_tickLoop (hS : Shows R) (n) : Blind R (tickLoop n) := by
  induction n with
  | zero => exact blind_fault _
  | succ n ih =>
    unfold tickLoop
    refine blind_bind blind_ipGet fun i => blind_bind blind_getFuel fun m => blind_bind (blind_execute hS m i) fun e => blind_bind (blind_afterExec e) fun e => ?_
    blindly

/-- **Every tick** does the same beside any other IPs that have the same IDs and stacks. -/
theorem blind_tick (hS : Shows R) : Blind R tick := by
  unfold tick
  exact blind_bind blind_getFuel fun n => blind_tickLoop hS n

end Funge
