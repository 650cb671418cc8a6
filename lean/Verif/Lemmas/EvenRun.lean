import Verif.Lemmas.EvenOps
/-
Every instruction does the same with the one and with the other, if what it looks at is the same.
-/
set_option linter.unusedSectionVars false

namespace Funge
open Exec

variable {W W' : Switches}

/-- What the instruction looks at, of all that the user may say, is the same with both. -/
def Op.Same (W W' : Switches) : Op → Prop
  | .high | .low | .fing .NFUN 72 | .fing .NFUN 76 => W.inverthl = W'.inverthl
  | .thread => W.concurrent = W'.concurrent
  | .fileIn | .fileOut | .sFile => W.filesystem = W'.filesystem
  | .execute | .fing .PERL 69 | .fing .PERL 73 => W.execute = W'.execute
  | .load | .unload => W.fingerprint = W'.fingerprint
  | .sysInfo => W.args = W'.args ∧ W.env = W'.env ∧ W.concurrent = W'.concurrent ∧ W.execute = W'.execute ∧ W.filesystem = W'.filesystem
  | .fing .MVRS 78 => W.name = W'.name
  | _ => True

theorem even_iExecute (h : W.execute = W'.execute) : Even W W' iExecute := by
  unfold iExecute; refine even_cfgbind fun _ => ?_; dsimp only [Switches.cfg]; rw [h]; refine Even.two ?_; evenly
theorem even_perl (c) : Even W W' (perl c) := by unfold perl; evenly
macro_rules | `(tactic| evenly1) => `(tactic| with_reducible exact even_perl _)
theorem even_perlEval (h : W.execute = W'.execute) : Even W W' perlEval := by
  unfold perlEval; refine even_cfgbind fun _ => ?_; dsimp only [Switches.cfg]; rw [h]; refine Even.two ?_; evenly
theorem even_perlInt (h : W.execute = W'.execute) : Even W W' perlInt := by
  unfold perlInt; refine even_cfgbind fun _ => ?_; dsimp only [Switches.cfg]; rw [h]; refine Even.two ?_; evenly
theorem even_setField (f : Field) : Even W W' (modG fun g => { g with field := f }) := even_modG _ fun _ _ => rfl
macro_rules | `(tactic| evenly1) => `(tactic| with_reducible exact even_setField _)
theorem even_iFileIn (h : W.filesystem = W'.filesystem) : Even W W' iFileIn := by
  unfold iFileIn; refine even_cfgbind fun _ => ?_; dsimp only [Switches.cfg]; rw [h]; refine Even.two ?_; evenly

theorem even_iFileOut (h : W.filesystem = W'.filesystem) : Even W W' iFileOut := by
  unfold iFileOut; refine even_cfgbind fun _ => ?_; dsimp only [Switches.cfg]; rw [h]; refine Even.two ?_; evenly

theorem even_siFile (h : W.filesystem = W'.filesystem) : Even W W' siFile := by
  unfold siFile; refine even_cfgbind fun _ => ?_; dsimp only [Switches.cfg]; rw [h]; refine Even.two ?_; evenly
theorem even_iThread (h : W.concurrent = W'.concurrent) : Even W W' iThread := by
  unfold iThread; refine even_cfgbind fun _ => ?_; dsimp only [Switches.cfg]; rw [h]; refine Even.two ?_; evenly
theorem even_fingSwap : Even W W' fingSwap := by unfold fingSwap; evenly
theorem even_fingPop : Even W W' fingPop := by unfold fingPop; evenly
theorem even_fingCopy : Even W W' fingCopy := by unfold fingCopy; evenly
theorem even_iLoad (h : W.fingerprint = W'.fingerprint) : Even W W' iLoad := by
  unfold iLoad; refine even_cfgbind fun _ => ?_; dsimp only [Switches.cfg]; rw [h]; refine Even.two ?_; evenly
theorem even_iUnload (h : W.fingerprint = W'.fingerprint) : Even W W' iUnload := by
  unfold iUnload; refine even_cfgbind fun _ => ?_; dsimp only [Switches.cfg]; rw [h]; refine Even.two ?_; evenly

theorem even_refcFresh (n) : Even W W' (refcFresh n) := by
  induction n with
  | zero => exact even_fault _
  | succ n ih => unfold refcFresh; evenly
macro_rules | `(tactic| evenly1) => `(tactic| with_reducible exact even_refcFresh _)
theorem even_addRef (r : Int) (v : Vec) : Even W W' (modG fun g => { g with refc := (r, v) :: g.refc }) := even_modG _ fun _ _ => rfl
macro_rules | `(tactic| evenly1) => `(tactic| with_reducible exact even_addRef _ _)
theorem even_refcRef : Even W W' refcRef := by unfold refcRef; evenly

theorem even_iipcAncestor : Even W W' iipcAncestor := by
  unfold iipcAncestor
  refine even_getbind fun s => ?_
  dsimp only [Switches.st]
  refine Even.two ?_
  evenly
theorem even_iipcLook : Even W W' iipcLook := by unfold iipcLook; evenly; exact even_onRunnerTop _ _
theorem even_iipcGet : Even W W' iipcGet := by unfold iipcGet; evenly; exact even_onRunnerTop _ _
theorem even_iipcPut : Even W W' iipcPut := by unfold iipcPut; evenly; exact even_onRunnerTop _ _
theorem even_dirfChange : Even W W' dirfChange := by unfold dirfChange; evenly
theorem even_dirfMake : Even W W' dirfMake := by unfold dirfMake; evenly
theorem even_dirfRemove : Even W W' dirfRemove := by unfold dirfRemove; evenly
macro_rules | `(tactic| evenly1) => `(tactic| first
  | with_reducible exact even_fingSwap
  | with_reducible exact even_fingPop | with_reducible exact even_fingCopy | with_reducible exact even_refcRef
  | with_reducible exact even_strnGet | with_reducible exact even_dirfChange | with_reducible exact even_dirfMake | with_reducible exact even_dirfRemove
  | with_reducible exact even_iipcAncestor | with_reducible exact even_iipcLook | with_reducible exact even_iipcGet | with_reducible exact even_iipcPut)

theorem even_fpRun (f : Fp) (c : Int) (h : Op.Same W W' (.fing f c)) : Even W W' (fpRun f c) := by
  cases f <;> unfold fpRun <;> dsimp only
  case BASE => unfold baseRun; split <;> evenly
  case BITW => unfold bitwRun; split <;> evenly
  case BOOL => unfold boolRun; split <;> evenly
  case CPLI => unfold cpliRun; split <;> evenly
  case DBUG => unfold dbugRun; split <;> evenly
  case DIRF => unfold dirfRun; split <;> evenly
  case FING => unfold fingRun; split <;> evenly
  case FISH => unfold fishRun; split <;> evenly
  case FIXP => unfold fixpRun; split <;> evenly
  case FPDP => unfold fpdpRun; split <;> evenly
  case FPRT => unfold fprtRun; split <;> evenly
  case FPSP => unfold fpspRun; split <;> evenly
  case LONG => unfold longRun; split <;> evenly
  case FRTH => unfold frthRun; split <;> evenly
  case HRTI => unfold hrtiRun; split <;> evenly
  case IIPC => unfold iipcRun; split <;> evenly
  case JSTR => unfold jstrRun; split <;> evenly
  case MODE => unfold modeRun; split <;> evenly
  case MVRS => unfold mvrsRun; split <;> first | (exact even_mvrsName h) | evenly
  case NFUN => unfold nfunRun; split <;> first | (exact even_nfunHL h _ _ _) | evenly
  case ORTH => unfold orthRun; split <;> evenly
  case PERL => unfold perlRun; split <;> first | (exact even_perlEval h) | (exact even_perlInt h) | evenly
  case REFC => unfold refcRun; split <;> evenly
  case STRN => unfold strnRun; split <;> evenly
  case SUBR => unfold subrRun; split <;> evenly
  case TOYS => unfold toysRun; split <;> evenly

/-- **Every instruction** but `k` does the same with both, if what it looks at is the same. -/
theorem even_runOp {exec : Int → Exec Err} {op : Op} (hi : op ≠ .iterate) (h : op.Same W W') : Even W W' (runOp exec op) := by
  cases op <;> unfold runOp <;> dsimp only
  case iterate => exact absurd rfl hi
  case fing f c => exact even_fpRun f c h
  case high => exact even_iHigh h
  case low => exact even_iLow h
  case sysInfo => exact even_iSysInfo h
  case thread => exact even_iThread h
  case fileIn => exact even_iFileIn h
  case fileOut => exact even_iFileOut h
  case execute => exact even_iExecute h
  case load => exact even_iLoad h
  case unload => exact even_iUnload h
  case sFile => exact even_siFile h
  all_goals evenly

theorem even_isSpace (x) : Even W W' (isSpace x) := by unfold isSpace; evenly
macro_rules | `(tactic| evenly1) => `(tactic| with_reducible exact even_isSpace _)
theorem even_execSGML (x) : Even W W' (execSGML x) := by unfold execSGML; evenly
macro_rules | `(tactic| evenly1) => `(tactic| with_reducible exact even_execSGML _)
theorem even_execC (x) : Even W W' (execC x) := by unfold execC; evenly
macro_rules | `(tactic| evenly1) => `(tactic| with_reducible exact even_execC _)
theorem even_execString (x) : Even W W' (execString x) := by unfold execString; evenly

theorem even_handle (e : Err) : Even W W' (handle e) := by unfold handle; evenly
theorem even_afterExec (e : Err) : Even W W' (afterExec e) := by
  unfold afterExec; split <;> first | exact even_pure _ | exact even_handle _

end Funge
