import Verif.Lemmas.SafeRun
import Verif.Lemmas.Tick
/-
C03: standard instructions never leave the stack-stack, whatever the history of `{` and `}`.
-/
namespace Funge
open Exec

/-- The instructions of the Funge-93 and Funge-98 standards. -/
def Op.standard : Op → Bool
  | .skip | .push _ | .west | .east | .stop | .trampoline | .ifEW | .goAway | .not | .rem | .mul | .add | .sub | .div | .gt
  | .pop | .dup | .swap | .numIn | .charIn | .string | .numOut | .charOut | .get | .put
  | .north | .south | .ifNS | .left | .right | .compare | .high | .low | .ifHL
  | .sysInfo | .noop | .jumpOver | .jumpForward | .reflect | .absolute | .iterate | .quit | .thread | .clear | .under | .beginBlock
  | .endBlock | .fileIn | .fileOut | .execute | .fetch | .store | .load | .unload => true
  | _ => false

/-- Standard instructions, and those of every fingerprint but FISH, SUBR, BASE, FPSP, FPRT and `A` of IIPC. -/
def Op.tame : Op → Bool
  | .fing .FISH _ | .fing .SUBR _ | .fing .BASE _ | .fing .FPSP _ | .fing .FPRT _ => false
  | .fing .IIPC c => c ≠ 65
  | .fing _ _ => true
  | .fingReflect => true
  | op => op.standard

/-- Fingerprints all of whose instructions are tame. -/
def Fp.tame : Fp → Bool
  | .FISH | .SUBR | .BASE | .IIPC | .FPSP | .FPRT => false
  | _ => true

theorem safe_fpRun {k : Nat} (f : Fp) (c : Int) (h : (Op.fing f c).tame = true) : Safe k (fpRun f c) := by
  cases f <;> unfold fpRun <;> dsimp only
  case BASE => cases h
  case BITW => unfold bitwRun; split <;> safe
  case BOOL => unfold boolRun; split <;> safe
  case CPLI => unfold cpliRun; split <;> safe
  case DBUG => unfold dbugRun; split <;> safe
  case DIRF => exact safe_dirfRun c
  case FING =>
    unfold fingRun; split
    · exact safe_fingSwap
    · exact safe_fingPop
    · exact safe_fingCopy
    · safe
  case FISH => cases h
  case FIXP => unfold fixpRun; split <;> safe
  case FPDP => unfold fpdpRun; split <;> safe
  case FPRT => cases h
  case FPSP => cases h
  case LONG => unfold longRun; split <;> safe
  case FRTH => unfold frthRun; split <;> safe
  case HRTI => unfold hrtiRun; split <;> safe
  case IIPC =>
    unfold iipcRun; split
    · exact absurd h (by decide)
    · safe
    · exact safe_iipcGet
    · safe
    · exact safe_iipcLook
    · exact safe_iipcPut
    · safe
  case JSTR => unfold jstrRun; split <;> safe
  case MODE => unfold modeRun; split <;> safe
  case MVRS => unfold mvrsRun; split <;> safe
  case NFUN => unfold nfunRun; split <;> safe
  case ORTH => unfold orthRun; split <;> safe
  case PERL =>
    unfold perlRun; split
    · exact safe_perlEval
    · exact safe_perlInt
    · safe
    · safe
  case REFC =>
    unfold refcRun; split
    · exact safe_refcRef
    · safe
    · safe
  case STRN => unfold strnRun; split <;> safe
  case SUBR => cases h
  case TOYS => unfold toysRun; split <;> safe
  all_goals safe

theorem safe_runOp (exec : Int → Exec Err) (op : Op) (h : op.tame = true) (hk : op ≠ .iterate) : Safe 0 (runOp exec op) := by
  cases op <;> unfold runOp <;> dsimp only
  case iterate => exact absurd rfl hk
  case thread => exact safe_iThread
  case fileIn => exact safe_iFileIn
  case fileOut => exact safe_iFileOut
  case execute => exact safe_iExecute
  case load => exact safe_iLoad
  case unload => exact safe_iUnload
  case under => exact safe_iUnder
  case beginBlock => exact safe_iBegin
  case endBlock => exact safe_iEnd
  case fing f c => exact safe_fpRun f c h
  all_goals first | (cases h; done) | safe

/-! ### `k`, ticks and runs -/

/-- The tame instructions and what binds them. -/
def tameMenu : Menu where
  op o := o.tame = true
  fp f := f.tame = true
  strat st := st ≠ .fish ∧ st ≠ .starfish
  reflect := rfl
  binds f hf p hp := by
    cases f
    case DBUG => cases hp
    all_goals
      obtain ⟨c, _, rfl⟩ := List.mem_map.1 hp
      first | (cases hf; done) | rfl
  tables st hst := by
    cases st
    case fish => exact absurd rfl hst.1
    case starfish => exact absurd rfl hst.2
    all_goals decide +kernel
  clones st hst := by
    cases st
    case starfish => exact absurd rfl hst.2
    all_goals exact hst

/-- What holds all the time. -/
def Sound (s : St) : Prop := Good 0 s ∧ s.Within tameMenu

def SoundRes {α : Type} : Except Fault (α × St) → Prop
  | .ok (_, s) => Sound s
  | .error e => e.isMem = false

def Steady {α : Type} (m : Exec α) : Prop := ∀ s, Sound s → SoundRes (m s)

theorem steady_of {α : Type} {m : Exec α} (h : Safe 0 m) (hk : Keeps (StaysWithin tameMenu) m) : Steady m := by
  intro s hs
  have h := h s hs.1
  cases hm : m s with
  | error e => rw [hm] at h; exact h
  | ok p =>
    rw [hm] at h
    exact ⟨h, hk s p.1 p.2 hm hs.2⟩

theorem steady_bind {α β : Type} {m : Exec α} {f : α → Exec β} (hm : Steady m) (hf : ∀ a, Steady (f a)) : Steady (m >>= f) := by
  intro s hs
  show SoundRes (seq m f s)
  have hm := hm s hs
  unfold seq
  split
  · rename_i a s1 h1
    rw [h1] at hm
    exact hf _ _ hm
  · rename_i e h1
    rw [h1] at hm
    exact hm

theorem steady_pure {α : Type} (a : α) : Steady (pure a : Exec α) := fun _ h => h

theorem steady_ite {α : Type} {c : Prop} [Decidable c] {a b : Exec α} (ha : Steady a) (hb : Steady b) : Steady (if c then a else b) := by
  split <;> assumption

theorem steady_iterRun {exec : Int → Exec Err} (h : ∀ c, Steady (exec c)) (c n) : Steady (iterRun exec c n) := by
  induction n with
  | zero => exact steady_pure _
  | succ n ih => unfold iterRun; exact steady_bind (h c) fun _ => ih

theorem steady_iIterate {exec : Int → Exec Err} (h : ∀ c, Steady (exec c)) : Steady (iIterate exec) := by
  have E := (engine_within tameMenu).toEngineB
  unfold iIterate
  refine steady_bind (steady_of safe_ipPos (keeps_ipPos E)) fun v => ?_
  refine steady_bind (steady_of safe_ipNext (keeps_ipNext E)) fun _ => ?_
  refine steady_bind (steady_of safe_ipGet (keeps_ipGet E)) fun c => ?_
  refine steady_bind (steady_of safe_getFuel (keeps_getFuel E)) fun n => ?_
  refine steady_bind (steady_of (safe_iterSearch _ _) (keeps_iterSearch E _ _)) fun c => ?_
  refine steady_bind (steady_of (safe_onIP _) (keeps_setPos E _)) fun _ => ?_
  refine steady_bind (steady_of safe_popTop (keeps_popTop E)) fun x => ?_
  refine steady_bind (steady_iterRun h _ _) fun _ => ?_
  exact steady_of (by safe) (by keep E)

theorem steady_runOp {exec : Int → Exec Err} (h : ∀ c, Steady (exec c)) (op : Op) (ho : op.tame = true) : Steady (runOp exec op) := by
  have E := engine_within tameMenu
  by_cases hk : op = .iterate
  · subst hk; exact steady_iIterate h
  · refine steady_of (safe_runOp exec op ho hk) ?_
    by_cases hx : op = .iterate
    · exact absurd hx hk
    · have : runOp exec op = runOp (fun _ => pure .none) op := by cases op <;> first | rfl | exact absurd rfl hk
      rw [this]
      exact keeps_runOp E.toEngineB (fun _ => keeps_pure E.toEngineB _) op (fun _ => others_within) (fun _ => dirs_within) fun _ => E.toTables

theorem steady_execute (n : Nat) (i : Int) : Steady (execute n i) := by
  induction n generalizing i with
  | zero => exact fun _ _ => rfl
  | succ n ih =>
    intro s hs
    unfold execute
    split
    · have hsafe : Safe 0 (execString i) := by unfold execString execSGML execC isSpace; safe
      exact steady_of hsafe (keeps_execString (engine_within tameMenu).toEngineB i) s hs
    · unfold execNormal
      split
      · exact hs
      · rename_i sem hsem
        split
        · exact hs
        · exact steady_runOp ih sem.op (hs.2.cur.sems i sem (List.mem_of_mem_head? hsem)) s hs

theorem steady_tickLoop (n : Nat) : Steady (tickLoop n) := by
  have E := (engine_within tameMenu).toEngineB
  induction n with
  | zero => exact fun _ _ => rfl
  | succ n ih =>
    unfold tickLoop
    refine steady_bind (steady_of safe_ipGet (keeps_ipGet E)) fun i => ?_
    refine steady_bind (steady_of safe_getFuel (keeps_getFuel E)) fun fuel => ?_
    refine steady_bind (steady_execute _ _) fun e => ?_
    refine steady_bind (steady_of ?_ (keeps_afterExec E e)) fun e => ?_
    · unfold afterExec
      split
      all_goals first | exact safe_pure _ | (unfold handle; safe)
    · exact steady_ite (steady_bind (steady_of safe_ipNext (keeps_ipNext E)) fun _ => steady_ite ih (steady_pure _))
        (steady_bind (steady_pure _) fun _ => steady_ite ih (steady_pure _))

theorem steady_tick : Steady tick :=
  steady_bind (steady_of safe_getFuel (keeps_getFuel (engine_within tameMenu).toEngineB)) fun _ => steady_tickLoop _

/-- A universe in which standard programs run. -/
structure Univ.Sound (u : Univ) : Prop where
  fine : ∀ r ∈ u.runners, r.ss.Fine
  within : ∀ r ∈ u.runners, r.Within tameMenu
  load : u.g.cfg.fingerprint = false

theorem turn_sound {u : Univ} (hu : u.Sound) : (∃ u', u.turn = .ok u' ∧ u'.Sound) ∨ ∃ e, u.turn = .error e ∧ e.isMem = false := by
  obtain ⟨rs, g⟩ := u
  cases rs with
  | nil => exact .inl ⟨_, rfl, hu⟩
  | cons r rest =>
    cases hs : r.ip.stopped with
    | true =>
      exact .inl ⟨_, turn_stopped hs _ _, fun x hx => hu.fine x (List.mem_cons_of_mem _ hx), fun x hx => hu.within x (List.mem_cons_of_mem _ hx), hu.load⟩
    | false =>
      have hsound : Funge.Sound ⟨r, rest, g⟩ :=
        ⟨⟨hu.fine r List.mem_cons_self, fun x hx => hu.fine x (List.mem_cons_of_mem _ hx), Nat.zero_le _⟩,
         ⟨hu.within r List.mem_cons_self, fun x hx => hu.within x (List.mem_cons_of_mem _ hx), fun h => by rw [hu.load] at h; cases h⟩⟩
      have ht := steady_tick _ hsound
      cases htk : tick ⟨r, rest, g⟩ with
      | error e =>
        rw [htk] at ht
        refine .inr ⟨e, ?_, ht⟩
        unfold Univ.turn; simp [hs, htk]
      | ok p =>
        obtain ⟨⟨⟩, s⟩ := p
        rw [htk] at ht
        obtain ⟨hg, hw⟩ := ht
        refine .inl ⟨_, turn_tick hs htk, ?_, ?_, ?_⟩
        · intro x hx
          unfold St.univ at hx
          dsimp only at hx
          split at hx
          · exact hg.rest x hx
          · rcases List.mem_append.1 hx with hx | hx
            · exact hg.rest x hx
            · cases List.mem_singleton.1 hx; exact hg.cur
        · intro x hx
          unfold St.univ at hx
          dsimp only at hx
          split at hx
          · exact hw.rest x hx
          · rcases List.mem_append.1 hx with hx | hx
            · exact hw.rest x hx
            · cases List.mem_singleton.1 hx; exact hw.cur
        · show s.g.cfg.fingerprint = false
          cases hf : s.g.cfg.fingerprint with
          | false => rfl
          | true => exact absurd (hw.load hf .FISH) (show ¬ Fp.tame .FISH = true by decide)

/-- **C03** for single instructions. When every IP has the top of its stack-stack selected and at least one stack on it, the same holds after any standard
instruction other than `k`, however the program came there, and the instruction does not access a stack that does not exist. -/
theorem C03_instruction {exec : Int → Exec Err} {op : Op} (hop : op.standard = true) (hk : op ≠ .iterate) {s : St}
    (hc : s.cur.ss.select = 0 ∧ s.cur.ss.stacks ≠ []) (hr : ∀ r ∈ s.rest, r.ss.select = 0 ∧ r.ss.stacks ≠ []) :
    (∀ e s', runOp exec op s = .ok (e, s') →
      (s'.cur.ss.select = 0 ∧ s'.cur.ss.stacks ≠ []) ∧ ∀ r ∈ s'.rest, r.ss.select = 0 ∧ r.ss.stacks ≠ []) ∧
    runOp exec op s ≠ .error .outOfRange ∧ runOp exec op s ≠ .error .nullDeref ∧ runOp exec op s ≠ .error .dangling := by
  have ht : op.tame = true := by
    cases op <;> first | exact hop | cases hop
  have h := safe_runOp exec op ht hk s ⟨hc, hr, Nat.zero_le _⟩
  refine ⟨fun e s' hs => ?_, fun hs => ?_, fun hs => ?_, fun hs => ?_⟩
  all_goals rw [hs] at h
  · exact ⟨h.cur, h.rest⟩
  all_goals cases h

/-- **C03** for whole programs: from a fresh IP of a 93 or 98 standard, whatever the program and its input, with any fingerprints loaded at the start but FISH, SUBR, BASE,
IIPC, FPSP and FPRT and no others loaded later: at every moment of every run every IP has at least one stack and the top one selected, and no instruction
accesses a stack that does not exist (nor anything else out of range, nor a null or dead pointer). -/
theorem C03_no_bad_access (n : Nat) {g : Glob} {pos delta : Vec} (hstd : g.cfg.standard ≠ -1 ∧ g.cfg.standard ≠ -2) (hf : g.cfg.fingerprint = false)
    (hfp : ∀ id ∈ g.cfg.fingerprints, ∀ f, Fp.ofId id = some f → f ∉ [Fp.FISH, .SUBR, .BASE, .IIPC, .FPSP, .FPRT]) :
    (∃ u', Univ.turns n ⟨[newRunner g.cfg g.nextId pos delta], g⟩ = .ok u' ∧ ∀ r ∈ u'.runners, r.ss.select = 0 ∧ 1 ≤ r.ss.stacks.length) ∨
    ∃ e, Univ.turns n ⟨[newRunner g.cfg g.nextId pos delta], g⟩ = .error e ∧ e ≠ .outOfRange ∧ e ≠ .nullDeref ∧ e ≠ .dangling := by
  have h0 : Univ.Sound ⟨[newRunner g.cfg g.nextId pos delta], g⟩ := by
    refine ⟨fun r hr => ?_, fun r hr => ?_, hf⟩
    · cases List.mem_singleton.1 hr
      unfold newRunner
      dsimp only
      rw [notifyDelta_ss]
      dsimp only
      rw [(inits_same g.cfg.fingerprints _ _).ss]
      exact fine_setMode ⟨rfl, List.cons_ne_nil _ _⟩ _
    · cases List.mem_singleton.1 hr
      refine within_newRunner (fun id hid f hf => ?_) (fun st hst => ?_) _ _ _
      · have := hfp id hid f hf
        show f.tame = true
        cases f <;> first | rfl | exact absurd (by decide) this
      · show st ≠ .fish ∧ st ≠ .starfish
        unfold strategiesFor at hst
        rw [if_neg hstd.1, if_neg hstd.2] at hst
        constructor
        all_goals
          rintro rfl
          revert hst
          repeat' split
          all_goals decide
  generalize hu : (⟨[newRunner g.cfg g.nextId pos delta], g⟩ : Univ) = u at *
  clear hu
  induction n generalizing u with
  | zero => exact .inl ⟨u, rfl, fun r hr => ⟨(h0.fine r hr).1, List.length_pos_iff.2 (h0.fine r hr).2⟩⟩
  | succ n ih =>
    unfold Univ.turns
    rcases turn_sound h0 with ⟨u', h1, h2⟩ | ⟨e, h1, h2⟩
    · rw [h1]; exact ih u' h2
    · rw [h1]
      refine .inr ⟨e, rfl, ?_, ?_, ?_⟩
      all_goals
        rintro rfl
        cases h2

/-! ### Examples -/

/-- The fault a run of ticks ends with. -/
def faultAfter (s : St) (n : Nat) : Option Fault :=
  match ticks n s with
  | .ok _ => none
  | .error e => some e

/-- The selected stack and the sizes of all stacks after `n` ticks. -/
def stacksAfter (s : St) (n : Nat) : Option (Nat × List Nat) :=
  match ticks n s with
  | .ok (_, s') => some (s'.cur.ss.select, s'.cur.ss.stacks.map Stack.size)
  | .error _ => none

/-- The hypotheses of `C03_no_bad_access` for `0{2{}1}}u@` without fingerprints; blocks open and close, `}` and `u` reflect when there is no second stack. -/
example : ((machineWith { dims := 2, standard := 98, fingerprint := false } [[48, 123, 50, 123, 125, 49, 125, 125, 117, 64], [64]]).g.cfg.standard ≠ -1 ∧
    stacksAfter (machineWith { dims := 2, standard := 98, fingerprint := false } [[48, 123, 50, 123, 125, 49, 125, 125, 117, 64], [64]]) 4 = some (0, [2, 2, 2]) ∧
    stacksAfter (machineWith { dims := 2, standard := 98, fingerprint := false } [[48, 123, 50, 123, 125, 49, 125, 125, 117, 64], [64]]) 9 = some (0, [1])) := by
  decide +kernel

/-- The hypotheses of `C03_instruction` for `}` on two stacks. -/
example : (Op.endBlock.standard = true ∧ Op.endBlock ≠ .iterate) ∧ ((machine [125]).cur.ss.select = 0 ∧ (machine [125]).cur.ss.stacks ≠ []) := by decide

/-- The instructions of FISH are not standard, and do break it: with FISH loaded, `0{D0}` reads a stack that does not exist. -/
theorem C03_false_for_FISH :
    faultAfter (machineWith { dims := 2, standard := 98, fingerprints := [0x46495348] } [[48, 123, 68, 48, 125, 64], [64]]) 5 = some .outOfRange := by
  decide +kernel

end Funge
