import Verif.Model.Run
/-
Several universes: the fingerprint MVRS, and turns of the universes of a process.
-/
namespace Funge
open Exec

/-- `FungeUniverse` (/repo/src/include/FungeUniverse.h), without what the whole process shares. -/
structure Uni where
  field : Field
  cfg : Cfg := {}
  running : Bool := true
  exitcode : Int := 0
  breakpoints : List Vec := []
  watchpoints : List Vec := []
  runners : List Runner := []

/-- The multiverse while an IP executes: `st` is the universe it is in, `others` are the other entries of `FungeMultiverse::universes`
(/repo/src/include/FungeMultiverse.h:18-81), known by their names. -/
structure Multi where
  st : St
  others : List Uni := []

/-- What a universe owns, out of the state of the universe an IP is in. No counterpart in the source. -/
def St.uni (s : St) (runners : List Runner) : Uni :=
  ⟨s.g.field, s.g.cfg, s.g.running, s.g.exitcode, s.g.breakpoints, s.g.watchpoints, runners⟩

/-- Putting what a universe owns in place of the present one. No counterpart in the source. -/
def Glob.enter (g : Glob) (u : Uni) : Glob :=
  { g with field := u.field, cfg := u.cfg, running := u.running, exitcode := u.exitcode, breakpoints := u.breakpoints, watchpoints := u.watchpoints }

/-- Instructions that see other universes. No counterpart in the source. -/
def MExec (α : Type) : Type := Multi → Except Fault (α × Multi)

namespace MExec

/-- Returning a value (no counterpart in the source). -/
def ret {α : Type} (a : α) : MExec α := fun w => .ok (a, w)

/-- Sequencing (no counterpart in the source). -/
def seq {α β : Type} (m : MExec α) (f : α → MExec β) : MExec β := fun w =>
  match m w with
  | .ok (a, w') => f a w'
  | .error e => .error e

instance : Monad MExec where
  pure := ret
  bind := seq

/-- Doing something within the present universe (no counterpart in the source). -/
def here {α : Type} (m : Exec α) : MExec α := fun w =>
  match m w.st with
  | .ok (a, s) => .ok (a, { w with st := s })
  | .error e => .error e

/-- Undefined behaviour, or out of fuel (no counterpart in the source). -/
def fault {α : Type} (e : Fault) : MExec α := fun _ => .error e

end MExec
open MExec

/-- `FungeMultiverse::operator[]` for another universe (/repo/src/FungeMultiverse.cpp:88-93). -/
def Multi.find (w : Multi) (name : List Int) : Option Uni := w.others.find? (·.cfg.name == name)

/-- The name of the present universe (/repo/src/FungeUniverse.cpp:191-193). -/
def Multi.name (w : Multi) : List Int := w.st.g.cfg.name

/-- `universes.contains` (/repo/src/FungeMultiverse.cpp:53). -/
def Multi.taken (w : Multi) (name : List Int) : Bool := w.name == name || (w.find name).isSome

/-- Changing one of the other universes. No counterpart in the source. -/
def Multi.change (w : Multi) (name : List Int) (f : Uni → Uni) : Multi :=
  { w with others := w.others.map fun u => if u.cfg.name == name then f u else u }

/-- `popVector(runner, 3)` (/repo/src/util/FungeUtilities.cpp:37-46). -/
def popVector3 : Exec Vec := popVectorLoop popTop 3 Vec.empty

/-- The loop over names in `FungeMultiverse::create` (/repo/src/FungeMultiverse.cpp:50-54): `a` is 1 throughout. -/
def Multi.pickName (w : Multi) (name : List Int) : Nat → List Int → Except Fault (List Int)
  | 0, _ => .error .fuel
  | fuel + 1, cur => if w.taken cur then w.pickName name fuel (name ++ 46 :: decimal 1) else .ok cur

/-- `FungeMultiverse::create(cfg)` (/repo/src/FungeMultiverse.cpp:48-61, /repo/src/FungeUniverse.cpp:33-51): a universe without a program and without
runners. Simplification: a number of dimensions of 0, which `B` never passes on but for a universe of 0 dimensions, is kept. -/
def mvCreate (cfg : Cfg) : MExec Unit := fun w =>
  match w.pickName cfg.name w.st.g.fuel cfg.name with
  | .error e => .error e
  | .ok name => .ok ((), { w with others := w.others ++ [{ field := Field.new cfg.dims false, cfg := { cfg with name := name } }] })

/-- `B` (/repo/src/fingerprint/FingerprintMVRS.cpp:24-61). `static_cast<FungeMode>` keeps 32 bits. The configuration is a new one, in which everything but what is
set here has its default (/repo/src/include/FungeConfig.h:50-67). -/
def mvrsBang : MExec Err := do
  let dim ← here popTop
  let lng ← here popTop
  let flgs ← here popTop
  let name ← here popString
  let cfg ← here getCfg
  let flags := (flgs % 2 ^ 32).toNat
  if flags ≠ 0 ∧ flags &&& 0x1FF ≠ 0 then pure .unspec
  else
    let make (standard : Int) : MExec Err := do
      mvCreate {
        name := name
        dims := if dim = 0 then cfg.dims else (dim % 2 ^ 64).toNat
        standard := standard
        mode := if flags = 0 then cfg.mode else flags }
      pure .none
    match lng with
    | 0 => make cfg.standard
    | 1 => make 93
    | 2 => make 98
    | _ => pure .unspec

/-- `C` (/repo/src/fingerprint/FingerprintMVRS.cpp:62-64). -/
def mvrsCount : MExec Err := fun w => (here (do pushTop (w.others.length + 1 : Nat); pure Err.none) : MExec Err) w

/-- The loop of `copySpace` (/repo/src/fingerprint/FingerprintMVRS.cpp:121-124) from one field to another. -/
def mvCopy (src dest : Vec) (f : Field) : List Vec → Field → Field
  | [], to => to
  | v :: t, to => mvCopy src dest f t (to.put (dest.add v) (f.get (src.add v)))

/-- The loop of `copySpace` (/repo/src/fingerprint/FingerprintMVRS.cpp:121-124) within one field. -/
def mvCopyHere (src dest : Vec) : List Vec → Field → Field
  | [], f => f
  | v :: t, f => mvCopyHere src dest t (f.put (dest.add v) (f.get (src.add v)))

/-- The vectors `copySpace` goes through (/repo/src/fingerprint/FingerprintMVRS.cpp:120-121). -/
def mvRange (size : Vec) : MExec (List Vec) := here (rangeOf (Vec.ofList [0]) size)

/-- What `F` and `P` have in common: where to, in the present universe or in another one
(/repo/src/fingerprint/FingerprintMVRS.cpp:70-76, 105-111). -/
def mvFind (name : List Int) (same : MExec Err) (other : Uni → MExec Err) : MExec Err := fun w =>
  if w.name == name then same w
  else
    match w.find name with
    | none => .ok (.unspec, w)
    | some u => other u w

/-- Storing the field of the present universe. No counterpart in the source. -/
def mvSetField (f : Field → Field) : MExec Unit := here (modG fun g => { g with field := f g.field })

/-- `F` (/repo/src/fingerprint/FingerprintMVRS.cpp:65-77). -/
def mvrsFrom : MExec Err := do
  let size ← here popVector
  let src ← here popVector3
  let dest ← here popVector
  let name ← here popString
  mvFind name
    (do
      let l ← mvRange size
      mvSetField (mvCopyHere src dest l)
      pure .none)
    (fun u => do
      let l ← mvRange size
      mvSetField (mvCopy src dest u.field l)
      pure .none)

/-- `P` (/repo/src/fingerprint/FingerprintMVRS.cpp:101-113). -/
def mvrsPut : MExec Err := do
  let size ← here popVector
  let src ← here popVector
  let dest ← here popVector3
  let name ← here popString
  mvFind name
    (do
      let l ← mvRange size
      mvSetField (mvCopyHere src dest l)
      pure .none)
    (fun _ => do
      let l ← mvRange size
      fun w => .ok (.none, w.change name fun u => { u with field := mvCopy src dest w.st.g.field l u.field }))

/-- `FungeUniverse::transferRunner` (/repo/src/FungeUniverse.cpp:85-93) to universe `u`: the runner leaves its universe at the end of its turn (lines 132-142, the last
branch) and is the last of those of `u` then. Simplification: the scheduler of `u`, a thread of its own, does not touch the runner before the end of this turn. -/
def mvTransfer (u : Uni) : MExec Unit := fun w =>
  let home := w.st.cur.home.getD w.name
  .ok ((), {
    st := {
      cur := { w.st.cur with ss := w.st.cur.ss.setMode u.cfg.mode, home := if home = u.cfg.name then none else some home }
      rest := u.runners
      g := w.st.g.enter u }
    others := w.st.uni w.st.rest :: w.others.filter (·.cfg.name != u.cfg.name) })

/-- `G` (/repo/src/fingerprint/FingerprintMVRS.cpp:78-90). -/
def mvrsGoto : MExec Err := do
  let delta ← here popVector3
  let pos ← here popVector3
  let name ← here popString
  let go : MExec Err := do
    here (onIP (·.setPos pos))
    here (setDelta delta)
    pure .none
  mvFind name go (fun u => do mvTransfer u; go)

/-- `J` (/repo/src/fingerprint/FingerprintMVRS.cpp:91-99). -/
def mvrsJump : MExec Err := do
  let name ← here popString
  mvFind name (pure .none) (fun u => do mvTransfer u; pure .none)

/-- `FingerprintMVRS::execute` (/repo/src/fingerprint/FingerprintMVRS.cpp:18-117). -/
def mvrs : Int → MExec Err
  | 66 => mvrsBang
  | 67 => mvrsCount
  | 70 => mvrsFrom
  | 71 => mvrsGoto
  | 74 => mvrsJump
  | 78 => here mvrsName
  | 80 => mvrsPut
  | _ => pure .unimp

/-- The field the strategies refer to (/repo/src/FungeStrategy.cpp:14): that of the universe in which the runner was created. -/
def Multi.homeField (w : Multi) : Option Field :=
  match w.st.cur.home with
  | none => some w.st.g.field
  | some n => (w.find n).map (·.field)

/-- `instructionGet` (/repo/src/Unefunge93Strategy.cpp:257-261), by a runner that may be away from home. -/
def mvGet : MExec Err := do
  let storage ← here ipStorage
  let v ← here popVector
  fun w =>
    match w.homeField with
    | none => .error .dangling
    | some f => (here (do pushTop (f.get (v.add storage)); pure Err.none) : MExec Err) w

/-- `instructionPut` (/repo/src/Unefunge93Strategy.cpp:263-268), by a runner that may be away from home. -/
def mvPut : MExec Err := do
  let storage ← here ipStorage
  let v ← here popVector
  let x ← here popTop
  fun w =>
    match w.st.cur.home with
    | none => (do mvSetField (·.put (v.add storage) x); pure Err.none : MExec Err) w
    | some n => .ok (.none, w.change n fun u => { u with field := u.field.put (v.add storage) x })

/-- `field.get(ip.getPos())` in a strategy (/repo/src/Unefunge98Strategy.cpp:116), by a runner that may be away from home. -/
def mvHere : MExec Int := fun w =>
  match w.homeField with
  | none => .error .dangling
  | some f => .ok (f.get w.st.cur.ip.pos, w)

/-- `for(int i = 0; i < k; i++) runner.execute(c);` (/repo/src/Unefunge98Strategy.cpp:132-134) where there are several universes. -/
def mvIterRun (exec : Int → MExec Err) (c : Int) : Nat → MExec Unit
  | 0 => pure ()
  | n + 1 => do
    let _ ← exec c
    mvIterRun exec c n

/-- `instructionIterate` (/repo/src/Unefunge98Strategy.cpp:113-139), by a runner that may be away from home: the first character comes from the strategy's field,
those after a space or a `;` from the field the IP is in. -/
def mvIterate (exec : Int → MExec Err) : MExec Err := do
  let v ← here ipPos
  here ipNext
  let c ← mvHere
  let n ← here getFuel
  let c ← here (iterSearch n (toChar c))
  here (onIP (·.setPos v))
  let x ← here popTop
  mvIterRun exec c (toInt x).toNat
  here (if toInt x = 0 then ipNext else pure ())
  pure .none

/-- An instruction that uses no field but that of the strategy (/repo/src/FungeStrategy.cpp:14): it is done with the field of the universe in which the runner was
created in place of the present one, and what it writes is written there. -/
def mvAtHome (m : Exec Err) : MExec Err := fun w =>
  match w.st.cur.home with
  | none => here m w
  | some n =>
    match w.find n with
    | none => .error .dangling
    | some u =>
      match m { w.st with g := { w.st.g with field := u.field } } with
      | .error e => .error e
      | .ok (e, s) =>
        .ok (e, Multi.change ⟨{ s with g := { s.g with field := w.st.g.field } }, w.others⟩ n fun v => { v with field := s.g.field })

/-- The functions that use the field of their strategy and no other, apart from `g` and `p` (/repo/src/Unefunge98Strategy.cpp:249, 273, 393, 397,
/repo/src/FishStrategy.cpp:419, 427). -/
def Op.atHome : Op → Bool
  | .fileIn | .fileOut | .sysInfo | .fGet | .fPut => true
  | _ => false

/-- The functions of fingerprints: every fingerprint has a reference to a field too (/repo/src/Fingerprint.cpp:16). -/
def Op.finger : Op → Bool
  | .fing _ _ => true
  | _ => false

/-- `FungeSemantic::operator()` (/repo/src/include/FungeSemantic.h:28-30) where there are several universes; `exec` is what `k` repeats with. What the letters of other
fingerprints than MVRS do away from home is not modelled. -/
def mrunOp (exec : Int → MExec Err) (op : Op) : MExec Err := fun w =>
  match op with
  | .fing .MVRS c => mvrs c w
  | .get => mvGet w
  | .put => mvPut w
  | .iterate => mvIterate exec w
  | op =>
    if w.st.cur.home.isSome ∧ op.finger then .error .unmodelled
    else if op.atHome then mvAtHome (runOp (execute (w.st.g.fuel - 1)) op) w
    else here (runOp (execute (w.st.g.fuel - 1)) op) w

/-- `FungeRunner::execute` (/repo/src/FungeRunner.cpp:162-164, /repo/src/FungeStateNormal.cpp:46-58), where there are several universes. `k` makes it recursive; the first
argument bounds the depth. -/
def mexecuteIn : Nat → Int → MExec Err
  | 0, _ => fault .fuel
  | n + 1, i => fun w =>
    if w.st.cur.inString then here (execString i) w
    else
      match w.st.cur.getSem i with
      | none => .ok (.unimp, w)
      | some sem =>
        if hasMode w.st.g.cfg.mode modeDive && !sem.movement then .ok (.skip, w)
        else mrunOp (mexecuteIn n) sem.op w

/-- `FungeRunner::execute` (/repo/src/FungeRunner.cpp:162-164), where there are several universes. -/
def mexecute (i : Int) : MExec Err := fun w => mexecuteIn w.st.g.fuel i w

/-- `FungeRunner::tick` (/repo/src/FungeRunner.cpp:132-160), as `tickLoop`. -/
def mtickLoop : Nat → MExec Unit
  | 0 => fault .fuel
  | n + 1 => do
    let i ← here ipGet
    let e ← mexecute i
    let e ← here (afterExec e)
    if e = .none ∨ e = .skip then here ipNext else pure ()
    if e = .skip then mtickLoop n else pure ()

/-- `FungeRunner::tick` (/repo/src/FungeRunner.cpp:132-160). -/
def mtick : MExec Unit := fun w => mtickLoop w.st.g.fuel w

/-- All universes between two turns: `proc` is what the process shares (its universe is of no account). -/
structure World where
  unis : List Uni
  proc : Glob

/-- One iteration of the inner loop of `FungeUniverse::operator()` (/repo/src/FungeUniverse.cpp:124-145) of the universe `name`; every universe has a
thread of its own that does this. Simplification: turns of different universes do not overlap. -/
def World.turn (w : World) (name : List Int) : Except Fault World :=
  match w.unis.find? (·.cfg.name == name) with
  | none => .ok w
  | some u =>
    match u.runners with
    | [] => .ok w
    | r :: rest =>
      let m : Multi := ⟨⟨r, rest, w.proc.enter u⟩, w.unis.filter (·.cfg.name != name)⟩
      match (if r.ip.stopped then .ok ((), m) else mtick m) with
      | .error e => .error e
      | .ok (_, m) =>
        .ok ⟨m.st.uni (if m.st.cur.ip.stopped then m.st.rest else m.st.rest ++ [m.st.cur]) :: m.others, m.st.g⟩

/-- Turns in the order given. -/
def World.turns (w : World) : List (List Int) → Except Fault World
  | [] => .ok w
  | n :: t =>
    match w.turn n with
    | .error e => .error e
    | .ok w' => w'.turns t

/-! ### The threads of the universes -/

/-- The schedulers of the universes, one thread each: what is in `runners`, which runner the thread executes (without holding its mutex), and what `runner->universe` is.
Universes and runners are numbers. -/
structure Sched where
  queue : Nat → List Nat := fun _ => []
  busy : Nat → Option Nat := fun _ => none
  loc : Nat → Nat := fun _ => 0

/-- What happens next (no counterpart in the source). -/
inductive Sched.Act
  | begin (u : Nat)
  | transfer (u v : Nat)
  | finish (u : Nat)
  | spawn (u r : Nat)

/-- One step under the mutex of a universe: the thread of `u` takes the first runner of its list, and leaves it there while it executes it
(/repo/src/FungeUniverse.cpp:124-131); that runner goes to `v` (`transferRunner`, lines 85-93); the thread of `u` is done with it (lines 132-143); a new runner
(`addRunner`, lines 95-104). -/
inductive Sched.Step (w : Sched) : Sched.Act → Sched → Prop
  | begin (u : Nat) (r : Nat) (t : List Nat) : w.queue u = r :: t → w.busy u = none →
      Step w (.begin u) { w with busy := fun x => if x = u then some r else w.busy x }
  | transfer (u v : Nat) (r : Nat) : w.busy u = some r → w.loc r ≠ v →
      Step w (.transfer u v) { w with queue := fun x => if x = v then w.queue v ++ [r] else w.queue x, loc := fun x => if x = r then v else w.loc x }
  | finish (u : Nat) (r : Nat) : w.busy u = some r →
      Step w (.finish u) { w with
        queue := fun x => if x = u then (w.queue u).tail ++ (if w.loc r = u then [r] else []) else w.queue x
        busy := fun x => if x = u then none else w.busy x }
  | spawn (u r : Nat) : (∀ x, r ∉ w.queue x) →
      Step w (.spawn u r) { w with queue := fun x => if x = u then w.queue u ++ [r] else w.queue x, loc := fun x => if x = r then u else w.loc x }

end Funge
