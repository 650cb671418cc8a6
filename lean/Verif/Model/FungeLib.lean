import Verif.Model.Run
import Verif.Model.Beq
/-
Fingerprints written in Funge: a library file (`.fl`) is loaded into a universe of its own, and executing one of its letters runs a thread of
that universe on the stacks of the caller until the universe is empty.
-/
namespace Funge
open Exec

/-- The lines `std::getline` gives while `file.good()` (/repo/src/Field.cpp:172-174): one more than there are newlines. -/
def flLines (bytes : List Int) : List (List Int) := bytes.foldr
  (fun c ls => match ls with
    | [] => [[c]]
    | l :: t => if c = 10 then [] :: l :: t else (c :: l) :: t) [[]]

/-- `Field::Field(file, FORMAT_FL, 0, CELL_INT)` (/repo/src/Field.cpp:13-38): `parseFungeLib`, then `dimensions = maxs.size()`. -/
def Field.ofLib (bytes : List Int) : Field :=
  let f := Field.flLoop { dims := 3, charCells := false } Vec.empty (flLines bytes)
  { f with dims := f.maxs.length }

/-- The configuration of a library's universe (/repo/src/fingerprint/FingerprintFungeLib.cpp:38-44) with the default values of `FungeConfig` and
the number of dimensions of its field (/repo/src/FungeUniverse.cpp:28-30). Simplifications: the name is left out, and the debugger is off. The
fingerprint `FingerprintDynamic` is not in the table of semantics, `libExec` looks for it first. -/
def libCfg (f : Field) : Cfg := { standard := 98, dims := f.dims }

/-- The letters `FingerprintDynamic` binds: B D E F G K L M N O P Q R S X (/repo/src/fingerprint/FingerprintDynamic.cpp:14). -/
def dynLetters : List Int := [66, 68, 69, 70, 71, 75, 76, 77, 78, 79, 80, 81, 82, 83, 88]

/-- A thread of a library at work: its own universe with that thread in it, and the universe of the caller. The stacks are those of the thread
(/repo/src/FungeRunner.cpp:44 shares them with the caller); the stacks in `caller` are out of date meanwhile. -/
structure LibSt where
  lib : St
  caller : St

/-- Something the library's thread does to itself. -/
def LibSt.onLib {α : Type} (m : Exec α) (w : LibSt) : Except Fault (α × LibSt) :=
  match m w.lib with
  | .ok (a, s) => .ok (a, { w with lib := s })
  | .error e => .error e

/-- Something the library's thread does to its caller. -/
def LibSt.onCaller {α : Type} (m : Exec α) (w : LibSt) : Except Fault (α × LibSt) :=
  match m w.caller with
  | .ok (a, s) => .ok (a, { w with caller := s })
  | .error e => .error e

/-- `u` pops and pushes of `O` (/repo/src/fingerprint/FingerprintDynamic.cpp:84-106). -/
def dynRotate : Exec Err := do
  let u ← popTop
  let count ← lift (if u < 0 then ck (-u) else .ok u)
  let _ ← lift (ck (count + 1))
  let pops ← popN popTop (count.toNat + 1)
  if u < 0 then do
    pushAll pushTop (pops.take 1)
    pushAll pushTop (pops.drop 1).reverse
    pure .none
  else do
    pushAll pushTop (pops.take count.toNat).reverse
    pushAll pushTop (pops.drop count.toNat)
    pure .none

/-- `K` (/repo/src/fingerprint/FingerprintDynamic.cpp:57-65). -/
def dynPick : Exec Err := do
  let u ← popTop
  if u < 0 then pure .unspec
  else do
    let i ← lift (ck (u + 1))
    let x ← getTop i.toNat
    pushTop x
    pure .none

/-- The letters of `FingerprintDynamic` that only touch the stacks: E, K, O (/repo/src/fingerprint/FingerprintDynamic.cpp:46-48, 57-65, 84-106). -/
def dynStack (c : Int) : Exec Err :=
  if c = 69 then do
    let n ← sizeTop
    pushTop n
    pure .none
  else if c = 75 then dynPick
  else dynRotate

/-- The letters that tell the library something about its caller: G, M, N, Q
(/repo/src/fingerprint/FingerprintDynamic.cpp:52-56, 70-79, 113-118). -/
def dynAsk (c : Int) (caller : St) : Exec Err :=
  if c = 71 then do
    let v ← popVector
    pushTop (caller.g.field.get v)
    pure .none
  else if c = 77 then do
    pushTop ((caller.g.cfg.mode >>> 12 : Nat) : Int)
    pure .none
  else if c = 78 then do
    pushTop (caller.g.field.get (caller.cur.ip.pos.add caller.cur.ip.delta))
    pure .none
  else do
    pushAll pushTop ((List.range caller.g.cfg.dims).map caller.cur.ip.pos.get)
    pushAll pushTop ((List.range caller.g.cfg.dims).map caller.cur.ip.delta.get)
    pushAll pushTop ((List.range caller.g.cfg.dims).map caller.cur.ip.storage.get)
    pure .none

/-- The letters that change the caller, given a vector popped before (D, L, S) or not: B, D, F, L, R, S, X
(/repo/src/fingerprint/FingerprintDynamic.cpp:35-51, 66-69, 119-130). -/
def dynTell (c : Int) (v : Vec) : Exec Unit :=
  if c = 66 then do
    onIP IP.reflect
    ipNext
    onIP IP.reflect
  else if c = 68 then setDelta v
  else if c = 70 then ipNext
  else if c = 76 then onIP fun ip => ip.setPos v
  else if c = 82 then onIP IP.reflect
  else if c = 83 then onIP fun ip => ip.setStorage v
  else onIP IP.stop

/-- `FingerprintDynamic::execute` (/repo/src/fingerprint/FingerprintDynamic.cpp:20-136), for the letters it binds. -/
def dynRun (c : Int) (w : LibSt) : Except Fault (Err × LibSt) :=
  if c = 69 ∨ c = 75 ∨ c = 79 then w.onLib (dynStack c)
  else if c = 71 ∨ c = 77 ∨ c = 78 ∨ c = 81 then w.onLib (dynAsk c w.caller)
  else if c = 80 then
    match w.onLib (do let v ← popVector; let n ← popTop; pure (v, n)) with
    | .error e => .error e
    | .ok ((v, n), w) =>
      match w.onCaller (fieldPut v n) with
      | .error e => .error e
      | .ok (_, w) => .ok (.none, w)
  else
    match w.onLib (if c = 68 ∨ c = 76 ∨ c = 83 then popVector else pure Vec.empty) with
    | .error e => .error e
    | .ok (v, w) =>
      match w.onCaller (dynTell c v) with
      | .error e => .error e
      | .ok (_, w) =>
        match w.onLib (if c = 88 then onIP IP.stop else pure ()) with
        | .error e => .error e
        | .ok (_, w) => .ok (.none, w)

/-- What `instructionIterate` does in a library's thread before it executes anything (/repo/src/Unefunge98Strategy.cpp:114-131): the character to execute, and
how often. -/
def libIterStart : Exec (Int × Int) := do
  let v ← ipPos
  ipNext
  let c ← ipGet
  let n ← getFuel
  let c ← iterSearch n (toChar c)
  onIP (·.setPos v)
  let x ← popTop
  pure (c, toInt x)

/-- `for(int i = 0; i < k; i++) runner.execute(c);` in a library's thread (/repo/src/Unefunge98Strategy.cpp:132-134). -/
def libIterRun (exec : Int → LibSt → Except Fault (Err × LibSt)) (c : Int) : Nat → LibSt → Except Fault LibSt
  | 0, w => .ok w
  | n + 1, w =>
    match exec c w with
    | .error e => .error e
    | .ok (_, w) => libIterRun exec c n w

/-- `instructionIterate` in a library's thread (/repo/src/Unefunge98Strategy.cpp:113-139). -/
def libIterate (exec : Int → LibSt → Except Fault (Err × LibSt)) (w : LibSt) : Except Fault (Err × LibSt) :=
  match w.onLib libIterStart with
  | .error e => .error e
  | .ok ((c, k), w) =>
    match libIterRun exec c k.toNat w with
    | .error e => .error e
    | .ok w => w.onLib (if k = 0 then do ipNext; pure .none else pure .none)

/-- Is this character `k` to the thread (/repo/src/FungeStateNormal.cpp:46-58)? -/
def LibSt.repeats (w : LibSt) (i : Int) : Bool :=
  !w.lib.cur.inString && match w.lib.cur.getSem i with
    | some ⟨.iterate, m⟩ => !(hasMode w.lib.g.cfg.mode modeDive && !m)
    | _ => false

/-- `FungeRunner::execute` in a library's thread (/repo/src/FungeRunner.cpp:162-164): a letter of `FingerprintDynamic`, unless in string mode or
when the thread has loaded something over it. `k` makes it recursive; the first argument bounds the depth. -/
def libExec : Nat → Int → LibSt → Except Fault (Err × LibSt)
  | 0, i, w =>
    if w.lib.cur.inString = false ∧ i ∈ dynLetters ∧ (w.lib.cur.getSem i).isNone then dynRun i w else .error .fuel
  | n + 1, i, w =>
    if w.lib.cur.inString = false ∧ i ∈ dynLetters ∧ (w.lib.cur.getSem i).isNone then dynRun i w
    else if w.repeats i then libIterate (libExec n) w
    else w.onLib (execute (n + 1) i)

/-- The end of an iteration of `FungeRunner::tick` (/repo/src/FungeRunner.cpp:138-158) in a library's thread. -/
def libMove (e : Err) : Exec Err := do
  let e ← afterExec e
  if e = .none ∨ e = .skip then do
    ipNext
    pure e
  else pure e

/-- `FungeRunner::tick` (/repo/src/FungeRunner.cpp:132-160) in a library's thread. -/
def libTickLoop : Nat → LibSt → Except Fault LibSt
  | 0, _ => .error .fuel
  | n + 1, w =>
    match libExec w.lib.g.fuel (w.lib.g.field.get w.lib.cur.ip.pos) w with
    | .error e => .error e
    | .ok (e, w) =>
      match w.onLib (libMove e) with
      | .error e => .error e
      | .ok (e, w) => if e = .skip then libTickLoop n w else .ok w

/-- Running the library's thread until it stops (/repo/src/FungeUniverse.cpp:124-148, `wait` at 151-154). Simplification: a library whose thread
splits (`t`) is not modelled. The first argument bounds the number of ticks. -/
def libLoop : Nat → LibSt → Except Fault LibSt
  | 0, _ => .error .fuel
  | n + 1, w =>
    if w.lib.cur.ip.stopped then .ok w
    else match libTickLoop w.lib.g.fuel w with
      | .error e => .error e
      | .ok w => if w.lib.rest = [] then libLoop n w else .error .unmodelled

/-- `FungeRunner::FungeRunner(uni, pos, delta, r)` (/repo/src/FungeRunner.cpp:41-56) for letter `cmd`: a new thread on the stacks of the caller,
which are put into the modes of the library (none). -/
def libRunner (f : Field) (cmd : Int) (caller : St) : Runner :=
  let r := newRunner (libCfg f) caller.g.nextId (Vec.ofList [0, 0, cmd - 65]) (Vec.ofList [1])
  { r with ss := caller.cur.ss.setMode (libCfg f).mode, parent := some caller.cur.id }

/-- The universe of the library when the letter begins. It shares with the caller the process' input, output and environment and the counter of
threads. -/
def libStart (f : Field) (cmd : Int) (caller : St) : LibSt where
  lib := { cur := libRunner f cmd caller
           g := { caller.g with
             field := f, cfg := libCfg f, running := true, exitcode := 0, nextId := caller.g.nextId + 1, breakpoints := [], watchpoints := [] } }
  caller := caller

/-- The caller after the letter: its stacks, put back into its modes, and the process. -/
def libFinish (w : LibSt) : St where
  cur := { w.caller.cur with ss := w.lib.cur.ss.setMode w.caller.g.cfg.mode }
  rest := w.caller.rest
  g := { w.caller.g with
    nextId := w.lib.g.nextId, refc := w.lib.g.refc, inp := w.lib.g.inp, eff := w.lib.g.eff, asked := w.lib.g.asked }

/-- `FingerprintFungeLib::execute` (/repo/src/fingerprint/FingerprintFungeLib.cpp:52-58) of a library with field `f`. Simplification: the library's
universe is as it was loaded (what an earlier call wrote into its field is not kept). -/
def libCall (f : Field) (cmd : Int) : Exec Err := fun s =>
  match libLoop s.g.fuel (libStart f cmd s) with
  | .error e => .error e
  | .ok w => .ok (.none, libFinish w)

/-- The letters a library binds (/repo/src/fingerprint/FingerprintFungeLib.cpp:16-19, /repo/src/Field.cpp:178). -/
def libLetters (f : Field) : List Int := f.planes

end Funge
