import Verif.Model.State
/-
The semantics tables: what each strategy binds (`pushSemantic` calls of the constructors), loading and unloading of
fingerprints, creation and cloning of runners.
-/
namespace Funge

/-- Bind a list of instructions in order. -/
def Runner.pushSems (r : Runner) (l : List (Int × Sem)) : Runner := l.foldl (fun r p => r.pushSem p.1 p.2) r

/-- `Unefunge93Strategy::Unefunge93Strategy` (/repo/src/Unefunge93Strategy.cpp:20-60). -/
def semsUne93 : List (Int × Sem) := [
  (32, ⟨.skip, false⟩), (9, ⟨.skip, false⟩),
  (48, ⟨.push 0, false⟩), (49, ⟨.push 1, false⟩), (50, ⟨.push 2, false⟩), (51, ⟨.push 3, false⟩),
  (52, ⟨.push 4, false⟩), (53, ⟨.push 5, false⟩), (54, ⟨.push 6, false⟩), (55, ⟨.push 7, false⟩),
  (56, ⟨.push 8, false⟩), (57, ⟨.push 9, false⟩),
  (60, ⟨.west, true⟩), (62, ⟨.east, true⟩), (64, ⟨.stop, false⟩), (35, ⟨.trampoline, false⟩),
  (95, ⟨.ifEW, false⟩), (63, ⟨.goAway, false⟩),
  (33, ⟨.not, false⟩), (37, ⟨.rem, false⟩), (42, ⟨.mul, false⟩), (43, ⟨.add, false⟩), (45, ⟨.sub, false⟩),
  (47, ⟨.div, false⟩), (96, ⟨.gt, false⟩),
  (36, ⟨.pop, false⟩), (58, ⟨.dup, false⟩), (92, ⟨.swap, false⟩),
  (38, ⟨.numIn, false⟩), (126, ⟨.charIn, false⟩), (34, ⟨.string, false⟩),
  (46, ⟨.numOut, false⟩), (44, ⟨.charOut, false⟩),
  (103, ⟨.get, false⟩), (112, ⟨.put, false⟩)]

/-- `Befunge93Strategy::Befunge93Strategy` (/repo/src/Befunge93Strategy.cpp:16-18). -/
def semsBe93 : List (Int × Sem) := [(94, ⟨.north, true⟩), (118, ⟨.south, true⟩), (124, ⟨.ifNS, false⟩)]

/-- `Befunge98Strategy::Befunge98Strategy` (/repo/src/Befunge98Strategy.cpp:16-18). -/
def semsBe98 : List (Int × Sem) := [(91, ⟨.left, false⟩), (93, ⟨.right, false⟩), (119, ⟨.compare, false⟩)]

/-- `Trefunge98Strategy::Trefunge98Strategy` (/repo/src/Trefunge98Strategy.cpp:17-19). -/
def semsTre98 : List (Int × Sem) := [(104, ⟨.high, true⟩), (108, ⟨.low, true⟩), (109, ⟨.ifHL, false⟩)]

/-- `Unefunge98Strategy::init` (/repo/src/Unefunge98Strategy.cpp:33-65). -/
def semsUne98 : List (Int × Sem) := [
  (97, ⟨.push 10, false⟩), (98, ⟨.push 11, false⟩), (99, ⟨.push 12, false⟩), (100, ⟨.push 13, false⟩),
  (101, ⟨.push 14, false⟩), (102, ⟨.push 15, false⟩),
  (121, ⟨.sysInfo, false⟩), (122, ⟨.noop, false⟩),
  (59, ⟨.jumpOver, false⟩), (106, ⟨.jumpForward, false⟩), (114, ⟨.reflect, true⟩), (120, ⟨.absolute, false⟩),
  (107, ⟨.iterate, false⟩), (113, ⟨.quit, false⟩), (116, ⟨.thread, false⟩),
  (110, ⟨.clear, false⟩), (117, ⟨.under, false⟩), (123, ⟨.beginBlock, false⟩), (125, ⟨.endBlock, false⟩),
  (105, ⟨.fileIn, false⟩), (111, ⟨.fileOut, false⟩), (61, ⟨.execute, false⟩),
  (39, ⟨.fetch, false⟩), (115, ⟨.store, false⟩), (40, ⟨.load, false⟩), (41, ⟨.unload, false⟩)]

/-- `FishStrategy::FishStrategy` (/repo/src/FishStrategy.cpp:24-89). -/
def semsFish : List (Int × Sem) := [
  (32, ⟨.fSkip, false⟩),
  (48, ⟨.fPush 0, false⟩), (49, ⟨.fPush 1, false⟩), (50, ⟨.fPush 2, false⟩), (51, ⟨.fPush 3, false⟩),
  (52, ⟨.fPush 4, false⟩), (53, ⟨.fPush 5, false⟩), (54, ⟨.fPush 6, false⟩), (55, ⟨.fPush 7, false⟩),
  (56, ⟨.fPush 8, false⟩), (57, ⟨.fPush 9, false⟩), (97, ⟨.fPush 10, false⟩), (98, ⟨.fPush 11, false⟩),
  (99, ⟨.fPush 12, false⟩), (100, ⟨.fPush 13, false⟩), (101, ⟨.fPush 14, false⟩), (102, ⟨.fPush 15, false⟩),
  (62, ⟨.fRight, true⟩), (60, ⟨.fLeft, true⟩), (118, ⟨.fDown, true⟩), (94, ⟨.fUp, true⟩),
  (92, ⟨.fMirror1, true⟩), (47, ⟨.fMirror2, true⟩), (124, ⟨.fMirrorVert, true⟩), (95, ⟨.fMirrorHori, true⟩),
  (35, ⟨.fMirrorAll, true⟩),
  (120, ⟨.fRandom, false⟩), (33, ⟨.fTrampoline, false⟩), (63, ⟨.fConditional, false⟩), (46, ⟨.fJump, false⟩),
  (43, ⟨.fAdd, false⟩), (45, ⟨.fSub, false⟩), (42, ⟨.fMult, false⟩), (44, ⟨.fDiv, false⟩), (37, ⟨.fModu, false⟩),
  (61, ⟨.fEqual, false⟩), (41, ⟨.fGreater, false⟩), (40, ⟨.fLess, false⟩),
  (39, ⟨.fString 39, false⟩), (34, ⟨.fString 34, false⟩),
  (58, ⟨.fDuplicate, false⟩), (126, ⟨.fRemove, false⟩), (36, ⟨.fSwap2, false⟩), (64, ⟨.fSwap3, false⟩),
  (108, ⟨.fLength, false⟩), (123, ⟨.fShiftLeft, false⟩), (125, ⟨.fShiftRight, false⟩), (114, ⟨.fReverse, false⟩),
  (91, ⟨.fCreateStack, false⟩), (93, ⟨.fRemoveStack, false⟩),
  (111, ⟨.fOutChar, false⟩), (110, ⟨.fOutInt, false⟩), (105, ⟨.fIn, false⟩),
  (38, ⟨.fRegister, false⟩), (103, ⟨.fGet, false⟩), (112, ⟨.fPut, false⟩), (59, ⟨.fEnd, false⟩)]

/-- `StarfishStrategy::StarfishStrategy` (/repo/src/StarfishStrategy.cpp:22-36). -/
def semsStarfish : List (Int × Sem) := [
  (96, ⟨.sFisherman, true⟩), (67, ⟨.sCall, false⟩), (82, ⟨.sReturn, false⟩), (117, ⟨.sDive, true⟩), (79, ⟨.sRise, true⟩),
  (73, ⟨.sIncrement, false⟩), (68, ⟨.sDecrement, false⟩), (70, ⟨.sFile, false⟩), (83, ⟨.sSleep, false⟩),
  (104, ⟨.sHour, false⟩), (109, ⟨.sMinute, false⟩), (115, ⟨.sSecond, false⟩)]

/-- `FingerprintStrategy::loadBuiltin` (/repo/src/FingerprintStrategy.cpp:65-103), without the internal
`FingerprintDynamic::ID`. -/
def Fp.ofId : Nat → Option Fp
  | 0x42415345 => some .BASE
  | 0x42495457 => some .BITW
  | 0x424F4F4C => some .BOOL
  | 0x43504C49 => some .CPLI
  | 0x44425547 => some .DBUG
  | 0x44495246 => some .DIRF
  | 0x46494e47 => some .FING
  | 0x46495348 => some .FISH
  | 0x46495850 => some .FIXP
  | 0x46504450 => some .FPDP
  | 0x46505254 => some .FPRT
  | 0x46505350 => some .FPSP
  | 0x46525448 => some .FRTH
  | 0x48525449 => some .HRTI
  | 0x49495043 => some .IIPC
  | 0x4A535452 => some .JSTR
  | 0x4C4F4E47 => some .LONG
  | 0x4D4F4445 => some .MODE
  | 0x4D565253 => some .MVRS
  | 0x4E46554E => some .NFUN
  | 0x4F525448 => some .ORTH
  | 0x5045524C => some .PERL
  | 0x52454643 => some .REFC
  | 0x5354524E => some .STRN
  | 0x53554252 => some .SUBR
  | 0x544F5953 => some .TOYS
  | _ => none

/-- The instructions of a fingerprint: the list given to the base class constructor
(e.g. /repo/src/fingerprint/FingerprintFRTH.cpp:12; one such line per fingerprint). -/
def Fp.insts : Fp → List Int
  | .BASE => [66, 72, 73, 78, 79]
  | .BITW => [65, 76, 78, 79, 82, 88]
  | .BOOL => [65, 78, 79, 88]
  | .CPLI => [65, 68, 77, 79, 83, 86]
  | .DBUG => [65, 66, 68, 69, 87]
  | .DIRF => [67, 77, 82]
  | .FING => [88, 89, 90]
  | .FISH => [67, 68, 70, 72, 73, 76, 77, 78, 79, 82, 83, 84, 85, 86]
  | .FIXP => [65, 66, 67, 68, 73, 74, 78, 79, 80, 81, 82, 83, 84, 85, 86, 88]
  | .FPDP => [65, 66, 67, 68, 69, 70, 71, 72, 73, 75, 76, 77, 78, 80, 81, 82, 83, 84, 86, 88, 89]
  | .FPRT => [68, 70, 73, 76, 83]
  | .FPSP => [65, 66, 67, 68, 69, 70, 71, 72, 73, 75, 76, 77, 78, 80, 81, 82, 83, 84, 86, 88, 89]
  | .FRTH => [68, 76, 79, 80, 82]
  | .HRTI => [69, 71, 77, 83, 84]
  | .IIPC => [65, 68, 71, 73, 76, 80]
  | .JSTR => [71, 80]
  | .LONG => [65, 66, 68, 69, 76, 77, 78, 79, 80, 82, 83, 90]
  | .MODE => [72, 73, 81, 83]
  | .MVRS => [66, 67, 70, 71, 74, 78, 80]
  | .NFUN => [65, 66, 67, 68, 72, 73, 76, 77, 82, 86, 88, 89, 90]
  | .ORTH => [65, 69, 71, 79, 80, 83, 86, 87, 88, 89, 90]
  | .PERL => [69, 73, 83]
  | .REFC => [82, 68]
  | .STRN => [65, 67, 68, 70, 71, 73, 76, 77, 78, 80, 82, 83, 86]
  | .SUBR => [65, 67, 74, 79, 82]
  | .TOYS => [65, 66, 67, 68, 69, 70, 71, 72, 73, 74, 75, 76, 77, 78, 79, 80, 81, 82, 83, 84, 85, 86, 87, 88, 89, 90]

/-- `Fingerprint::activate` (/repo/src/Fingerprint.cpp:26-30), overridden by FISH (`U` and `O` are movement,
/repo/src/fingerprint/FingerprintFISH.cpp:20-28) and DBUG (binds nothing, /repo/src/fingerprint/FingerprintDBUG.cpp:18-20). -/
def Fp.activate (f : Fp) (r : Runner) : Runner :=
  match f with
  | .DBUG => r
  | .FISH => r.pushSems (Fp.FISH.insts.map fun c => (c, ⟨.fing .FISH c, c == 85 || c == 79⟩))
  | f => r.pushSems (f.insts.map fun c => (c, ⟨.fing f c, false⟩))

/-- `FingerprintStrategy::load` (/repo/src/FingerprintStrategy.cpp:110-131); `none` if there is no such fingerprint. Simplification:
there are no `.fl` libraries (`loadFL`, line 114); `Model/FungeLib` models what their letters do. A fingerprint object is created on first use and kept in `available`; its members start
from their defaults, which is how `Runner` is initialised. -/
def Runner.loadFp (r : Runner) (id : Nat) : Option Runner :=
  match Fp.ofId id with
  | none => none
  | some f => some (f.activate { r with
      available := if id ∈ r.available then r.available else id :: r.available
      loaded := r.loaded ++ [id] })

/-- Removing the last occurrence (the reverse iterator loop, /repo/src/FingerprintStrategy.cpp:139-144). -/
def eraseLast (l : List Nat) (x : Nat) : List Nat := (l.reverse.erase x).reverse

/-- `FingerprintStrategy::unload` (/repo/src/FingerprintStrategy.cpp:133-148); `none` if it is not available. -/
def Runner.unloadFp (r : Runner) (id : Nat) : Option Runner :=
  if id ∈ r.available then
    match Fp.ofId id with
    | none => none
    | some f =>
      let r := f.insts.foldl (fun r i => (r.popSem i).2) r
      some { r with loaded := eraseLast r.loaded id }
  else none

/-- Loading a list of fingerprints, ignoring those that do not exist
(/repo/src/FingerprintStrategy.cpp:45-47, 54-56). -/
def Runner.loadFps (r : Runner) (l : List Nat) : Runner := l.foldl (fun r id => (r.loadFp id).getD r) r

/-- The constructors of the strategies, bound to runner `r`; `fps` are the fingerprints the 98 strategy loads first
(/repo/src/Unefunge93Strategy.cpp:17-63, /repo/src/Unefunge98Strategy.cpp:19-31, /repo/src/Befunge93Strategy.cpp:13-19,
/repo/src/Befunge98Strategy.cpp:13-19, /repo/src/Trefunge98Strategy.cpp:14-20, /repo/src/FishStrategy.cpp:17-94,
/repo/src/StarfishStrategy.cpp:16-39). -/
def Strat.init (fps : List Nat) (r : Runner) : Strat → Runner
  | .une93 => { r.pushSems semsUne93 with handler := .funge }
  | .une98 => (r.loadFps fps).pushSems semsUne98
  | .be93 => r.pushSems semsBe93
  | .be98 => r.pushSems semsBe98
  | .tre98 => r.pushSems semsTre98
  | .fish => { r.pushSems semsFish with handler := .fish, regs := [(false, 0)] }
  | .starfish => { (r.pushSems semsFish).pushSems semsStarfish with handler := .fish, regs := [(false, 0)] }

/-- `FungeRunner::loadStrategies` (/repo/src/FungeRunner.cpp:85-115): which strategies, in order. -/
def strategiesFor (cfg : Cfg) : List Strat :=
  if cfg.standard = -1 then [.fish]
  else if cfg.standard = -2 then [.starfish]
  else
    (if cfg.dims ≥ 1 then
      (if cfg.standard ≥ 93 then [.une93] else []) ++ (if cfg.standard ≥ 98 then [.une98] else []) else []) ++
    (if cfg.dims ≥ 2 then
      (if cfg.standard ≥ 93 then [.be93] else []) ++ (if cfg.standard ≥ 98 then [.be98] else []) else []) ++
    (if cfg.dims ≥ 3 then (if cfg.standard ≥ 98 then [.tre98] else []) else [])

/-- `FungeRunner::FungeRunner(uni, pos, delta)` (/repo/src/FungeRunner.cpp:22-38). -/
def newRunner (cfg : Cfg) (id : Nat) (pos delta : Vec) : Runner :=
  let r : Runner := { id := id, strats := strategiesFor cfg }
  let r := (strategiesFor cfg).foldl (Strat.init cfg.fingerprints) r
  let r := { r with ip := r.ip.setPos pos }
  let r := notifyDelta { r with ip := r.ip.setDelta (hasMode cfg.mode modeHover) delta }
  { r with ss := r.ss.setMode cfg.mode }

/-- `clone` of the strategies (e.g. /repo/src/Unefunge93Strategy.cpp:291-293, /repo/src/FishStrategy.cpp:525-527); `StarfishStrategy` has none of
its own. -/
def Strat.cloned : Strat → Strat
  | .starfish => .fish
  | s => s

/-- `FungeRunner::FungeRunner(const FungeRunner&)` (/repo/src/FungeRunner.cpp:58-75), then `runner->setMode(config.mode)` in `addRunner`
(/repo/src/FungeUniverse.cpp:97). -/
def Runner.clone (p : Runner) (g : Glob) (id : Nat) : Except Fault Runner :=
  let strats := p.strats.map Strat.cloned
  let r : Runner := { id := id, strats := strats, ss := p.ss.copy, ip := p.ip, parent := some p.id }
  let r := strats.foldl (Strat.init p.loaded) r
  match r.ip.reflect.next g.cfg.dims g.cfg.topo g.field with
  | .error e => .error e
  | .ok ip => .ok { r with ip := ip, ss := r.ss.setMode g.cfg.mode }

end Funge
