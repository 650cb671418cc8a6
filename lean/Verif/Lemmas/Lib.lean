import Verif.Model.FungeLib
import Verif.Lemmas.Tick
/-!
Running a library: a small interpreter `arun` that follows one path through a library's code with values it need not know, and the proof that
the model does what it says.
-/
namespace Funge
open Exec

namespace Lib

/-- What changes while a library's thread runs: its instruction pointer, whether it is in string mode and the character before, the values on the
top stack, and the effects so far. -/
structure Cf where
  ip : IP
  str : Bool := false
  prev : Int := 0
  l : List Int
  eff : List Eff

/-- The binding of a character in a library's thread. -/
def sem (i : Int) : Option Sem :=
  (meanings semsTre98 i ++ (meanings semsBe98 i ++ (meanings semsBe93 i ++ (meanings semsUne98 i ++ meanings semsUne93 i)))).head?

/-- Move on and require `ps`. -/
def mv (F : Field) (path : List Int) (ps : List Prop) (c : Cf) : Option (List Int × Cf × List Prop) :=
  match c.ip.next F.dims .lahey F with
  | .ok ip => some (path, { c with ip := ip }, ps)
  | .error _ => none

/-- Move on `n` times. -/
def nextN (F : Field) : Nat → IP → Option IP
  | 0, ip => some ip
  | n + 1, ip =>
    match ip.next F.dims .lahey F with
    | .ok ip => nextN F n ip
    | .error _ => none

/-- The binary instructions on `b` and, above it, `a`: what they require and leave. -/
def bin (op : Op) (b a : Int) : Option (List Prop × Int) :=
  match op with
  | .add => some ([InI64 (b + a)], b + a)
  | .sub => some ([InI64 (b - a)], b - a)
  | .mul => some ([InI64 (b * a)], b * a)
  | .div => some ([a ≠ 0, InI64 (b.tdiv a)], b.tdiv a)
  | .rem => some ([a ≠ 0, ¬(b = i64Min ∧ a = -1)], b.tmod a)
  | .gt => some ([], if b > a then 1 else 0)
  | _ => none

/-- A conditional: the direction for zero, and the one for any other value. -/
def branch (F : Field) (path : List Int) (c : Cf) (z o : Vec) : Option (List Int × Cf × List Prop) :=
  match path with
  | [] => none
  | v :: path =>
    if v = 0 then mv F path [c.l.headD 0 = 0] { c with ip := { c.ip with delta := z }, l := c.l.tail }
    else mv F path [c.l.headD 0 ≠ 0] { c with ip := { c.ip with delta := o }, l := c.l.tail }

/-- One instruction. `path` says which way the conditionals go and how far the jumps are. -/
def opStep (F : Field) (path : List Int) (c : Cf) (op : Op) : Option (List Int × Cf × List Prop) :=
  match op with
  | .skip => mv F path [] c
  | .push n => mv F path [] { c with l := n :: c.l }
  | .west => mv F path [] { c with ip := { c.ip with delta := Vec.ofList [-1] } }
  | .east => mv F path [] { c with ip := { c.ip with delta := Vec.ofList [1] } }
  | .north => mv F path [] { c with ip := { c.ip with delta := Vec.ofList [0, -1] } }
  | .south => mv F path [] { c with ip := { c.ip with delta := Vec.ofList [0, 1] } }
  | .trampoline =>
    match c.ip.next F.dims .lahey F with
    | .ok ip => mv F path [] { c with ip := ip }
    | .error _ => none
  | .ifEW => branch F path c (Vec.ofList [1]) (Vec.ofList [-1])
  | .ifNS => branch F path c (Vec.ofList [0, 1]) (Vec.ofList [0, -1])
  | .pop => mv F path [] { c with l := c.l.tail }
  | .dup => mv F path [] { c with l := c.l.headD 0 :: c.l.headD 0 :: c.l.tail }
  | .swap => mv F path [] { c with l := c.l.tail.headD 0 :: c.l.headD 0 :: c.l.tail.tail }
  | .charOut => mv F path [] { c with l := c.l.tail, eff := c.eff ++ [.out [if c.l.headD 0 = 10 then 10 else toChar (c.l.headD 0)]] }
  | .numOut => mv F path [] { c with l := c.l.tail, eff := c.eff ++ [.out (decimal (toInt (c.l.headD 0)) ++ [32])] }
  | .fetch =>
    match c.ip.next F.dims .lahey F with
    | .ok ip => mv F path [] { c with ip := ip, l := toInt (F.get ip.pos) :: c.l }
    | .error _ => none
  | .jumpForward =>
    match path with
    | [] => none
    | v :: path =>
      if 0 ≤ v ∧ v < 2147483648 then
        match nextN F v.toNat c.ip with
        | some ip => mv F path [c.l.headD 0 = v] { c with ip := ip, l := c.l.tail }
        | none => none
      else none
  | .string => mv F path [] { c with str := true }
  | op =>
    match bin op (c.l.tail.headD 0) (c.l.headD 0) with
    | some (ps, r) => mv F path ps { c with l := r :: c.l.tail.tail }
    | none => none

/-- The letter `K` of `FingerprintDynamic`. -/
def pick (F : Field) (path : List Int) (c : Cf) : Option (List Int × Cf × List Prop) :=
  match path with
  | [] => none
  | v :: path =>
    if 0 ≤ v ∧ v < 1000 then mv F path [c.l.headD 0 = v] { c with l := c.l.tail.getD v.toNat 0 :: c.l.tail } else none

/-- One iteration of a tick of a library's thread. -/
def astep (F : Field) (path : List Int) (c : Cf) : Option (List Int × Cf × List Prop) :=
  let i := F.get c.ip.pos
  if c.str = true then
    if i = 34 then mv F path [] { c with str := false, prev := 0 }
    else if 0 ≤ i ∧ i ≤ 255 ∧ 0 ≤ c.prev ∧ c.prev ≤ 255 then
      if (isSpaceByte i && isSpaceByte c.prev) = true then mv F path [] c
      else mv F path [] { c with l := i :: c.l, prev := i }
    else none
  else
    match sem i with
    | none => if i = 75 then pick F path c else none
    | some s => opStep F path c s.op

/-- `n` such iterations: where they lead and what they require. -/
def arun (F : Field) : Nat → List Int → Cf → Option (Cf × List Prop)
  | 0, _, c => some (c, [])
  | n + 1, path, c =>
    match astep F path c with
    | none => none
    | some (path, c, ps) =>
      if c.ip.stopped = true then none
      else
        match arun F n path c with
        | none => none
        | some (c, qs) => some (c, ps ++ qs)

/-- All of them. -/
def All : List Prop → Prop
  | [] => True
  | p :: t => p ∧ All t

theorem all_append {a b : List Prop} : All (a ++ b) ↔ All a ∧ All b := by
  induction a with
  | nil => simp [All]
  | cons p t ih => simp [All, ih, and_assoc]

/-- The state of the model. -/
def base (F : Field) (cmd : Int) (s : St) (c : Cf) : St :=
  (((libStart F cmd s).lib.setG { (libStart F cmd s).lib.g with eff := c.eff }).setStr c.str 34 c.prev).setIP c.ip

/-- The state of the model. -/
def cf (F : Field) (cmd : Int) (s : St) (c : Cf) (n : Nat) : LibSt where
  lib := (base F cmd s c).setItems c.l n
  caller := s

variable {F : Field} {cmd : Int} {s : St}

theorem base_lifo (h : s.cur.ss.select < s.cur.ss.stacks.length) (c : Cf) : (base F cmd s c).Lifo := by
  refine ⟨?_, ?_⟩
  · show s.cur.ss.select < (s.cur.ss.stacks.map _).length
    simpa using h
  · have : (base F cmd s c).top.mode = 0 := by
      show (((s.cur.ss.stacks.map fun st : Stack => st.setMode 0)[s.cur.ss.select]?).getD {}).mode = 0
      rw [List.getElem?_map, List.getElem?_eq_getElem h]; rfl
    rw [this]; decide

/-- What a configuration says about the next iteration of the tick. -/
def Micro (F : Field) (cmd : Int) (s : St) (c c' : Cf) : Prop :=
  ∀ n f, 0 < f → ∃ e w n', (e = .none ∨ e = .skip) ∧ libExec f (F.get c.ip.pos) (cf F cmd s c n) = .ok (e, w) ∧
    w.onLib (libMove e) = .ok (e, cf F cmd s c' n')

theorem mv_ps {path path' ps ps'} {c c' : Cf} (h : mv F path ps c = some (path', c', ps')) : ps = ps' := by
  unfold mv at h
  cases hn : c.ip.next F.dims .lahey F with
  | error e => rw [hn] at h; cases h
  | ok ip => rw [hn] at h; cases h; rfl

theorem libMove_run {e : Err} {st : St} {ip' : IP} (he : e = .none ∨ e = .skip)
    (h : st.cur.ip.next st.g.cfg.dims st.g.cfg.topo st.g.field = .ok ip') : libMove e st = .ok (e, st.setIP ip') := by
  rcases he with rfl | rfl
  · rw [libMove, bind_ok (show afterExec .none st = .ok (.none, st) from rfl)]
    show (ipNext >>= _) st = _
    rw [bind_ok (ipNext_run h)]; rfl
  · rw [libMove, bind_ok (show afterExec .skip st = .ok (.skip, st) from rfl)]
    show (ipNext >>= _) st = _
    rw [bind_ok (ipNext_run h)]; rfl

/-- If an iteration executes its instruction with the effect `c1` and `mv` leads on from there. -/
theorem micro_of {c c1 c' : Cf} {path path' ps ps'}
    (hx : ∀ n f, 0 < f → ∃ e n1, (e = .none ∨ e = .skip) ∧ libExec f (F.get c.ip.pos) (cf F cmd s c n) = .ok (e, cf F cmd s c1 n1))
    (hm : mv F path ps c1 = some (path', c', ps')) : Micro F cmd s c c' ∧ path' = path ∧ ps' = ps := by
  unfold mv at hm
  cases hn : c1.ip.next F.dims .lahey F with
  | error e => rw [hn] at hm; cases hm
  | ok ip =>
    rw [hn] at hm
    cases hm
    refine ⟨?_, rfl, rfl⟩
    intro n f hf
    obtain ⟨e, n1, he, hx⟩ := hx n f hf
    refine ⟨e, _, n1, he, hx, ?_⟩
    unfold LibSt.onLib
    rw [libMove_run he (show (cf F cmd s c1 n1).lib.cur.ip.next _ _ _ = .ok ip from hn)]
    rfl

theorem notifyDelta_strats (r : Runner) : (notifyDelta r).strats = r.strats := by
  unfold notifyDelta; dsimp only; split <;> rfl

theorem notifyDelta_available (r : Runner) : (notifyDelta r).available = r.available := by
  unfold notifyDelta; dsimp only; split <;> rfl

theorem pushSems_strats (l : List (Int × Sem)) (r : Runner) : (r.pushSems l).strats = r.strats := by rw [pushSems_eq]

theorem pushSems_available (l : List (Int × Sem)) (r : Runner) : (r.pushSems l).available = r.available := by rw [pushSems_eq]

theorem newRunner_sems (id pos delta) (c : Int) : ((newRunner { standard := 98, dims := 3 } id pos delta).sems c).head? = sem c := by
  have h : strategiesFor { standard := 98, dims := 3 } = [.une93, .une98, .be93, .be98, .tre98] := by decide
  simp only [newRunner, notifyDelta_sems, h, List.foldl_cons, List.foldl_nil, Strat.init, Runner.loadFps, pushSems_sems, sem, List.append_nil]

theorem newRunner_strats (id pos delta) :
    (newRunner { standard := 98, dims := 3 } id pos delta).strats = [.une93, .une98, .be93, .be98, .tre98] := by
  have h : strategiesFor { standard := 98, dims := 3 } = [.une93, .une98, .be93, .be98, .tre98] := by decide
  simp only [newRunner, notifyDelta_strats, h, List.foldl_cons, List.foldl_nil, Strat.init, Runner.loadFps, pushSems_strats]

theorem newRunner_available (id pos delta) : (newRunner { standard := 98, dims := 3 } id pos delta).available = [] := by
  have h : strategiesFor { standard := 98, dims := 3 } = [.une93, .une98, .be93, .be98, .tre98] := by decide
  simp only [newRunner, notifyDelta_available, h, List.foldl_cons, List.foldl_nil, Strat.init, Runner.loadFps, pushSems_available]

theorem libCfg_eq (hd : F.dims = 3) : libCfg F = { standard := 98, dims := 3 } := by unfold libCfg; rw [hd]

theorem cf_getSem (hd : F.dims = 3) (c n) (i : Int) : (cf F cmd s c n).lib.cur.getSem i = sem i := by
  show ((newRunner (libCfg F) s.g.nextId (Vec.ofList [0, 0, cmd - 65]) (Vec.ofList [1])).sems i).head? = _
  rw [libCfg_eq hd, newRunner_sems]

theorem cf_strats (hd : F.dims = 3) (c n) : (cf F cmd s c n).lib.cur.strats = [.une93, .une98, .be93, .be98, .tre98] := by
  show (newRunner (libCfg F) s.g.nextId (Vec.ofList [0, 0, cmd - 65]) (Vec.ofList [1])).strats = _
  rw [libCfg_eq hd, newRunner_strats]

theorem cf_available (hd : F.dims = 3) (c n) : (cf F cmd s c n).lib.cur.available = [] := by
  show (newRunner (libCfg F) s.g.nextId (Vec.ofList [0, 0, cmd - 65]) (Vec.ofList [1])).available = _
  rw [libCfg_eq hd, newRunner_available]

theorem exec_of_sem (hd : F.dims = 3) {c : Cf} {n f : Nat} {i : Int} {sm : Sem} (hf : 0 < f) (hstr : c.str = false) (hs : sem i = some sm)
    (hk : sm.op ≠ .iterate) : ∃ x, libExec f i (cf F cmd s c n) = (cf F cmd s c n).onLib (runOp x sm.op) := by
  obtain ⟨k, rfl⟩ : ∃ k, f = k + 1 := ⟨f - 1, by omega⟩
  refine ⟨execute k, ?_⟩
  have h1 : (cf F cmd s c n).lib.cur.getSem i = some sm := by rw [cf_getSem hd, hs]
  have h3 : (cf F cmd s c n).repeats i = false := by
    unfold LibSt.repeats
    rw [h1]
    obtain ⟨op, m⟩ := sm
    cases op <;> first | rfl | exact absurd rfl hk | simp
  unfold libExec
  rw [if_neg (by rw [h1]; simp), if_neg (by rw [h3]; simp)]
  unfold LibSt.onLib
  have h2 : execute (k + 1) i (cf F cmd s c n).lib = runOp (execute k) sm.op (cf F cmd s c n).lib := by
    show (if c.str then _ else execNormal (execute k) i (cf F cmd s c n).lib) = _
    rw [hstr]
    show execNormal (execute k) i (cf F cmd s c n).lib = _
    unfold execNormal
    rw [h1]
    exact if_neg (by rw [show hasMode (cf F cmd s c n).lib.g.cfg.mode modeDive = false from (by decide : hasMode 0 modeDive = false)]; simp)
  rw [h2]

/-- Setting the delta in a library's thread. -/
theorem setDelta_cf (hd : F.dims = 3) (c n) (v : Vec) :
    setDelta v (cf F cmd s c n).lib = .ok ((), (cf F cmd s { c with ip := { c.ip with delta := v } } n).lib) := by
  rw [setDelta, bind_ok (isMode_run _ _), modCur_run,
    show hasMode (cf F cmd s c n).lib.g.cfg.mode modeHover = false from (by decide : hasMode 0 modeHover = false)]
  have h1 := cf_strats (cmd := cmd) (s := s) hd c n
  have h2 := cf_available (cmd := cmd) (s := s) hd c n
  unfold notifyDelta
  dsimp only
  split
  · rw [if_neg (by rw [h2]; simp), if_neg (by rw [h1]; decide)]; rfl
  · rfl

theorem popTop_cf (h : s.cur.ss.select < s.cur.ss.stacks.length) (c : Cf) (l n) :
    popTop (cf F cmd s { c with l := l } n).lib = .ok (l.headD 0, (cf F cmd s { c with l := l.tail } (n + 1)).lib) :=
  popTop_run (base_lifo h c) l n

theorem pushTop_cf (h : s.cur.ss.select < s.cur.ss.stacks.length) (c : Cf) (l n v) :
    pushTop v (cf F cmd s { c with l := l } n).lib = .ok ((), (cf F cmd s { c with l := v :: l } (n + 1)).lib) :=
  pushTop_run (base_lifo h c) l n v

theorem ipNext_cf {c : Cf} {ip : IP} (hn : c.ip.next F.dims .lahey F = .ok ip) (n) :
    ipNext (cf F cmd s c n).lib = .ok ((), (cf F cmd s { c with ip := ip } n).lib) :=
  ipNext_run (s := (cf F cmd s c n).lib) hn

theorem emit_cf (c : Cf) (n : Nat) (e : Eff) :
    emit e (cf F cmd s c n).lib = .ok ((), (cf F cmd s { c with eff := c.eff ++ [e] } n).lib) := rfl

theorem string_cf (c : Cf) (n : Nat) : iString 34 (cf F cmd s c n).lib = .ok (.none, (cf F cmd s { c with str := true } n).lib) := rfl

theorem ipNextN_cf {k : Nat} {c : Cf} {ip : IP} (hn : nextN F k c.ip = some ip) (n) :
    ipNextN k (cf F cmd s c n).lib = .ok ((), (cf F cmd s { c with ip := ip } n).lib) := by
  induction k generalizing c with
  | zero => cases hn; rfl
  | succ k ih =>
    unfold nextN at hn
    cases h1 : c.ip.next F.dims .lahey F with
    | error e => rw [h1] at hn; cases hn
    | ok ip1 =>
      rw [h1] at hn
      rw [ipNextN, bind_ok (ipNext_cf h1 n)]
      exact ih (c := { c with ip := ip1 }) hn

/-- What is left to show for an instruction: what it does. -/
theorem micro_op (hd : F.dims = 3) {c c1 c' : Cf} {path path' ps ps'} {sm : Sem} (hstr : c.str = false)
    (hs : sem (F.get c.ip.pos) = some sm)
    (hx : ∀ n x, ∃ e n1, (e = .none ∨ e = .skip) ∧ runOp x sm.op (cf F cmd s c n).lib = .ok (e, (cf F cmd s c1 n1).lib))
    (hm : mv F path ps c1 = some (path', c', ps')) (hk : sm.op ≠ .iterate := by first | assumption | decide) : Micro F cmd s c c' ∧ path' = path ∧ ps' = ps := by
  refine micro_of (fun n f hf => ?_) hm
  obtain ⟨x, h1⟩ := exec_of_sem (cmd := cmd) (s := s) (n := n) hd hf hstr hs hk
  obtain ⟨e, n1, he, h2⟩ := hx n x
  refine ⟨e, n1, he, ?_⟩
  rw [h1]
  unfold LibSt.onLib
  rw [h2]; rfl

theorem bin_sound {op : Op} {b a r : Int} {ps : List Prop} (h : bin op b a = some (ps, r)) (hp : All ps) :
    ∃ g : Int → Int → Except Fault Int, (∀ x, runOp x op = iBin g) ∧ g b a = .ok r := by
  cases op <;> simp only [bin, Option.some.injEq, Prod.mk.injEq, reduceCtorEq] at h
  · obtain ⟨rfl, rfl⟩ := h
    refine ⟨remOp, fun _ => rfl, ?_⟩
    unfold remOp
    rw [if_neg hp.1]; exact if_neg hp.2.1
  · obtain ⟨rfl, rfl⟩ := h
    exact ⟨mulOp, fun _ => rfl, if_pos hp.1⟩
  · obtain ⟨rfl, rfl⟩ := h
    exact ⟨addOp, fun _ => rfl, if_pos hp.1⟩
  · obtain ⟨rfl, rfl⟩ := h
    exact ⟨subOp, fun _ => rfl, if_pos hp.1⟩
  · obtain ⟨rfl, rfl⟩ := h
    refine ⟨divOp, fun _ => rfl, ?_⟩
    unfold divOp
    rw [if_neg hp.1]; exact if_pos hp.2.1
  · obtain ⟨rfl, rfl⟩ := h
    exact ⟨gtOp, fun _ => rfl, rfl⟩

theorem toInt_small {v : Int} (h : 0 ≤ v ∧ v < 2147483648) : toInt v = v := by
  unfold toInt; rw [Int.bmod_def]; split <;> omega

theorem jump_cf (h : s.cur.ss.select < s.cur.ss.stacks.length) {c : Cf} {v : Int} {ip : IP} (hv : 0 ≤ v ∧ v < 2147483648)
    (hx : c.l.headD 0 = v) (hn : nextN F v.toNat c.ip = some ip) (n) :
    iJumpForward (cf F cmd s c n).lib = .ok (.none, (cf F cmd s { c with ip := ip, l := c.l.tail } (n + 1)).lib) := by
  rw [iJumpForward, bind_ok (popTop_cf h c c.l n), hx]
  show (if toInt v = -2147483648 then fault .overflow else _ : Exec Err) _ = _
  rw [toInt_small hv, if_neg (by omega), if_neg (show ¬ v < 0 by omega)]
  show (ipNextN v.natAbs >>= _) _ = _
  rw [show v.natAbs = v.toNat by omega, bind_ok (ipNextN_cf (c := { c with l := c.l.tail }) hn (n + 1))]
  show (if v < 0 then _ else _ : Exec Err) _ = _
  rw [if_neg (by omega)]
  rfl

theorem opStep_sound (hd : F.dims = 3) (h : s.cur.ss.select < s.cur.ss.stacks.length) {c c' : Cf} {path path' ps sm}
    (hstr : c.str = false) (hs : sem (F.get c.ip.pos) = some sm) (ha : opStep F path c sm.op = some (path', c', ps)) (hp : All ps) :
    Micro F cmd s c c' := by
  obtain ⟨op, mvmt⟩ := sm
  have hk : (Sem.mk op mvmt).op ≠ .iterate := by
    intro e
    change op = .iterate at e
    subst e
    cases ha
  have other : (match bin op (c.l.tail.headD 0) (c.l.headD 0) with
      | some (ps, r) => mv F path ps { c with l := r :: c.l.tail.tail }
      | none => none) = some (path', c', ps) → Micro F cmd s c c' := by
    intro hm
    cases hb : bin op (c.l.tail.headD 0) (c.l.headD 0) with
    | none => rw [hb] at hm; cases hm
    | some q =>
      obtain ⟨ps', r⟩ := q
      rw [hb] at hm
      have hps : ps' = ps := mv_ps hm
      subst hps
      obtain ⟨g, hg, hr⟩ := bin_sound hb hp
      refine (micro_op hd hstr hs (fun n x => ⟨.none, n + 1 + 1 + 1, .inl rfl, ?_⟩) hm).1
      rw [show runOp x (Sem.mk op mvmt).op = iBin g from hg x, iBin, bind_ok (popTop_cf h c c.l n), bind_ok (popTop_cf h c _ _), hr,
        bind_ok (lift_ok _ _), bind_ok (pushTop_cf h c _ _ _)]
      rfl
  have go : ∀ v : Vec, (∀ x, runOp x op = iGo v) → mv F path [] { c with ip := { c.ip with delta := v } } = some (path', c', ps) →
      Micro F cmd s c c' := by
    intro v hv hm
    refine (micro_op hd hstr hs (fun n x => ⟨.none, n, .inl rfl, ?_⟩) hm).1
    rw [show runOp x (Sem.mk op mvmt).op = iGo v from hv x, iGo, bind_ok (setDelta_cf hd c n v)]; rfl
  have cond : ∀ z o : Vec, (∀ x, runOp x op = iIf z o) → branch F path c z o = some (path', c', ps) → Micro F cmd s c c' := by
    intro z o hv hm
    cases path with
    | nil => cases hm
    | cons v path =>
      by_cases h0 : v = 0
      · simp only [branch, if_pos h0] at hm
        have h1 : c.l.headD 0 = 0 := by rw [← mv_ps hm] at hp; exact hp.1
        refine (micro_op hd hstr hs (fun n x => ⟨.none, n + 1, .inl rfl, ?_⟩) hm).1
        rw [show runOp x (Sem.mk op mvmt).op = iIf z o from hv x, iIf, bind_ok (popTop_cf h c c.l n)]
        show (if c.l.headD 0 = 0 then setDelta z >>= _ else setDelta o >>= _ : Exec Err) _ = _
        rw [if_pos h1, bind_ok (setDelta_cf hd _ _ z)]; rfl
      · simp only [branch, if_neg h0] at hm
        have h1 : c.l.headD 0 ≠ 0 := by rw [← mv_ps hm] at hp; exact hp.1
        refine (micro_op hd hstr hs (fun n x => ⟨.none, n + 1, .inl rfl, ?_⟩) hm).1
        rw [show runOp x (Sem.mk op mvmt).op = iIf z o from hv x, iIf, bind_ok (popTop_cf h c c.l n)]
        show (if c.l.headD 0 = 0 then setDelta z >>= _ else setDelta o >>= _ : Exec Err) _ = _
        rw [if_neg h1, bind_ok (setDelta_cf hd _ _ o)]; rfl
  cases op
  case west => exact go _ (fun _ => rfl) ha
  case east => exact go _ (fun _ => rfl) ha
  case north => exact go _ (fun _ => rfl) ha
  case south => exact go _ (fun _ => rfl) ha
  case ifEW => exact cond _ _ (fun _ => rfl) ha
  case ifNS => exact cond _ _ (fun _ => rfl) ha
  case skip => exact (micro_op (c1 := c) hd hstr hs (fun n x => ⟨.skip, n, .inr rfl, pure_run _ _⟩) ha).1
  case push k =>
    refine (micro_op hd hstr hs (fun n x => ⟨.none, n + 1, .inl rfl, ?_⟩) ha).1
    show iPush k _ = _
    rw [iPush, bind_ok (pushTop_cf h c c.l n k)]; rfl
  case pop =>
    refine (micro_op hd hstr hs (fun n x => ⟨.none, n + 1, .inl rfl, ?_⟩) ha).1
    show iPop _ = _
    rw [iPop, bind_ok (popTop_cf h c c.l n)]; rfl
  case dup =>
    refine (micro_op hd hstr hs (fun n x => ⟨.none, n + 1 + 1 + 1, .inl rfl, ?_⟩) ha).1
    show iDup _ = _
    rw [iDup, bind_ok (popTop_cf h c c.l n), bind_ok (pushTop_cf h c _ _ _), bind_ok (pushTop_cf h c _ _ _)]; rfl
  case swap =>
    refine (micro_op hd hstr hs (fun n x => ⟨.none, n + 1 + 1 + 1 + 1, .inl rfl, ?_⟩) ha).1
    show iSwap _ = _
    rw [iSwap, bind_ok (popTop_cf h c c.l n), bind_ok (popTop_cf h c _ _), bind_ok (pushTop_cf h c _ _ _), bind_ok (pushTop_cf h c _ _ _)]; rfl
  case charOut =>
    refine (micro_op hd hstr hs (fun n x => ⟨.none, n + 1, .inl rfl, ?_⟩) ha).1
    show iCharOut _ = _
    rw [iCharOut, bind_ok (popTop_cf h c c.l n), bind_ok (emit_cf _ _ _)]; rfl
  case numOut =>
    refine (micro_op hd hstr hs (fun n x => ⟨.none, n + 1, .inl rfl, ?_⟩) ha).1
    show iNumOut _ = _
    rw [iNumOut, bind_ok (popTop_cf h c c.l n), bind_ok (emit_cf _ _ _)]; rfl
  case string =>
    exact (micro_op hd hstr hs (fun n x => ⟨.none, n, .inl rfl, string_cf c n⟩) ha).1
  case trampoline =>
    cases hn : c.ip.next F.dims .lahey F with
    | error e => simp only [opStep, hn] at ha; cases ha
    | ok ip =>
      simp only [opStep, hn] at ha
      refine (micro_op hd hstr hs (fun n x => ⟨.none, n, .inl rfl, ?_⟩) ha).1
      show iTrampoline _ = _
      rw [iTrampoline, bind_ok (ipNext_cf hn n)]; rfl
  case fetch =>
    cases hn : c.ip.next F.dims .lahey F with
    | error e => simp only [opStep, hn] at ha; cases ha
    | ok ip =>
      simp only [opStep, hn] at ha
      refine (micro_op hd hstr hs (fun n x => ⟨.none, n + 1, .inl rfl, ?_⟩) ha).1
      show iFetch _ = _
      rw [iFetch, bind_ok (ipNext_cf hn n), bind_ok (ipGet_run _)]
      show (pushTop (toInt (F.get ip.pos)) >>= _) _ = _
      rw [bind_ok (pushTop_cf h { c with ip := ip } c.l n _)]; rfl
  case jumpForward =>
    cases path with
    | nil => cases ha
    | cons v path =>
      by_cases hv : 0 ≤ v ∧ v < 2147483648
      · cases hn : nextN F v.toNat c.ip with
        | none => simp only [opStep, hn, if_pos hv] at ha; cases ha
        | some ip =>
          simp only [opStep, hn, if_pos hv] at ha
          have h1 : c.l.headD 0 = v := by rw [← mv_ps ha] at hp; exact hp.1
          exact (micro_op hd hstr hs (fun n x => ⟨.none, n + 1, .inl rfl, jump_cf h hv h1 hn n⟩) ha).1
      · simp only [opStep, if_neg hv] at ha; cases ha
  all_goals exact other ha

theorem execString_cf (c : Cf) (n : Nat) {f : Nat} (hf : 0 < f) (hstr : c.str = true) (i : Int) :
    libExec f i (cf F cmd s c n) = (cf F cmd s c n).onLib (execString i) := by
  obtain ⟨k, rfl⟩ : ∃ k, f = k + 1 := ⟨f - 1, by omega⟩
  have h1 : (cf F cmd s c n).lib.cur.inString = true := hstr
  unfold libExec
  rw [if_neg (by rw [h1]; simp), if_neg (by unfold LibSt.repeats; rw [h1]; simp)]
  unfold LibSt.onLib
  have h2 : execute (k + 1) i (cf F cmd s c n).lib = execString i (cf F cmd s c n).lib := by
    show (if (cf F cmd s c n).lib.cur.inString then _ else _) = _
    rw [h1]; rfl
  rw [h2]

theorem string_end (c : Cf) (n : Nat) : execString 34 (cf F cmd s c n).lib = .ok (.none, (cf F cmd s { c with str := false, prev := 0 } n).lib) := by
  rw [execString, bind_ok (get_run _)]
  show (if (34 : Int) = 34 then _ else _ : Exec Err) _ = _
  rw [if_pos rfl]; rfl

theorem string_char (hd : F.dims = 3) (h : s.cur.ss.select < s.cur.ss.stacks.length) {c : Cf} {i : Int} (hi : i ≠ 34)
    (hr : 0 ≤ i ∧ i ≤ 255 ∧ 0 ≤ c.prev ∧ c.prev ≤ 255) (n : Nat) :
    execString i (cf F cmd s c n).lib = if (isSpaceByte i && isSpaceByte c.prev) = true then .ok (.skip, (cf F cmd s c n).lib)
      else .ok (.none, (cf F cmd s { c with l := i :: c.l, prev := i } (n + 1)).lib) := by
  rw [execString, bind_ok (get_run _)]
  show (if i = 34 then _ else execSGML i : Exec Err) _ = _
  rw [if_neg hi, execSGML, bind_ok (isSpace_run ⟨hr.1, hr.2.1⟩ _), bind_ok (get_run _)]
  have h2 : (if isSpaceByte i then isSpace (cf F cmd s c n).lib.cur.strPrev else pure false : Exec Bool) (cf F cmd s c n).lib =
      .ok (isSpaceByte i && isSpaceByte c.prev, (cf F cmd s c n).lib) := by
    cases isSpaceByte i with
    | false => rfl
    | true => exact isSpace_run hr.2.2 _
  rw [bind_ok h2]
  cases isSpaceByte i && isSpaceByte c.prev with
  | true => rfl
  | false =>
    show (runnerPush i >>= _) _ = _
    have hpi : (cf F cmd s c n).lib.PushesInts := ⟨_, _, cf_strats hd c n, by decide, by decide⟩
    rw [bind_ok ((runnerPush_run hpi i).trans (pushTop_cf h c c.l n i))]; rfl

theorem pick_cf (h : s.cur.ss.select < s.cur.ss.stacks.length) {c : Cf} {v : Int} (hv : 0 ≤ v ∧ v < 1000) (hx : c.l.headD 0 = v) (n) :
    dynPick (cf F cmd s c n).lib = .ok (.none, (cf F cmd s { c with l := c.l.tail.getD v.toNat 0 :: c.l.tail } (n + 1 + 1)).lib) := by
  rw [dynPick, bind_ok (popTop_cf h c c.l n), hx]
  show (if v < 0 then _ else _ : Exec Err) _ = _
  rw [if_neg (by omega), show ck (v + 1) = .ok (v + 1) from if_pos (by unfold InI64 i64Min i64Max; omega), bind_ok (lift_ok _ _)]
  have hg : getTop (v + 1).toNat (cf F cmd s { c with l := c.l.tail } (n + 1)).lib =
      .ok (c.l.tail.getD v.toNat 0, (cf F cmd s { c with l := c.l.tail } (n + 1)).lib) := by
    have := getTop_run (base_lifo (F := F) (cmd := cmd) h c) c.l.tail (n + 1) (v + 1).toNat
    rw [if_pos (by omega), show (v + 1).toNat - 1 = v.toNat by omega] at this
    exact this
  rw [bind_ok hg, bind_ok (pushTop_cf h c _ _ _)]; rfl

/-- One iteration of the small interpreter is one of the model. -/
theorem astep_sound (hd : F.dims = 3) (h : s.cur.ss.select < s.cur.ss.stacks.length) {c c' : Cf} {path path' ps}
    (ha : astep F path c = some (path', c', ps)) (hp : All ps) : Micro F cmd s c c' := by
  unfold astep at ha
  dsimp only at ha
  by_cases hstr : c.str = true
  · rw [if_pos hstr] at ha
    by_cases h34 : F.get c.ip.pos = 34
    · rw [if_pos h34] at ha
      refine (micro_of (fun n f hf => ⟨.none, n, .inl rfl, ?_⟩) ha).1
      rw [execString_cf c n hf hstr, h34]
      unfold LibSt.onLib
      rw [string_end]; rfl
    · rw [if_neg h34] at ha
      by_cases hr : 0 ≤ F.get c.ip.pos ∧ F.get c.ip.pos ≤ 255 ∧ 0 ≤ c.prev ∧ c.prev ≤ 255
      · rw [if_pos hr] at ha
        by_cases hsp : (isSpaceByte (F.get c.ip.pos) && isSpaceByte c.prev) = true
        · rw [if_pos hsp] at ha
          refine (micro_of (fun n f hf => ⟨.skip, n, .inr rfl, ?_⟩) ha).1
          rw [execString_cf c n hf hstr]
          unfold LibSt.onLib
          rw [string_char hd h h34 hr, if_pos hsp]
        · rw [if_neg hsp] at ha
          refine (micro_of (fun n f hf => ⟨.none, n + 1, .inl rfl, ?_⟩) ha).1
          rw [execString_cf c n hf hstr]
          unfold LibSt.onLib
          rw [string_char hd h h34 hr, if_neg hsp]; rfl
      · rw [if_neg hr] at ha; cases ha
  · rw [if_neg hstr] at ha
    have hstr' : c.str = false := by simpa using hstr
    cases hs : sem (F.get c.ip.pos) with
    | some sm => rw [hs] at ha; exact opStep_sound hd h hstr' hs ha hp
    | none =>
      rw [hs] at ha
      have ha' : (if F.get c.ip.pos = 75 then pick F path c else none) = some (path', c', ps) := ha
      by_cases h75 : F.get c.ip.pos = 75
      · rw [if_pos h75] at ha'
        cases path with
        | nil => cases ha'
        | cons v path =>
          by_cases hv : 0 ≤ v ∧ v < 1000
          · simp only [pick, if_pos hv] at ha'
            have h1 : c.l.headD 0 = v := by rw [← mv_ps ha'] at hp; exact hp.1
            refine (micro_of (fun n f hf => ⟨.none, n + 1 + 1, .inl rfl, ?_⟩) ha').1
            rw [h75]
            obtain ⟨f, rfl⟩ : ∃ k, f = k + 1 := ⟨f - 1, by omega⟩
            unfold libExec
            rw [if_pos ⟨hstr', by decide, by rw [cf_getSem hd]; decide⟩]
            show (cf F cmd s c n).onLib dynPick = _
            unfold LibSt.onLib
            rw [pick_cf h hv h1]; rfl
          · simp only [pick, if_neg hv] at ha'; cases ha'
      · rw [if_neg h75] at ha'; cases ha'

/-! ### Runs -/

/-- The rest of a tick and then `k` more ticks at most. -/
def go (j k : Nat) (w : LibSt) : Except Fault LibSt :=
  match libTickLoop j w with
  | .error e => .error e
  | .ok w => if w.lib.rest = [] then libLoop k w else .error .unmodelled

/-- From `c`, in at most `m` iterations, the thread stops, leaving `l` on the top stack and the effects `e`, and nothing else changed. -/
def Fin (F : Field) (cmd : Int) (s : St) (c : Cf) (m : Nat) (l : List Int) (e : List Eff) : Prop :=
  ∀ n j k, m ≤ s.g.fuel → m ≤ j → m ≤ k → ∃ w' n', go j k (cf F cmd s c n) = .ok w' ∧ w'.caller = s ∧
    w'.lib.cur.ss = ((libStart F cmd s).lib.setItems l n').cur.ss ∧ w'.lib.g = { (libStart F cmd s).lib.g with eff := e }

/-- In `d` iterations `c` leads to `c'`. -/
def Leads (F : Field) (cmd : Int) (s : St) (d : Nat) (c c' : Cf) : Prop :=
  ∀ m l e, Fin F cmd s c' m l e → Fin F cmd s c (m + d) l e

theorem Leads.refl (c : Cf) : Leads F cmd s 0 c c := fun _ _ _ h => h

theorem Leads.trans {d d' : Nat} {a b c : Cf} (h : Leads F cmd s d a b) (h' : Leads F cmd s d' b c) : Leads F cmd s (d' + d) a c := by
  intro m l e hf
  have := h _ _ _ (h' m l e hf)
  rwa [Nat.add_assoc] at this

theorem go_succ {j k : Nat} {w w1 w2 : LibSt} {e : Err} (he : e = .none ∨ e = .skip)
    (hx : libExec w.lib.g.fuel (w.lib.g.field.get w.lib.cur.ip.pos) w = .ok (e, w1)) (hm : w1.onLib (libMove e) = .ok (e, w2))
    (hr : w2.lib.rest = []) :
    go (j + 1) k w = if e = .skip then go j k w2 else libLoop k w2 := by
  have h1 : libTickLoop (j + 1) w = if e = .skip then libTickLoop j w2 else .ok w2 := by
    rw [libTickLoop, hx]
    dsimp only
    rw [hm]
  unfold go
  rw [h1]
  rcases he with rfl | rfl
  · show (if w2.lib.rest = [] then libLoop k w2 else _) = _
    rw [if_pos hr]; rfl
  · rfl

theorem leads_micro {c c' : Cf} (hst : c'.ip.stopped = false) (h : Micro F cmd s c c') : Leads F cmd s 1 c c' := by
  intro m l e hf n j k hfu hj hk
  obtain ⟨j, rfl⟩ : ∃ j', j = j' + 1 := ⟨j - 1, by omega⟩
  obtain ⟨er, w, n', he, hx, hmv⟩ := h n s.g.fuel (by omega)
  rw [go_succ (w := cf F cmd s c n) he hx hmv rfl]
  rcases he with rfl | rfl
  · obtain ⟨k, rfl⟩ : ∃ k', k = k' + 1 := ⟨k - 1, by omega⟩
    rw [if_neg (by decide), libLoop, if_neg (by show ¬ c'.ip.stopped = true; rw [hst]; simp)]
    exact hf n' s.g.fuel k (by omega) (by omega) (by omega)
  · rw [if_pos rfl]
    exact hf n' j k (by omega) (by omega) (by omega)

/-- What the small interpreter says is so. -/
theorem leads {d : Nat} {path : List Int} {c c' : Cf} {ps : List Prop} (ha : arun F d path c = some (c', ps)) (hd : F.dims = 3)
    (h : s.cur.ss.select < s.cur.ss.stacks.length) (hp : All ps) : Leads F cmd s d c c' := by
  induction d generalizing path c ps with
  | zero => cases ha; exact Leads.refl _
  | succ d ih =>
    unfold arun at ha
    cases h1 : astep F path c with
    | none => rw [h1] at ha; cases ha
    | some q =>
      obtain ⟨path1, c1, ps1⟩ := q
      rw [h1] at ha
      dsimp only at ha
      by_cases hst : c1.ip.stopped = true
      · rw [if_pos hst] at ha; cases ha
      rw [if_neg hst] at ha
      cases h2 : arun F d path1 c1 with
      | none => rw [h2] at ha; cases ha
      | some q2 =>
        obtain ⟨c2, ps2⟩ := q2
        rw [h2] at ha
        cases ha
        have hp' := all_append.1 hp
        have hm := astep_sound (cmd := cmd) hd h h1 hp'.1
        exact (leads_micro (by simpa using hst) hm).trans (ih h2 hp'.2)

/-- The end: `@`. -/
theorem fin_stop (hd : F.dims = 3) {c : Cf} (hstr : c.str = false) (h64 : F.get c.ip.pos = 64) : Fin F cmd s c 1 c.l c.eff := by
  intro n j k hfu hj hk
  obtain ⟨j, rfl⟩ : ∃ j', j = j' + 1 := ⟨j - 1, by omega⟩
  obtain ⟨k, rfl⟩ : ∃ k', k = k' + 1 := ⟨k - 1, by omega⟩
  have hs : sem (F.get c.ip.pos) = some ⟨.stop, false⟩ := by rw [h64]; decide
  obtain ⟨x, h1⟩ := exec_of_sem (cmd := cmd) (s := s) (n := n) (f := s.g.fuel) hd (by omega) hstr hs (by decide)
  have h2 : libExec s.g.fuel (F.get c.ip.pos) (cf F cmd s c n) = .ok (.none, cf F cmd s { c with ip := c.ip.stop } n) := by
    rw [h1]; rfl
  have h3 : (cf F cmd s { c with ip := c.ip.stop } n).onLib (libMove .none) = .ok (.none, cf F cmd s { c with ip := c.ip.stop } n) := by
    unfold LibSt.onLib
    rw [libMove_run (.inl rfl) (show (cf F cmd s { c with ip := c.ip.stop } n).lib.cur.ip.next _ _ _ = .ok c.ip.stop from rfl)]
    rfl
  refine ⟨cf F cmd s { c with ip := c.ip.stop } n, n, ?_, rfl, rfl, rfl⟩
  rw [go_succ (w := cf F cmd s c n) (.inl rfl) h2 h3 rfl, if_neg (by decide), libLoop]
  exact if_pos rfl

/-- Where the thread of letter `cmd` begins. -/
def start (cmd : Int) (l : List Int) (e : List Eff) : Cf where
  ip := { pos := Vec.ofList [0, 0, cmd - 65] }
  l := l
  eff := e

theorem libRunner_eq : (libRunner F cmd s).ip = { pos := Vec.ofList [0, 0, cmd - 65] } ∧
    (libRunner F cmd s).inString = false ∧ (libRunner F cmd s).strEnd = 34 ∧ (libRunner F cmd s).strPrev = 0 := by
  have hi := inits_same (libCfg F).fingerprints (strategiesFor (libCfg F)) { id := s.g.nextId, strats := strategiesFor (libCfg F) }
  refine ⟨?_, ?_, ?_, ?_⟩
  · simp only [libRunner, newRunner, notifyDelta_ip]
    rw [show hasMode (libCfg F).mode modeHover = false from (by decide : hasMode 0 modeHover = false)]
    simp only [IP.setDelta, IP.setPos, hi.ip]
    rfl
  · simp only [libRunner, newRunner, notifyDelta_inString, hi.inString]
  · unfold libRunner newRunner notifyDelta
    dsimp only
    split <;> exact hi.strEnd
  · unfold libRunner newRunner notifyDelta
    dsimp only
    split <;> exact hi.strPrev

theorem runner_eta {r : Runner} {ip : IP} (h1 : r.ip = ip) (h2 : r.inString = false) (h3 : r.strEnd = 34) (h4 : r.strPrev = 0) :
    r = { r with inString := false, strEnd := 34, strPrev := 0, ip := ip } := by
  cases r; cases h1; cases h2; cases h3; cases h4; rfl

end Lib
open Lib

/-- All the stacks are in the modes of the universe (see `C37`). -/
def St.Synced (s : St) : Prop := s.cur.ss.select < s.cur.ss.stacks.length ∧ ∀ st ∈ s.cur.ss.stacks, st.mode = s.g.cfg.mode

/-- `s'` is `s` after a call of a library that leaves the values `l` on the top stack and has the effects `es`; nothing else has changed (but the age
of that stack and the number of threads ever made). -/
def St.Answers (s s' : St) (l : List Int) (es : List Eff) : Prop :=
  ∃ n, s' = (s.setItems l n).setG { s.g with nextId := s.g.nextId + 1, eff := s.g.eff ++ es }

theorem libStart_cf {F : Field} {cmd : Int} {s : St} (h : s.Synced) :
    libStart F cmd s = cf F cmd s (start cmd s.items s.g.eff) s.top.ops := by
  have hi := libRunner_eq (F := F) (cmd := cmd) (s := s)
  have hb : base F cmd s (start cmd s.items s.g.eff) = (libStart F cmd s).lib := by
    have hr := runner_eta (r := libRunner F cmd s) hi.1 hi.2.1 hi.2.2.1 hi.2.2.2
    show St.mk { libRunner F cmd s with inString := false, strEnd := 34, strPrev := 0, ip := { pos := Vec.ofList [0, 0, cmd - 65] } }
      [] _ = _
    rw [← hr]; rfl
  have hl := base_lifo (F := F) (cmd := cmd) h.1 (start cmd s.items s.g.eff)
  have hi2 : (base F cmd s (start cmd s.items s.g.eff)).items = s.items ∧ (base F cmd s (start cmd s.items s.g.eff)).top.ops = s.top.ops := by
    have ht : (base F cmd s (start cmd s.items s.g.eff)).top = s.top.setMode 0 := by
      show ((s.cur.ss.stacks.map fun st : Stack => st.setMode 0)[s.cur.ss.select]?).getD {} =
        ((s.cur.ss.stacks[s.cur.ss.select]?).getD {}).setMode 0
      rw [List.getElem?_map, List.getElem?_eq_getElem h.1]; rfl
    refine ⟨?_, by rw [ht]; rfl⟩
    show (base F cmd s (start cmd s.items s.g.eff)).top.items = s.top.items
    rw [ht]; rfl
  have h1 : (cf F cmd s (start cmd s.items s.g.eff) s.top.ops).lib = base F cmd s (start cmd s.items s.g.eff) := by
    show (base F cmd s (start cmd s.items s.g.eff)).setItems s.items s.top.ops = _
    have := setItems_self hl
    rw [hi2.1, hi2.2] at this
    exact this
  show LibSt.mk (libStart F cmd s).lib s = _
  rw [← hb, ← h1]; rfl

theorem finish_mode {F : Field} {cmd : Int} {s : St} (h : s.Synced) (l : List Int) (n' : Nat) :
    (((libStart F cmd s).lib.setItems l n').cur.ss).setMode s.g.cfg.mode = (s.setItems l n').cur.ss := by
  have hm1 : s.top.mode = s.g.cfg.mode := by
    refine h.2 _ ?_
    unfold St.top
    rw [List.getElem?_eq_getElem h.1]
    exact List.getElem_mem _
  show StackStack.mk s.cur.ss.select (((s.cur.ss.stacks.map fun st : Stack => st.setMode 0).set s.cur.ss.select ⟨_, l, n'⟩).map
    fun st : Stack => st.setMode s.g.cfg.mode) = StackStack.mk s.cur.ss.select (s.cur.ss.stacks.set s.cur.ss.select ⟨s.top.mode, l, n'⟩)
  congr 1
  rw [List.map_set, List.map_map]
  have h1 : s.cur.ss.stacks.map ((fun st : Stack => st.setMode s.g.cfg.mode) ∘ fun st : Stack => st.setMode 0) = s.cur.ss.stacks := by
    conv => rhs; rw [← List.map_id s.cur.ss.stacks]
    refine List.map_congr_left fun st hst => ?_
    show Stack.mk s.g.cfg.mode st.items st.ops = st
    rw [← h.2 st hst]
  rw [h1, hm1]; rfl

theorem libCall_of_fin {F : Field} {cmd : Int} {s : St} {l : List Int} {es : List Eff} {m : Nat} (h : s.Synced)
    (hf : Fin F cmd s (start cmd s.items s.g.eff) m l (s.g.eff ++ es)) (hm : m < s.g.fuel) :
    ∃ s', libCall F cmd s = .ok (.none, s') ∧ s.Answers s' l es := by
  have hstart := libStart_cf (F := F) (cmd := cmd) h
  obtain ⟨k, hk⟩ : ∃ k, s.g.fuel = k + 1 := ⟨s.g.fuel - 1, by omega⟩
  obtain ⟨w', n', hg, hc, hss, hgl⟩ := hf s.top.ops s.g.fuel k (by omega) (by omega) (by omega)
  refine ⟨libFinish w', ?_, n', ?_⟩
  · unfold libCall
    have : libLoop s.g.fuel (libStart F cmd s) = .ok w' := by
      rw [hstart, hk, libLoop, if_neg (by show ¬ false = true; simp)]
      exact hg
    rw [this]
  · unfold libFinish
    rw [hc, hss, hgl]
    have hm := finish_mode (F := F) (cmd := cmd) h l n'
    rw [hm]; rfl

end Funge
