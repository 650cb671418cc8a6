import Verif.Lemmas.RefField
import Verif.Props.C35_Unknown
/-!
The instructions of the interpreter and the words of the reference machine.
-/
namespace Funge
open Exec Field Ref

/-- The rules that go with a standard. -/
def Rules.For (R : Rules) (std : Int) : Prop := (std = 93 ∧ R.funge98 = false) ∨ (std = 98 ∧ R.funge98 = true ∧ R.torus = false)

/-- The topology that goes with the rules, and what is allowed. -/
def Rules.Around (R : Rules) (g : Glob) : Prop :=
  g.cfg.topo = (if R.torus then .torus else .lahey) ∧ g.cfg.fingerprint = R.load ∧ g.cfg.filesystem = R.files ∧ g.cfg.execute = R.run ∧ g.cfg.concurrent = R.many

theorem Rules.For.std {R : Rules} {std : Int} (h : Rules.For R std) : std = 93 ∨ std = 98 := h.imp And.left And.left

/-- The instruction for a word. -/
def opOf : Word → Op
  | .blank => .skip
  | .push n => .push n
  | .go 1 _ => .east
  | .go (-1) _ => .west
  | .go _ 1 => .south
  | .go _ _ => .north
  | .stop => .stop
  | .bridge => .trampoline
  | .ifEW => .ifEW
  | .ifNS => .ifNS
  | .random => .goAway
  | .not => .not
  | .rem => .rem
  | .mul => .mul
  | .add => .add
  | .sub => .sub
  | .div => .div
  | .gt => .gt
  | .pop => .pop
  | .dup => .dup
  | .swap => .swap
  | .numIn => .numIn
  | .charIn => .charIn
  | .quote => .string
  | .numOut => .numOut
  | .charOut => .charOut
  | .get => .get
  | .put => .put
  | .noop => .noop
  | .left => .left
  | .right => .right
  | .compare => .compare
  | .reflect => .reflect
  | .absolute => .absolute
  | .jump => .jumpForward
  | .comment => .jumpOver
  | .quit => .quit
  | .clear => .clear
  | .fetch => .fetch
  | .store => .store
  | .opens => .beginBlock
  | .closes => .endBlock
  | .under => .under
  | .split => .thread
  | .iterate => .iterate
  | .info => .sysInfo
  | .system .load => .load
  | .system .unload => .unload
  | .system .read => .fileIn
  | .system .write => .fileOut
  | .system .run => .execute

/-- The interpreter's table. -/
def tableOf (std : Int) : List (Int × Sem) := if std = 93 then semsUne93 ++ semsBe93 else semsUne93 ++ (semsUne98 ++ (semsBe93 ++ semsBe98))

theorem progAt_sems {std : Int} (hs : std = 93 ∨ std = 98) (g f F ip l n inp eff) (c : Int) :
    (progAt g std f F ip l n inp eff).cur.sems c = meanings (tableOf std) c := by
  have h1 : (progAt g std f F ip l n inp eff).cur.sems =
    (newRunner { g.cfg with dims := 2, standard := std, topo := .lahey, mode := 0, fingerprints := [] } g.nextId (Vec.ofList [0]) (Vec.ofList [1])).sems := by krfl
  rw [h1]
  unfold newRunner
  dsimp only
  rw [notifyDelta_sems]
  dsimp only
  rcases hs with rfl | rfl
  · have h0 : strategiesFor { g.cfg with dims := 2, standard := 93, topo := .lahey, mode := 0, fingerprints := [] } = [.une93, .be93] := rfl
    rw [h0]
    simp only [List.foldl_cons, List.foldl_nil, Strat.init]
    rw [pushSems_sems, pushSems_sems, tableOf, if_pos rfl, meanings_append]
    simp
  · have h0 : strategiesFor { g.cfg with dims := 2, standard := 98, topo := .lahey, mode := 0, fingerprints := [] } = [.une93, .une98, .be93, .be98] := rfl
    rw [h0]
    simp only [List.foldl_cons, List.foldl_nil, Strat.init, Runner.loadFps]
    rw [pushSems_sems, pushSems_sems, pushSems_sems, pushSems_sems, tableOf, if_neg (by decide), meanings_append, meanings_append, meanings_append]
    simp

theorem mem_lookup {l : List (Int × Word)} {c : Int} {w : Word} (h : l.lookup c = some w) : (c, w) ∈ l := by
  induction l with
  | nil => cases h
  | cons p t ih =>
    rw [List.lookup_cons] at h
    split at h
    · rename_i hc
      have : c = p.1 := by simpa using hc
      subst this; cases h; exact List.mem_cons_self
    · exact List.mem_cons_of_mem _ (ih h)

/-- The words of Befunge-98 are not for a torus. -/
theorem Rules.For.flat {R : Rules} {std : Int} (h : Rules.For R std) {c : Int} {v : Word} (hw : word R c = some v) (hv : (words93.all (·.2 ≠ v)) = true) : R.torus = false := by
  rcases h with ⟨-, h1⟩ | ⟨-, -, h1⟩
  · exfalso
    unfold word at hw
    rw [h1, if_neg (by decide)] at hw
    simp only [List.all_eq_true, decide_eq_true_eq] at hv
    exact hv _ (mem_lookup hw) rfl
  · exact h1

theorem lookup_none {l : List (Int × Word)} {c : Int} (h : l.lookup c = none) : ∀ p ∈ l, p.1 ≠ c := by
  induction l with
  | nil => intro p hp; cases hp
  | cons p t ih =>
    rw [List.lookup_cons] at h
    split at h
    · cases h
    · rename_i hc
      intro q hq
      rcases List.mem_cons.mp hq with rfl | hq
      · intro he; simp [he] at hc
      · exact ih h q hq

theorem words_known {R : Rules} {std : Int} (hR : Rules.For R std) (g f F ip l n inp eff) {c : Int} {w : Word} (h : word R c = some w) :
    ∃ m, (progAt g std f F ip l n inp eff).cur.getSem c = some ⟨opOf w, m⟩ := by
  have key : ((meanings (tableOf std) c).head?).map (·.op) = some (opOf w) := by
    unfold word at h
    rcases hR with ⟨rfl, h1⟩ | ⟨rfl, h1, -⟩
    · rw [h1, if_neg (by decide)] at h
      have := mem_lookup h
      have all : ∀ p ∈ words93, ((meanings (tableOf 93) p.1).head?).map (·.op) = some (opOf p.2) := by decide
      exact all _ this
    · rw [h1, if_pos rfl] at h
      have := mem_lookup h
      have all : ∀ p ∈ words93 ++ words98, ((meanings (tableOf 98) p.1).head?).map (·.op) = some (opOf p.2) := by decide
      exact all _ this
  unfold Runner.getSem
  rw [progAt_sems hR.std]
  cases hm : (meanings (tableOf std) c).head? with
  | none => rw [hm] at key; cases key
  | some x =>
    rw [hm] at key
    obtain ⟨o, m⟩ := x
    exact ⟨m, by simp at key; rw [key]⟩

theorem words_unknown {R : Rules} {std : Int} (hR : Rules.For R std) (g f F ip l n inp eff) {c : Int} (h : word R c = none) :
    (progAt g std f F ip l n inp eff).cur.getSem c = none := by
  have key : meanings (tableOf std) c = [] := by
    refine meanings_nil fun p hp => ?_
    unfold word at h
    rcases hR with ⟨rfl, h1⟩ | ⟨rfl, h1, -⟩
    · rw [h1, if_neg (by decide)] at h
      have all : ∀ p ∈ tableOf 93, ∃ q ∈ words93, q.1 = p.1 := by decide +kernel
      obtain ⟨q, hq, he⟩ := all p hp
      rw [← he]; exact lookup_none h q hq
    · rw [h1, if_pos rfl] at h
      have all : ∀ p ∈ tableOf 98, ∃ q ∈ words93 ++ words98, q.1 = p.1 := by decide +kernel
      obtain ⟨q, hq, he⟩ := all p hp
      rw [← he]; exact lookup_none h q hq
  unfold Runner.getSem
  rw [progAt_sems hR.std, key]; rfl

/-! ### The interpreter in the state of the machine -/

/-- What an IP has besides what the reference machine knows of it, and the other IPs. -/
structure Walk where
  id : Nat
  parent : Option Nat
  rest : List Runner
  nextId : Nat

/-- At (x, y), moving by (dx, dy), with a storage offset. -/
def at2s (x y dx dy ox oy : Int) : IP := { pos := Vec.ofList [x, y], delta := Vec.ofList [dx, dy], storage := Vec.ofList [ox, oy] }

theorem next_storage (v : Vec) (ip : IP) (d : Nat) (t : Topo) (F : Field) :
    ({ ip with storage := v } : IP).next d t F = (ip.next d t F).map fun ip => { ip with storage := v } := by
  unfold IP.next
  dsimp only
  cases hs : ip.stopped
  · simp only [Bool.false_eq_true, if_false]
    cases t
    · rfl
    · dsimp only
      split
      · rfl
      · split <;> rfl
  · simp only [if_true, Except.map, hs]

/-- The current IP. -/
def befCur (g : Glob) (std : Int) (f : Nat) (id : Nat) (parent : Option Nat) (n : Nat) (bn : List (List Int × Nat)) (b : Bef) : Runner :=
  { (progAt g std f (Field.new 2 false) (at2s b.x b.y b.dx b.dy b.ox b.oy) b.stack n [] []).cur with
    id := id, parent := parent, ss := ⟨0, ⟨0, b.stack, n⟩ :: bn.map fun p => ⟨0, p.1, p.2⟩⟩, inString := b.quote, strEnd := 34, strPrev := b.prev }

/-- The state of the interpreter. -/
def befAt (g : Glob) (std : Int) (f : Nat) (w : Walk) (a : Nat) (F : Field) (n : Nat) (bn : List (List Int × Nat)) (o : List (List Int)) (b : Bef) : St where
  cur := befCur g std f w.id w.parent n bn b
  rest := w.rest
  g := { (progAt { g with asked := a } std f F (at2 0 0 1 0) [] 0 b.inp (g.eff ++ o.map Eff.out)).g with
    nextId := w.nextId, cfg := { g.cfg with dims := 2, standard := std, mode := 0, fingerprints := [] } }

/-- The interpreter's state shows the machine's. -/
structure Holds (R : Rules) (g : Glob) (std : Int) (f : Nat) (w : Walk) (s : St) (b : Bef) : Prop where
  st : ∃ F a n bn o, s = befAt g std f w a F n bn o b ∧ Plane R F b ∧ bn.map (·.1) = b.below ∧ o.flatten = b.out
  here : b.has (b.x, b.y) = true
  comment : b.comment = false
  over : b.over = false
  code : b.code = none
  prev : 0 ≤ b.prev ∧ b.prev ≤ 255
  plain : b.quote = false → b.prev = 0

section
variable {R : Rules} {g : Glob} {std : Int} {f : Nat} {w : Walk} {s : St} {b : Bef}

/-- A change of the stack. -/
theorem Holds.stack (H : Holds R g std f w s b) (l : List Int) {op : Exec α} {v : α}
    (h : ∀ F a n bn o, ∃ n', op (befAt g std f w a F n bn o b) = .ok (v, befAt g std f w a F n' bn o { b with stack := l })) :
    ∃ s', op s = .ok (v, s') ∧ Holds R g std f w s' { b with stack := l } := by
  obtain ⟨⟨F, a, n, bn, o, rfl, h1, hb, h2⟩, h3, h4, h5, h6, h7, h8⟩ := H
  obtain ⟨n', hn⟩ := h F a n bn o
  exact ⟨_, hn, ⟨F, a, n', bn, o, rfl, plane_of h1 rfl rfl rfl rfl rfl, hb, h2⟩, h3, h4, h5, h6, h7, h8⟩

theorem Holds.push (H : Holds R g std f w s b) (v : Int) : ∃ s', pushTop v s = .ok ((), s') ∧ Holds R g std f w s' (b.replace 0 [v]) :=
  H.stack _ fun F a n bn o => ⟨n + 1, by krfl⟩

theorem Holds.pop (H : Holds R g std f w s b) : ∃ s', popTop s = .ok (b.top, s') ∧ Holds R g std f w s' (b.replace 1 []) := by
  refine H.stack _ fun F a n bn o => ⟨n + 1, ?_⟩
  obtain ⟨c, x1, x2, x3, x4, x, y, dx, dy, l, lb, ox, oy, inp, out, q, p, cm, ov, co⟩ := b
  cases l with
  | nil => krfl
  | cons v l => krfl

theorem Holds.clear (H : Holds R g std f w s b) : ∃ s', clearTop s = .ok ((), s') ∧ Holds R g std f w s' { b with stack := [] } :=
  H.stack _ fun F a n bn o => ⟨n + 1, by krfl⟩

/-- A change of the IP's delta. -/
theorem Holds.delta (H : Holds R g std f w s b) (dx dy : Int) {op : Exec α} {v : α}
    (h : ∀ F a n bn o, op (befAt g std f w a F n bn o b) = .ok (v, befAt g std f w a F n bn o { b with dx := dx, dy := dy })) :
    ∃ s', op s = .ok (v, s') ∧ Holds R g std f w s' { b with dx := dx, dy := dy } := by
  obtain ⟨⟨F, a, n, bn, o, rfl, h1, hb, h2⟩, h3, h4, h5, h6, h7, h8⟩ := H
  exact ⟨_, h F a n bn o, ⟨F, a, n, bn, o, rfl, plane_of h1 rfl rfl rfl rfl rfl, hb, h2⟩, h3, h4, h5, h6, h7, h8⟩

theorem Holds.setDelta (hs : std = 93 ∨ std = 98) (H : Holds R g std f w s b) (dx dy : Int) :
    ∃ s', Funge.setDelta (Vec.ofList [dx, dy]) s = .ok ((), s') ∧ Holds R g std f w s' { b with dx := dx, dy := dy } := by
  refine H.delta dx dy fun F a n bn o => ?_
  have h : Funge.setDelta (Vec.ofList [dx, dy]) (befAt g std f w a F n bn o b) =
      .ok ((), { befAt g std f w a F n bn o b with cur := notifyDelta (befAt g std f w a F n bn o { b with dx := dx, dy := dy }).cur }) := by krfl
  rw [h, notifyDelta_none]
  · krfl
  · have : ((befAt g std f w a F n bn o { b with dx := dx, dy := dy }).cur.available.contains 0x46495348) = false := by
      rcases hs with rfl | rfl <;> krfl
    intro hm
    rw [List.contains_iff_mem.mpr hm] at this
    cases this
  · have : ((befAt g std f w a F n bn o { b with dx := dx, dy := dy }).cur.strats.contains .starfish) = false := by
      rcases hs with rfl | rfl <;> krfl
    intro hm
    rw [List.contains_iff_mem.mpr hm] at this
    cases this

theorem Holds.onDelta (H : Holds R g std f w s b) (h : IP → IP) (dx dy : Int) (hh : h (at2s b.x b.y b.dx b.dy b.ox b.oy) = at2s b.x b.y dx dy b.ox b.oy) :
    ∃ s', onIP h s = .ok ((), s') ∧ Holds R g std f w s' { b with dx := dx, dy := dy } := by
  refine H.delta dx dy fun F a n bn o => ?_
  rw [onIP_run]
  have e : (befAt g std f w a F n bn o b).cur.ip = at2s b.x b.y b.dx b.dy b.ox b.oy := by krfl
  rw [e, hh]
  krfl

theorem Holds.reflect (H : Holds R g std f w s b) : ∃ s', onIP IP.reflect s = .ok ((), s') ∧ Holds R g std f w s' b.turn :=
  H.onDelta _ _ _ (by rw [IP.reflect, at2s, reverse2]; rfl)

theorem left2 (x y : Int) : (Vec.ofList [x, y]).left = Vec.ofList [y, -x] := by
  have e := eq2 (v := (Vec.ofList [x, y]).left) (by unfold Vec.left; exact Vec.normal_set _ _ _) (by unfold Vec.left; exact Vec.size_set_pos _ _ _) ?_
  · rw [e, Vec.get_left, Vec.get_left]
    simp [get2_0, get2_1]
  · intro i hi
    rw [Vec.get_left, if_neg (by omega), if_neg (by omega), get2_more _ _ hi]

theorem right2 (x y : Int) : (Vec.ofList [x, y]).right = Vec.ofList [-y, x] := by
  have e := eq2 (v := (Vec.ofList [x, y]).right) (by unfold Vec.right; exact Vec.normal_set _ _ _) (by unfold Vec.right; exact Vec.size_set_pos _ _ _) ?_
  · rw [e, Vec.get_right, Vec.get_right]
    simp [get2_0, get2_1]
  · intro i hi
    rw [Vec.get_right, if_neg (by omega), if_neg (by omega), get2_more _ _ hi]

theorem Holds.left (H : Holds R g std f w s b) : ∃ s', onIP IP.left s = .ok ((), s') ∧ Holds R g std f w s' { b with dx := b.dy, dy := -b.dx } :=
  H.onDelta _ _ _ (by rw [IP.left, at2s, left2]; rfl)

theorem Holds.right (H : Holds R g std f w s b) : ∃ s', onIP IP.right s = .ok ((), s') ∧ Holds R g std f w s' { b with dx := -b.dy, dy := b.dx } :=
  H.onDelta _ _ _ (by rw [IP.right, at2s, right2]; rfl)

theorem brink_flat (ht : R.torus = false) (b : Bef) : b.brink R = false := by
  unfold Bef.brink; rw [ht]; rfl

/-- The IP moves on, not across the east or the south edge of a torus. -/
theorem Holds.hop (hg : Rules.Around R g) (H : Holds R g std f w s b) (hc : R.torus = true → b.cardinal) (hbr : b.brink R = false) :
    ∃ ip', s.cur.ip.next s.g.cfg.dims s.g.cfg.topo s.g.field = .ok ip' ∧ Holds R g std f w (s.setIP ip') b.move := by
  obtain ⟨⟨F, a, n, bn, o, rfl, h1, hb, h2⟩, h3, h4, h5, h6, h7, h8⟩ := H
  have h9 : (at2 b.x b.y b.dx b.dy).next 2 g.cfg.topo F = .ok (at2 b.ahead.1 b.ahead.2 b.dx b.dy) ∧ b.has b.ahead = true := by
    rw [hg.1]
    cases ht : R.torus with
    | false => exact next_ahead (h1.shown ht) h3
    | true => exact ring_ahead (h1.ring ht) (hc ht) h3 hbr
  obtain ⟨h9, h10⟩ := h9
  refine ⟨at2s b.ahead.1 b.ahead.2 b.dx b.dy b.ox b.oy, ?_, ⟨F, a, n, bn, o, by krfl, plane_of h1 rfl rfl rfl rfl rfl, hb, h2⟩, h10, h4, h5, h6, h7, h8⟩
  have e : (befAt g std f w a F n bn o b).cur.ip = at2s b.x b.y b.dx b.dy b.ox b.oy ∧ (befAt g std f w a F n bn o b).g.cfg.dims = 2 ∧ (befAt g std f w a F n bn o b).g.cfg.topo = g.cfg.topo ∧
    (befAt g std f w a F n bn o b).g.field = F := ⟨by krfl, by krfl, by krfl, by krfl⟩
  rw [e.1, e.2.1, e.2.2.1, e.2.2.2]
  exact (next_storage _ (at2 b.x b.y b.dx b.dy) _ _ _).trans (by rw [h9]; rfl)

/-- The IP moves on, where there is no torus. -/
theorem Holds.move (hg : Rules.Around R g) (ht : R.torus = false) (H : Holds R g std f w s b) :
    ∃ ip', s.cur.ip.next s.g.cfg.dims s.g.cfg.topo s.g.field = .ok ip' ∧ Holds R g std f w (s.setIP ip') b.move :=
  H.hop hg (fun h => absurd (ht.symm.trans h) (by decide)) (brink_flat ht b)

theorem Holds.ipNext (hg : Rules.Around R g) (ht : R.torus = false) (H : Holds R g std f w s b) : ∃ s', Funge.ipNext s = .ok ((), s') ∧ Holds R g std f w s' b.move := by
  obtain ⟨ip', h1, h2⟩ := H.move hg ht
  exact ⟨_, ipNext_run h1, h2⟩

theorem Holds.ipGet (H : Holds R g std f w s b) : Funge.ipGet s = .ok (b.cell b.x b.y, s) := by
  obtain ⟨⟨F, a, n, bn, o, rfl, h1, hb, h2⟩, -⟩ := H
  rw [← h1.get]
  krfl

theorem Holds.ipNextN (hg : Rules.Around R g) (ht : R.torus = false) (k : Nat) : ∀ {s : St} {b : Bef}, Holds R g std f w s b → ∃ s', Funge.ipNextN k s = .ok ((), s') ∧ Holds R g std f w s' (b.moves k) := by
  induction k with
  | zero => exact fun H => ⟨_, rfl, H⟩
  | succ k ih =>
    intro s b H
    obtain ⟨s1, h1, H1⟩ := H.ipNext hg ht
    obtain ⟨s2, h2, H2⟩ := ih H1
    exact ⟨s2, by rw [Funge.ipNextN, bind_ok h1, h2], H2⟩

theorem Holds.popVector (H : Holds R g std f w s b) : ∃ s', Funge.popVector s = .ok (Vec.ofList [b.next, b.top], s') ∧ Holds R g std f w s' (b.replace 2 []) := by
  obtain ⟨s1, h1, H1⟩ := H.pop
  obtain ⟨s2, h2, H2⟩ := H1.pop
  refine ⟨s2, ?_, ?_⟩
  · have hd : s.g.cfg.dims = 2 := by
      obtain ⟨⟨F, a, n, bn, o, rfl, -⟩, -⟩ := H
      krfl
    rw [Funge.popVector, popVectorOn, bind_ok (getDims_run s), hd, popVectorLoop, bind_ok h1, popVectorLoop, bind_ok h2]
    show Except.ok (((Vec.empty.set 1 b.top).set 0 (b.replace 1 []).top), s2) = _
    have e := eq2 (v := (Vec.empty.set 1 b.top).set 0 (b.replace 1 []).top) (Vec.normal_set _ _ _) (Vec.size_set_pos _ _ _) ?_
    · rw [e, Vec.get_set_self, Vec.get_set, if_neg (by decide), Vec.get_set_self]
      unfold Bef.replace Bef.top Bef.next
      simp
    · intro i hi
      rw [Vec.get_set, if_neg (by omega), Vec.get_set, if_neg (by omega)]
      rfl
  · have : (b.replace 1 []).replace 1 [] = b.replace 2 [] := by unfold Bef.replace; simp
    rwa [this] at H2

theorem Holds.storage (H : Holds R g std f w s b) : Funge.ipStorage s = .ok (Vec.ofList [b.ox, b.oy], s) := by
  obtain ⟨⟨F, a, n, bn, o, rfl, -⟩, -⟩ := H
  krfl

theorem add_zero2 (x y : Int) : (Vec.ofList [x, y]).add (Vec.ofList [0]) = Vec.ofList [x, y] := by
  have e : Vec.ofList [0] = Vec.ofList [0, 0] := by decide
  rw [e, add2]; simp

theorem Holds.fieldGet (H : Holds R g std f w s b) (x y : Int) : Funge.fieldGet (Vec.ofList [x, y]) s = .ok (b.cell x y, s) := by
  obtain ⟨⟨F, a, n, bn, o, rfl, h1, hb, h2⟩, -⟩ := H
  rw [← h1.get]
  krfl

theorem Holds.fieldPut (H : Holds R g std f w s b) {x y v : Int} {c : Bef} (hc : c ∈ b.store R x y v) :
    ∃ s', Funge.fieldPut (Vec.ofList [x, y]) v s = .ok ((), s') ∧ Holds R g std f w s' c := by
  obtain ⟨⟨F, a, n, bn, o, rfl, h1, hb, h2⟩, h3, h4, h5, h6, h7, h8⟩ := H
  have h9 := plane_store h1 hc
  have same : c = { b with cell := c.cell, west := c.west, east := c.east, north := c.north, south := c.south } ∧
      c.west ≤ b.west ∧ b.east ≤ c.east ∧ c.north ≤ b.north ∧ b.south ≤ c.south := by
    unfold Bef.store at hc
    split at hc
    · split at hc
      · obtain rfl := List.mem_singleton.mp hc
        exact ⟨rfl, Int.le_refl _, Int.le_refl _, Int.le_refl _, Int.le_refl _⟩
      · cases hc
    split at hc
    · split at hc
      · simp only [List.mem_singleton] at hc; subst hc
        exact ⟨rfl, Int.le_refl _, Int.le_refl _, Int.le_refl _, Int.le_refl _⟩
      · cases hc
    · split at hc
      · cases hc
      · simp only [List.mem_singleton] at hc; subst hc
        exact ⟨rfl, Int.min_le_left _ _, Int.le_max_left _ _, Int.min_le_left _ _, Int.le_max_left _ _⟩
  obtain ⟨e, l1, l2, l3, l4⟩ := same
  generalize c.cell = cc at *
  generalize c.west = cw at *
  generalize c.east = ce at *
  generalize c.north = cn at *
  generalize c.south = cs at *
  subst e
  refine ⟨_, rfl, ⟨F.put (Vec.ofList [x, y]) v, a, n, bn, o, by krfl, h9, hb, h2⟩, ?_, h4, h5, h6, h7, h8⟩
  rw [has_iff] at h3 ⊢
  dsimp only
  omega

end

end Funge
