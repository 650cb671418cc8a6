import Verif.Lemmas.Krfl
import Verif.Lemmas.Tick
import Verif.Lemmas.Univ
import Verif.Model.Launch
/-!
Following a whole program from its start.
-/
namespace Funge
open Exec

/-- A plain Befunge program: two dimensions, no fingerprints at the start, all modes off. -/
structure Glob.Befunge (g : Glob) (std : Int) (f : Nat) : Prop where
  dims : g.cfg.dims = 2
  standard : g.cfg.standard = std
  topo : g.cfg.topo = .lahey
  mode : g.cfg.mode = 0
  fps : g.cfg.fingerprints = []
  fuel : g.fuel = f

/-- A universe with one IP. -/
def St.alone (s : St) : Univ := ⟨[s.cur], s.g⟩

/-- The state of a Befunge program: field, IP, stack, input, output. -/
def progAt (g : Glob) (std : Int) (f : Nat) (F : Field) (ip : IP) (l : List Int) (n : Nat) (inp : List Int) (eff : List Eff) : St :=
  let cfg : Cfg := { g.cfg with dims := 2, standard := std, topo := .lahey, mode := 0, fingerprints := [] }
  { cur := { newRunner cfg g.nextId (Vec.ofList [0]) (Vec.ofList [1]) with ss := ⟨0, [⟨0, l, n⟩]⟩, ip := ip }
    rest := []
    g := { g with cfg := cfg, fuel := f, field := F, nextId := g.nextId + 1, inp := inp, eff := eff } }

/-- At (x, y), moving by (dx, dy). -/
def at2 (x y dx dy : Int) : IP := { pos := Vec.ofList [x, y], delta := Vec.ofList [dx, dy] }

theorem launch_eq {g : Glob} {std : Int} (f : Nat) (h : g.Befunge std f) (hs : std = 93 ∨ std = 98) (cc : Bool) (text : List Int) :
    launch g cc text = (progAt g std f (Field.load 2 cc text) (at2 0 0 1 0) [] 0 g.inp g.eff).alone := by
  obtain ⟨h1, h2, h3, h4, h5, h6⟩ := h
  have hc : g.cfg = { g.cfg with dims := 2, standard := std, topo := .lahey, mode := 0, fingerprints := [] } := by
    rw [← h1, ← h2, ← h3, ← h4, ← h5]
  unfold launch progAt St.alone
  dsimp only
  rw [← hc, h1]
  have hr : ∀ (cfg : Cfg), cfg.dims = 2 → cfg.standard = std → cfg.fingerprints = [] → cfg.mode = 0 → newRunner cfg g.nextId (Vec.ofList [0]) (Vec.ofList [1]) =
    { newRunner cfg g.nextId (Vec.ofList [0]) (Vec.ofList [1]) with ss := ⟨0, [⟨0, [], 0⟩]⟩, ip := at2 0 0 1 0 } := by
    intro ⟨a, b, c, d, e, f, gg, i, j, k, m, n, o, p⟩ h1 h2 h5 h4
    dsimp only at h1 h2 h5 h4
    subst h1 h2 h5 h4
    rcases hs with rfl | rfl <;> krfl
  rw [← hr _ h1 h2 h5 h4, ← h6]


theorem progAt_lifo (g std f F ip l n inp eff) : (progAt g std f F ip l n inp eff).Lifo := by
  refine ⟨Nat.zero_lt_one, ?_, ?_⟩
  · show hasMode 0 modeQueue = false; decide
  · show hasMode 0 modeInvert = false; decide

theorem progAt_push (g std f F ip l n inp eff) (v : Int) :
    pushTop v (progAt g std f F ip l n inp eff) = .ok ((), progAt g std f F ip (v :: l) (n + 1) inp eff) := by krfl

theorem progAt_pop (g std f F ip x l n inp eff) :
    popTop (progAt g std f F ip (x :: l) n inp eff) = .ok (x, progAt g std f F ip l (n + 1) inp eff) := by krfl

theorem progAt_getChar (g std f F ip l n c inp eff) :
    getChar (progAt g std f F ip l n (c :: inp) eff) = .ok (some c, progAt g std f F ip l n inp eff) := rfl

theorem progAt_eff (g std f F ip l n inp eff) : (progAt g std f F ip l n inp eff).alone.g.eff = eff := rfl

theorem alone_runners (s : St) : s.alone.runners ≠ [] := by simp [St.alone]

/-- One tick, of an instruction whose outcome is known. -/
theorem tick_step {s s1 : St} {sem : Sem} {ip' : IP} (hf : 0 < s.g.fuel) (hstr : s.cur.inString = false) (hd : hasMode s.g.cfg.mode modeDive = false)
    (hs : s.cur.getSem (s.g.field.get s.cur.ip.pos) = some sem) (hx : ∀ ex, runOp ex sem.op s = .ok (.none, s1))
    (hn : s1.cur.ip.next s1.g.cfg.dims s1.g.cfg.topo s1.g.field = .ok ip') : tick s = .ok ((), s1.setIP ip') := by
  refine tick_none hf ?_ hn
  obtain ⟨k, hk⟩ : ∃ k, s.g.fuel = k + 1 := ⟨s.g.fuel - 1, by omega⟩
  rw [hk]
  show (if s.cur.inString then _ else _) = _
  rw [if_neg (by rw [hstr]; decide)]
  unfold execNormal
  rw [hs]
  simp only [hd, Bool.false_and, Bool.false_eq_true, if_false]
  exact hx _

/-- A lone IP takes its turn. -/
theorem turn_alone {s s1 : St} (hs : s.rest = []) (h0 : s.cur.ip.stopped = false) (h : tick s = .ok ((), s1)) (h1 : s1.cur.ip.stopped = false) (hr : s1.rest = []) :
    s.alone.turn = .ok s1.alone := by
  obtain ⟨c, r, g⟩ := s
  subst hs
  unfold Univ.turn St.alone
  simp only
  rw [if_neg (by simpa using h0), h]
  simp [h1, hr]

/-- It takes its last turn. -/
theorem turn_last {s s1 : St} (hs : s.rest = []) (h0 : s.cur.ip.stopped = false) (h : tick s = .ok ((), s1)) (h1 : s1.cur.ip.stopped = true) (hr : s1.rest = []) :
    s.alone.turn = .ok ⟨[], s1.g⟩ := by
  obtain ⟨c, r, g⟩ := s
  subst hs
  unfold Univ.turn St.alone
  simp only
  rw [if_neg (by simpa using h0), h]
  simp [h1, hr]

theorem turns_cons {u u' : Univ} (h : u.turn = .ok u') (k : Nat) : u.turns (k + 1) = u'.turns k := by
  simp only [Univ.turns, h]

theorem turns_over (g : Glob) (k : Nat) : (⟨[], g⟩ : Univ).turns k = .ok ⟨[], g⟩ := by
  induction k with
  | zero => rfl
  | succ k ih => rw [turns_cons (u' := ⟨[], g⟩) rfl, ih]

/-- The program goes from `s` to `s'` in `k` turns. -/
def Goes (k : Nat) (s s' : St) : Prop := ∀ j, s.alone.turns (k + j) = s'.alone.turns j

theorem Goes.refl (s : St) : Goes 0 s s := fun j => by rw [Nat.zero_add]
theorem Goes.trans {k k' : Nat} {s s1 s2 : St} (h : Goes k s s1) (h' : Goes k' s1 s2) : Goes (k + k') s s2 := fun j => by
  rw [Nat.add_assoc, h, h']

/-- A tick of a program that goes on. -/
theorem goes_tick {g std f F ip l n inp eff g' std' f' F' ip' l' n' inp' eff'} (h0 : ip.stopped = false) (h1 : ip'.stopped = false)
    (h : tick (progAt g std f F ip l n inp eff) = .ok ((), progAt g' std' f' F' ip' l' n' inp' eff')) :
    Goes 1 (progAt g std f F ip l n inp eff) (progAt g' std' f' F' ip' l' n' inp' eff') := by
  intro j
  rw [Nat.add_comm, turns_cons (turn_alone (s := progAt g std f F ip l n inp eff) rfl h0 h h1 rfl)]

/-- One tick of a program, of an instruction whose outcome is known. -/
theorem prog_step {g std f F ip l n inp eff F' ip1 ip' l' n' inp' eff'} (hs : std = 93 ∨ std = 98) (hf : 0 < f) {sem : Sem}
    (hg : (progAt g std f F ip l n inp eff).cur.getSem (F.get ip.pos) = some sem)
    (hx : ∀ ex, runOp ex sem.op (progAt g std f F ip l n inp eff) = .ok (.none, progAt g std f F' ip1 l' n' inp' eff'))
    (hn : ip1.next 2 .lahey F' = .ok ip') : tick (progAt g std f F ip l n inp eff) = .ok ((), progAt g std f F' ip' l' n' inp' eff') := by
  refine tick_step (s := progAt g std f F ip l n inp eff) (s1 := progAt g std f F' ip1 l' n' inp' eff') hf ?_ ?_ hg hx hn
  · rcases hs with rfl | rfl <;> krfl
  · show hasMode 0 modeDive = false; decide

theorem notifyDelta_none {r : Runner} (h1 : 0x46495348 ∉ r.available) (h2 : Strat.starfish ∉ r.strats) : notifyDelta r = r := by
  unfold notifyDelta
  dsimp only
  split
  · rfl
  · rfl

theorem progAt_setDelta {std : Int} (hs : std = 93 ∨ std = 98) (g f F) (ip : IP) (l n inp eff) (v : Vec) :
    setDelta v (progAt g std f F ip l n inp eff) = .ok ((), progAt g std f F { ip with delta := v } l n inp eff) := by
  have h : setDelta v (progAt g std f F ip l n inp eff) =
      .ok ((), { progAt g std f F ip l n inp eff with cur := notifyDelta (progAt g std f F { ip with delta := v } l n inp eff).cur }) := by krfl
  rw [h, notifyDelta_none]
  · rfl
  · have : ((progAt g std f F { ip with delta := v } l n inp eff).cur.available.contains 0x46495348) = false := by
      rcases hs with rfl | rfl <;> krfl
    intro hm
    rw [List.contains_iff_mem.mpr hm] at this
    cases this
  · have : ((progAt g std f F { ip with delta := v } l n inp eff).cur.strats.contains .starfish) = false := by
      rcases hs with rfl | rfl <;> krfl
    intro hm
    rw [List.contains_iff_mem.mpr hm] at this
    cases this

theorem prog_if {std : Int} (hs : std = 93 ∨ std = 98) (g f F) (ip : IP) {x : Int} (hx : x ≠ 0) (l n inp eff) (z o : Vec) :
    iIf z o (progAt g std f F ip (x :: l) n inp eff) = .ok (.none, progAt g std f F { ip with delta := o } l (n + 1) inp eff) := by
  rw [iIf, bind_ok (progAt_pop ..), if_neg hx, bind_ok (progAt_setDelta hs ..)]; rfl

theorem prog_if_zero {std : Int} (hs : std = 93 ∨ std = 98) (g f F) (ip : IP) (l n inp eff) (z o : Vec) :
    iIf z o (progAt g std f F ip (0 :: l) n inp eff) = .ok (.none, progAt g std f F { ip with delta := z } l (n + 1) inp eff) := by
  rw [iIf, bind_ok (progAt_pop ..), if_pos rfl, bind_ok (progAt_setDelta hs ..)]; rfl

theorem prog_bin {op : Int → Int → Except Fault Int} {a b r : Int} (h : op b a = .ok r) (g std f F ip l n inp eff) :
    iBin op (progAt g std f F ip (a :: b :: l) n inp eff) = .ok (.none, progAt g std f F ip (r :: l) (n + 3) inp eff) := by
  rw [iBin, bind_ok (progAt_pop ..), bind_ok (progAt_pop ..), h, bind_ok (by rfl), bind_ok (progAt_push ..)]; rfl

theorem prog_bin_error {op : Int → Int → Except Fault Int} {a b : Int} {e : Fault} (h : op b a = .error e) (g std f F ip l n inp eff) :
    iBin op (progAt g std f F ip (a :: b :: l) n inp eff) = .error e := by
  rw [iBin, bind_ok (progAt_pop ..), bind_ok (progAt_pop ..), h]; rfl

theorem goes_of_turns {s s' : St} {k : Nat} (h : s.alone.turns k = .ok s'.alone) : Goes k s s' := by
  have key : ∀ (k j : Nat) (u u' : Univ), u.turns k = .ok u' → u.turns (k + j) = u'.turns j := by
    intro k j
    induction k with
    | zero => intro u u' h; cases h; rw [Nat.zero_add]
    | succ k ih =>
      intro u u' h
      rw [Nat.add_right_comm]
      cases ht : u.turn with
      | error e => unfold Univ.turns at h; rw [ht] at h; cases h
      | ok u1 =>
        rw [turns_cons ht] at h ⊢
        exact ih _ _ h
  exact fun j => key k j _ _ h

theorem goes_one {s s1 : St} (h : s.alone.turn = .ok s1.alone) : Goes 1 s s1 := fun j => by rw [Nat.add_comm, turns_cons h]

theorem progAt_dup (g std f F ip x l n inp eff) :
    iDup (progAt g std f F ip (x :: l) n inp eff) = .ok (.none, progAt g std f F ip (x :: x :: l) (n + 3) inp eff) := by krfl

theorem progAt_items (g std f F ip l n inp eff) : (progAt g std f F ip l n inp eff).items = l := rfl
theorem progAt_inp (g std f F ip l n inp eff) : (progAt g std f F ip l n inp eff).g.inp = inp := rfl

theorem progAt_reads (g std f F ip l n inp eff l' n' inp') :
    ((progAt g std f F ip l n inp eff).setG { (progAt g std f F ip l n inp eff).g with inp := inp' }).setItems l' n' = progAt g std f F ip l' n' inp' eff := by krfl

/-- The last tick of a program. -/
theorem prog_ends {g std f F ip l n inp eff g' std' f' F' ip' l' n' inp' eff'} (h0 : ip.stopped = false) (h1 : ip'.stopped = true)
    (h : tick (progAt g std f F ip l n inp eff) = .ok ((), progAt g' std' f' F' ip' l' n' inp' eff')) (k : Nat) :
    (progAt g std f F ip l n inp eff).alone.turns (k + 1) = .ok ⟨[], (progAt g' std' f' F' ip' l' n' inp' eff').g⟩ := by
  rw [turns_cons (turn_last (s := progAt g std f F ip l n inp eff) rfl h0 h h1 rfl), turns_over]

theorem progAt_g_eff (g std f F ip l n inp eff) : (progAt g std f F ip l n inp eff).g.eff = eff := rfl

/-- A tick that goes wrong. -/
theorem tick_wrong {s : St} {sem : Sem} {e : Fault} (hf : 0 < s.g.fuel) (hstr : s.cur.inString = false) (hd : hasMode s.g.cfg.mode modeDive = false)
    (hs : s.cur.getSem (s.g.field.get s.cur.ip.pos) = some sem) (hx : ∀ ex, runOp ex sem.op s = .error e) : tick s = .error e := by
  have h : execute s.g.fuel (s.g.field.get s.cur.ip.pos) s = .error e := by
    obtain ⟨k, hk⟩ : ∃ k, s.g.fuel = k + 1 := ⟨s.g.fuel - 1, by omega⟩
    rw [hk]
    show (if s.cur.inString then _ else _) = _
    rw [if_neg (by rw [hstr]; decide)]
    unfold execNormal
    rw [hs]
    simp only [hd, Bool.false_and, Bool.false_eq_true, if_false]
    exact hx _
  obtain ⟨k, hk⟩ : ∃ k, s.g.fuel = k + 1 := ⟨s.g.fuel - 1, by omega⟩
  rw [tick, bind_ok (getFuel_run s), hk, tickLoop, bind_ok (ipGet_run s), bind_ok (getFuel_run s), bind_error h]

/-- The program goes wrong in its next turn. -/
theorem turns_wrong {s : St} {e : Fault} (hs : s.rest = []) (h0 : s.cur.ip.stopped = false) (h : tick s = .error e) (k : Nat) : s.alone.turns (k + 1) = .error e := by
  obtain ⟨c, r, g⟩ := s
  subst hs
  unfold Univ.turns Univ.turn St.alone
  simp only
  rw [if_neg (by simpa using h0), h]

theorem prog_wrong {g std f F ip l n inp eff} {e : Fault} (hs : std = 93 ∨ std = 98) (hf : 0 < f) {sem : Sem} (h0 : ip.stopped = false)
    (hg : (progAt g std f F ip l n inp eff).cur.getSem (F.get ip.pos) = some sem) (hx : ∀ ex, runOp ex sem.op (progAt g std f F ip l n inp eff) = .error e) (k : Nat) :
    (progAt g std f F ip l n inp eff).alone.turns (k + 1) = .error e := by
  refine turns_wrong (s := progAt g std f F ip l n inp eff) rfl h0 (tick_wrong (s := progAt g std f F ip l n inp eff) hf ?_ ?_ hg hx) k
  · rcases hs with rfl | rfl <;> krfl
  · show hasMode 0 modeDive = false; decide

theorem progAt_dup_empty (g std f F ip n inp eff) :
    iDup (progAt g std f F ip [] n inp eff) = .ok (.none, progAt g std f F ip [0, 0] (n + 3) inp eff) := by krfl

theorem progAt_charOut (g std f F ip x l n inp eff) :
    iCharOut (progAt g std f F ip (x :: l) n inp eff) = .ok (.none, progAt g std f F ip l (n + 1) inp (eff ++ [.out [if x = 10 then 10 else toChar x]])) := by krfl

theorem progAt_trampoline {F : Field} {ip ip' : IP} (h : ip.next 2 .lahey F = .ok ip') (g std f l n inp eff) :
    iTrampoline (progAt g std f F ip l n inp eff) = .ok (.none, progAt g std f F ip' l n inp eff) := by
  rw [iTrampoline, bind_ok (ipNext_run (s := progAt g std f F ip l n inp eff) h)]; rfl

theorem progAt_go {std : Int} (hs : std = 93 ∨ std = 98) (g f F) (ip : IP) (l n inp eff) (v : Vec) :
    iGo v (progAt g std f F ip l n inp eff) = .ok (.none, progAt g std f F { ip with delta := v } l n inp eff) := by
  rw [iGo, bind_ok (progAt_setDelta hs ..)]; rfl

theorem progAt_atQuote {std : Int} (hs : std = 93 ∨ std = 98) (g f F) (ip : IP) (l n inp eff) :
    (progAt g std f F ip l n inp eff).cur.inString = false ∧ (progAt g std f F ip l n inp eff).PushesInts ∧
    (progAt g std f F ip l n inp eff).cur.getSem 34 = some ⟨.string, false⟩ := by
  refine ⟨by rcases hs with rfl | rfl <;> krfl, ?_, by rcases hs with rfl | rfl <;> krfl⟩
  rcases hs with rfl | rfl
  · exact ⟨.une93, [.be93], by krfl, by decide, by decide⟩
  · exact ⟨.une93, [.une98, .be93, .be98], by krfl, by decide, by decide⟩

theorem progAt_setStr {std : Int} (hs : std = 93 ∨ std = 98) (g f F ip l n inp eff) (ip' l' n') :
    (((progAt g std f F ip l n inp eff).setStr false 34 0).setIP ip').setItems l' n' = progAt g std f F ip' l' n' inp eff := by
  rcases hs with rfl | rfl <;> krfl

theorem progAt_stop (g std f F) (ip : IP) (l n inp eff) :
    iStop (progAt g std f F ip l n inp eff) = .ok (.none, progAt g std f F { ip with stopped := true } l n inp eff) := by krfl

theorem progAt_strPrev {std : Int} (hs : std = 93 ∨ std = 98) (g f F ip l n inp eff) : (progAt g std f F ip l n inp eff).cur.strPrev = 0 := by
  rcases hs with rfl | rfl <;> krfl

theorem progAt_iPush (g std f F ip l n inp eff) (v : Int) :
    iPush v (progAt g std f F ip l n inp eff) = .ok (.none, progAt g std f F ip (v :: l) (n + 1) inp eff) := by krfl

theorem progAt_numOut (g std f F ip x l n inp eff) :
    iNumOut (progAt g std f F ip (x :: l) n inp eff) = .ok (.none, progAt g std f F ip l (n + 1) inp (eff ++ [.out (decimal (toInt x) ++ [32])])) := by krfl

theorem progAt_not (g std f F ip x l n inp eff) :
    iNot (progAt g std f F ip (x :: l) n inp eff) = .ok (.none, progAt g std f F ip ((if x = 0 then 1 else 0) :: l) (n + 2) inp eff) := by krfl

theorem progAt_rest (g std f F ip l n inp eff) : (progAt g std f F ip l n inp eff).rest = [] := rfl
theorem progAt_fuel (g std f F ip l n inp eff) : (progAt g std f F ip l n inp eff).g.fuel = f := rfl
theorem progAt_strings (g std f F ip l n inp eff) : (progAt g std f F ip l n inp eff).g.cfg.strings = g.cfg.strings := rfl
theorem progAt_space (g std f F ip l n inp eff) : (progAt g std f F ip l n inp eff).g.cfg.dims = 2 ∧ (progAt g std f F ip l n inp eff).g.cfg.topo = .lahey ∧
    (progAt g std f F ip l n inp eff).g.field = F := ⟨rfl, rfl, rfl⟩

attribute [irreducible] progAt

theorem add2 (x y dx dy : Int) : (Vec.ofList [x, y]).add (Vec.ofList [dx, dy]) = Vec.ofList [x + dx, y + dy] := by
  have hp : ∀ a b : Int, 0 < (Vec.ofList [a, b]).size := by
    intro a b
    have := Vec.stripRev_ne_nil [b, a] (by simp)
    show 0 < (Vec.stripRev [b, a]).reverse.length
    rw [List.length_reverse]
    exact List.length_pos_iff.mpr this
  refine Vec.Normal.ext (Vec.normal_add (Vec.normal_ofList _) _) (Vec.normal_ofList _) (Vec.size_pos_add (hp _ _) _) (hp _ _) fun i => ?_
  rw [Vec.get_add, Vec.get_ofList, Vec.get_ofList, Vec.get_ofList]
  match i with
  | 0 => rfl
  | 1 => rfl
  | i + 2 => rfl

/-- A step within the bounds of the field. -/
theorem at2_next {F : Field} {x y dx dy : Int} (h : IP.inField 2 F (Vec.ofList [x + dx, y + dy]) = true) :
    (at2 x y dx dy).next 2 .lahey F = .ok (at2 (x + dx) (y + dy) dx dy) := by
  unfold IP.next at2
  rw [if_neg Bool.false_ne_true]
  dsimp only
  rw [add2, if_pos h]

end Funge
