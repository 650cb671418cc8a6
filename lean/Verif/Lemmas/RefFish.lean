import Verif.Lemmas.RefStart
import Verif.Props.C90_FishWords
import Verif.Spec.Fish
/-!
The instructions of ><> and the words of its reference machine.
-/
namespace Funge
open Exec Field Ref

/-- The state of the interpreter. -/
def fishAt (g : Glob) (f a : Nat) (F : Field) (n : Nat) (bn : List (List Int × Nat)) (rg : List (Bool × Int)) (o : List (List Int)) (b : Fish) : St :=
  let cfg : Cfg := { g.cfg with dims := 2, standard := -1, topo := .lahey, mode := 0, fingerprints := [] }
  { cur := { newRunner cfg g.nextId (Vec.ofList [0]) (Vec.ofList [1]) with
      ss := ⟨0, ⟨0, b.stack, n⟩ :: bn.map fun p => ⟨0, p.1, p.2⟩⟩, ip := at2 b.x b.y b.dx b.dy, regs := rg, inString := b.quote, strEnd := b.mark }
    rest := []
    g := { g with cfg := cfg, fuel := f, field := F, nextId := g.nextId + 1, inp := b.inp, eff := g.eff ++ o.map Eff.out, asked := a } }

/-- The interpreter's state shows the machine's. -/
structure Swims (R : Rules) (g : Glob) (f : Nat) (s : St) (b : Fish) : Prop where
  st : ∃ F a n bn rg o, s = fishAt g f a F n bn rg o b ∧ Shown R F b.toBef ∧ o.flatten = b.out ∧ bn.map (·.1) = b.below ∧ rg.map (·.1) = b.regs.map Option.isSome
  here : b.has (b.x, b.y) = true
  over : b.over = false
  code : b.code = none
  regs : b.regs.length = b.below.length + 1

section
variable {R : Rules} {g : Glob} {f : Nat} {s : St} {b : Fish}

/-- A change of the stack. -/
theorem Swims.stack (H : Swims R g f s b) (l : List Int) {op : Exec α} {v : α}
    (h : ∀ F a n bn rg o, ∃ n', op (fishAt g f a F n bn rg o b) = .ok (v, fishAt g f a F n' bn rg o (b.on l))) :
    ∃ s', op s = .ok (v, s') ∧ Swims R g f s' (b.on l) := by
  obtain ⟨⟨F, a, n, bn, rg, o, rfl, h1, h2, h3, h4⟩, h5, h6, h7, h8⟩ := H
  obtain ⟨n', hn⟩ := h F a n bn rg o
  exact ⟨_, hn, ⟨F, a, n', bn, rg, o, rfl, shown_of h1 rfl rfl rfl rfl rfl, h2, h3, h4⟩, h5, h6, h7, h8⟩

theorem Swims.push (H : Swims R g f s b) (v : Int) : ∃ s', pushTop v s = .ok ((), s') ∧ Swims R g f s' (b.on (v :: b.stack)) :=
  H.stack _ fun F a n bn rg o => ⟨n + 1, by krfl⟩

theorem Swims.pop (H : Swims R g f s b) {v : Int} {l : List Int} (hl : b.stack = v :: l) : ∃ s', popTop s = .ok (v, s') ∧ Swims R g f s' (b.on l) := by
  refine H.stack _ fun F a n bn rg o => ⟨n + 1, ?_⟩
  obtain ⟨⟨c, x1, x2, x3, x4, x, y, dx, dy, l, be, ox, oy, inp, out, q, p, cm, ov, co⟩, m, re⟩ := b
  dsimp only at hl
  subst hl
  krfl

theorem Swims.size (H : Swims R g f s b) : sizeTop s = .ok (b.stack.length, s) := by
  obtain ⟨⟨F, a, n, bn, rg, o, rfl, h1, h2, h3, h4⟩, -⟩ := H
  krfl

theorem Swims.lifo (H : Swims R g f s b) : s.Lifo := by
  obtain ⟨⟨F, a, n, bn, rg, o, rfl, h1, h2, h3, h4⟩, -⟩ := H
  refine ⟨Nat.zero_lt_succ _, ?_, ?_⟩
  · show hasMode 0 modeQueue = false; decide
  · show hasMode 0 modeInvert = false; decide

theorem Swims.flt (H : Swims R g f s b) : s.g.flt = g.flt := by
  obtain ⟨⟨F, a, n, bn, rg, o, rfl, h1, h2, h3, h4⟩, -⟩ := H
  krfl

theorem Swims.getFlt (H : Swims R g f s b) : Funge.getFlt s = .ok (g.flt, s) := by
  rw [getFlt_run, H.flt]

theorem Swims.numStacks (H : Swims R g f s b) : Funge.numStacks s = .ok (b.below.length + 1, s) := by
  obtain ⟨⟨F, a, n, bn, rg, o, rfl, h1, h2, h3, h4⟩, -⟩ := H
  have e : Funge.numStacks (fishAt g f a F n bn rg o b) = .ok ((bn.map fun p => (⟨0, p.1, p.2⟩ : Stack)).length + 1, fishAt g f a F n bn rg o b) := by krfl
  rw [e, ← h3]; simp

theorem Swims.selected (H : Swims R g f s b) (K : Exec Err) : checkSelected 0 K s = K s := by
  rw [checkSelected, bind_ok H.numStacks, if_neg (by omega)]

theorem Swims.check (H : Swims R g f s b) {k : Nat} (hk : k ≤ b.stack.length) (K : Exec Err) : checkTop k K s = K s := by
  rw [checkTop, bind_ok H.size, if_neg (by omega)]

theorem Swims.lacks (H : Swims R g f s b) {k : Nat} (hk : b.stack.length < k) (K : Exec Err) : checkTop k K s = .ok (.unspec, s) := by
  rw [checkTop, bind_ok H.size, if_pos hk]; rfl

theorem Swims.fishPush (H : Swims R g f s b) (v : Int) : ∃ s', Funge.fishPush v s = .ok ((), s') ∧ Swims R g f s' (b.on (g.flt.ofInt v :: b.stack)) := by
  obtain ⟨s', h1, H1⟩ := H.push (g.flt.ofInt v)
  exact ⟨s', by rw [Funge.fishPush, bind_ok H.getFlt, h1], H1⟩

theorem Swims.popInt (H : Swims R g f s b) {v i : Int} {l : List Int} (hl : b.stack = v :: l) (hi : g.flt.toI64 v = some i) :
    ∃ s', fishPopInt s = .ok (i, s') ∧ Swims R g f s' (b.on l) := by
  obtain ⟨s', h1, H1⟩ := H.pop hl
  refine ⟨s', ?_, H1⟩
  rw [fishPopInt, bind_ok h1, fishInt, bind_ok H1.getFlt, hi]; rfl

/-- A change of the delta. -/
theorem Swims.setDelta (H : Swims R g f s b) (dx dy : Int) :
    ∃ s', Funge.setDelta (Vec.ofList [dx, dy]) s = .ok ((), s') ∧ Swims R g f s' { b with dx := dx, dy := dy } := by
  obtain ⟨⟨F, a, n, bn, rg, o, rfl, h1, h2, h3, h4⟩, h5, h6, h7, h8⟩ := H
  refine ⟨_, ?_, ⟨F, a, n, bn, rg, o, rfl, shown_of h1 rfl rfl rfl rfl rfl, h2, h3, h4⟩, h5, h6, h7, h8⟩
  have h : Funge.setDelta (Vec.ofList [dx, dy]) (fishAt g f a F n bn rg o b) =
      .ok ((), { fishAt g f a F n bn rg o b with cur := notifyDelta (fishAt g f a F n bn rg o { b with dx := dx, dy := dy }).cur }) := by krfl
  rw [h, notifyDelta_none]
  · krfl
  · have : ((fishAt g f a F n bn rg o { b with dx := dx, dy := dy }).cur.available.contains 0x46495348) = false := by krfl
    intro hm
    rw [List.contains_iff_mem.mpr hm] at this
    cases this
  · have : ((fishAt g f a F n bn rg o { b with dx := dx, dy := dy }).cur.strats.contains .starfish) = false := by krfl
    intro hm
    rw [List.contains_iff_mem.mpr hm] at this
    cases this

theorem Swims.ipDelta (H : Swims R g f s b) : Funge.ipDelta s = .ok (Vec.ofList [b.dx, b.dy], s) := by
  obtain ⟨⟨F, a, n, bn, rg, o, rfl, h1, h2, h3, h4⟩, -⟩ := H
  krfl

/-- The fish moves on. -/
theorem Swims.move (H : Swims R g f s b) : ∃ ip', s.cur.ip.next s.g.cfg.dims s.g.cfg.topo s.g.field = .ok ip' ∧ Swims R g f (s.setIP ip') b.swim := by
  obtain ⟨⟨F, a, n, bn, rg, o, rfl, h1, h2, h3, h4⟩, h5, h6, h7, h8⟩ := H
  obtain ⟨h9, h10⟩ := next_ahead h1 h5
  refine ⟨at2 b.ahead.1 b.ahead.2 b.dx b.dy, ?_, ⟨F, a, n, bn, rg, o, by krfl, shown_of h1 rfl rfl rfl rfl rfl, h2, h3, h4⟩, h10, h6, h7, h8⟩
  rw [← h9]
  have e : (fishAt g f a F n bn rg o b).cur.ip = at2 b.x b.y b.dx b.dy ∧ (fishAt g f a F n bn rg o b).g.cfg.dims = 2 ∧ (fishAt g f a F n bn rg o b).g.cfg.topo = .lahey ∧
    (fishAt g f a F n bn rg o b).g.field = F := ⟨by krfl, by krfl, by krfl, by krfl⟩
  rw [e.1, e.2.1, e.2.2.1, e.2.2.2]

theorem Swims.ipNext (H : Swims R g f s b) : ∃ s', Funge.ipNext s = .ok ((), s') ∧ Swims R g f s' b.swim := by
  obtain ⟨ip', h1, h2⟩ := H.move
  exact ⟨_, ipNext_run h1, h2⟩

theorem Swims.ipGet (H : Swims R g f s b) : Funge.ipGet s = .ok (b.cell b.x b.y, s) := by
  obtain ⟨⟨F, a, n, bn, rg, o, rfl, h1, h2, h3, h4⟩, -⟩ := H
  rw [← h1.get]
  krfl

theorem Swims.setPos (H : Swims R g f s b) {x y : Int} (h : b.has (x, y) = true) :
    ∃ s', onIP (·.setPos (Vec.ofList [x, y])) s = .ok ((), s') ∧ Swims R g f s' { b with x := x, y := y } := by
  obtain ⟨⟨F, a, n, bn, rg, o, rfl, h1, h2, h3, h4⟩, h5, h6, h7, h8⟩ := H
  exact ⟨_, rfl, ⟨F, a, n, bn, rg, o, by krfl, shown_of h1 rfl rfl rfl rfl rfl, h2, h3, h4⟩, h, h6, h7, h8⟩

theorem Swims.dims (H : Swims R g f s b) : s.g.cfg.dims = 2 := by
  obtain ⟨⟨F, a, n, bn, rg, o, rfl, h1, h2, h3, h4⟩, -⟩ := H
  krfl

theorem Swims.getDims (H : Swims R g f s b) : Funge.getDims s = .ok (2, s) := by
  rw [getDims_run, H.dims]

theorem Swims.popVector (H : Swims R g f s b) {u v x y : Int} {l : List Int} (hl : b.stack = v :: u :: l) (hx : g.flt.toI64 u = some x) (hy : g.flt.toI64 v = some y) :
    ∃ s', fishPopVectorOn popTop s = .ok (Vec.ofList [x, y], s') ∧ Swims R g f s' (b.on l) := by
  obtain ⟨s1, h1, H1⟩ := H.popInt hl hy
  obtain ⟨s2, h2, H2⟩ := H1.popInt (l := l) rfl hx
  refine ⟨s2, ?_, H2⟩
  show popVectorOn fishPopInt s = _
  rw [popVectorOn, bind_ok H.getDims, popVectorLoop, bind_ok h1, popVectorLoop, bind_ok h2]
  show Except.ok (((Vec.empty.set 1 y).set 0 x), s2) = _
  have e := eq2 (v := (Vec.empty.set 1 y).set 0 x) (Vec.normal_set _ _ _) (Vec.size_set_pos _ _ _) ?_
  · rw [e, Vec.get_set_self, Vec.get_set, if_neg (by decide), Vec.get_set_self]
  · intro i hi
    rw [Vec.get_set, if_neg (by omega), Vec.get_set, if_neg (by omega)]
    rfl

theorem Swims.storage (H : Swims R g f s b) : Funge.ipStorage s = .ok (Vec.ofList [0], s) := by
  obtain ⟨⟨F, a, n, bn, rg, o, rfl, h1, h2, h3, h4⟩, -⟩ := H
  krfl

theorem Swims.fieldGet (H : Swims R g f s b) (x y : Int) : Funge.fieldGet (Vec.ofList [x, y]) s = .ok (b.cell x y, s) := by
  obtain ⟨⟨F, a, n, bn, rg, o, rfl, h1, h2, h3, h4⟩, -⟩ := H
  rw [← h1.get]
  krfl

theorem store_same {b c : Bef} {x y v : Int} (hc : c ∈ b.store R x y v) :
    c = { b with cell := c.cell, west := c.west, east := c.east, north := c.north, south := c.south } ∧
      c.west ≤ b.west ∧ b.east ≤ c.east ∧ c.north ≤ b.north ∧ b.south ≤ c.south := by
  unfold Bef.store at hc
  split at hc
  · split at hc
    · simp only [List.mem_singleton] at hc; subst hc
      exact ⟨rfl, Int.le_refl _, Int.le_refl _, Int.le_refl _, Int.le_refl _⟩
    · cases hc
  split at hc
  · split at hc
    · simp only [List.mem_singleton] at hc; subst hc
      exact ⟨rfl, Int.le_refl _, Int.le_refl _, Int.le_refl _, Int.le_refl _⟩
    · cases hc
  · split at hc
    · cases hc
    · simp only [List.mem_singleton] at hc; subst hc
      exact ⟨rfl, Int.min_le_left _ _, Int.le_max_left _ _, Int.min_le_left _ _, Int.le_max_left _ _⟩

theorem Swims.fieldPut (H : Swims R g f s b) {x y v : Int} {c : Bef} (hc : c ∈ b.toBef.store R x y v) :
    ∃ s', Funge.fieldPut (Vec.ofList [x, y]) v s = .ok ((), s') ∧ Swims R g f s' { b with toBef := c } := by
  obtain ⟨⟨F, a, n, bn, rg, o, rfl, h1, h2, h3, h4⟩, h5, h6, h7, h8⟩ := H
  have h9 := shown_store h1 hc
  obtain ⟨e, l1, l2, l3, l4⟩ := store_same hc
  generalize c.cell = cc at *
  generalize c.west = cw at *
  generalize c.east = ce at *
  generalize c.north = cn at *
  generalize c.south = cs at *
  subst e
  refine ⟨_, rfl, ⟨F.put (Vec.ofList [x, y]) v, a, n, bn, rg, o, by krfl, h9, h2, h3, h4⟩, ?_, h6, h7, h8⟩
  rw [has_iff] at h5 ⊢
  dsimp only
  omega

theorem Swims.emit (H : Swims R g f s b) (l : List Int) : ∃ s', Exec.emit (.out l) s = .ok ((), s') ∧ Swims R g f s' { b with out := b.out ++ l } := by
  obtain ⟨⟨F, a, n, bn, rg, o, rfl, h1, h2, h3, h4⟩, h5, h6, h7, h8⟩ := H
  refine ⟨_, rfl, ⟨F, a, n, bn, rg, o ++ [l], ?_, shown_of h1 rfl rfl rfl rfl rfl, by simp [h2], h3, h4⟩, h5, h6, h7, h8⟩
  have e : g.eff ++ (o ++ [l]).map Eff.out = (g.eff ++ o.map Eff.out) ++ [.out l] := by simp
  unfold fishAt
  rw [e]

theorem Swims.asked (H : Swims R g f s b) (a : Nat) : Swims R g f (s.setG { s.g with asked := a }) b := by
  obtain ⟨⟨F, a', n, bn, rg, o, rfl, h1, h2, h3, h4⟩, h5, h6, h7, h8⟩ := H
  exact ⟨⟨F, a, n, bn, rg, o, by krfl, h1, h2, h3, h4⟩, h5, h6, h7, h8⟩

theorem Swims.input (H : Swims R g f s b) (t : List Int) : Swims R g f (s.setG { s.g with inp := t }) { b with inp := t } := by
  obtain ⟨⟨F, a, n, bn, rg, o, rfl, h1, h2, h3, h4⟩, h5, h6, h7, h8⟩ := H
  exact ⟨⟨F, a, n, bn, rg, o, by krfl, shown_of h1 rfl rfl rfl rfl rfl, h2, h3, h4⟩, h5, h6, h7, h8⟩

theorem Swims.inp (H : Swims R g f s b) : s.g.inp = b.inp := by
  obtain ⟨⟨F, a, n, bn, rg, o, rfl, h1, h2, h3, h4⟩, -⟩ := H
  krfl

theorem Swims.noFile (H : Swims R g f s b) : s.cur.file = none := by
  obtain ⟨⟨F, a, n, bn, rg, o, rfl, h1, h2, h3, h4⟩, -⟩ := H
  krfl

theorem Swims.quoted (H : Swims R g f s b) (q : Int) : ∃ s', enterString q s = .ok ((), s') ∧ Swims R g f s' { b with quote := true, mark := q } := by
  obtain ⟨⟨F, a, n, bn, rg, o, rfl, h1, h2, h3, h4⟩, h5, h6, h7, h8⟩ := H
  exact ⟨_, rfl, ⟨F, a, n, bn, rg, o, by krfl, shown_of h1 rfl rfl rfl rfl rfl, h2, h3, h4⟩, h5, h6, h7, h8⟩

/-- What is left to see of a program that died. -/
structure Sinks (g : Glob) (s : St) (b : Fish) : Prop where
  rest : s.rest = []
  handler : s.cur.handler = .fish
  noDive : hasMode s.g.cfg.mode modeDive = false
  inp : s.g.inp = b.inp
  out : ∃ o : List (List Int), s.g.eff = g.eff ++ o.map Eff.out ∧ o.flatten = b.out

theorem Swims.sinks (H : Swims R g f s b) : Sinks g s b := by
  obtain ⟨⟨F, a, n, bn, rg, o, rfl, h1, h2, h3, h4⟩, -⟩ := H
  exact ⟨by krfl, by krfl, by krfl, by krfl, o, by krfl, h2⟩

/-- What an instruction does when its word can do one of `r`: one of these, or it fails, and it is one of these to die. -/
def FDoes (R : Rules) (g : Glob) (f : Nat) (op : Exec Err) (s : St) (r : List Fish) : Prop :=
  ∃ e s1, op s = .ok (e, s1) ∧ ((e = .none ∧ ∃ c ∈ r, Swims R g f s1 c) ∨ (e = .unspec ∧ ∃ c : Fish, c.die ∈ r ∧ Sinks g s1 c))

theorem FDoes.one {op : Exec Err} {s1 : St} {c : Fish} {r : List Fish} (h : op s = .ok (.none, s1)) (H : Swims R g f s1 c) (hc : c ∈ r) : FDoes R g f op s r :=
  ⟨_, _, h, .inl ⟨rfl, c, hc, H⟩⟩

theorem FDoes.dies {op : Exec Err} {s1 : St} {c : Fish} {r : List Fish} (h : op s = .ok (.unspec, s1)) (H : Sinks g s1 c) (hc : c.die ∈ r) : FDoes R g f op s r :=
  ⟨_, _, h, .inr ⟨rfl, c, hc, H⟩⟩

end
end Funge
