import Verif.Model.Defunge
import Verif.Props.C43_Debugger
import Verif.Props.C06_VectorText
import Verif.Lemmas.Vec
import Verif.Lemmas.Krfl
/-!
C96: the commands `list` and `get` of the debugger show the cells around a position.
-/
namespace Funge.Defunge
open Funge

/-! ### What should be shown -/

/-- What can be said about a cell in the picture. -/
inductive Mark
  | thread | breakpoint | watchpoint | center | selected
  deriving DecidableEq, Repr

/-- Yellow background, red background, blue text, underlined, green background. -/
def Mark.colour : Mark → List Int
  | .thread => lit "\x1b[43;1m"
  | .breakpoint => lit "\x1b[41;1m"
  | .watchpoint => lit "\x1b[34;1m"
  | .center => lit "\x1b[4m"
  | .selected => lit "\x1b[42;1m"

/-- A character with its colours, which are switched off behind it. -/
def coloured (marks : List Mark) (ch : Int) : List Int :=
  marks.flatMap Mark.colour ++ [ch] ++ if marks = [] then [] else lit "\x1b[0m"

/-- When a cell has a mark: an IP is there, or a breakpoint, or a watchpoint; it is in the middle of the picture; the selected IP is there. -/
def MarkedBy (w : World) (u : Home) (c : Vec) (ip : Option Vec) (p : Vec) : Mark → Prop
  | .thread => ∃ t ∈ u.threads, ∃ r ∈ w.alive, t.runner = some r.id ∧ AtSame r.ip.pos p
  | .breakpoint => ∃ b ∈ u.breakpoints, AtSame b p
  | .watchpoint => ∃ b ∈ u.watchpoints, AtSame b p
  | .center => AtSame p c
  | .selected => ∃ q, ip = some q ∧ AtSame p q

open Classical in
/-- The marks of a cell. -/
noncomputable def marks (w : World) (u : Home) (c : Vec) (ip : Option Vec) (p : Vec) : List Mark :=
  [Mark.thread, .breakpoint, .watchpoint, .center, .selected].filter fun m => decide (MarkedBy w u c ip p m)

/-- The point with coordinate `x` on axis `a`, `y` on axis `b`, and for the rest those of `c`. -/
def spot (c : Vec) (a b : Nat) (x y : Int) : Vec := (c.set a x).set b y

/-- The whole numbers from `m` to `n`. -/
def span (m n : Int) : List Int := (List.range (n - m + 1).toNat).map fun (i : Nat) => m + i

/-- Line after line, the cells from -`r` to +`r` around `c`. -/
noncomputable def picture (w : World) (u : Home) (f : Field) (c : Vec) (a b : Nat) (ra rb : Int) (ip : Option Vec) : List Int :=
  (span (c.get b - rb) (c.get b + rb)).flatMap fun y =>
    ((span (c.get a - ra) (c.get a + ra)).flatMap fun x => coloured (marks w u c ip (spot c a b x y)) (toChar (f.get (spot c a b x y)))) ++ [10]

/-- Every IP the debugger knows of is there, and ids are unique. -/
structure Sound (w : World) (u : Home) : Prop where
  unique : w.alive.Pairwise fun r q => r.id ≠ q.id
  there : ∀ t ∈ u.threads, ∃ r ∈ w.alive, t.runner = some r.id

/-! ### The loop -/

theorem find_of_mem {l : List Seen} (h : l.Pairwise fun r q => r.id ≠ q.id) {r : Seen} (hr : r ∈ l) : l.find? (·.id == r.id) = some r := by
  induction l with
  | nil => cases hr
  | cons q t ih =>
    rw [List.pairwise_cons] at h
    rw [List.mem_cons] at hr
    rcases hr with rfl | hr
    · simp
    · rw [List.find?_cons_of_neg (by simpa using h.1 r hr)]
      exact ih h.2 hr

theorem deref_of_mem {w : World} (h : w.alive.Pairwise fun r q => r.id ≠ q.id) {r : Seen} (hr : r ∈ w.alive) : w.deref (some r.id) = .ok r := by
  unfold World.deref
  simp only
  rw [find_of_mem h hr]

theorem anyAt_eq {w : World} (hu : w.alive.Pairwise fun r q => r.id ≠ q.id) (p : Vec) (l : List Entry) (h : ∀ t ∈ l, ∃ r ∈ w.alive, t.runner = some r.id) :
    ∃ v, anyAt w p l = .ok v ∧ (v = true ↔ ∃ t ∈ l, ∃ r ∈ w.alive, t.runner = some r.id ∧ AtSame r.ip.pos p) := by
  induction l with
  | nil => exact ⟨false, rfl, by simp⟩
  | cons t ts ih =>
    obtain ⟨r, hr, ht⟩ := h t (by simp)
    obtain ⟨v, hv, ih⟩ := ih fun t' h' => h t' (List.mem_cons_of_mem _ h')
    rw [anyAt, ht, deref_of_mem hu hr]
    show ∃ v, (if r.ip.pos.eqv p then _ else _) = _ ∧ _
    by_cases he : r.ip.pos.eqv p = true
    · rw [if_pos he]
      exact ⟨true, rfl, fun _ => ⟨t, by simp, r, hr, ht, (Vec.eqv_iff _ _).mp he⟩, fun _ => rfl⟩
    · rw [if_neg he, hv]
      refine ⟨v, rfl, ih.trans ?_⟩
      constructor
      · rintro ⟨t', h1, h2⟩; exact ⟨t', List.mem_cons_of_mem _ h1, h2⟩
      · rintro ⟨t', h1, r', h2, h3, h4⟩
        rw [List.mem_cons] at h1
        rcases h1 with rfl | h1
        · have hid : r'.id = r.id := by rw [ht] at h3; exact (Option.some.inj h3).symm
          have e1 := find_of_mem hu h2
          rw [hid, find_of_mem hu hr] at e1
          cases e1
          exact absurd ((Vec.eqv_iff _ _).mpr h4) he
        · exact ⟨t', h1, r', h2, h3, h4⟩

theorem printCell_eq {w : World} {u : Home} (h : Sound w u) (f : Field) (c : Vec) (ip : Option Vec) (p : Vec) :
    printCell w u f c ip p = .ok (coloured (marks w u c ip p) (toChar (f.get p))) := by
  classical
  unfold printCell
  have e4 : isAt p ip = decide (MarkedBy w u c ip p .selected) := by
    rw [Bool.eq_iff_iff, decide_eq_true_iff]
    cases ip with
    | none => simp [MarkedBy, isAt]
    | some q => simp [MarkedBy, AtSame, isAt, Vec.eqv_iff]
  obtain ⟨v, hv, hv'⟩ := anyAt_eq h.unique p _ h.there
  rw [hv]
  have e1 : setContains u.breakpoints p = decide (MarkedBy w u c ip p .breakpoint) := by
    rw [Bool.eq_iff_iff, setContains_iff, decide_eq_true_iff]; exact Iff.rfl
  have e2 : setContains u.watchpoints p = decide (MarkedBy w u c ip p .watchpoint) := by
    rw [Bool.eq_iff_iff, setContains_iff, decide_eq_true_iff]; exact Iff.rfl
  have e3 : p.eqv c = decide (MarkedBy w u c ip p .center) := by
    rw [Bool.eq_iff_iff, Vec.eqv_iff, decide_eq_true_iff]; exact Iff.rfl
  have e0 : v = decide (MarkedBy w u c ip p .thread) := by
    rw [Bool.eq_iff_iff, hv', decide_eq_true_iff]; exact Iff.rfl
  show Except.ok _ = _
  rw [e0, e1, e2, e3, e4]
  unfold coloured marks
  congr 1
  simp only [List.filter_cons, List.filter_nil]
  by_cases h0 : MarkedBy w u c ip p .thread <;> by_cases h1 : MarkedBy w u c ip p .breakpoint <;> by_cases h2 : MarkedBy w u c ip p .watchpoint <;>
    by_cases h3 : MarkedBy w u c ip p .center <;> by_cases h4 : MarkedBy w u c ip p .selected <;>
    simp [h0, h1, h2, h3, h4, Mark.colour]

theorem leLoop_of_le {v w : Vec} (h : ∀ i, v.get i ≤ w.get i) (n : Nat) : Vec.leLoop v w n = true := by
  induction n with
  | zero => rfl
  | succ n ih =>
    rw [Vec.leLoop, if_neg (by have := h n; omega)]
    split
    · rfl
    · exact ih

theorem leLoop_of_gt {v w : Vec} {b : Nat} (hb : v.get b > w.get b) (he : ∀ i, b < i → v.get i = w.get i) (n : Nat) (hn : b < n) : Vec.leLoop v w n = false := by
  induction n with
  | zero => omega
  | succ n ih =>
    rw [Vec.leLoop]
    by_cases hbn : b = n
    · subst hbn; rw [if_pos hb]
    · rw [if_neg (by rw [he n (by omega)]; omega), if_neg (by rw [he n (by omega)]; omega)]
      exact ih (by omega)

theorem le_of_gt {v w : Vec} {b : Nat} (hb : v.get b > w.get b) (he : ∀ i, b < i → v.get i = w.get i) : v.le w = false := by
  apply leLoop_of_gt hb he
  by_cases h1 : b < v.size
  · omega
  · by_cases h2 : b < w.size
    · omega
    · rw [v.get_of_size_le (by omega), w.get_of_size_le (by omega)] at hb; omega

theorem get_spot (c : Vec) (a b : Nat) (_ : a ≠ b) (x y : Int) (i : Nat) : (spot c a b x y).get i = if i = b then y else if i = a then x else c.get i := by
  unfold spot
  rw [Vec.get_set, Vec.get_set]

theorem spot_set_a (c : Vec) (a b : Nat) (hab : a ≠ b) (x y x' : Int) : (spot c a b x y).set a x' = spot c a b x' y := by
  refine Vec.Normal.ext (Vec.normal_set _ _ _) (Vec.normal_set _ _ _) (Vec.size_set_pos _ _ _) (Vec.size_set_pos _ _ _) ?_
  intro i
  rw [Vec.get_set, get_spot _ _ _ hab, get_spot _ _ _ hab]
  by_cases h1 : i = a <;> by_cases h2 : i = b <;> simp_all

theorem spot_set_b (c : Vec) (a b : Nat) (hab : a ≠ b) (x y y' : Int) : (spot c a b x y).set b y' = spot c a b x y' := by
  refine Vec.Normal.ext (Vec.normal_set _ _ _) (Vec.normal_set _ _ _) (Vec.size_set_pos _ _ _) (Vec.size_set_pos _ _ _) ?_
  intro i
  rw [Vec.get_set, get_spot _ _ _ hab, get_spot _ _ _ hab]
  by_cases h1 : i = a <;> by_cases h2 : i = b <;> simp_all

theorem span_cons {m n : Int} (h : m ≤ n) : span m n = m :: span (m + 1) n := by
  unfold span
  obtain ⟨k, hk⟩ : ∃ k : Nat, (n - m + 1).toNat = k + 1 := ⟨(n - m).toNat, by omega⟩
  rw [hk, show (n - (m + 1) + 1).toNat = k by omega, List.range_succ_eq_map, List.map_cons, List.map_map]
  congr 1
  · simp
  · apply List.map_congr_left
    intro i _
    simp only [Function.comp_apply]
    omega

theorem span_nil {m n : Int} (h : n < m) : span m n = [] := by
  unfold span; rw [show (n - m + 1).toNat = 0 by omega]; rfl

/-- The cell at `(x, y)`, as it should be shown. -/
noncomputable abbrev cellOf (w : World) (u : Home) (f : Field) (c : Vec) (a b : Nat) (ip : Option Vec) (y x : Int) : List Int :=
  coloured (marks w u c ip (spot c a b x y)) (toChar (f.get (spot c a b x y)))

theorem lit_nl : lit "\n" = [10] := by rfl

attribute [local irreducible] lit

theorem loop_row {w : World} {u : Home} (h : Sound w u) (f : Field) (c : Vec) (a b : Nat) (hab : a ≠ b) (start stop : Vec) (ip : Option Vec)
    (hstop : ∀ i, i ≠ a → i ≠ b → c.get i ≤ stop.get i) (y : Int) (hy : y ≤ stop.get b) (fuel : Nat) :
    ∀ (k : Nat) (x : Int) (out : List Int), x + k = stop.get a →
    fieldLoop w u f c start stop a b ip (k + 1 + fuel) (spot c a b x y) out =
      fieldLoop w u f c start stop a b ip fuel (spot c a b (start.get a) (y + 1)) (out ++ (span x (stop.get a)).flatMap (cellOf w u f c a b ip y) ++ [10]) := by
  intro k
  induction k with
  | zero =>
    intro x out hx
    have hle : (spot c a b x y).le stop = true := by
      apply leLoop_of_le
      intro i
      rw [get_spot _ _ _ hab]
      by_cases h2 : i = b
      · rw [if_pos h2, h2]; exact hy
      · rw [if_neg h2]
        by_cases h1 : i = a
        · rw [if_pos h1, h1]; omega
        · rw [if_neg h1]; exact hstop i h1 h2
    rw [show 0 + 1 + fuel = fuel + 1 by omega, fieldLoop, if_pos hle, printCell_eq h, bind_ok_except]
    dsimp only
    have hg : (spot c a b x y).get a = x := by rw [get_spot _ _ _ hab, if_neg hab, if_pos rfl]
    rw [hg, spot_set_a _ _ _ hab, if_pos (by rw [get_spot _ _ _ hab, if_neg hab, if_pos rfl]; omega),
      show (spot c a b (x + 1) y).get b = y by rw [get_spot _ _ _ hab, if_pos rfl], spot_set_b _ _ _ hab, spot_set_a _ _ _ hab,
      span_cons (show x ≤ stop.get a by omega), span_nil (show stop.get a < x + 1 by omega)]
    simp only [List.flatMap_cons, List.flatMap_nil, List.append_nil, List.append_assoc, lit_nl]
  | succ k ih =>
    intro x out hx
    have hle : (spot c a b x y).le stop = true := by
      apply leLoop_of_le
      intro i
      rw [get_spot _ _ _ hab]
      by_cases h2 : i = b
      · rw [if_pos h2, h2]; exact hy
      · rw [if_neg h2]
        by_cases h1 : i = a
        · rw [if_pos h1, h1]; omega
        · rw [if_neg h1]; exact hstop i h1 h2
    rw [show k + 1 + 1 + fuel = (k + 1 + fuel) + 1 by omega, fieldLoop, if_pos hle, printCell_eq h, bind_ok_except]
    dsimp only
    have hg : (spot c a b x y).get a = x := by rw [get_spot _ _ _ hab, if_neg hab, if_pos rfl]
    rw [hg, spot_set_a _ _ _ hab, if_neg (by rw [get_spot _ _ _ hab, if_neg hab, if_pos rfl]; omega), ih (x + 1) _ (by omega), span_cons (show x ≤ stop.get a by omega)]
    simp only [List.flatMap_cons, List.append_assoc]

theorem loop_rows {w : World} {u : Home} (h : Sound w u) (f : Field) (c : Vec) (a b : Nat) (hab : a < b) (start stop : Vec) (ip : Option Vec)
    (hstop : ∀ i, i ≠ a → i ≠ b → c.get i = stop.get i) (k : Nat) (hk : start.get a + k = stop.get a) (fuel : Nat) :
    ∀ (m : Nat) (y : Int) (out : List Int), y + m = stop.get b + 1 →
    fieldLoop w u f c start stop a b ip (m * (k + 1) + (fuel + 1)) (spot c a b (start.get a) y) out =
      .ok (out ++ (span y (stop.get b)).flatMap fun y => (span (start.get a) (stop.get a)).flatMap (cellOf w u f c a b ip y) ++ [10]) := by
  intro m
  induction m with
  | zero =>
    intro y out hy
    have hle : (spot c a b (start.get a) y).le stop = false := by
      apply le_of_gt (b := b)
      · rw [get_spot _ _ _ (by omega), if_pos rfl]; omega
      · intro i hi
        rw [get_spot _ _ _ (by omega), if_neg (by omega), if_neg (by omega)]
        exact hstop i (by omega) (by omega)
    rw [Nat.zero_mul, Nat.zero_add, fieldLoop, if_neg (by rw [hle]; decide), span_nil (show stop.get b < y by omega)]
    simp
  | succ m ih =>
    intro y out hy
    rw [show (m + 1) * (k + 1) + (fuel + 1) = k + 1 + (m * (k + 1) + (fuel + 1)) by rw [Nat.succ_mul]; omega,
      loop_row h f c a b (by omega) start stop ip (fun i h1 h2 => by rw [hstop i h1 h2]; exact Int.le_refl _) y (by omega) _ k _ _ hk,
      ih (y + 1) _ (by omega), span_cons (show y ≤ stop.get b by omega)]
    simp only [List.flatMap_cons, List.append_assoc]

theorem size_pos_sub {v : Vec} (hv : 0 < v.size) (w : Vec) : 0 < (v.sub w).size := Vec.size_pos_foldl_set _ _ _ hv

/-- **C96**, the positive part: along two axes `a < b`, with a size of at least 0 along both of them and 0 along every other axis, the picture has the cells
around the centre line by line, each with its marks and no others. -/
theorem C96_window_partial {w : World} {u : Home} (h : Sound w u) (f : Field) {c : Vec} (hc : c.Normal) (hc0 : 0 < c.size) {a b : Nat} (hab : a < b) {s : Vec}
    (ha : 0 ≤ s.get a) (hb : 0 ≤ s.get b) (ho : ∀ i, i ≠ a → i ≠ b → s.get i = 0) (ip : Option Vec) {fuel : Nat}
    (hf : (2 * s.get b + 1) * (2 * s.get a + 1) < fuel) :
    printField fuel w u f c s (Vec.ofList [a, b]) ip = .ok (w.say (picture w u f c a b (s.get a) (s.get b) ip)) := by
  obtain ⟨ka, hka⟩ : ∃ k : Nat, s.get a = k := ⟨(s.get a).toNat, by omega⟩
  obtain ⟨kb, hkb⟩ : ∃ k : Nat, s.get b = k := ⟨(s.get b).toNat, by omega⟩
  rw [hka, hkb] at hf
  have hf' : (2 * kb + 1) * (2 * ka + 1) < fuel := by
    have : (((2 * kb + 1) * (2 * ka + 1) : Nat) : Int) < fuel := by simpa using hf
    exact_mod_cast this
  obtain ⟨fl, rfl⟩ : ∃ fl, fuel = (2 * kb + 1) * (2 * ka + 1) + (fl + 1) := ⟨fuel - (2 * kb + 1) * (2 * ka + 1) - 1, by omega⟩
  have d0 : (Vec.ofList [(a : Int), b]).get 0 = a := by rw [Vec.get_ofList]; rfl
  have d1 : (Vec.ofList [(a : Int), b]).get 1 = b := by rw [Vec.get_ofList]; rfl
  unfold printField
  rw [d0, d1, if_neg (by omega), Int.toNat_natCast, Int.toNat_natCast]
  have e0 : c.sub s = spot c a b ((c.sub s).get a) (c.get b - s.get b) := by
    refine Vec.Normal.ext (Vec.normal_sub hc s) (Vec.normal_set _ _ _) (size_pos_sub hc0 s) (Vec.size_set_pos _ _ _) ?_
    intro i
    rw [get_spot _ _ _ (by omega), Vec.get_sub, Vec.get_sub]
    by_cases h2 : i = b
    · rw [if_pos h2, h2]
    · rw [if_neg h2]
      by_cases h1 : i = a
      · rw [if_pos h1, h1]
      · rw [if_neg h1, ho i h1 h2]; omega
  have hloop := loop_rows h f c a b hab (c.sub s) (c.add s) ip (fun i h1 h2 => by rw [Vec.get_add, ho i h1 h2]; omega) (2 * ka)
    (by rw [Vec.get_sub, Vec.get_add]; omega) fl (2 * kb + 1) (c.get b - s.get b) [] (by rw [Vec.get_add]; omega)
  rw [← e0] at hloop
  rw [hloop]
  show Except.ok _ = _
  congr 2
  rw [List.nil_append, picture, Vec.get_sub, Vec.get_add, Vec.get_add]

/-! ### The commands -/

theorem readVec_blank (fuel : Nat) (c : Int) (l : List Int) : readVec fuel c ⟨32 :: l, false⟩ = readVec fuel c ⟨l, false⟩ := by rfl

theorem readVec_end (fuel : Nat) {c : Int} (h : c ≠ 40) (failed : Bool) : readVec fuel c ⟨[], failed⟩ = .ok (Vec.empty, ⟨[], true⟩) := by
  cases failed
  · show (if c = 40 then _ else _) = _
    rw [if_neg h]; rfl
  · show (if c = 40 then _ else _) = _
    rw [if_neg h]; rfl

theorem line_call {cmd : List Int} {fn : Func} (hc : (cmdMap.find? fun p => lit p.1 == cmd).map Prod.snd = some fn) (fuel : Nat) (c : Int) (w : World) (l : List Int)
    (is : IStream) (hl : word ⟨l, false⟩ = (cmd, is)) :
    line fuel c w l = match call fuel c (w.say (lit "\x1b[33m(defunge)\x1b[0m ")) is fn with
      | .ok (.noThread, w) => .ok (.ok, w.say (lit "No thread.\n"))
      | r => r := by
  unfold line
  simp only [hl]
  cases h : cmdMap.find? fun p => lit p.1 == cmd with
  | none => rw [h] at hc; cases hc
  | some p => rw [h] at hc; cases hc; rfl

/-- The prompt. -/
abbrev promptText : List Int := lit "\x1b[33m(defunge)\x1b[0m "

/-- **C96.** `list` (or `l`) shows the seven by seven cells around the selected IP. `c` is what an uninitialised variable holds, see `C96_diverges_on_garbage`. -/
theorem C96_list {w : World} {u h : Home} (hu : w.home w.dbg = .ok u) (hs : Sound w u) {r : Seen} (hr : r ∈ w.alive) (hw : w.runner = some r.id)
    (hh : w.home r.uni = .ok h) (hp : r.ip.pos.Normal) (hp0 : 0 < r.ip.pos.size) {cmd : List Int} (hc : cmd = lit "list" ∨ cmd = lit "l") {c : Int} (h40 : c ≠ 40)
    {fuel : Nat} (hf : 50 ≤ fuel) :
    line fuel c w cmd = .ok (.ok, (w.say promptText).say (picture w u h.field r.ip.pos 0 1 3 3 (some r.ip.pos))) := by
  have hw1 : word ⟨cmd, false⟩ = (cmd, ⟨[], false⟩) := by rcases hc with rfl | rfl <;> krfl
  have hm : (cmdMap.find? fun p => lit p.1 == cmd).map Prod.snd = some .list := by rcases hc with rfl | rfl <;> krfl
  rw [line_call hm fuel c w cmd _ hw1]
  have hcall : call fuel c (w.say promptText) ⟨[], false⟩ .list = .ok (.ok, (w.say promptText).say (picture w u h.field r.ip.pos 0 1 3 3 (some r.ip.pos))) := by
    show list fuel c (w.say promptText) ⟨[], false⟩ = _
    unfold list
    rw [if_neg (by show ¬(w.runner.isNone = true); rw [hw]; exact Bool.false_ne_true)]
    rw [show (w.say promptText).home (w.say promptText).dbg = .ok u from hu, bind_ok_except,
      show (w.say promptText).deref (w.say promptText).runner = .ok r by rw [show (w.say promptText).runner = some r.id from hw]; exact deref_of_mem hs.unique hr,
      bind_ok_except, show (w.say promptText).home r.uni = .ok h from hh, bind_ok_except, readVec_end fuel h40, bind_ok_except]
    dsimp only
    rw [readVec_end fuel h40, bind_ok_except]
    dsimp only
    have e := C96_window_partial (w := w.say promptText) (u := u) ⟨hs.unique, hs.there⟩ h.field hp hp0 (show 0 < 1 by omega) (s := Vec.ofList [3, 3])
      (by decide) (by decide) (by
        intro i h0 h1
        rw [Vec.get_ofList, List.getElem?_eq_none (by simp; omega)]; rfl) (some r.ip.pos) (fuel := fuel)
      (by have : (2 * (Vec.ofList [3, 3]).get 1 + 1) * (2 * (Vec.ofList [3, 3]).get 0 + 1) = 49 := by decide
          rw [this]; omega)
    rw [show orElse Vec.empty (Vec.ofList [3, 3]) = Vec.ofList [3, 3] from rfl, show orElse Vec.empty (Vec.ofList [0, 1]) = Vec.ofList [((0 : Nat) : Int), ((1 : Nat) : Int)] from rfl,
      e, bind_ok_except]
    rfl
  rw [hcall]

/-- A vector as it is typed. -/
structure Typeable (v : Vec) : Prop where
  normal : v.Normal
  ne : 0 < v.size
  fits : ∀ x ∈ v.vals, i64Min < x ∧ x ≤ i64Max

theorem Typeable.read {v : Vec} (h : Typeable v) (r : List Int) (c : Int) {fuel : Nat} (hf : (printVec v).length ≤ fuel) :
    readVec fuel c ⟨32 :: (printVec v ++ r), false⟩ = .ok (v, ⟨r, false⟩) := by
  rw [readVec_blank]
  obtain ⟨w, h1, _, h2⟩ := C06_reads_back_partial v (List.length_pos_iff.mp h.ne) h.fits r c fuel hf
  rw [h1, h2 h.normal]

theorem word_then (cmd : List Int) (h0 : cmd ≠ []) (h : ∀ x ∈ cmd, IStream.isSpace x = false) (l : List Int) : word ⟨cmd ++ 32 :: l, false⟩ = (cmd, ⟨32 :: l, false⟩) := by
  obtain ⟨x, t, rfl⟩ := List.exists_cons_of_ne_nil h0
  have hs : IStream.skip (x :: t ++ 32 :: l) = x :: t ++ 32 :: l := skip_of_not (h x (by simp))
  unfold word
  rw [if_neg Bool.false_ne_true]
  dsimp only
  rw [hs]
  have e1 : ∀ (q : List Int), (∀ y ∈ q, IStream.isSpace y = false) → (q ++ 32 :: l).takeWhile (!IStream.isSpace ·) = q ∧ (q ++ 32 :: l).dropWhile (!IStream.isSpace ·) = 32 :: l := by
    intro q hq
    induction q with
    | nil => exact ⟨rfl, rfl⟩
    | cons y q ih =>
      have hy := hq y (by simp)
      have ih := ih fun z hz => hq z (List.mem_cons_of_mem _ hz)
      simp only [List.cons_append]
      rw [List.takeWhile_cons, List.dropWhile_cons, hy]
      simp [ih]
  have := e1 (x :: t) h
  show (((x :: t ++ 32 :: l).takeWhile _, (⟨(x :: t ++ 32 :: l).dropWhile _, false⟩ : IStream))) = _
  rw [this.1, this.2]

/-- **C96.** `get` (or `g`) with a position and a size shows the cells around that position, whether or not an IP is selected. -/
theorem C96_get {w : World} {u : Home} (hu : w.home w.dbg = .ok u) (hs : Sound w u) (hw : w.runner = none ∨ ∃ r ∈ w.alive, w.runner = some r.id)
    {cmd : List Int} (hc : cmd = lit "get" ∨ cmd = lit "g") {v s : Vec} (hv : Typeable v) (ht : Typeable s) (h0 : 0 ≤ s.get 0) (h1 : 0 ≤ s.get 1)
    (ho : ∀ i, 2 ≤ i → s.get i = 0) {c : Int} (h40 : c ≠ 40) {fuel : Nat} (hf1 : (printVec v).length ≤ fuel) (hf2 : (printVec s).length ≤ fuel)
    (hf : (2 * s.get 1 + 1) * (2 * s.get 0 + 1) < fuel) :
    ∃ ip : Option Vec, (∀ p, ip = some p ↔ ∃ r ∈ w.alive, w.runner = some r.id ∧ r.ip.pos = p) ∧
    line fuel c w (cmd ++ lit " " ++ printVec v ++ lit " " ++ printVec s) =
      .ok (.ok, (w.say promptText).say (picture w u u.field v 0 1 (s.get 0) (s.get 1) ip)) := by
  have hm : (cmdMap.find? fun p => lit p.1 == cmd).map Prod.snd = some .get := by rcases hc with rfl | rfl <;> krfl
  have hb : lit " " = [32] := by krfl
  have hsp : ∀ x ∈ cmd, IStream.isSpace x = false := by
    rcases hc with rfl | rfl
    · rw [show lit "get" = [103, 101, 116] by krfl]; decide
    · rw [show lit "g" = [103] by krfl]; decide
  have hne : cmd ≠ [] := by
    rcases hc with rfl | rfl
    · rw [show lit "get" = [103, 101, 116] by krfl]; decide
    · rw [show lit "g" = [103] by krfl]; decide
  have hl : cmd ++ lit " " ++ printVec v ++ lit " " ++ printVec s = cmd ++ 32 :: (printVec v ++ 32 :: (printVec s ++ [])) := by simp [hb]
  obtain ⟨ip, hip, hip'⟩ : ∃ ip : Option Vec, (∀ p, ip = some p ↔ ∃ r ∈ w.alive, w.runner = some r.id ∧ r.ip.pos = p) ∧
      (match w.runner with
        | some i => do let r ← (w.say promptText).deref (some i); pure (some r.ip.pos)
        | none => (pure none : Except Fault (Option Vec))) = .ok ip := by
    rcases hw with hw | ⟨r, hr, hw⟩
    · refine ⟨none, fun p => ?_, by rw [hw]; rfl⟩
      simp [hw]
    · refine ⟨some r.ip.pos, fun p => ?_, ?_⟩
      · constructor
        · rintro h; exact ⟨r, hr, hw, Option.some.inj h⟩
        · rintro ⟨q, h1, h2, rfl⟩
          have e1 := find_of_mem hs.unique h1
          rw [show q.id = r.id by rw [hw] at h2; exact (Option.some.inj h2).symm, find_of_mem hs.unique hr] at e1
          rw [Option.some.inj e1]
      · rw [hw]
        show ((w.say promptText).deref (some r.id) >>= _) = _
        rw [show (w.say promptText).deref (some r.id) = .ok r from deref_of_mem hs.unique hr]
        rfl
  refine ⟨ip, hip, ?_⟩
  rw [hl, line_call hm fuel c w _ _ (word_then cmd hne hsp _)]
  have hcall : call fuel c (w.say promptText) ⟨32 :: (printVec v ++ 32 :: (printVec s ++ [])), false⟩ .get =
      .ok (.ok, (w.say promptText).say (picture w u u.field v 0 1 (s.get 0) (s.get 1) ip)) := by
    show get fuel c (w.say promptText) _ = _
    unfold get
    rw [show (w.say promptText).home (w.say promptText).dbg = .ok u from hu, bind_ok_except]
    refine Eq.trans (congrArg (· >>= _) hip') ?_
    rw [bind_ok_except, hv.read _ c hf1, bind_ok_except]
    dsimp only
    rw [ht.read _ c hf2, bind_ok_except]
    dsimp only
    rw [readVec_end fuel h40, bind_ok_except]
    dsimp only
    have e := C96_window_partial (w := w.say promptText) (u := u) ⟨hs.unique, hs.there⟩ u.field hv.normal hv.ne (show 0 < 1 by omega) (s := s) h0 h1
      (fun i h0 h1 => ho i (by omega)) ip (fuel := fuel) hf
    have o1 : orPos v ip = v := by
      cases ip with
      | none => rfl
      | some p => exact if_neg (by have := hv.ne; omega)
    rw [o1, show orElse s (Vec.ofList [3, 3]) = s from if_neg (by have := ht.ne; omega),
      show orElse Vec.empty (Vec.ofList [0, 1]) = Vec.ofList [((0 : Nat) : Int), ((1 : Nat) : Int)] from rfl, e, bind_ok_except]
    rfl
  rw [hcall]

/-! ### Where it fails -/

/-- **C96** fails if the size has a coordinate along a third, higher axis: the picture never ends. -/
theorem C96_diverges_along_a_third_axis {w : World} {u : Home} (h : Sound w u) (f : Field) (c : Vec) {a b e : Nat} (ha : a < e) (hb : b < e) {s : Vec} (he : 0 < s.get e)
    (ho : ∀ i, e < i → 0 ≤ s.get i) (ip : Option Vec) (fuel : Nat) : printField fuel w u f c s (Vec.ofList [a, b]) ip = .error .fuel := by
  have d0 : (Vec.ofList [(a : Int), b]).get 0 = a := by rw [Vec.get_ofList]; rfl
  have d1 : (Vec.ofList [(a : Int), b]).get 1 = b := by rw [Vec.get_ofList]; rfl
  unfold printField
  rw [d0, d1, if_neg (by omega), Int.toNat_natCast, Int.toNat_natCast]
  have hl : ∀ (n : Nat) (p : Vec) (out : List Int), (∀ i, e ≤ i → p.get i = c.get i - s.get i) →
      fieldLoop w u f c (c.sub s) (c.add s) a b ip n p out = .error .fuel := by
    intro n
    induction n with
    | zero => intros; rfl
    | succ n ih =>
      intro p out hp
      have hle : p.le (c.add s) = true := by
        have hsz : e < max p.size (c.add s).size := by
          by_cases h1 : e < p.size
          · omega
          · by_cases h2 : e < (c.add s).size
            · omega
            · have e1 := p.get_of_size_le (i := e) (by omega)
              have e2 := (c.add s).get_of_size_le (i := e) (by omega)
              have := hp e (Nat.le_refl _)
              rw [Vec.get_add] at e2; omega
        have : ∀ m, e < m → Vec.leLoop p (c.add s) m = true := by
          intro m
          induction m with
          | zero => intro h; omega
          | succ m ihm =>
            intro hm
            have := hp m (by omega)
            rw [Vec.leLoop]
            by_cases hem : e = m
            · subst hem
              rw [if_neg (by rw [Vec.get_add]; omega), if_pos (by rw [Vec.get_add]; omega)]
            · have := ho m (by omega)
              rw [if_neg (by rw [Vec.get_add]; omega)]
              split
              · rfl
              · exact ihm (by omega)
        exact this _ hsz
      rw [fieldLoop, if_pos hle, printCell_eq h, bind_ok_except]
      dsimp only
      have hq : ∀ i, e ≤ i → (p.set a (p.get a + 1)).get i = c.get i - s.get i := by
        intro i hi; rw [Vec.get_set, if_neg (by omega)]; exact hp i hi
      split
      · apply ih
        intro i hi
        rw [Vec.get_set, if_neg (by omega), Vec.get_set, if_neg (by omega)]
        exact hq i hi
      · exact ih _ _ hq
  rw [hl fuel _ [] (fun i _ => by rw [Vec.get_sub])]
  rfl

/-- **C96** fails if the same axis is given twice: the picture never ends. -/
theorem C96_diverges_along_one_axis {w : World} {u : Home} (h : Sound w u) (f : Field) (c : Vec) {s : Vec} (hs : ∀ i, 0 ≤ s.get i) (a : Nat) (ip : Option Vec) (fuel : Nat) :
    printField fuel w u f c s (Vec.ofList [a, a]) ip = .error .fuel := by
  have d0 : (Vec.ofList [(a : Int), a]).get 0 = a := by rw [Vec.get_ofList]; rfl
  have d1 : (Vec.ofList [(a : Int), a]).get 1 = a := by rw [Vec.get_ofList]; rfl
  unfold printField
  rw [d0, d1, if_neg (by omega), Int.toNat_natCast]
  have hl : ∀ (n : Nat) (p : Vec) (out : List Int), (∀ i, p.get i ≤ c.get i + s.get i) →
      fieldLoop w u f c (c.sub s) (c.add s) a a ip n p out = .error .fuel := by
    intro n
    induction n with
    | zero => intros; rfl
    | succ n ih =>
      intro p out hp
      have hle : p.le (c.add s) = true := leLoop_of_le (fun i => by rw [Vec.get_add]; exact hp i) _
      rw [fieldLoop, if_pos hle, printCell_eq h, bind_ok_except]
      dsimp only
      split
      · apply ih
        intro i
        rw [Vec.get_set]
        split
        · rename_i hi; subst hi
          rw [Vec.get_sub]; have := hs i; omega
        · rename_i hi
          rw [Vec.get_set, if_neg hi, Vec.get_set, if_neg hi]; exact hp i
      · rename_i hgt
        apply ih
        intro i
        rw [Vec.get_set]
        split
        · rename_i hi; subst hi
          rw [Vec.get_set_self, Vec.get_add] at hgt; omega
        · exact hp i
  rw [hl fuel _ [] (fun i => by rw [Vec.get_sub]; have := hs i; omega)]
  rfl

/-- An IP for the examples. -/
def exSeen (id : Nat) (x y : Int) : Seen := ⟨id, lit "main", { pos := Vec.ofList [x, y] }, {}⟩

/-- A field with an X at (2, 0) and a dot at (1, 1). -/
def exField : Field := ((Field.load 2 false []).put (Vec.ofList [2, 0]) 88).put (Vec.ofList [1, 1]) 46

/-- One universe with two IPs. -/
def exWorld : World :=
  { unis := [{ name := lit "main", field := exField, breakpoints := [Vec.ofList [1, 1]], threads := [⟨0, some 0, [], .step⟩, ⟨1, some 1, [], .run⟩] }]
    alive := [exSeen 0 0 0, exSeen 1 1 0]
    dbg := lit "main"
    runner := some 0 }

/-- The universe of `exWorld`. -/
def exHome : Home := { name := lit "main", field := exField, breakpoints := [Vec.ofList [1, 1]], threads := [⟨0, some 0, [], .step⟩, ⟨1, some 1, [], .run⟩] }

theorem exSound : Sound exWorld exHome := by
  constructor
  · simp [exWorld, exSeen]
  · intro t ht
    simp only [exHome, List.mem_cons, List.not_mem_nil, or_false] at ht
    rcases ht with rfl | rfl
    · exact ⟨exSeen 0 0 0, by simp [exWorld], rfl⟩
    · exact ⟨exSeen 1 1 0, by simp [exWorld], rfl⟩

/-- The hypotheses of `C96_window_partial` and `C96_list` are met by a universe with two IPs and a breakpoint. -/
example : exWorld.home exWorld.dbg = .ok exHome ∧ Sound exWorld exHome ∧ exSeen 0 0 0 ∈ exWorld.alive ∧ exWorld.runner = some (exSeen 0 0 0).id ∧
    (exSeen 0 0 0).ip.pos.Normal ∧ 0 < (exSeen 0 0 0).ip.pos.size :=
  ⟨by krfl, exSound, by simp [exWorld], rfl, Vec.normal_ofList _, by decide⟩

/-- What `get (0,0) (1,1)` shows: the IPs at (0, 0), which is selected and in the middle, and at (1, 0), and the breakpoint at (1, 1). -/
example : (match line 100 0 exWorld (lit "get (0,0) (1,1)") with
    | .ok (.ok, w) => some w.out
    | _ => none) = some (promptText ++ lit ("   \n \x1b[43;1m\x1b[4m\x1b[42;1m \x1b[0m\x1b[43;1m \x1b[0m\n  \x1b[41;1m.\x1b[0m\n")) := by decide +kernel

example : Typeable (Vec.ofList [0, 0]) ∧ Typeable (Vec.ofList [1, 1]) :=
  ⟨⟨Vec.normal_ofList _, by decide, by decide⟩, ⟨Vec.normal_ofList _, by decide, by decide⟩⟩

/-- `C96_diverges_along_a_third_axis`: a size of (1, 1, 1). -/
example : (0 : Nat) < 2 ∧ (1 : Nat) < 2 ∧ 0 < (Vec.ofList [1, 1, 1]).get 2 ∧ ∀ i, 2 < i → 0 ≤ (Vec.ofList [1, 1, 1]).get i :=
  ⟨by decide, by decide, by decide, fun i hi => by rw [Vec.get_ofList, List.getElem?_eq_none (by simp; omega)]; decide⟩

/-- **C96** fails with the axes the other way round: with a size of (1, 1) around (0, 0), the picture along the axes 1 and 0 has the X at (2, 0). -/
theorem C96_false_with_axes_swapped : (match line 100 0 exWorld (lit "get (0,0) (1,1) (1,0)") with
    | .ok (.ok, w) => some (88 ∈ w.out)
    | _ => none) = some True ∧ 88 ∉ exWorld.out ++ promptText ∧ ∀ x y : Int, -1 ≤ x → x ≤ 1 → -1 ≤ y → y ≤ 1 → exField.get (Vec.ofList [x, y]) ≠ 88 := by
  refine ⟨?_, by decide +kernel, ?_⟩
  · have : (match line 100 0 exWorld (lit "get (0,0) (1,1) (1,0)") with
      | .ok (.ok, w) => some (decide (88 ∈ w.out))
      | _ => none) = some true := by decide +kernel
    revert this
    cases line 100 0 exWorld (lit "get (0,0) (1,1) (1,0)") with
    | error _ => simp
    | ok p => obtain ⟨v, w⟩ := p; cases v <;> simp
  · intro x y hx hx' hy hy'
    rcases (by omega : x = -1 ∨ x = 0 ∨ x = 1) with rfl | rfl | rfl <;> rcases (by omega : y = -1 ∨ y = 0 ∨ y = 1) with rfl | rfl | rfl <;> decide +kernel

/-- **C96** fails once an IP has ended: its entry stays, with a pointer to a runner that has been deleted. -/
theorem C96_undefined_after_an_end : (match line 100 0 { exWorld with alive := [exSeen 0 0 0] } (lit "list") with
    | .ok _ => none
    | .error e => some e) = some .dangling := by decide +kernel

theorem readVec_garbage (fuel : Nat) (failed : Bool) : readVec (fuel + 1) 40 ⟨[], failed⟩ = .ok (Vec.ofList [0], ⟨[], true⟩) := by cases failed <;> rfl

/-- **C96** fails if the uninitialised variable of `operator>>` happens to hold '(': `list` then never ends. -/
theorem C96_diverges_on_garbage {w : World} {u h : Home} (hu : w.home w.dbg = .ok u) (hs : Sound w u) {r : Seen} (hr : r ∈ w.alive) (hw : w.runner = some r.id)
    (hh : w.home r.uni = .ok h) (fuel : Nat) : line fuel 40 w (lit "list") = .error .fuel := by
  have hw1 : word ⟨lit "list", false⟩ = (lit "list", ⟨[], false⟩) := by krfl
  have hm : (cmdMap.find? fun p => lit p.1 == lit "list").map Prod.snd = some .list := by krfl
  rw [line_call hm fuel 40 w _ _ hw1]
  have hcall : call fuel 40 (w.say promptText) ⟨[], false⟩ .list = .error .fuel := by
    show list fuel 40 (w.say promptText) ⟨[], false⟩ = _
    unfold list
    rw [if_neg (by show ¬(w.runner.isNone = true); rw [hw]; exact Bool.false_ne_true)]
    rw [show (w.say promptText).home (w.say promptText).dbg = .ok u from hu, bind_ok_except,
      show (w.say promptText).deref (w.say promptText).runner = .ok r by rw [show (w.say promptText).runner = some r.id from hw]; exact deref_of_mem hs.unique hr,
      bind_ok_except, show (w.say promptText).home r.uni = .ok h from hh, bind_ok_except]
    cases fuel with
    | zero => rfl
    | succ fuel =>
      rw [readVec_garbage, bind_ok_except]
      dsimp only
      rw [readVec_garbage, bind_ok_except]
      dsimp only
      have e := C96_diverges_along_one_axis (w := w.say promptText) (u := u) ⟨hs.unique, hs.there⟩ h.field r.ip.pos (s := Vec.ofList [0])
        (by intro i; rw [Vec.get_ofList]; cases i <;> simp) 0 (some r.ip.pos) (fuel + 1)
      rw [show orElse (Vec.ofList [0]) (Vec.ofList [3, 3]) = Vec.ofList [0] from rfl,
        show orElse (Vec.ofList [0]) (Vec.ofList [0, 1]) = Vec.ofList [((0 : Nat) : Int), ((0 : Nat) : Int)] by decide, e]
      rfl
  rw [hcall]

end Funge.Defunge
