import Verif.Props.C30_Schedule
import Verif.Props.C50_Directions
import Verif.Props.C51_FRTH
/-
C59 (NFUN).
-/
namespace Funge
open Exec

/-- The universe has a dimension for every axis the current IP moves along. -/
def St.Covered (s : St) : Prop := ∀ i, s.cur.ip.delta.get i ≠ 0 → i < s.g.cfg.dims

theorem growDims_run (d : Nat) (s : St) :
    growDims d s = .ok ((), s.setG { s.g with cfg := { s.g.cfg with dims := max s.g.cfg.dims d } }) := by
  show Except.ok ((), s.setG (if s.g.cfg.dims < d then _ else _)) = _
  congr 2
  split
  · rename_i h
    have : max s.g.cfg.dims d = d := by omega
    rw [this]
  · rename_i h
    have : max s.g.cfg.dims d = s.g.cfg.dims := by omega
    rw [this]

/-- Setting the delta to one with the only non-zero coordinate `n`, and then growing the universe to `d` dimensions. -/
theorem go_covered {s : St} (hc : hasMode s.g.cfg.mode modeHover = false ∨ s.Covered) {v : Vec} {d n : Nat} (hv : ∀ i, v.get i ≠ 0 → i = n)
    (hd : n < max s.g.cfg.dims d) :
    ∃ s', (do setDelta v; growDims d; pure .none : Exec Err) s = .ok (.none, s') ∧ s'.Covered ∧ s'.g.cfg.dims = max s.g.cfg.dims d ∧
      s'.cur.ss = s.cur.ss := by
  obtain ⟨a, b, h1⟩ := setDelta_run v s
  rw [bind_ok h1, bind_ok (growDims_run _ _)]
  refine ⟨_, rfl, ?_, rfl, rfl⟩
  intro i hi
  show i < max s.g.cfg.dims d
  change (s.cur.ip.setDelta (hasMode s.g.cfg.mode modeHover) v).delta.get i ≠ 0 at hi
  by_cases hh : hasMode s.g.cfg.mode modeHover = true
  · have : (s.cur.ip.setDelta (hasMode s.g.cfg.mode modeHover) v).delta.get i = s.cur.ip.delta.get i + v.get i := by
      rw [hh, IP.setDelta, if_pos rfl]
      exact Vec.get_add s.cur.ip.delta v i
    rw [this] at hi
    by_cases hz : v.get i = 0
    · have := (hc.resolve_left (by rw [hh]; decide)) i (by omega)
      omega
    · have := hv i hz; omega
  · have hh : hasMode s.g.cfg.mode modeHover = false := by simpa using hh
    rw [hh, IP.setDelta, if_neg (by decide)] at hi
    have := hv i hi; omega

theorem ofList_axis (l : List Int) (n : Nat) (h : ∀ i < l.length, l[i]?.getD 0 ≠ 0 → i = n) : ∀ i, (Vec.ofList l).get i ≠ 0 → i = n := by
  intro i hi
  rw [Vec.get_ofList] at hi
  by_cases hl : i < l.length
  · exact h i hl hi
  · rw [List.getElem?_eq_none (by omega)] at hi
    exact absurd rfl hi

/-- **C59.** The direction instructions of NFUN along the fourth, fifth and sixth axis: afterwards the universe covers every axis the IP moves along,
in any number of dimensions. In hover mode, where the delta of the IP is only added to, it has to have been covered before. -/
theorem C59_named_axes {s : St} (h : s.Lifo) (hc : hasMode s.g.cfg.mode modeHover = false ∨ s.Covered) {c : Int}
    (hm : c ∈ [65, 67, 68, 72, 73, 76, 77, 82, 86]) :  -- A C D H I L M R V
    ∃ s', fpRun .NFUN c s = .ok (.none, s') ∧ s'.Covered ∧ s.g.cfg.dims ≤ s'.g.cfg.dims ∧
      s'.items = if c ∈ [73, 77, 82] then s.items.tail else s.items := by
  have go : ∀ (l : List Int) (n d : Nat), (∀ i < l.length, l[i]?.getD 0 ≠ 0 → i = n) → n < d →
      ∃ s', nfunGo (Vec.ofList l) d s = .ok (.none, s') ∧ s'.Covered ∧ s.g.cfg.dims ≤ s'.g.cfg.dims ∧ s'.items = s.items := by
    intro l n d hl hd
    obtain ⟨s', h1, h2, h3, h4⟩ := go_covered hc (ofList_axis l n hl) (d := d) (by omega)
    exact ⟨s', h1, h2, by omega, by unfold St.items St.top; rw [h4]⟩
  have hl : ∀ (l m : List Int) (n d : Nat), (∀ i < l.length, l[i]?.getD 0 ≠ 0 → i = n) → (∀ i < m.length, m[i]?.getD 0 ≠ 0 → i = n) → n < d →
      ∃ s', nfunHL (Vec.ofList l) (Vec.ofList m) d s = .ok (.none, s') ∧ s'.Covered ∧ s.g.cfg.dims ≤ s'.g.cfg.dims ∧ s'.items = s.items := by
    intro l m n d hl hm hd
    rw [nfunHL, bind_ok (getCfg_run s)]
    cases s.g.cfg.inverthl
    · exact go l n d hl hd
    · exact go m n d hm hd
  have hi : ∀ (l m : List Int) (n d : Nat), (∀ i < l.length, l[i]?.getD 0 ≠ 0 → i = n) → (∀ i < m.length, m[i]?.getD 0 ≠ 0 → i = n) → n < d →
      ∃ s', nfunIf (Vec.ofList l) (Vec.ofList m) d s = .ok (.none, s') ∧ s'.Covered ∧ s.g.cfg.dims ≤ s'.g.cfg.dims ∧ s'.items = s.items.tail := by
    intro l m n d hl hm hd
    have hp := popTop_run h s.items s.top.ops
    rw [setItems_self h] at hp
    have hc' : hasMode (s.setItems s.items.tail (s.top.ops + 1)).g.cfg.mode modeHover = false ∨ (s.setItems s.items.tail (s.top.ops + 1)).Covered := hc
    have key : ∀ l : List Int, (∀ i < l.length, l[i]?.getD 0 ≠ 0 → i = n) → ∃ s', (do setDelta (Vec.ofList l); growDims d; pure .none : Exec Err)
        (s.setItems s.items.tail (s.top.ops + 1)) = .ok (.none, s') ∧ s'.Covered ∧ s.g.cfg.dims ≤ s'.g.cfg.dims ∧ s'.items = s.items.tail := by
      intro l hl
      obtain ⟨s', h1, h2, h3, h4⟩ := go_covered hc' (ofList_axis l n hl) (d := d) (by rw [setItems_g]; omega)
      rw [setItems_g] at h3
      refine ⟨s', h1, h2, by omega, ?_⟩
      have := items_setItems h s.items.tail (s.top.ops + 1)
      unfold St.items St.top at this ⊢
      rw [h4]
      exact this
    rw [nfunIf, bind_ok hp]
    by_cases hx : s.items.headD 0 = 0
    · rw [if_pos hx]; exact key l hl
    · rw [if_neg hx]; exact key m hm
  simp only [List.mem_cons, List.not_mem_nil, or_false] at hm
  rcases hm with rfl | rfl | rfl | rfl | rfl | rfl | rfl | rfl | rfl
  · exact go _ 3 4 (by decide) (by decide)
  · exact go _ 5 6 (by decide) (by decide)
  · exact go _ 5 6 (by decide) (by decide)
  · exact hl _ _ 4 5 (by decide) (by decide) (by decide)
  · exact hi _ _ 3 4 (by decide) (by decide) (by decide)
  · exact hl _ _ 4 5 (by decide) (by decide) (by decide)
  · exact hi _ _ 4 5 (by decide) (by decide) (by decide)
  · exact hi _ _ 5 6 (by decide) (by decide) (by decide)
  · exact go _ 3 4 (by decide) (by decide)

/-- What `X`, `Y` and `Z` do with a non-negative axis `n`. -/
theorem axis_run (s : St) (n : Nat) (x : Int) :
    ∃ v : Vec, axisVec n x s = .ok (v, s) ∧ (∀ i, v.get i = if i = n then x else 0) := by
  refine ⟨Vec.empty.set n x, ?_, ?_⟩
  · unfold axisVec
    rw [if_neg (by omega)]
    simp [pure_run]
  · intro i
    rw [Vec.get_set]
    split
    · rfl
    · rfl

/-- The axis on top of the stack and, for `X`, the value under it are gone; the IP has direction `x` along axis `n`, and the universe has `max dims n`
dimensions. -/
theorem axis_go {s : St} (h : s.Lifo) {n : Nat} {c : Int} {l : List Int} (hm : c ∈ [88, 89, 90]) (hi : s.items = (n : Int) :: l) :
    ∃ (v : Vec) (x : Int) (t : St), x ≠ 0 ∧ (∀ i, v.get i = if i = n then x else 0) ∧ t.g = s.g ∧ t.cur.ip = s.cur.ip ∧
      fpRun .NFUN c s = (do setDelta v; growDims n; pure .none : Exec Err) t := by
  have key : ∀ x : Int, x ≠ 0 → fpRun .NFUN c = nfunGoN x → ∃ (v : Vec) (x : Int) (t : St), x ≠ 0 ∧ (∀ i, v.get i = if i = n then x else 0) ∧
      t.g = s.g ∧ t.cur.ip = s.cur.ip ∧ fpRun .NFUN c s = (do setDelta v; growDims n; pure .none : Exec Err) t := by
    intro x hx he
    rw [he]
    obtain ⟨v, hv, hg⟩ := axis_run (s.setItems l (s.top.ops + 1)) n x
    refine ⟨v, x, s.setItems l (s.top.ops + 1), hx, hg, rfl, rfl, ?_⟩
    conv => lhs; rw [← setItems_self h, hi]
    rw [nfunGoN, bind_ok (popTop_head h _ _ _), bind_ok hv]
    simp
  simp only [List.mem_cons, List.not_mem_nil, or_false] at hm
  rcases hm with rfl | rfl | rfl
  · obtain ⟨v, hv, hg⟩ := axis_run (s.setItems l.tail (s.top.ops + 1 + 1)) n (if l.headD 0 = 0 then 1 else -1)
    refine ⟨v, if l.headD 0 = 0 then 1 else -1, s.setItems l.tail (s.top.ops + 1 + 1), by split <;> decide, hg, rfl, rfl, ?_⟩
    show nfunIfN s = _
    conv => lhs; rw [← setItems_self h, hi]
    rw [nfunIfN, bind_ok (popTop_head h _ _ _), bind_ok (popTop_run h _ _), bind_ok hv]
    simp
  · exact key (-1) (by decide) rfl
  · exact key 1 (by decide) rfl

/-- **C59.** `X`, `Y` and `Z`, which take the axis from the stack, if the universe already has that axis. What is missing is the case in which it
has not: see `C59_false_for_new_axis`. -/
theorem C59_axis_partial {s : St} (h : s.Lifo) (hc : hasMode s.g.cfg.mode modeHover = false ∨ s.Covered) {n : Nat} {c : Int} {l : List Int}
    (hm : c ∈ [88, 89, 90]) (hi : s.items = (n : Int) :: l) (hn : n < s.g.cfg.dims) :
    ∃ s', fpRun .NFUN c s = .ok (.none, s') ∧ s'.Covered ∧ s'.g.cfg.dims = s.g.cfg.dims := by
  obtain ⟨v, x, t, hx, hg, h1, h2, h3⟩ := axis_go h hm hi
  have hc' : hasMode t.g.cfg.mode modeHover = false ∨ t.Covered := by rw [St.Covered, h1, h2]; exact hc
  obtain ⟨s', h4, h5, h6, -⟩ := go_covered hc' (v := v) (d := n) (n := n) (by intro i hi; rw [hg] at hi; exact Decidable.byContradiction fun hne => hi (if_neg hne)) (by rw [h1]; omega)
  refine ⟨s', h3 ▸ h4, h5, ?_⟩
  rw [h1] at h6; omega

/-- **C59 does not hold** of any new axis: if the universe has `n` dimensions or fewer, `X`, `Y` and `Z` send the IP along axis `n` but extend the universe
to `n` dimensions only, so that axis `n` is not among them. -/
theorem C59_false_for_new_axis {s : St} (h : s.Lifo) (hh : hasMode s.g.cfg.mode modeHover = false) {n : Nat} {c : Int} {l : List Int}
    (hm : c ∈ [88, 89, 90]) (hi : s.items = (n : Int) :: l) (hn : s.g.cfg.dims ≤ n) :
    ∃ s', fpRun .NFUN c s = .ok (.none, s') ∧ s'.cur.ip.delta.get n ≠ 0 ∧ s'.g.cfg.dims = n := by
  obtain ⟨v, x, t, hx, hg, h1, h2, h3⟩ := axis_go h hm hi
  obtain ⟨a, b, h4⟩ := setDelta_run v t
  refine ⟨_, by rw [h3, bind_ok h4, bind_ok (growDims_run _ _)]; rfl, ?_, ?_⟩
  · show (t.cur.ip.setDelta (hasMode t.g.cfg.mode modeHover) v).delta.get n ≠ 0
    rw [h1, hh, IP.setDelta, if_neg (by decide)]
    dsimp only
    rw [hg, if_pos rfl]
    exact hx
  · show max t.g.cfg.dims n = n
    rw [h1]; omega

/-- A negative axis ends the program with an exception. -/
theorem C59_undefined_for_negative {s : St} (h : s.Lifo) {n : Int} {l : List Int} (hi : s.items = n :: l) (hn : n < 0) :
    fpRun .NFUN 88 s = .error .exception ∧ fpRun .NFUN 89 s = .error .exception ∧ fpRun .NFUN 90 s = .error .exception := by
  have h0 : ∀ x t, axisVec n x t = .error .exception := fun x t => by unfold axisVec; rw [if_pos hn]; rfl
  have h1 : ∀ x, nfunGoN x s = .error .exception := by
    intro x
    conv => lhs; rw [← setItems_self h, hi]
    rw [nfunGoN, bind_ok (popTop_head h _ _ _), bind_error (h0 _ _)]
  refine ⟨?_, h1 _, h1 _⟩
  show nfunIfN s = _
  conv => lhs; rw [← setItems_self h, hi]
  rw [nfunIfN, bind_ok (popTop_head h _ _ _), bind_ok (popTop_run h _ _), bind_error (h0 _ _)]

/-! ### What comes of it -/

theorem inField_congr {d : Nat} {f : Field} {p q : Vec} (h : ∀ i < d, p.get i = q.get i) : IP.inField d f p = IP.inField d f q := by
  unfold IP.inField
  rw [Bool.eq_iff_iff, List.all_eq_true, List.all_eq_true]
  constructor <;> intro hp n hn <;> have := hp n hn <;> rw [h n (List.mem_range.1 hn)] at * <;> exact this

/-- An IP that moves along an axis the universe does not have never comes back: if its path is blank, its turn does not end. -/
theorem flies_away {n : Nat} : ∀ (k : Nat) (s : St), s.g.cfg.topo = .lahey → s.g.cfg.dims ≤ n → s.cur.ip.stopped = false →
    (∀ i, s.cur.ip.delta.get i = if i = n then 1 else 0) → IP.inField s.g.cfg.dims s.g.field s.cur.ip.pos = true →
    (∀ p : Vec, s.cur.ip.pos.get n ≤ p.get n → s.g.field.get p = 32) → s.cur.getSem 32 = some ⟨.skip, false⟩ → s.cur.inString = false →
    hasMode s.g.cfg.mode modeDive = false → tickLoop k s = .error .fuel := by
  intro k
  induction k with
  | zero => intros; rfl
  | succ k ih =>
    intro s ht hd hs hv hf hb hsem hstr hm
    by_cases h0 : 0 < s.g.fuel
    · have hx : execute s.g.fuel (s.g.field.get s.cur.ip.pos) s = .ok (.skip, s) := by
        rw [hb _ (Int.le_refl _)]
        exact execute_op h0 hstr 32 hsem (.inl hm)
      have hf' : IP.inField s.g.cfg.dims s.g.field (s.cur.ip.pos.add s.cur.ip.delta) = true := by
        rw [inField_congr (q := s.cur.ip.pos)]
        · exact hf
        · intro i hi
          rw [Vec.get_add, hv, if_neg (by omega), Int.add_zero]
      have hip : s.cur.ip.next s.g.cfg.dims s.g.cfg.topo s.g.field = .ok { s.cur.ip with pos := s.cur.ip.pos.add s.cur.ip.delta } := by
        unfold IP.next
        rw [hs, ht]
        simp [hf', hs]
      rw [tickLoop_skip hx hip]
      refine ih (s.setIP { s.cur.ip with pos := s.cur.ip.pos.add s.cur.ip.delta }) ht hd hs hv hf' ?_ hsem hstr hm
      intro p hp
      refine hb p ?_
      change (s.cur.ip.pos.add s.cur.ip.delta).get n ≤ _ at hp
      rw [Vec.get_add, hv, if_pos rfl] at hp
      omega
    · have h0 : s.g.fuel = 0 := by omega
      rw [tickLoop, bind_ok (ipGet_run s), bind_ok (getFuel_run s), h0]
      rfl

/-- `"NUFN"4(2Z@`: goes along the third axis of a universe with two. -/
def nfunProgram : St := machine [34, 78, 85, 70, 78, 34, 52, 40, 50, 90, 64]

/-- The state after its `Z`. -/
def nfunGone : St := match ticks 10 nfunProgram with | .ok (_, s) => s | .error _ => nfunProgram

/-- What a machine can check of a state to see that it is one of those: two dimensions, and the IP heading along the third away from all cells. -/
def fliesOff (t : St) : Bool :=
  t.g.cfg.topo = .lahey && t.g.cfg.dims = 2 && !t.cur.ip.stopped && t.cur.ip.delta = Vec.ofList [0, 0, 1] &&
    IP.inField t.g.cfg.dims t.g.field t.cur.ip.pos && t.cur.ip.pos.get 2 = 1 && t.g.field.cells.all (fun kv => kv.1.get 2 = 0) &&
    !t.g.field.charCells && t.cur.getSem 32 = some ⟨.skip, false⟩ && !t.cur.inString && !hasMode t.g.cfg.mode modeDive

theorem flies_off {t : St} (h : fliesOff t = true) (fuel : Nat) : tick { t with g := { t.g with fuel := fuel } } = .error .fuel := by
  simp only [fliesOff, Bool.and_eq_true, decide_eq_true_eq, Bool.not_eq_true', List.all_eq_true] at h
  obtain ⟨⟨⟨⟨⟨⟨⟨⟨⟨⟨h1, h2⟩, h3⟩, h4⟩, h5⟩, h6⟩, h7⟩, h7'⟩, h8⟩, h9⟩, h10⟩ := h
  rw [tick, bind_ok (getFuel_run _)]
  refine flies_away (n := 2) _ _ h1 (Nat.le_of_eq h2) h3 ?_ h5 ?_ h8 h9 h10
  · intro i
    show t.cur.ip.delta.get i = _
    rw [h4, Vec.get_ofList]
    match i with
    | 0 => rfl
    | 1 => rfl
    | 2 => rfl
    | i + 3 => simp
  · intro p hp
    change t.cur.ip.pos.get 2 ≤ _ at hp
    rw [h6] at hp
    show t.g.field.get p = 32
    unfold Field.get
    rw [Field.find_none_of, h7']
    · rfl
    · intro kv hkv
      have := h7 kv hkv
      cases he : kv.1.eqv p with
      | false => rfl
      | true =>
        have := (Vec.eqv_iff _ _).1 he 2
        omega

/-- That turn is the last that ends: with however much fuel, the next one does not. -/
theorem C59_false_for_a_program (fuel : Nat) : tick { nfunGone with g := { nfunGone.g with fuel := fuel } } = .error .fuel :=
  flies_off (by decide +kernel) fuel

/-- The same program with a universe it does not leave: `1Z`, with hypotheses of the theorems above. -/
example : (match ticks 9 (machine [34, 78, 85, 70, 78, 34, 52, 40, 49, 90, 64]) with
    | .ok (_, s) => s.items == ((1 : Nat) : Int) :: [1, 1313232206] && decide s.Lifo && hasMode s.g.cfg.mode modeHover == false &&
        decide (1 < s.g.cfg.dims)
    | .error _ => false) = true := by decide +kernel
/-- And with `R`, which takes the value 1 and extends the universe to six dimensions. -/
example : (match ticks 10 (machine [34, 78, 85, 70, 78, 34, 52, 40, 49, 82, 64]) with
    | .ok (_, s) => some (s.items, s.g.cfg.dims, s.cur.ip.delta)
    | .error _ => none) = some ([1, 1313232206], 6, Vec.ofList [0, 0, 0, 0, 0, -1]) := by decide +kernel

end Funge
