import Verif.Lemmas.Exec
import Verif.Props.C24_PutGet
/-!
# C50: instructions that change direction
-/
namespace Funge
open Exec

/-- `s'` is `s` except that the delta is now `d` and the top stack holds `l` (and that the last horizontal delta, which FISH and *><>
remember, may have been noted). -/
def Turns (s s' : St) (d : Nat → Int) (l : List Int) : Prop :=
  ∃ v a b n, s' = (((s.setCaches a b).setIP { s.cur.ip with delta := v }).setItems l n) ∧ ∀ i, v.get i = d i

/-- The unit vector along axis `a`, times `x`. -/
def along (a : Nat) (x : Int) : Nat → Int := fun i => if i = a then x else 0

theorem setDelta_turns {s : St} (hh : hasMode s.g.cfg.mode modeHover = false) (l n) (v : Vec) :
    ∃ a b, setDelta v (s.setItems l n) = .ok ((), ((s.setCaches a b).setIP { s.cur.ip with delta := v }).setItems l n) := by
  obtain ⟨a, b, hab⟩ := setDelta_run v (s.setItems l n)
  refine ⟨a, b, ?_⟩
  rw [hab]
  simp only [setItems_g, setItems_ip, hh, IP.setDelta]
  rfl

theorem iGo_turns {s : St} (h : s.Lifo) (hh : hasMode s.g.cfg.mode modeHover = false) (v : Vec) (d : Nat → Int)
    (hd : ∀ i, v.get i = d i) : ∃ s', iGo v s = .ok (.none, s') ∧ Turns s s' d s.items := by
  obtain ⟨a, b, hab⟩ := setDelta_turns hh s.items s.top.ops v
  exact ⟨_, run_items h (by rw [iGo, bind_ok hab, pure_run]), v, a, b, _, rfl, hd⟩

theorem iIf_turns {s : St} (h : s.Lifo) (hh : hasMode s.g.cfg.mode modeHover = false) (z o : Vec) (dz d1 : Nat → Int)
    (hz : ∀ i, z.get i = dz i) (ho : ∀ i, o.get i = d1 i) :
    ∃ s', iIf z o s = .ok (.none, s') ∧ Turns s s' (if s.items.headD 0 = 0 then dz else d1) s.items.tail := by
  by_cases hx : s.items.headD 0 = 0
  · obtain ⟨a, b, hab⟩ := setDelta_turns hh s.items.tail (s.top.ops + 1) z
    refine ⟨_, run_items h ?_, z, a, b, s.top.ops + 1, rfl, ?_⟩
    · rw [iIf, bind_ok (popTop_run h _ _), if_pos hx, bind_ok hab]; rfl
    · rw [if_pos hx]; exact hz
  · obtain ⟨a, b, hab⟩ := setDelta_turns hh s.items.tail (s.top.ops + 1) o
    refine ⟨_, run_items h ?_, o, a, b, s.top.ops + 1, rfl, ?_⟩
    · rw [iIf, bind_ok (popTop_run h _ _), if_neg hx, bind_ok hab]; rfl
    · rw [if_neg hx]; exact ho

theorem ofList_along (l : List Int) (a : Nat) (x : Int) (h : l = List.replicate a 0 ++ [x]) (i : Nat) :
    (Vec.ofList l).get i = along a x i := by
  subst h
  rw [Vec.get_ofList, along]
  by_cases h1 : i < a
  · rw [List.getElem?_append_left (by simpa), if_neg (by omega)]; simp [h1]
  · rw [List.getElem?_append_right (by simpa using h1)]
    by_cases h2 : i = a
    · subst h2; simp
    · rw [if_neg h2]
      obtain ⟨j, hj⟩ : ∃ j, i - (List.replicate a (0 : Int)).length = j + 1 := ⟨i - a - 1, by simp; omega⟩
      rw [hj]; simp

/-- The advertised direction of the instructions without operands. -/
def direction : Op → Option (Nat → Int)
  | .east => some (along 0 1)
  | .west => some (along 0 (-1))
  | .south => some (along 1 1)
  | .north => some (along 1 (-1))
  | .high => some (along 2 1)
  | .low => some (along 2 (-1))
  | .fRight => some (along 0 1)
  | .fLeft => some (along 0 (-1))
  | .fDown => some (along 1 1)
  | .fUp => some (along 1 (-1))
  | _ => none

/-- **C50** `> < v ^ h l` (and ><>'s `> < v ^`) set the delta to the advertised unit vector and alter nothing else. -/
theorem C50_go (exec : Int → Exec Err) (op : Op) (d : Nat → Int) (hd : direction op = some d) (s : St) (h : s.Lifo)
    (hh : hasMode s.g.cfg.mode modeHover = false) (hi : s.g.cfg.inverthl = false) :
    ∃ s', runOp exec op s = .ok (.none, s') ∧ Turns s s' d s.items := by
  cases op <;> simp only [direction, Option.some.injEq, reduceCtorEq] at hd <;> subst hd
  case high =>
    obtain ⟨a, b, hab⟩ := setDelta_turns hh s.items s.top.ops (Vec.ofList [0, 0, 1])
    refine ⟨_, run_items h ?_, Vec.ofList [0, 0, 1], a, b, s.top.ops, rfl, ofList_along _ 2 1 rfl⟩
    show iHigh _ = _
    rw [iHigh, bind_ok (getCfg_run _), setItems_g, hi]
    simp only [Bool.false_eq_true, if_false]
    rw [bind_ok hab]; rfl
  case low =>
    obtain ⟨a, b, hab⟩ := setDelta_turns hh s.items s.top.ops (Vec.ofList [0, 0, -1])
    refine ⟨_, run_items h ?_, Vec.ofList [0, 0, -1], a, b, s.top.ops, rfl, ofList_along _ 2 (-1) rfl⟩
    show iLow _ = _
    rw [iLow, bind_ok (getCfg_run _), setItems_g, hi]
    simp only [Bool.false_eq_true, if_false]
    rw [bind_ok hab]; rfl
  case west => exact iGo_turns h hh (Vec.ofList [-1]) _ (ofList_along _ 0 (-1) rfl)
  case east => exact iGo_turns h hh (Vec.ofList [1]) _ (ofList_along _ 0 1 rfl)
  case north => exact iGo_turns h hh (Vec.ofList [0, -1]) _ (ofList_along _ 1 (-1) rfl)
  case south => exact iGo_turns h hh (Vec.ofList [0, 1]) _ (ofList_along _ 1 1 rfl)
  case fDown => exact iGo_turns h hh (Vec.ofList [0, 1]) _ (ofList_along _ 1 1 rfl)
  case fUp => exact iGo_turns h hh (Vec.ofList [0, -1]) _ (ofList_along _ 1 (-1) rfl)
  case fRight =>
    refine iGo_turns h hh (Vec.ofList [1, 0]) _ fun i => ?_
    rw [Vec.get_ofList, along]; rcases i with _ | _ | i <;> simp
  case fLeft =>
    refine iGo_turns h hh (Vec.ofList [-1, 0]) _ fun i => ?_
    rw [Vec.get_ofList, along]; rcases i with _ | _ | i <;> simp

example : (exState2 [1]).Lifo ∧ hasMode (exState2 [1]).g.cfg.mode modeHover = false ∧ direction .north = some (along 1 (-1)) :=
  ⟨by decide, by decide, rfl⟩

/-- **C50** With the option `-finvert-hl`, `h` and `l` change roles. -/
theorem C50_high_low_inverted (exec : Int → Exec Err) (s : St) (h : s.Lifo)
    (hh : hasMode s.g.cfg.mode modeHover = false) (hi : s.g.cfg.inverthl = true) :
    (∃ s', runOp exec .high s = .ok (.none, s') ∧ Turns s s' (along 2 (-1)) s.items) ∧
    (∃ s', runOp exec .low s = .ok (.none, s') ∧ Turns s s' (along 2 1) s.items) := by
  constructor
  · obtain ⟨a, b, hab⟩ := setDelta_turns hh s.items s.top.ops (Vec.ofList [0, 0, -1])
    refine ⟨_, run_items h ?_, Vec.ofList [0, 0, -1], a, b, s.top.ops, rfl, ofList_along _ 2 (-1) rfl⟩
    show iHigh _ = _
    rw [iHigh, bind_ok (getCfg_run _), setItems_g, hi]
    simp only [if_true]
    rw [bind_ok hab]; rfl
  · obtain ⟨a, b, hab⟩ := setDelta_turns hh s.items s.top.ops (Vec.ofList [0, 0, 1])
    refine ⟨_, run_items h ?_, Vec.ofList [0, 0, 1], a, b, s.top.ops, rfl, ofList_along _ 2 1 rfl⟩
    show iLow _ = _
    rw [iLow, bind_ok (getCfg_run _), setItems_g, hi]
    simp only [if_true]
    rw [bind_ok hab]; rfl

example : ∃ s : St, s.Lifo ∧ hasMode s.g.cfg.mode modeHover = false ∧ s.g.cfg.inverthl = true :=
  ⟨{ exState2 [1] with g := { (exState2 [1]).g with cfg := { dims := 3, inverthl := true } } }, by decide⟩

/-- The directions the three conditionals choose between: for zero and for any other value. -/
def conditional : Op → Option ((Nat → Int) × (Nat → Int))
  | .ifEW => some (along 0 1, along 0 (-1))
  | .ifNS => some (along 1 1, along 1 (-1))
  | .ifHL => some (along 2 1, along 2 (-1))
  | _ => none

/-- **C50** `_ | m` pop one value and go east/south/high if it is zero, west/north/low otherwise. -/
theorem C50_if (exec : Int → Exec Err) (op : Op) (dz d1 : Nat → Int) (hd : conditional op = some (dz, d1)) (s : St)
    (h : s.Lifo) (hh : hasMode s.g.cfg.mode modeHover = false) :
    ∃ s', runOp exec op s = .ok (.none, s') ∧ Turns s s' (if s.items.headD 0 = 0 then dz else d1) s.items.tail := by
  cases op <;> simp only [conditional, Option.some.injEq, Prod.mk.injEq, reduceCtorEq] at hd <;> obtain ⟨rfl, rfl⟩ := hd
  case ifEW => exact iIf_turns h hh (Vec.ofList [1]) (Vec.ofList [-1]) _ _ (ofList_along _ 0 1 rfl) (ofList_along _ 0 (-1) rfl)
  case ifNS => exact iIf_turns h hh (Vec.ofList [0, 1]) (Vec.ofList [0, -1]) _ _ (ofList_along _ 1 1 rfl) (ofList_along _ 1 (-1) rfl)
  case ifHL =>
    exact iIf_turns h hh (Vec.ofList [0, 0, 1]) (Vec.ofList [0, 0, -1]) _ _ (ofList_along _ 2 1 rfl) (ofList_along _ 2 (-1) rfl)

example : (exState2 [5, 6]).Lifo ∧ (exState2 [5, 6]).items.headD 0 ≠ 0 ∧ conditional .ifNS = some (along 1 1, along 1 (-1)) :=
  ⟨by decide, by decide, rfl⟩

/-- **C50** `r` reverses the delta and alters nothing else. -/
theorem C50_reflect (exec : Int → Exec Err) (s : St) (h : s.Lifo) :
    ∃ s', runOp exec .reflect s = .ok (.none, s') ∧ Turns s s' (fun i => - s.cur.ip.delta.get i) s.items := by
  refine ⟨_, rfl, s.cur.ip.delta.reverse, s.cur.fishCache, s.cur.starCache, s.top.ops, ?_, fun i => Vec.get_reverse _ _⟩
  exact (setItems_self (s := s.setIP { s.cur.ip with delta := s.cur.ip.delta.reverse }) h).symm

/-- **C50** `x` pops a vector and makes it the delta. -/
theorem C50_absolute (exec : Int → Exec Err) (s : St) (h : s.Lifo) (hh : hasMode s.g.cfg.mode modeHover = false) :
    ∃ s', runOp exec .absolute s = .ok (.none, s') ∧
      Turns s s' (fun i => if i < s.g.cfg.dims then s.items.getD (s.g.cfg.dims - 1 - i) 0 else 0) (s.items.drop s.g.cfg.dims) := by
  obtain ⟨w, hw, hg, -, -⟩ := popVector_run h s.items s.top.ops
  obtain ⟨a, b, hab⟩ := setDelta_turns hh (s.items.drop s.g.cfg.dims) (s.top.ops + s.g.cfg.dims) w
  refine ⟨_, run_items h ?_, w, a, b, s.top.ops + s.g.cfg.dims, rfl, fun i => by rw [hg]; rfl⟩
  show iAbsolute _ = _
  rw [iAbsolute, bind_ok hw, bind_ok hab]; rfl

example : (exState2 [5, 6, 7]).Lifo ∧ hasMode (exState2 [5, 6, 7]).g.cfg.mode modeHover = false := by decide

/-- The delta after a turn to the left, seen with north up: east becomes north, north west. -/
def turnedLeft (d : Nat → Int) : Nat → Int := fun i => if i = 0 then d 1 else if i = 1 then - d 0 else d i
/-- The delta after a turn to the right: east becomes south, south west. -/
def turnedRight (d : Nat → Int) : Nat → Int := fun i => if i = 0 then - d 1 else if i = 1 then d 0 else d i

theorem left_get (v : Vec) (i : Nat) : v.left.get i = turnedLeft v.get i := by
  rw [Vec.get_left, turnedLeft]
theorem right_get (v : Vec) (i : Nat) : v.right.get i = turnedRight v.get i := by
  rw [Vec.get_right, turnedRight]

theorem onIP_turns {s : St} (_ : s.Lifo) (v : Vec) (l n) (d : Nat → Int) (hd : ∀ i, v.get i = d i) :
    Turns s ((s.setItems l n).setIP { s.cur.ip with delta := v }) d l :=
  ⟨v, s.cur.fishCache, s.cur.starCache, n, rfl, hd⟩

/-- **C50** `[` and `]` turn the delta left and right and alter nothing else (unless switch mode is on). -/
theorem C50_turn (exec : Int → Exec Err) (s : St) (h : s.Lifo) (hw : hasMode s.g.cfg.mode modeSwitch = false) :
    (∃ s', runOp exec .left s = .ok (.none, s') ∧ Turns s s' (turnedLeft s.cur.ip.delta.get) s.items) ∧
    (∃ s', runOp exec .right s = .ok (.none, s') ∧ Turns s s' (turnedRight s.cur.ip.delta.get) s.items) := by
  constructor
  · refine ⟨_, run_items h ?_, onIP_turns h s.cur.ip.delta.left s.items s.top.ops _ (left_get _)⟩
    show iLeft _ = _
    rw [iLeft, bind_ok (onIP_run _ _), switchPut, bind_ok (m := isMode modeSwitch >>= _) (a := ()) (s' := _)]
    · rfl
    · rw [bind_ok (isMode_run _ _)]
      simp only [setIP_g, setItems_g, hw]
      rfl
  · refine ⟨_, run_items h ?_, onIP_turns h s.cur.ip.delta.right s.items s.top.ops _ (right_get _)⟩
    show iRight _ = _
    rw [iRight, bind_ok (onIP_run _ _), switchPut, bind_ok (m := isMode modeSwitch >>= _) (a := ()) (s' := _)]
    · rfl
    · rw [bind_ok (isMode_run _ _)]
      simp only [setIP_g, setItems_g, hw]
      rfl

example : (exState2 []).Lifo ∧ hasMode (exState2 []).g.cfg.mode modeSwitch = false := by decide

/-- **C50** `w` pops b and a: it turns left if a < b, right if a > b, and goes straight on if they are equal. -/
theorem C50_compare (exec : Int → Exec Err) (s : St) (h : s.Lifo) :
    ∃ s', runOp exec .compare s = .ok (.none, s') ∧
      Turns s s' (if s.items.tail.headD 0 < s.items.headD 0 then turnedLeft s.cur.ip.delta.get
        else if s.items.headD 0 < s.items.tail.headD 0 then turnedRight s.cur.ip.delta.get else s.cur.ip.delta.get)
        (s.items.drop 2) := by
  by_cases h1 : s.items.tail.headD 0 < s.items.headD 0
  · rw [if_pos h1]
    refine ⟨_, run_items h ?_, onIP_turns h s.cur.ip.delta.left (s.items.drop 2) (s.top.ops + 2) _ (left_get _)⟩
    show iCompare _ = _
    rw [iCompare, bind_ok (popTop_run h _ _), bind_ok (popTop_run h _ _), if_pos h1, bind_ok (onIP_run _ _), tail_tail]
    rfl
  · by_cases h2 : s.items.headD 0 < s.items.tail.headD 0
    · rw [if_neg h1, if_pos h2]
      refine ⟨_, run_items h ?_, onIP_turns h s.cur.ip.delta.right (s.items.drop 2) (s.top.ops + 2) _ (right_get _)⟩
      show iCompare _ = _
      rw [iCompare, bind_ok (popTop_run h _ _), bind_ok (popTop_run h _ _), if_neg h1, if_pos h2, bind_ok (onIP_run _ _), tail_tail]
      rfl
    · rw [if_neg h1, if_neg h2]
      refine ⟨_, run_items h ?_, onIP_turns h s.cur.ip.delta (s.items.drop 2) (s.top.ops + 2) _ fun _ => rfl⟩
      show iCompare _ = _
      rw [iCompare, bind_ok (popTop_run h _ _), bind_ok (popTop_run h _ _), if_neg h1, if_neg h2]
      show _ = Except.ok (Err.none, s.setItems (s.items.drop 2) (s.top.ops + 2))
      rw [← tail_tail]
      rfl

example : (exState2 [5, 3]).Lifo ∧ (exState2 [5, 3]).items.tail.headD 0 < (exState2 [5, 3]).items.headD 0 := by decide

theorem set_along (a : Nat) (x : Int) (i : Nat) : (Vec.empty.set a x).get i = along a x i := by
  rw [Vec.get_set, along]; split
  · rfl
  · exact Vec.get_of_size_le _ (Nat.zero_le _)

/-- `s` after one answer of the environment has been used. -/
def St.asked (s : St) : St := s.setG { s.g with asked := s.g.asked + 1 }

/-- **C50** Whatever the random source answers, `?` sets the delta to a unit vector along one of the axes of the universe, in one of its
two directions; and each of these can come out. It alters nothing else (dimensions up to 2^30, so that the count fits an `int`). -/
theorem C50_go_away (exec : Int → Exec Err) (s : St) (h : s.Lifo) (hh : hasMode s.g.cfg.mode modeHover = false)
    (hd : 0 < s.g.cfg.dims) (hd' : s.g.cfg.dims ≤ 1073741824) :
    (∃ s' a x, runOp exec .goAway s = .ok (.none, s') ∧ a < s.g.cfg.dims ∧ (x = 1 ∨ x = -1) ∧ Turns s.asked s' (along a x) s.items) ∧
    (∀ a x, a < s.g.cfg.dims → (x = 1 ∨ x = -1) → ∃ orc : Nat → Int, ∃ s',
      runOp exec .goAway (s.setG { s.g with orc := orc }) = .ok (.none, s') ∧
      Turns (s.setG { s.g with orc := orc }).asked s' (along a x) s.items) := by
  have main : ∀ s : St, s.Lifo → hasMode s.g.cfg.mode modeHover = false → 0 < s.g.cfg.dims → s.g.cfg.dims ≤ 1073741824 →
      ∀ r, r = s.g.orc s.g.asked % (2 * (s.g.cfg.dims : Int)) →
      ∃ s', runOp exec .goAway s = .ok (.none, s') ∧
        Turns s.asked s' (along (r / 2).toNat (if r % 2 = 1 then -1 else 1)) s.items := by
    intro s h hh hd hd' r hr
    have e1 : toI64 (2 * (s.g.cfg.dims : Int) - 1) = 2 * (s.g.cfg.dims : Int) - 1 := by
      unfold toI64; rw [Int.bmod_def]; split <;> omega
    have e2 : toInt (2 * (s.g.cfg.dims : Int) - 1) = 2 * (s.g.cfg.dims : Int) - 1 := by
      unfold toInt; rw [Int.bmod_def]; split <;> omega
    have hrand : random 0 (toI64 (2 * (s.g.cfg.dims : Int) - 1)) s = .ok (r, s.asked) := by
      rw [e1, random, e2]
      have e0 : toInt 0 = 0 := by decide
      rw [e0]
      have : (0 : Int) ≤ 2 * (s.g.cfg.dims : Int) - 1 := by omega
      simp only [this, if_true]
      rw [bind_ok (m := ask) (a := s.g.orc s.g.asked) (s' := s.asked) rfl, pure_run]
      have e3 : 2 * (s.g.cfg.dims : Int) - 1 - 0 + 1 = 2 * (s.g.cfg.dims : Int) := by omega
      rw [e3, Int.zero_add, hr]
    have hs : s.asked.Lifo := h
    by_cases h1 : r % 2 = 1
    · obtain ⟨a, b, hab⟩ := setDelta_turns (s := s.asked) hh s.items s.top.ops (Vec.empty.set (r / 2).toNat (-1))
      refine ⟨_, ?_, Vec.empty.set (r / 2).toNat (-1), a, b, s.top.ops, rfl, ?_⟩
      · show iGoAway s = _
        rw [iGoAway, bind_ok (getDims_run _), bind_ok hrand]
        rw [if_pos h1]
        have := run_items hs hab
        rw [bind_ok this]; rfl
      · rw [if_pos h1]; exact set_along _ _
    · obtain ⟨a, b, hab⟩ := setDelta_turns (s := s.asked) hh s.items s.top.ops (Vec.empty.set (r / 2).toNat 1)
      refine ⟨_, ?_, Vec.empty.set (r / 2).toNat 1, a, b, s.top.ops, rfl, ?_⟩
      · show iGoAway s = _
        rw [iGoAway, bind_ok (getDims_run _), bind_ok hrand]
        rw [if_neg h1]
        have := run_items hs hab
        rw [bind_ok this]; rfl
      · rw [if_neg h1]; exact set_along _ _
  constructor
  · obtain ⟨s', hrun, ht⟩ := main s h hh hd hd' _ rfl
    refine ⟨s', _, _, hrun, ?_, ?_, ht⟩
    · have h1 := Int.emod_nonneg (s.g.orc s.g.asked) (b := 2 * (s.g.cfg.dims : Int)) (by omega)
      have h2 := Int.emod_lt_of_pos (s.g.orc s.g.asked) (b := 2 * (s.g.cfg.dims : Int)) (by omega)
      omega
    · split <;> simp
  · intro a x ha hx
    let r : Int := 2 * a + (if x = 1 then 0 else 1)
    have hr0 : r = 2 * a + (if x = 1 then 0 else 1) := rfl
    have hr : r = r % (2 * (s.g.cfg.dims : Int)) := by
      rw [Int.emod_eq_of_lt] <;> split at hr0 <;> omega
    obtain ⟨s', hrun, ht⟩ := main (s.setG { s.g with orc := fun _ => r }) h hh hd hd' r hr
    refine ⟨fun _ => r, s', hrun, ?_⟩
    have e1 : (r / 2).toNat = a := by split at hr0 <;> omega
    have e2 : (if r % 2 = 1 then (-1 : Int) else 1) = x := by
      rcases hx with hx | hx
      · subst hx; simp only [if_true] at hr0; rw [if_neg (by omega)]
      · subst hx; simp at hr0; rw [if_pos (by omega)]
    rw [e1, e2] at ht
    exact ht

example : (exState2 [5]).Lifo ∧ hasMode (exState2 [5]).g.cfg.mode modeHover = false ∧ 0 < (exState2 [5]).g.cfg.dims := by decide

/-- **C50** In hover mode (MODE `H`) a direction instruction adds its direction to the delta instead. -/
theorem C50_hover (v : Vec) (s : St) (hh : hasMode s.g.cfg.mode modeHover = true) :
    ∃ s', setDelta v s = .ok ((), s') ∧ (∀ i, s'.cur.ip.delta.get i = s.cur.ip.delta.get i + v.get i) ∧
      s'.cur.ip.pos = s.cur.ip.pos ∧ s'.cur.ss = s.cur.ss ∧ s'.g = s.g ∧ s'.rest = s.rest := by
  obtain ⟨a, b, hab⟩ := setDelta_run v s
  refine ⟨_, hab, ?_, ?_, rfl, rfl, rfl⟩
  · intro i
    simp only [setIP_ip, hh, IP.setDelta, if_true]
    exact Vec.get_add s.cur.ip.delta v i
  · simp only [setIP_ip, hh, IP.setDelta, if_true]

example : hasMode (modeHover ||| modeSwitch) modeHover = true := by decide

end Funge
