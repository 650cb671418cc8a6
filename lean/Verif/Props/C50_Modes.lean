import Verif.Props.C50_Directions
import Verif.Props.C88_Modes
/-!
# C50 in all modes of the stack, and in hover mode

`_ | m x w` take their operands from the end at which the stack gives them. In hover mode the delta is not replaced but added to.
-/
namespace Funge
open Exec

/-- The delta that a direction `d` makes of the delta of `s`: `d` itself, or in hover mode their sum. -/
def St.heading (s : St) (d : Nat → Int) : Nat → Int :=
  fun i => if hasMode s.g.cfg.mode modeHover then s.cur.ip.delta.get i + d i else d i

theorem setDelta_heading (s : St) (l n) (v : Vec) :
    ∃ s', setDelta v (s.setItems l n) = .ok ((), s') ∧ Turns s s' (s.heading v.get) l := by
  obtain ⟨a, b, hab⟩ := setDelta_run v (s.setItems l n)
  refine ⟨_, hab, (s.cur.ip.setDelta (hasMode s.g.cfg.mode modeHover) v).delta, a, b, n, ?_, ?_⟩
  · cases hh : hasMode s.g.cfg.mode modeHover <;> simp only [setItems_g, setItems_ip, hh, IP.setDelta] <;> rfl
  · intro i
    rw [St.heading]
    cases hh : hasMode s.g.cfg.mode modeHover
    · rfl
    · exact Vec.get_add s.cur.ip.delta v i

theorem heading_congr (s : St) {d d' : Nat → Int} (h : ∀ i, d i = d' i) : s.heading d = s.heading d' := by rw [funext h]

theorem iGo_heading {s : St} (h : s.cur.ss.select < s.cur.ss.stacks.length) (v : Vec) (d : Nat → Int) (hv : ∀ i, v.get i = d i) :
    ∃ s', (setDelta v >>= fun _ => pure .none : Exec Err) s = .ok (.none, s') ∧ Turns s s' (s.heading d) s.items := by
  obtain ⟨s', e1, e2⟩ := setDelta_heading s s.items s.top.ops v
  rw [show s.setItems s.items s.top.ops = s from setTop_self h] at e1
  exact ⟨s', by rw [bind_ok e1]; rfl, by rw [← heading_congr s hv]; exact e2⟩

/-- **C50** in all modes: `> < v ^ h l` (and ><>'s `> < v ^`) head in the advertised direction, h and l the other way with -finvert-hl, and leave the
stack alone. -/
theorem C50_go_any_mode (exec : Int → Exec Err) (op : Op) (d : Nat → Int) (hd : direction op = some d) (s : St)
    (h : s.cur.ss.select < s.cur.ss.stacks.length) :
    ∃ s', runOp exec op s = .ok (.none, s') ∧
      Turns s s' (s.heading fun i => if (op = .high ∨ op = .low) ∧ s.g.cfg.inverthl = true then - d i else d i) s.items := by
  cases op <;> simp only [direction, Option.some.injEq, reduceCtorEq] at hd <;> subst hd <;>
    simp only [reduceCtorEq, or_self, false_and, if_false, or_false, false_or, true_and]
  case high =>
    show ∃ s', iHigh s = _ ∧ _
    rw [iHigh, bind_ok (getCfg_run _)]
    cases hi : s.g.cfg.inverthl <;> simp only [if_true, if_false, Bool.false_eq_true]
    · exact iGo_heading h _ _ (ofList_along _ 2 1 rfl)
    · exact iGo_heading h _ _ fun i => by rw [ofList_along [0, 0, -1] 2 (-1) rfl]; simp only [along]; split <;> rfl
  case low =>
    show ∃ s', iLow s = _ ∧ _
    rw [iLow, bind_ok (getCfg_run _)]
    cases hi : s.g.cfg.inverthl <;> simp only [if_true, if_false, Bool.false_eq_true]
    · exact iGo_heading h _ _ (ofList_along _ 2 (-1) rfl)
    · exact iGo_heading h _ _ fun i => by rw [ofList_along [0, 0, 1] 2 1 rfl]; simp only [along]; split <;> rfl
  case west => exact iGo_heading h (Vec.ofList [-1]) _ (ofList_along _ 0 (-1) rfl)
  case east => exact iGo_heading h (Vec.ofList [1]) _ (ofList_along _ 0 1 rfl)
  case north => exact iGo_heading h (Vec.ofList [0, -1]) _ (ofList_along _ 1 (-1) rfl)
  case south => exact iGo_heading h (Vec.ofList [0, 1]) _ (ofList_along _ 1 1 rfl)
  case fDown => exact iGo_heading h (Vec.ofList [0, 1]) _ (ofList_along _ 1 1 rfl)
  case fUp => exact iGo_heading h (Vec.ofList [0, -1]) _ (ofList_along _ 1 (-1) rfl)
  case fLeft => exact iGo_heading h (Vec.ofList [-1]) _ (ofList_along _ 0 (-1) rfl)
  case fRight => exact iGo_heading h (Vec.ofList [1]) _ (ofList_along _ 0 1 rfl)

/-- A machine in hover mode. -/
example : let s := (exState2 [7]).setG { (exState2 [7]).g with cfg := { (exState2 [7]).g.cfg with mode := modeHover } }
    s.cur.ss.select < s.cur.ss.stacks.length ∧ hasMode s.g.cfg.mode modeHover = true ∧ s.heading (along 0 1) 0 = s.cur.ip.delta.get 0 + 1 := by decide

theorem iIf_heading {s : St} (h : s.cur.ss.select < s.cur.ss.stacks.length) (z o : Vec) (dz d1 : Nat → Int) (hz : ∀ i, z.get i = dz i) (ho : ∀ i, o.get i = d1 i) :
    ∃ s', iIf z o s = .ok (.none, s') ∧
      Turns s s' (s.heading (if s.due.headD 0 = 0 then dz else d1)) (fromEnd (hasMode s.top.mode modeQueue) s.due.tail) := by
  have hp := popTop_any h rfl s.due s.top.ops
  rw [due_self h rfl] at hp
  by_cases hx : s.due.headD 0 = 0
  · obtain ⟨s', e1, e2⟩ := setDelta_heading s (fromEnd (hasMode s.top.mode modeQueue) s.due.tail) (s.top.ops + 1) z
    refine ⟨s', ?_, by rw [if_pos hx, ← heading_congr s hz]; exact e2⟩
    rw [iIf, bind_ok hp, if_pos hx, bind_ok e1]; rfl
  · obtain ⟨s', e1, e2⟩ := setDelta_heading s (fromEnd (hasMode s.top.mode modeQueue) s.due.tail) (s.top.ops + 1) o
    refine ⟨s', ?_, by rw [if_neg hx, ← heading_congr s ho]; exact e2⟩
    rw [iIf, bind_ok hp, if_neg hx, bind_ok e1]; rfl

/-- **C50** in all modes: `_ | m` take the next value of the stack and head east/south/high if it is zero, west/north/low otherwise. -/
theorem C50_if_any_mode (exec : Int → Exec Err) (op : Op) (dz d1 : Nat → Int) (hd : conditional op = some (dz, d1)) (s : St)
    (h : s.cur.ss.select < s.cur.ss.stacks.length) :
    ∃ s', runOp exec op s = .ok (.none, s') ∧
      Turns s s' (s.heading (if s.due.headD 0 = 0 then dz else d1)) (fromEnd (hasMode s.top.mode modeQueue) s.due.tail) := by
  cases op <;> simp only [conditional, Option.some.injEq, Prod.mk.injEq, reduceCtorEq] at hd <;> obtain ⟨rfl, rfl⟩ := hd
  case ifEW => exact iIf_heading h (Vec.ofList [1]) (Vec.ofList [-1]) _ _ (ofList_along _ 0 1 rfl) (ofList_along _ 0 (-1) rfl)
  case ifNS => exact iIf_heading h (Vec.ofList [0, 1]) (Vec.ofList [0, -1]) _ _ (ofList_along _ 1 1 rfl) (ofList_along _ 1 (-1) rfl)
  case ifHL => exact iIf_heading h (Vec.ofList [0, 0, 1]) (Vec.ofList [0, 0, -1]) _ _ (ofList_along _ 2 1 rfl) (ofList_along _ 2 (-1) rfl)

/-- **C50** in all modes: `x` takes a vector from the stack and heads along it. -/
theorem C50_absolute_any_mode (exec : Int → Exec Err) (s : St) (h : s.cur.ss.select < s.cur.ss.stacks.length) :
    ∃ s', runOp exec .absolute s = .ok (.none, s') ∧
      Turns s s' (s.heading fun i => if i < s.g.cfg.dims then s.due.getD (s.g.cfg.dims - 1 - i) 0 else 0)
        (fromEnd (hasMode s.top.mode modeQueue) (s.due.drop s.g.cfg.dims)) := by
  obtain ⟨w, hw, hg⟩ := popVector_any h rfl s.due s.top.ops
  rw [due_self h rfl] at hw
  obtain ⟨s', e1, e2⟩ := setDelta_heading s (fromEnd (hasMode s.top.mode modeQueue) (s.due.drop s.g.cfg.dims)) (s.top.ops + s.g.cfg.dims) w
  refine ⟨s', ?_, ?_⟩
  · show iAbsolute _ = _
    rw [iAbsolute, bind_ok hw, bind_ok e1]; rfl
  · rw [hg] at e2; exact e2

/-- **C50** in all modes: `w` takes b and then a from the stack and turns left if a < b, right if a > b. (It turns in hover mode too.) -/
theorem C50_compare_any_mode (exec : Int → Exec Err) (s : St) (h : s.cur.ss.select < s.cur.ss.stacks.length) :
    ∃ s', runOp exec .compare s = .ok (.none, s') ∧
      Turns s s' (if s.due.tail.headD 0 < s.due.headD 0 then turnedLeft s.cur.ip.delta.get
        else if s.due.headD 0 < s.due.tail.headD 0 then turnedRight s.cur.ip.delta.get else s.cur.ip.delta.get)
        (fromEnd (hasMode s.top.mode modeQueue) (s.due.drop 2)) := by
  have hp := popTop_any h rfl s.due s.top.ops
  rw [due_self h rfl] at hp
  have hp2 := popTop_any h rfl s.due.tail (s.top.ops + 1)
  rw [tail_tail] at hp2
  have tu : ∀ (v : Vec) (d : Nat → Int), (∀ i, v.get i = d i) → Turns s ((s.setItems (fromEnd (hasMode s.top.mode modeQueue) (s.due.drop 2)) (s.top.ops + 1 + 1)).setIP
      { s.cur.ip with delta := v }) d (fromEnd (hasMode s.top.mode modeQueue) (s.due.drop 2)) := fun v d hd => ⟨v, s.cur.fishCache, s.cur.starCache, _, rfl, hd⟩
  by_cases h1 : s.due.tail.headD 0 < s.due.headD 0
  · rw [if_pos h1]
    refine ⟨_, ?_, tu s.cur.ip.delta.left _ (left_get _)⟩
    show iCompare _ = _
    rw [iCompare, bind_ok hp, bind_ok hp2, if_pos h1, bind_ok (onIP_run _ _)]
    rfl
  · by_cases h2 : s.due.headD 0 < s.due.tail.headD 0
    · rw [if_neg h1, if_pos h2]
      refine ⟨_, ?_, tu s.cur.ip.delta.right _ (right_get _)⟩
      show iCompare _ = _
      rw [iCompare, bind_ok hp, bind_ok hp2, if_neg h1, if_pos h2, bind_ok (onIP_run _ _)]
      rfl
    · rw [if_neg h1, if_neg h2]
      refine ⟨_, ?_, tu s.cur.ip.delta _ fun _ => rfl⟩
      show iCompare _ = _
      rw [iCompare, bind_ok hp, bind_ok hp2, if_neg h1, if_neg h2]
      rfl

/-- A queue that holds 7 on top and gives 0 first: `_` heads east, though 7 is on top. -/
example : let s := (exState2 []).setTop ⟨modeQueue, [7, 0], 0⟩
    s.cur.ss.select < s.cur.ss.stacks.length ∧ s.due = [0, 7] ∧ s.due.headD 0 = 0 ∧ s.items.headD 0 ≠ 0 := by decide

end Funge
