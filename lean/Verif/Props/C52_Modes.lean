import Verif.Props.C37_Modes
import Verif.Props.C88_Modes
/-!
# C52 in all modes of the stack

`R` and `D` of REFC take their operands from the end at which the stack gives them and push at the end at which it takes; the vector is the same.
-/
namespace Funge
open Exec

theorem pushVector_any {s : St} (h : s.cur.ss.select < s.cur.ss.stacks.length) (v : Vec) (l n) :
    pushVector v (s.setItems l n) =
      .ok ((), s.setItems (pushedTo (hasMode s.top.mode modeInvert) ((List.range s.g.cfg.dims).map v.get) l) (n + s.g.cfg.dims)) := by
  generalize hi : hasMode s.top.mode modeInvert = i
  rw [pushVector, pushVectorOn, bind_ok (getDims_run _)]
  show pushAll pushTop ((List.range s.g.cfg.dims).map v.get) _ = _
  have := pushAll_same h hi ((List.range s.g.cfg.dims).map v.get) (fromEnd i l) n
  rw [fromEnd_fromEnd] at this
  rw [this]
  cases i <;> simp [fromEnd, pushedTo]

/-- **C52** in all modes of the stack: `R` takes a vector from the stack and pushes a number that stood for nothing before and now stands for
that vector; every other reference stands for what it did. -/
theorem C52_reference_any_mode {s s' : St} {e : Err} (h : s.cur.ss.select < s.cur.ss.stacks.length) (hr : refcRef s = .ok (e, s')) :
    ∃ r v, e = .none ∧
      s'.items = pushedTo (hasMode s.top.mode modeInvert) [r] (fromEnd (hasMode s.top.mode modeQueue) (s.due.drop s.g.cfg.dims)) ∧
      s.g.deref r = none ∧ s'.g.deref r = some v ∧ (∀ i, v.get i = vecOf s.due s.g.cfg.dims i) ∧
      ∀ r', r' ≠ r → s'.g.deref r' = s.g.deref r' := by
  generalize hq : hasMode s.top.mode modeQueue = q
  rw [← due_self h hq] at hr
  obtain ⟨v, hv, hg⟩ := popVector_any h hq s.due s.top.ops
  rw [refcRef, bind_ok hv, bind_ok (getFuel_run _)] at hr
  change seq _ _ _ = _ at hr
  unfold seq at hr
  split at hr
  · rename_i r s1 h1
    obtain ⟨hfresh, a, rfl⟩ := refcFresh_run _ h1
    have h' : (s.setG { s.g with asked := a, refc := (r, v) :: s.g.refc }).cur.ss.select <
      (s.setG { s.g with asked := a, refc := (r, v) :: s.g.refc }).cur.ss.stacks.length := h
    change (_ >>= _ : Exec Err) _ = _ at hr
    rw [bind_ok (rfl : modG (fun g => { g with refc := (r, v) :: g.refc }) _ = .ok ((),
      (s.setG { s.g with asked := a, refc := (r, v) :: s.g.refc }).setItems (fromEnd q (s.due.drop s.g.cfg.dims)) _))] at hr
    rw [bind_ok (pushTop_any h' _ _ _)] at hr
    cases hr
    refine ⟨r, v, rfl, ?_, hfresh, ?_, fun i => congrFun hg i, ?_⟩
    · rw [St.items, top_setItems h']; rfl
    · show refcFind ((r, v) :: s.g.refc) r = _
      unfold refcFind; rw [if_pos rfl]
    · intro r' hne
      show refcFind ((r, v) :: s.g.refc) r' = _
      conv => lhs; unfold refcFind
      rw [if_neg (Ne.symm hne)]; rfl
  · cases hr

/-- **C52** in all modes of the stack: `D` takes a reference from the stack and pushes the vector it stands for, first coordinate first. -/
theorem C52_dereference_any_mode {s : St} (h : s.cur.ss.select < s.cur.ss.stacks.length) {v : Vec} (hv : s.g.deref (s.due.headD 0) = some v) :
    ∃ s', refcDeref s = .ok (.none, s') ∧ s.Leaves s' (pushedTo (hasMode s.top.mode modeInvert) ((List.range s.g.cfg.dims).map v.get)
      (fromEnd (hasMode s.top.mode modeQueue) s.due.tail)) := by
  generalize hq : hasMode s.top.mode modeQueue = q
  have hs := due_self h hq
  generalize s.due = l at hs hv ⊢
  refine ⟨_, ?_, s.top.ops + 1 + s.g.cfg.dims, rfl⟩
  conv => lhs; rw [← hs]
  rw [refcDeref, bind_ok (popTop_any h hq _ _)]
  show (Exec.get >>= _) _ = _
  rw [bind_ok (get_run _)]
  have : refcFind (s.setItems (fromEnd q l.tail) (s.top.ops + 1)).g.refc (l.headD 0) = some v := hv
  rw [this]
  show (pushVector v >>= _) _ = _
  rw [bind_ok (pushVector_any h v _ _)]
  rfl

/-- **C52** Altogether, in all modes of the stacks, also different ones: make a reference with `R` from a vector with coordinates `c` (in the order
in which the stack gives them, the last one first), continue with any run of any number of IPs; then `D`, given this reference by the stack of any
IP, pushes these coordinates, the first one first. -/
theorem C52_always_any_mode {s s' t : St} {e : Err} {u u' : Univ} {n : Nat} {c l m : List Int} {r : Int}
    (h : s.cur.ss.select < s.cur.ss.stacks.length) (hs : s.due = c ++ l) (hc : c.length = s.g.cfg.dims) (hr : refcRef s = .ok (e, s'))
    (hri : s'.items = pushedTo (hasMode s.top.mode modeInvert) [r] (fromEnd (hasMode s.top.mode modeQueue) l)) (hu : u.g = s'.g)
    (hrun : u.turns n = .ok u') (ht : t.g = u'.g) (hd : t.g.cfg.dims = s.g.cfg.dims) (hl : t.cur.ss.select < t.cur.ss.stacks.length)
    (hi : t.due = r :: m) :
    ∃ t', refcDeref t = .ok (.none, t') ∧
      t.Leaves t' (pushedTo (hasMode t.top.mode modeInvert) c.reverse (fromEnd (hasMode t.top.mode modeQueue) m)) := by
  obtain ⟨r', v, _, h1, _, h2, h3, _⟩ := C52_reference_any_mode h hr
  have hrr : r = r' := by
    have h7 : s.due.drop s.g.cfg.dims = l := by rw [hs, ← hc]; simp
    rw [h1, h7] at hri
    cases hm : hasMode s.top.mode modeInvert <;> simp [pushedTo, hm] at hri <;> exact hri.symm
  subst hrr
  have h4 := C52_forever hrun (r := r) (v := v) (by rw [hu]; exact h2)
  obtain ⟨t', h5, h6⟩ := C52_dereference_any_mode hl (v := v) (by rw [hi, ht]; exact h4)
  refine ⟨t', h5, ?_⟩
  rw [hs, ← hc] at h3
  have h8 := congrArg List.reverse (range_vecOf h3)
  rw [List.reverse_reverse] at h8
  rw [hd, ← hc, h8, hi] at h6
  exact h6

/-- `R` on the vector (3, 4), taken from a queue that gives 4, 3, 9: the reference comes after the 9; on a stack that is inverted as well, before it. -/
example : ([modeQueue, modeQueue ||| modeInvert].map fun m =>
      match refcRef ((machine [82]).setTop ⟨m, [9, 3, 4], 0⟩) with
      | .ok (.none, s) => some (s.due, s.items.map fun r => (s.g.deref r).map fun v => (v.get 0, v.get 1))
      | _ => none) =
    [some ([9, 0], [some (3, 4), none]), some ([0, 9], [none, some (3, 4)])] := by decide +kernel

end Funge
