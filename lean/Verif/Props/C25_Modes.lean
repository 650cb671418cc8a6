import Verif.Props.C25_Blocks
import Verif.Props.C88_Modes
/-!
# C25 and C26 in all modes of the stacks

`u`, `{` and `}` take values from a stack at the end at which it gives and put them at the end at which it takes, whatever the modes of the
two stacks. Nothing is lost, but `{` leaves the storage offset at the end at which a queue takes, so that `}` does not find it again.
-/
namespace Funge
open Exec

/-- The values of a stack in the order in which it will give them: from the top, or from the bottom in queue mode. -/
def Stack.due (A : Stack) : List Int := fromEnd (hasMode A.mode modeQueue) A.items

theorem stack_due (m : Nat) (l : List Int) (n : Nat) : (⟨m, l, n⟩ : Stack) = ⟨m, fromEnd (hasMode m modeQueue) (⟨m, l, n⟩ : Stack).due, n⟩ := by
  rw [Stack.due, fromEnd_fromEnd]

theorem pop_due (m : Nat) (l : List Int) (n : Nat) :
    (⟨m, fromEnd (hasMode m modeQueue) l, n⟩ : Stack).pop = (l.headD 0, ⟨m, fromEnd (hasMode m modeQueue) l.tail, n + 1⟩) := by
  cases hq : hasMode m modeQueue with
  | false => exact pop_lifo (st := ⟨m, l, n⟩) hq
  | true =>
    cases l with
    | nil => rfl
    | cons x t =>
      unfold Stack.pop
      simp only [fromEnd, if_true]
      cases hr : (x :: t).reverse with
      | nil => simp at hr
      | cons y u =>
        simp only [hq, if_true]
        rw [← hr]
        simp

theorem push_due (m : Nat) (l : List Int) (n : Nat) (v : Int) :
    (⟨m, fromEnd (hasMode m modeInvert) l, n⟩ : Stack).push v = ⟨m, fromEnd (hasMode m modeInvert) (v :: l), n + 1⟩ := by
  unfold Stack.push
  cases hasMode m modeInvert <;> simp [fromEnd]

theorem popTop_due (s : St) (m l n R) : popTop (s.setStacks (⟨m, fromEnd (hasMode m modeQueue) l, n⟩ :: R)) =
    .ok (l.headD 0, s.setStacks (⟨m, fromEnd (hasMode m modeQueue) l.tail, n + 1⟩ :: R)) := by
  rw [popTop, onTop_stacks, pop_due]

theorem popTop_due_cons (s : St) (m) (x : Int) (l n R) : popTop (s.setStacks (⟨m, fromEnd (hasMode m modeQueue) (x :: l), n⟩ :: R)) =
    .ok (x, s.setStacks (⟨m, fromEnd (hasMode m modeQueue) l, n + 1⟩ :: R)) := popTop_due s m (x :: l) n R

theorem popSecond_due (s : St) (A m l n R) : popSecond (s.setStacks (A :: ⟨m, fromEnd (hasMode m modeQueue) l, n⟩ :: R)) =
    .ok (l.headD 0, s.setStacks (A :: ⟨m, fromEnd (hasMode m modeQueue) l.tail, n + 1⟩ :: R)) := by
  rw [popSecond, onSecond_stacks, pop_due]

theorem pushTop_due (s : St) (m l n R) (v : Int) : pushTop v (s.setStacks (⟨m, fromEnd (hasMode m modeInvert) l, n⟩ :: R)) =
    .ok ((), s.setStacks (⟨m, fromEnd (hasMode m modeInvert) (v :: l), n + 1⟩ :: R)) := by
  rw [pushTop, onTop_stacks, push_due]

theorem pushSecond_due (s : St) (A m l n R) (v : Int) : pushSecond v (s.setStacks (A :: ⟨m, fromEnd (hasMode m modeInvert) l, n⟩ :: R)) =
    .ok ((), s.setStacks (A :: ⟨m, fromEnd (hasMode m modeInvert) (v :: l), n + 1⟩ :: R)) := by
  rw [pushSecond, onSecond_stacks, push_due]

theorem fromEnd_pushed (i : Bool) (xs l : List Int) : fromEnd i (xs.reverse ++ fromEnd i l) = pushedTo i xs l := by
  cases i <;> simp [fromEnd, pushedTo]

/-- The topmost stack is selected, in any mode, and gives the values `l` in this order; `R` are the stacks below. -/
structure Giving (s : St) (A : Stack) (l : List Int) (R : List Stack) : Prop where
  select : s.cur.ss.select = 0
  stacks : s.cur.ss.stacks = A :: R
  due : A.due = l

/-! ### C26 -/

/-- **C26** in all modes of the two stacks: `u` with n > 0 moves the next n values of the second stack one by one to the top stack; zeros stand in
for missing values. -/
theorem C26_under_any_mode (exec : Int → Exec Err) (s : St) (A B : Stack) (R : List Stack) (n : Int) (l : List Int) (h : Giving s A (n :: l) (B :: R)) (hn : 0 < n) :
    ∃ A' B', runOp exec .under s = .ok (.none, s.setStacks (A' :: B' :: R)) ∧
      A.Became (pushedTo (hasMode A.mode modeInvert) (firstN n.toNat B.due) (fromEnd (hasMode A.mode modeQueue) l)) A' ∧
      B.Became (fromEnd (hasMode B.mode modeQueue) (B.due.drop n.toNat)) B' := by
  obtain ⟨h1, h2, h3⟩ := h
  obtain ⟨m, la, na⟩ := A
  obtain ⟨mb, lb, nb⟩ := B
  have hs : s = s.setStacks (⟨m, fromEnd (hasMode m modeQueue) (n :: l), na⟩ :: ⟨mb, lb, nb⟩ :: R) := by
    rw [← h3, ← stack_due, ← h2, setStacks_self h1]
  generalize hb : (⟨mb, lb, nb⟩ : Stack).due = b
  have hB : (⟨mb, lb, nb⟩ : Stack) = ⟨mb, fromEnd (hasMode mb modeQueue) b, nb⟩ := by rw [← hb, ← stack_due]
  refine ⟨⟨m, fromEnd (hasMode m modeInvert) ((padTake n.toNat b).reverse ++ fromEnd (hasMode m modeInvert) (fromEnd (hasMode m modeQueue) l)), na + 1 + n.toNat⟩,
    ⟨mb, fromEnd (hasMode mb modeQueue) (b.drop n.toNat), nb + n.toNat⟩, ?_, became (by rw [fromEnd_pushed, padTake_firstN]), ⟨_, rfl⟩⟩
  show iUnder s = _
  conv => lhs; rw [hs, hB]
  have e0 : ∀ X Y : Stack, numStacks (s.setStacks (X :: Y :: R)) = .ok (R.length + 2, s.setStacks (X :: Y :: R)) := fun _ _ => rfl
  rw [iUnder, bind_ok (e0 _ _), if_pos (by omega), bind_ok (popTop_due_cons s m _ _ _ _)]
  rw [if_pos (by omega)]
  have e1 := moveN_run (fun a b n k => s.setStacks (⟨m, fromEnd (hasMode m modeInvert) b, k⟩ :: ⟨mb, fromEnd (hasMode mb modeQueue) a, n⟩ :: R))
    (fun a b n k => popSecond_due s _ _ _ _ _) (fun a b n k v => pushTop_due s _ _ _ _ _) n.toNat b
    (fromEnd (hasMode m modeInvert) (fromEnd (hasMode m modeQueue) l)) nb (na + 1)
  simp only [fromEnd_fromEnd] at e1
  show (moveN popSecond pushTop n.toNat >>= _) _ = _
  rw [bind_ok (m := moveN popSecond pushTop n.toNat) e1]
  rfl

/-- **C26** in all modes of the two stacks (partial: see `C26_undefined_at_min`): `u` with n ≤ 0 moves the next |n| values of the top stack one by one to
the second. -/
theorem C26_under_negative_any_mode_partial (exec : Int → Exec Err) (s : St) (A B : Stack) (R : List Stack) (n : Int) (l : List Int)
    (h : Giving s A (n :: l) (B :: R)) (hn : n ≤ 0) (hmin : -9223372036854775808 < n) :
    ∃ A' B', runOp exec .under s = .ok (.none, s.setStacks (A' :: B' :: R)) ∧
      A.Became (fromEnd (hasMode A.mode modeQueue) (l.drop n.natAbs)) A' ∧
      B.Became (pushedTo (hasMode B.mode modeInvert) (firstN n.natAbs l) B.items) B' := by
  obtain ⟨h1, h2, h3⟩ := h
  obtain ⟨m, la, na⟩ := A
  obtain ⟨mb, lb, nb⟩ := B
  have hs : s = s.setStacks (⟨m, fromEnd (hasMode m modeQueue) (n :: l), na⟩ :: ⟨mb, lb, nb⟩ :: R) := by
    rw [← h3, ← stack_due, ← h2, setStacks_self h1]
  have hk : (-n).toNat = n.natAbs := by omega
  refine ⟨⟨m, fromEnd (hasMode m modeQueue) (l.drop n.natAbs), na + 1 + n.natAbs⟩,
    ⟨mb, fromEnd (hasMode mb modeInvert) ((padTake n.natAbs l).reverse ++ fromEnd (hasMode mb modeInvert) lb), nb + n.natAbs⟩, ?_, ⟨_, rfl⟩,
    became (by rw [fromEnd_pushed, padTake_firstN])⟩
  show iUnder s = _
  conv => lhs; rw [hs]
  have e0 : ∀ X Y : Stack, numStacks (s.setStacks (X :: Y :: R)) = .ok (R.length + 2, s.setStacks (X :: Y :: R)) := fun _ _ => rfl
  rw [iUnder, bind_ok (e0 _ _), if_pos (by omega), bind_ok (popTop_due_cons s m _ _ _ _)]
  rw [if_neg (by omega), if_neg (by unfold i64Min; omega), hk]
  have e1 := moveN_run (fun a b n k => s.setStacks (⟨m, fromEnd (hasMode m modeQueue) a, n⟩ :: ⟨mb, fromEnd (hasMode mb modeInvert) b, k⟩ :: R))
    (fun a b n k => popTop_due s _ _ _ _) (fun a b n k v => pushSecond_due s _ _ _ _ _ _) n.natAbs l (fromEnd (hasMode mb modeInvert) lb) (na + 1) nb
  simp only [fromEnd_fromEnd] at e1
  show (moveN popTop pushSecond n.natAbs >>= _) _ = _
  rw [bind_ok (m := moveN popTop pushSecond n.natAbs) e1]
  rfl

theorem fromEnd_perm (q : Bool) (l : List Int) : (fromEnd q l).Perm l := by
  cases q
  · exact .refl _
  · exact List.reverse_perm l

theorem pushedTo_perm (i : Bool) (xs l : List Int) : (pushedTo i xs l).Perm (xs ++ l) := by
  cases i
  · exact (List.reverse_perm xs).append_right l
  · exact List.perm_append_comm

/-- **C26** in all modes of the two stacks: no value is lost. When there are enough of them, the two stacks together hold the same values, without the count. -/
theorem C26_conserves_any_mode (exec : Int → Exec Err) (s s' : St) (e : Err) (A B : Stack) (R : List Stack) (n : Int) (l : List Int)
    (h : Giving s A (n :: l) (B :: R)) (hmin : -9223372036854775808 < n) (henough : n ≤ B.items.length ∧ -n ≤ l.length)
    (hrun : runOp exec .under s = .ok (e, s')) :
    ∃ A' B', s' = s.setStacks (A' :: B' :: R) ∧ (n :: (A'.items ++ B'.items)).Perm (A.items ++ B.items) := by
  have hA : A.items.Perm (n :: l) := by rw [← h.due]; exact (fromEnd_perm _ _).symm
  have hB : B.due.Perm B.items := fromEnd_perm _ _
  have key : ∀ (k : Nat) (x : List Int), k ≤ x.length → (firstN k x ++ x.drop k).Perm x := by
    intro k x hk
    rw [← padTake_firstN, padTake_eq_take hk, List.take_append_drop]
  by_cases hn : 0 < n
  · obtain ⟨A', B', h1, ⟨na, hA'⟩, ⟨nb, hB'⟩⟩ := C26_under_any_mode exec s A B R n l h hn
    rw [h1] at hrun; cases hrun
    refine ⟨A', B', rfl, ?_⟩
    rw [hA', hB']
    have h2 := key n.toNat B.due (by rw [hB.length_eq]; omega)
    have h3 := ((pushedTo_perm (hasMode A.mode modeInvert) (firstN n.toNat B.due) (fromEnd (hasMode A.mode modeQueue) l)).trans
      (((fromEnd_perm (hasMode A.mode modeQueue) l).append_left _).trans List.perm_append_comm)).append (fromEnd_perm (hasMode B.mode modeQueue) (B.due.drop n.toNat))
    rw [List.append_assoc] at h3
    exact ((h3.trans (h2.append_left l)).trans (hB.append_left l) |>.cons n).trans (hA.symm.append_right B.items)
  · obtain ⟨A', B', h1, ⟨na, hA'⟩, ⟨nb, hB'⟩⟩ := C26_under_negative_any_mode_partial exec s A B R n l h (by omega) hmin
    rw [h1] at hrun; cases hrun
    refine ⟨A', B', rfl, ?_⟩
    rw [hA', hB']
    have h2 := key n.natAbs l (by omega)
    have h3 := ((fromEnd_perm (hasMode A.mode modeQueue) (l.drop n.natAbs)).append (pushedTo_perm (hasMode B.mode modeInvert) (firstN n.natAbs l) B.items))
    rw [← List.append_assoc] at h3
    exact ((h3.trans ((List.perm_append_comm.trans h2).append_right B.items)).cons n).trans (hA.symm.append_right B.items)

/-- A queue that gives 2 first, over a stack in invert mode. -/
example : Giving ((exState2 []).setStacks [⟨modeQueue, [7, 6, 2], 0⟩, ⟨modeInvert, [8, 9, 10], 0⟩]) ⟨modeQueue, [7, 6, 2], 0⟩ [2, 6, 7] [⟨modeInvert, [8, 9, 10], 0⟩] ∧
    (match runOp (fun _ => pure .none) .under ((exState2 []).setStacks [⟨modeQueue, [7, 6, 2], 0⟩, ⟨modeInvert, [8, 9, 10], 0⟩]) with
    | .ok (_, s) => s.cur.ss.stacks.map (·.items)
    | .error _ => []) = [[9, 8, 7, 6], [10]] := ⟨⟨rfl, rfl, by decide⟩, by decide +kernel⟩

theorem pushedTo_fromEnd (q : Bool) (xs l : List Int) : pushedTo q xs (fromEnd q l) = fromEnd q (xs.reverse ++ l) := by
  rw [← fromEnd_pushed, fromEnd_fromEnd]

/-- **C26** in the modes in which both stacks give at the end at which they take (partial: in the others it fails, see `C26_false_in_queue_mode`): `n u`, then `-n u`, restores both stacks if the second has n values. -/
theorem C26_round_trip_same_end_partial (exec : Int → Exec Err) (s s1 s2 s3 : St) (e1 e2 : Err) (A B : Stack) (R : List Stack) (n : Int) (l : List Int)
    (h : Giving s A (n :: l) (B :: R)) (hA : hasMode A.mode modeInvert = hasMode A.mode modeQueue) (hB : hasMode B.mode modeInvert = hasMode B.mode modeQueue)
    (hn : 0 < n ∧ n ≤ 9223372036854775807) (henough : n ≤ B.items.length)
    (h1 : runOp exec .under s = .ok (e1, s1)) (h2 : pushTop (-n) s1 = .ok ((), s2)) (h3 : runOp exec .under s2 = .ok (e2, s3)) :
    ∃ A' B', s3 = s.setStacks (A' :: B' :: R) ∧ A.Became (fromEnd (hasMode A.mode modeQueue) l) A' ∧ B.Became B.items B' := by
  have hlen : n.toNat ≤ B.due.length := by
    rw [Stack.due, (fromEnd_perm (hasMode B.mode modeQueue) B.items).length_eq]; omega
  have hf : firstN n.toNat B.due = B.due.take n.toNat := by rw [← padTake_firstN, padTake_eq_take hlen]
  obtain ⟨A1, B1, c1, ⟨na, hA1⟩, ⟨nb, hB1⟩⟩ := C26_under_any_mode exec s A B R n l h hn.1
  rw [c1] at h1; cases h1
  rw [hA, pushedTo_fromEnd, hf] at hA1
  rw [hA1, ← hA, pushTop_due s A.mode _ _ _ _, hA] at h2; cases h2
  obtain ⟨A2, B2, d1, ⟨na2, hA2⟩, ⟨nb2, hB2⟩⟩ := C26_under_negative_any_mode_partial exec
    (s.setStacks (⟨A.mode, fromEnd (hasMode A.mode modeQueue) (-n :: ((B.due.take n.toNat).reverse ++ l)), na + 1⟩ :: B1 :: R))
    ⟨A.mode, fromEnd (hasMode A.mode modeQueue) (-n :: ((B.due.take n.toNat).reverse ++ l)), na + 1⟩ B1 R (-n) ((B.due.take n.toNat).reverse ++ l)
    ⟨rfl, rfl, fromEnd_fromEnd _ _⟩ (by omega) (by omega)
  rw [d1] at h3; cases h3
  have hnat : (-n).natAbs = n.toNat := by omega
  have hl : (B.due.take n.toNat).reverse.length = n.toNat := by simp [hlen]
  refine ⟨A2, B2, rfl, ⟨na2, ?_⟩, ⟨nb2, ?_⟩⟩
  · rw [hA2, hnat]
    have : ((B.due.take n.toNat).reverse ++ l).drop n.toNat = l := by
      exact List.drop_left' hl
    simp only [this]
  · have : firstN n.toNat ((B.due.take n.toNat).reverse ++ l) = (B.due.take n.toNat).reverse := by
      rw [← padTake_firstN, padTake_eq_take (by rw [List.length_append, hl]; omega)]
      exact List.take_left' hl
    rw [hB2, hnat, this, hB1]
    simp only
    rw [hB, pushedTo_fromEnd, List.reverse_reverse, List.take_append_drop, Stack.due, fromEnd_fromEnd]

/-- Two stacks in both modes at once. -/
example : Giving ((exState2 []).setStacks [⟨modeQueue ||| modeInvert, [7, 6, 2], 0⟩, ⟨modeQueue ||| modeInvert, [8, 9, 10], 0⟩]) ⟨modeQueue ||| modeInvert, [7, 6, 2], 0⟩
      [2, 6, 7] [⟨modeQueue ||| modeInvert, [8, 9, 10], 0⟩] ∧
    hasMode (modeQueue ||| modeInvert) modeInvert = hasMode (modeQueue ||| modeInvert) modeQueue := ⟨⟨rfl, rfl, by decide⟩, by decide⟩

/-- What `n u`, `-n` and `u` leave of the stacks. -/
def underAndBack (n : Int) (s : St) : Option (List (List Int)) :=
  match (do let _ ← runOp (fun _ => pure .none) .under
            pushTop (-n)
            runOp (fun _ => pure .none) .under : Exec Err) s with
  | .ok (_, t) => some (t.cur.ss.stacks.map (·.items))
  | .error _ => none

/-- **C26** is violated in queue mode: `2 u`, then `-2 u`, does not restore the stacks, as the queue does not give the -2 first. -/
theorem C26_false_in_queue_mode : underAndBack 2 ((exState2 []).setStacks [⟨modeQueue, [7, 6, 2], 0⟩, ⟨0, [8, 9, 10], 0⟩]) ≠ some [[7, 6], [8, 9, 10]] ∧
    underAndBack 2 ((exState2 []).setStacks [⟨0, [2, 6, 7], 0⟩, ⟨0, [8, 9, 10], 0⟩]) = some [[6, 7], [8, 9, 10]] := by decide +kernel

/-! ### C25 -/

/-- **C25** in all modes of the stack: `n {` with n > 0 moves the next n values to a new stack that is in normal mode and gives them in the same order
(zeros standing in for missing ones), pushes the storage offset on the old one and makes the next position the storage offset. -/
theorem C25_begin_any_mode (exec : Int → Exec Err) (s : St) (A : Stack) (R : List Stack) (n : Int) (l : List Int) (h : Giving s A (n :: l) R) (hn : 0 < n) :
    ∃ T B, runOp exec .beginBlock s =
        .ok (.none, ((s.setIP (s.cur.ip.setStorage (s.cur.ip.pos.add s.cur.ip.delta))).setStacks (T :: B :: R)).switched 125) ∧
      Stack.new.Became (firstN n.toNat l) T ∧
      A.Became (pushedTo (hasMode A.mode modeInvert) ((List.range s.g.cfg.dims).map s.cur.ip.storage.get) (fromEnd (hasMode A.mode modeQueue) (l.drop n.toNat))) B := by
  obtain ⟨h1, h2, h3⟩ := h
  obtain ⟨m, la, na⟩ := A
  have hs : s = s.setStacks (⟨m, fromEnd (hasMode m modeQueue) (n :: l), na⟩ :: R) := by
    rw [← h3, ← stack_due, ← h2, setStacks_self h1]
  have hpn : Pops popSecond fun l n => s.setStacks (⟨0, [], 0⟩ :: ⟨m, fromEnd (hasMode m modeQueue) l, n⟩ :: R) := fun l n => popSecond_due s _ m l n R
  have hpt : Pushes pushTop fun l' n' => s.setStacks (⟨0, l', n'⟩ :: ⟨m, fromEnd (hasMode m modeQueue) (l.drop n.toNat), na + 1 + n.toNat⟩ :: R) :=
    fun l n v => pushTop_stacks s (by decide) l n _ v
  have hps : Pushes pushSecond fun l' n' => s.setStacks (⟨0, (padTake n.toNat l).reverse.reverse ++ [], 0 + (padTake n.toNat l).reverse.length⟩ ::
      ⟨m, fromEnd (hasMode m modeInvert) l', n'⟩ :: R) := fun l n v => pushSecond_due s _ m l n _ v
  refine ⟨⟨0, (padTake n.toNat l).reverse.reverse ++ [], 0 + (padTake n.toNat l).reverse.length⟩,
    ⟨m, fromEnd (hasMode m modeInvert) (((List.range s.g.cfg.dims).map s.cur.ip.storage.get).reverse ++
      fromEnd (hasMode m modeInvert) (fromEnd (hasMode m modeQueue) (l.drop n.toNat))), na + 1 + n.toNat + s.g.cfg.dims⟩, ?_, ?_,
    became (by rw [fromEnd_pushed])⟩
  · show iBegin s = _
    conv => lhs; rw [hs]
    rw [iBegin, bind_ok (popTop_due_cons s m _ _ _ _)]
    have e1 : ∀ X : Stack, onStacks (fun ss => .ok ss.push) (s.setStacks (X :: R)) = .ok ((), s.setStacks (⟨0, [], 0⟩ :: X :: R)) := fun _ => rfl
    rw [bind_ok (e1 _), if_pos (by omega)]
    have e2 := hpn.popN n.toNat l (na + 1)
    have e3 := hpt.pushAll (padTake n.toNat l).reverse [] 0
    have e4 := hps.pushVectorOn s.cur.ip.storage (fromEnd (hasMode m modeInvert) (fromEnd (hasMode m modeQueue) (l.drop n.toNat))) (na + 1 + n.toNat) rfl
    simp only [fromEnd_fromEnd] at e4
    show (popN popSecond n.toNat >>= _) _ = _
    rw [bind_ok e2]
    show (pushAll pushTop _ >>= _) _ = _
    rw [bind_ok (m := pushAll pushTop (padTake n.toNat l).reverse) e3]
    show (ipStorage >>= _) _ = _
    rw [bind_ok (ipStorage_run _), setStacks_ip]
    rw [bind_ok (m := pushVectorOn pushSecond _) e4, bind_ok (onIP_stacks _ _ _), bind_ok (switchPut_run _ _)]
    rfl
  · refine ⟨0 + (padTake n.toNat l).reverse.length, ?_⟩
    simp [padTake_firstN, Stack.new]

/-- **C25** in all modes of the two stacks: `n }` with n > 0 takes the storage offset from the second stack, moves the next n values of the top stack to
it, the last one first, and removes the top stack. -/
theorem C25_end_any_mode (exec : Int → Exec Err) (s : St) (A B : Stack) (R : List Stack) (n : Int) (l : List Int) (h : Giving s A (n :: l) (B :: R)) (hn : 0 < n) :
    ∃ v B', runOp exec .endBlock s = .ok (.none, ((s.setIP (s.cur.ip.setStorage v)).setStacks (B' :: R)).switched 123) ∧
      v.get = vecOf B.due s.g.cfg.dims ∧
      B.Became (pushedTo (hasMode B.mode modeInvert) (firstN n.toNat l).reverse (fromEnd (hasMode B.mode modeQueue) (B.due.drop s.g.cfg.dims))) B' := by
  obtain ⟨h1, h2, h3⟩ := h
  obtain ⟨m, la, na⟩ := A
  obtain ⟨mb, lb, nb⟩ := B
  have hs : s = s.setStacks (⟨m, fromEnd (hasMode m modeQueue) (n :: l), na⟩ :: ⟨mb, lb, nb⟩ :: R) := by
    rw [← h3, ← stack_due, ← h2, setStacks_self h1]
  generalize hb : (⟨mb, lb, nb⟩ : Stack).due = b
  have hB : (⟨mb, lb, nb⟩ : Stack) = ⟨mb, fromEnd (hasMode mb modeQueue) b, nb⟩ := by rw [← hb, ← stack_due]
  have hp2 : Pops popSecond fun l' n' => s.setStacks (⟨m, fromEnd (hasMode m modeQueue) l, na + 1⟩ :: ⟨mb, fromEnd (hasMode mb modeQueue) l', n'⟩ :: R) :=
    fun l n => popSecond_due s _ mb l n R
  obtain ⟨v, e1, e2⟩ := hp2.popVectorOn (d := s.g.cfg.dims) b nb rfl
  have hp1 : Pops popTop fun l' n' => (s.setIP (s.cur.ip.setStorage v)).setStacks (⟨m, fromEnd (hasMode m modeQueue) l', n'⟩ ::
      ⟨mb, fromEnd (hasMode mb modeQueue) (b.drop s.g.cfg.dims), nb + s.g.cfg.dims⟩ :: R) := fun l n => popTop_due _ m l n _
  have hps : Pushes pushSecond fun l' n' => (s.setIP (s.cur.ip.setStorage v)).setStacks (⟨m, fromEnd (hasMode m modeQueue) (l.drop n.toNat), na + 1 + n.toNat⟩ ::
      ⟨mb, fromEnd (hasMode mb modeInvert) l', n'⟩ :: R) := fun l n w => pushSecond_due _ _ mb l n _ w
  refine ⟨v, ⟨mb, fromEnd (hasMode mb modeInvert) ((padTake n.toNat l).reverse.reverse ++
      fromEnd (hasMode mb modeInvert) (fromEnd (hasMode mb modeQueue) (b.drop s.g.cfg.dims))), nb + s.g.cfg.dims + (padTake n.toNat l).reverse.length⟩, ?_, e2,
    became (by rw [fromEnd_pushed, padTake_firstN])⟩
  show iEnd s = _
  conv => lhs; rw [hs, hB]
  have e0 : ∀ X Y : Stack, numStacks (s.setStacks (X :: Y :: R)) = .ok (R.length + 2, s.setStacks (X :: Y :: R)) := fun _ _ => rfl
  rw [iEnd, bind_ok (e0 _ _), if_pos (by omega), bind_ok (popTop_due_cons s m _ _ _ _)]
  rw [bind_ok (m := popVectorOn popSecond) e1, bind_ok (onIP_stacks _ _ _), if_pos (by omega)]
  have e3 := hp1.popN n.toNat l (na + 1)
  have e4 := hps.pushAll (padTake n.toNat l).reverse (fromEnd (hasMode mb modeInvert) (fromEnd (hasMode mb modeQueue) (b.drop s.g.cfg.dims))) (nb + s.g.cfg.dims)
  simp only [fromEnd_fromEnd] at e4
  show (popN popTop n.toNat >>= _) _ = _
  rw [bind_ok (m := popN popTop n.toNat) e3]
  show (pushAll pushSecond _ >>= _) _ = _
  rw [bind_ok (m := pushAll pushSecond (padTake n.toNat l).reverse) e4]
  have e5 : ∀ (t : St) (X : Stack) (Y : List Stack), onStacks StackStack.pop (t.setStacks (X :: Y)) = .ok ((), t.setStacks Y) := fun _ _ _ => rfl
  show (onStacks StackStack.pop >>= _) _ = _
  rw [bind_ok (e5 _ _ _), bind_ok (switchPut_run _ _)]
  rfl

example : Giving ((exState2 []).setStacks [⟨modeQueue, [7, 6, 2], 0⟩, ⟨modeInvert, [8, 9, 10], 0⟩]) ⟨modeQueue, [7, 6, 2], 0⟩ [2, 6, 7] [⟨modeInvert, [8, 9, 10], 0⟩] :=
  ⟨rfl, rfl, by decide⟩

/-- **C25** in all modes of the stack (partial: see `C25_undefined_at_min`): `n {` with n ≤ 0 pushes |n| zeros and the storage offset on the stack, and
starts with an empty one. -/
theorem C25_begin_nonpositive_any_mode_partial (exec : Int → Exec Err) (s : St) (A : Stack) (R : List Stack) (n : Int) (l : List Int)
    (h : Giving s A (n :: l) R) (hn : n ≤ 0) (hmin : -9223372036854775808 < n) :
    ∃ B, runOp exec .beginBlock s =
        .ok (.none, ((s.setIP (s.cur.ip.setStorage (s.cur.ip.pos.add s.cur.ip.delta))).setStacks (Stack.new :: B :: R)).switched 125) ∧
      A.Became (pushedTo (hasMode A.mode modeInvert) (List.replicate n.natAbs 0 ++ (List.range s.g.cfg.dims).map s.cur.ip.storage.get)
        (fromEnd (hasMode A.mode modeQueue) l)) B := by
  obtain ⟨h1, h2, h3⟩ := h
  obtain ⟨m, la, na⟩ := A
  have hs : s = s.setStacks (⟨m, fromEnd (hasMode m modeQueue) (n :: l), na⟩ :: R) := by
    rw [← h3, ← stack_due, ← h2, setStacks_self h1]
  have hps : Pushes pushSecond fun l' n' => s.setStacks (Stack.new :: ⟨m, fromEnd (hasMode m modeInvert) l', n'⟩ :: R) :=
    fun l n v => pushSecond_due s _ m l n _ v
  refine ⟨⟨m, fromEnd (hasMode m modeInvert) (((List.range s.g.cfg.dims).map s.cur.ip.storage.get).reverse ++ ((List.replicate (-n).toNat 0).reverse ++
      fromEnd (hasMode m modeInvert) (fromEnd (hasMode m modeQueue) l))), na + 1 + (List.replicate (-n).toNat (0 : Int)).length + s.g.cfg.dims⟩, ?_, became ?_⟩
  · show iBegin s = _
    conv => lhs; rw [hs]
    rw [iBegin, bind_ok (popTop_due_cons s m _ _ _ _)]
    have e1 : ∀ X : Stack, onStacks (fun ss => .ok ss.push) (s.setStacks (X :: R)) = .ok ((), s.setStacks (Stack.new :: X :: R)) := fun _ => rfl
    rw [bind_ok (e1 _), if_neg (by omega), if_neg (by unfold i64Min; omega)]
    have e2 := hps.pushAll (List.replicate (-n).toNat 0) (fromEnd (hasMode m modeInvert) (fromEnd (hasMode m modeQueue) l)) (na + 1)
    have e4 := hps.pushVectorOn s.cur.ip.storage ((List.replicate (-n).toNat 0).reverse ++ fromEnd (hasMode m modeInvert) (fromEnd (hasMode m modeQueue) l))
      (na + 1 + (List.replicate (-n).toNat (0 : Int)).length) rfl
    simp only [fromEnd_fromEnd] at e2
    show (pushAll pushSecond _ >>= _) _ = _
    rw [bind_ok (m := pushAll pushSecond _) e2]
    show (ipStorage >>= _) _ = _
    rw [bind_ok (ipStorage_run _), setStacks_ip]
    rw [bind_ok (m := pushVectorOn pushSecond _) e4, bind_ok (onIP_stacks _ _ _), bind_ok (switchPut_run _ _)]
    rfl
  · rw [← List.append_assoc, ← List.reverse_append, fromEnd_pushed, show (-n).toNat = n.natAbs by omega]

/-- **C25** in all modes of the two stacks (partial: see `C25_undefined_at_min`): `n }` with n ≤ 0 takes the storage offset and then |n| values from the
second stack, and removes the top stack. -/
theorem C25_end_nonpositive_any_mode_partial (exec : Int → Exec Err) (s : St) (A B : Stack) (R : List Stack) (n : Int) (l : List Int)
    (h : Giving s A (n :: l) (B :: R)) (hn : n ≤ 0) (hmin : -9223372036854775808 < n) :
    ∃ v B', runOp exec .endBlock s = .ok (.none, ((s.setIP (s.cur.ip.setStorage v)).setStacks (B' :: R)).switched 123) ∧
      v.get = vecOf B.due s.g.cfg.dims ∧ B.Became (fromEnd (hasMode B.mode modeQueue) (B.due.drop (s.g.cfg.dims + n.natAbs))) B' := by
  obtain ⟨h1, h2, h3⟩ := h
  obtain ⟨m, la, na⟩ := A
  obtain ⟨mb, lb, nb⟩ := B
  have hs : s = s.setStacks (⟨m, fromEnd (hasMode m modeQueue) (n :: l), na⟩ :: ⟨mb, lb, nb⟩ :: R) := by
    rw [← h3, ← stack_due, ← h2, setStacks_self h1]
  generalize hb : (⟨mb, lb, nb⟩ : Stack).due = b
  have hB : (⟨mb, lb, nb⟩ : Stack) = ⟨mb, fromEnd (hasMode mb modeQueue) b, nb⟩ := by rw [← hb, ← stack_due]
  have hp2 : ∀ t : St, Pops popSecond fun l' n' => t.setStacks (⟨m, fromEnd (hasMode m modeQueue) l, na + 1⟩ :: ⟨mb, fromEnd (hasMode mb modeQueue) l', n'⟩ :: R) :=
    fun t l n => popSecond_due t _ mb l n R
  obtain ⟨v, e1, e2⟩ := (hp2 s).popVectorOn (d := s.g.cfg.dims) b nb rfl
  refine ⟨v, ⟨mb, fromEnd (hasMode mb modeQueue) ((b.drop s.g.cfg.dims).drop (-n).toNat), nb + s.g.cfg.dims + (-n).toNat⟩, ?_, e2,
    became (by rw [List.drop_drop, show (-n).toNat = n.natAbs by omega])⟩
  show iEnd s = _
  conv => lhs; rw [hs, hB]
  have e0 : ∀ X Y : Stack, numStacks (s.setStacks (X :: Y :: R)) = .ok (R.length + 2, s.setStacks (X :: Y :: R)) := fun _ _ => rfl
  rw [iEnd, bind_ok (e0 _ _), if_pos (by omega), bind_ok (popTop_due_cons s m _ _ _ _)]
  rw [bind_ok (m := popVectorOn popSecond) e1, bind_ok (onIP_stacks _ _ _), if_neg (by omega), if_neg (by unfold i64Min; omega)]
  have e3 := (hp2 (s.setIP (s.cur.ip.setStorage v))).popN (-n).toNat (b.drop s.g.cfg.dims) (nb + s.g.cfg.dims)
  show (popN popSecond (-n).toNat >>= _) _ = _
  rw [bind_ok (m := popN popSecond (-n).toNat) e3]
  have e5 : ∀ (t : St) (X : Stack) (Y : List Stack), onStacks StackStack.pop (t.setStacks (X :: Y)) = .ok ((), t.setStacks Y) := fun _ _ _ => rfl
  show (onStacks StackStack.pop >>= _) _ = _
  rw [bind_ok (e5 _ _ _), bind_ok (switchPut_run _ _)]
  rfl

theorem due_normal (l : List Int) (n : Nat) : (⟨0, l, n⟩ : Stack).due = l := by
  rw [Stack.due, show hasMode 0 modeQueue = false by decide]; rfl

theorem switched_setStacks (s : St) (S : List Stack) (c : Int) : (s.setStacks S).switched c = (s.switched c).setStacks S := by
  unfold St.switched
  show (if hasMode s.g.cfg.mode modeSwitch then _ else _) = St.setStacks (if hasMode s.g.cfg.mode modeSwitch then _ else _) _
  split <;> rfl

theorem firstN_back (k : Nat) (l : List Int) : firstN k (firstN k l) ++ l.drop k = l ++ List.replicate (k - l.length) 0 := by
  have hpp : padTake k (padTake k l) = padTake k l := by
    have := padTake_append (padTake k l) []
    rwa [padTake_length, List.append_nil] at this
  rw [← padTake_firstN k (firstN k l), ← padTake_firstN, hpp, padTake_firstN, firstN]
  by_cases hle : k ≤ l.length
  · rw [show k - l.length = 0 by omega]; simp
  · rw [List.drop_eq_nil_of_le (by omega), List.take_of_length_le (by omega)]; simp

/-- **C25** in the modes in which the stack gives at the end at which it takes (partial: in the others the round trip fails, see `C25_false_in_queue_mode`):
`n {` followed, with n on top again, by `n }` leaves the stacks and the storage offset as they were. -/
theorem C25_round_trip_same_end_partial (exec : Int → Exec Err) (s s1 s2 s3 : St) (e1 e2 : Err) (A : Stack) (R : List Stack) (n : Int) (l : List Int)
    (h : Giving s A (n :: l) R) (hA : hasMode A.mode modeInvert = hasMode A.mode modeQueue) (hmin : -9223372036854775808 < n)
    (h1 : runOp exec .beginBlock s = .ok (e1, s1)) (h2 : pushTop n s1 = .ok ((), s2)) (h3 : runOp exec .endBlock s2 = .ok (e2, s3)) :
    (∃ B, s3.cur.ss = ⟨0, B :: R⟩ ∧ A.Became (fromEnd (hasMode A.mode modeQueue) (l ++ List.replicate (n.toNat - l.length) 0)) B) ∧
      (∀ i, i < s.g.cfg.dims → s3.cur.ip.storage.get i = s.cur.ip.storage.get i) := by
  have hdrop : ∀ x : List Int, (coords s.g.cfg.dims s.cur.ip.storage ++ x).drop s.g.cfg.dims = x := fun x => List.drop_left' (coords_length _ _)
  by_cases hn : 0 < n
  · obtain ⟨T, B, b1, ⟨nt, hT⟩, ⟨nb, hB⟩⟩ := C25_begin_any_mode exec s A R n l h hn
    rw [b1] at h1; cases h1
    have hBd : B.due = coords s.g.cfg.dims s.cur.ip.storage ++ l.drop n.toNat := by
      rw [Stack.due, hB]; simp only; rw [hA, pushedTo_fromEnd, fromEnd_fromEnd]; rfl
    have hBm : B.mode = A.mode := by rw [hB]
    rw [switched_setStacks, hT] at h2
    rw [show Stack.new.mode = 0 from rfl, pushTop_stacks _ (by decide)] at h2; cases h2
    obtain ⟨v, B', c1, c2, ⟨nb', hB'⟩⟩ := C25_end_any_mode exec (((s.setIP (s.cur.ip.setStorage (s.cur.ip.pos.add s.cur.ip.delta))).switched 125).setStacks
          (⟨0, n :: firstN n.toNat l, nt + 1⟩ :: B :: R)) ⟨0, n :: firstN n.toNat l, nt + 1⟩ B R n (firstN n.toNat l) ⟨rfl, rfl, due_normal _ _⟩ hn
    rw [c1] at h3; cases h3
    rw [setStacks_g, switched_dims] at c2 hB'
    refine ⟨⟨B', by rw [switched_ss]; rfl, nb', ?_⟩, ?_⟩
    · rw [hB', hBm, hA, pushedTo_fromEnd, List.reverse_reverse, hBd]
      show (⟨A.mode, fromEnd _ (firstN n.toNat (firstN n.toNat l) ++ List.drop s.g.cfg.dims _), _⟩ : Stack) = _
      rw [hdrop, firstN_back]
    · intro i hi
      rw [switched_ss]
      show v.get i = _
      rw [c2, hBd]
      exact vecOf_coords s.g.cfg.dims s.cur.ip.storage _ i hi
  · obtain ⟨B, b1, ⟨nb, hB⟩⟩ := C25_begin_nonpositive_any_mode_partial exec s A R n l h (by omega) hmin
    rw [b1] at h1; cases h1
    have hBd : B.due = coords s.g.cfg.dims s.cur.ip.storage ++ (List.replicate n.natAbs 0 ++ l) := by
      rw [Stack.due, hB]; simp only
      rw [hA, pushedTo_fromEnd, fromEnd_fromEnd, List.reverse_append, List.reverse_replicate, List.append_assoc]; rfl
    have hBm : B.mode = A.mode := by rw [hB]
    rw [switched_setStacks, show Stack.new = ⟨0, [], 0⟩ from rfl, pushTop_stacks _ (by decide)] at h2; cases h2
    obtain ⟨v, B', c1, c2, ⟨nb', hB'⟩⟩ := C25_end_nonpositive_any_mode_partial exec
      (((s.setIP (s.cur.ip.setStorage (s.cur.ip.pos.add s.cur.ip.delta))).switched 125).setStacks (⟨0, [n], 0 + 1⟩ :: B :: R)) ⟨0, [n], 0 + 1⟩ B R n []
      ⟨rfl, rfl, due_normal _ _⟩ (by omega) hmin
    rw [c1] at h3; cases h3
    rw [setStacks_g, switched_dims] at c2 hB'
    refine ⟨⟨B', by rw [switched_ss]; rfl, nb', ?_⟩, ?_⟩
    · rw [hB', hBm, hBd, ← List.drop_drop]
      show (⟨A.mode, fromEnd _ (List.drop n.natAbs (List.drop s.g.cfg.dims _)), _⟩ : Stack) = _
      rw [hdrop, List.drop_left' (by simp), show n.toNat - l.length = 0 by omega]
      simp
    · intro i hi
      rw [switched_ss]
      show v.get i = _
      rw [c2, hBd]
      exact vecOf_coords s.g.cfg.dims s.cur.ip.storage _ i hi

/-- A stack in both modes at once gives 2, or -2, first; the block is undone. -/
example : Giving ((exState2 []).setStacks [⟨modeQueue ||| modeInvert, [8, 7, 6, -2], 0⟩]) ⟨modeQueue ||| modeInvert, [8, 7, 6, -2], 0⟩ [-2, 6, 7, 8] [] ∧
    hasMode (modeQueue ||| modeInvert) modeInvert = hasMode (modeQueue ||| modeInvert) modeQueue := ⟨⟨rfl, rfl, by decide⟩, by decide⟩

/-- What `n {`, n and `n }` leave: the stacks and the storage offset. -/
def blockAndBack (n : Int) (s : St) : Option (List (List Int) × Int × Int) :=
  match (do let _ ← runOp (fun _ => pure .none) .beginBlock
            pushTop n
            runOp (fun _ => pure .none) .endBlock : Exec Err) s with
  | .ok (_, t) => some (t.cur.ss.stacks.map (·.items), t.cur.ip.storage.get 0, t.cur.ip.storage.get 1)
  | .error _ => none

/-- **C25** is violated in queue mode: `1 {`, then `1 }`, brings back neither the stack nor the storage offset: of a queue that was given 1, 5, 6, 7 and 8,
with the storage offset (10, 20), the values 6 and 7 become the storage offset. (In normal mode all is as before.) -/
theorem C25_false_in_queue_mode : blockAndBack 1 ((exState2 []).setStacks [⟨modeQueue, [8, 7, 6, 5, 1], 0⟩]) = some ([[5, 20, 10, 8]], 7, 6) ∧
    (exState2 []).cur.ip.storage.get 0 = 10 ∧ (exState2 []).cur.ip.storage.get 1 = 20 ∧
    blockAndBack 1 ((exState2 []).setStacks [⟨0, [1, 5, 6, 7, 8], 0⟩]) = some ([[5, 6, 7, 8]], 10, 20) := by decide +kernel

example : blockAndBack 2 ((exState2 []).setStacks [⟨modeQueue ||| modeInvert, [8, 7, 6, 2], 0⟩]) = some ([[8, 7, 6]], 10, 20) ∧
    blockAndBack (-2) ((exState2 []).setStacks [⟨modeQueue ||| modeInvert, [8, 7, 6, -2], 0⟩]) = some ([[8, 7, 6]], 10, 20) := by decide +kernel

end Funge
