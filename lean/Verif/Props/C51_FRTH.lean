import Verif.Lemmas.Tick
/-
C51 (FRTH).
-/
namespace Funge
open Exec

/-! ### Specification -/

/-- The values of a stack, topmost first, after its `n`-th value (0 is the topmost) has been brought to the top. -/
def rolled (n : Nat) (l : List Int) : List Int := l.getD n 0 :: l.eraseIdx n

/-- The values of a stack after its topmost value has been moved below the `n` following ones. -/
def rolledBack (n : Nat) : List Int → List Int
  | [] => []
  | x :: l => l.take n ++ x :: l.drop n

/-- What these do on a stack with enough values: nothing below position `n` is touched, and one undoes the other. -/
theorem rolled_below (n : Nat) (l : List Int) (h : n < l.length) : (rolled n l).drop (n + 1) = l.drop (n + 1) := by
  unfold rolled
  rw [List.drop_succ_cons, List.eraseIdx_eq_take_drop_succ, List.drop_append]
  simp [Nat.min_eq_left (Nat.le_of_lt h)]

theorem rolledBack_rolled (n : Nat) (l : List Int) (h : n < l.length) : rolledBack n (rolled n l) = l := by
  unfold rolledBack rolled
  dsimp only
  rw [List.eraseIdx_eq_take_drop_succ, List.getD_eq_getElem?_getD, List.getElem?_eq_getElem h]
  rw [List.take_append_of_le_length (by simp; omega), List.drop_append_of_le_length (by simp; omega)]
  simp only [List.take_take, Nat.min_self, Option.getD_some]
  have : List.drop n (List.take n l) = [] := by simp
  rw [this, List.nil_append, ← List.drop_eq_getElem_cons h, List.take_append_drop]

theorem rolled_rolledBack (n : Nat) (l : List Int) (h : n < l.length) : rolled n (rolledBack n l) = l := by
  cases l with
  | nil => simp at h
  | cons x l =>
    have hn : (l.take n).length = n := by simp at h ⊢; omega
    unfold rolled rolledBack
    dsimp only
    rw [List.getD_eq_getElem?_getD, List.getElem?_append_right (by omega), hn, Nat.sub_self]
    rw [List.eraseIdx_append_of_length_le (by omega), hn, Nat.sub_self]
    simp

/-! ### The instructions -/

theorem popTop_head {s : St} (h : s.Lifo) (x : Int) (l : List Int) (n : Nat) :
    popTop (s.setItems (x :: l) n) = .ok (x, s.setItems l (n + 1)) := popTop_run h _ _

theorem padTake_succ_last (n : Nat) (l : List Int) : padTake (n + 1) l = padTake n l ++ [l.getD n 0] := by
  induction n generalizing l with
  | zero => cases l <;> simp [padTake]
  | succ n ih =>
    rw [padTake, ih, padTake]
    cases l <;> simp

/-- **C51.** `P` replaces `u` by a copy of the value at depth `u`; zeros lie below the bottom. -/
theorem C51_pick {s : St} (h : s.Lifo) {u : Nat} {l : List Int} (hi : s.items = (u : Int) :: l) (hu : (u : Int) < i64Max) :
    ∃ s', fpRun .FRTH 80 s = .ok (.none, s') ∧ s.Leaves s' (l.getD u 0 :: l) := by
  refine ⟨s.setItems (l.getD u 0 :: l) (s.top.ops + 1 + 1), ?_, _, rfl⟩
  show frthPick s = _
  conv => lhs; rw [← setItems_self h, hi]
  rw [frthPick, bind_ok (popTop_head h _ _ _)]
  rw [if_neg (by omega), if_neg (by omega), bind_ok (getTop_run h _ _ _)]
  have e : ((u : Int) + 1).toNat = u + 1 := by omega
  rw [e, if_pos (by omega), Nat.add_sub_cancel, bind_ok (pushTop_run h _ _ _)]; rfl

/-- **C51.** `P` with a negative `u` is an error; only `u` is gone. -/
theorem C51_pick_negative {s : St} (h : s.Lifo) {u : Int} {l : List Int} (hi : s.items = u :: l) (hu : u < 0) :
    ∃ s', fpRun .FRTH 80 s = .ok (.unspec, s') ∧ s.Leaves s' l := by
  refine ⟨s.setItems l (s.top.ops + 1), ?_, _, rfl⟩
  show frthPick s = _
  conv => lhs; rw [← setItems_self h, hi]
  rw [frthPick, bind_ok (popTop_head h _ _ _)]
  rw [if_pos hu]; rfl

theorem roll_run {s : St} (h : s.Lifo) {n : Nat} {l : List Int} (hi : s.items = (n : Int) :: l) (hn : (n : Int) < i64Max) :
    ∃ k, fpRun .FRTH 76 s = .ok (.none, s.setItems (l.getD n 0 :: padTake n l ++ l.drop (n + 1)) k) := by
  refine ⟨s.top.ops + 1 + (n + 1) + n + 1, ?_⟩
  show frthRoll s = _
  conv => lhs; rw [← setItems_self h, hi]
  rw [frthRoll, bind_ok (popTop_head h _ _ _)]
  have h1 : ¬ ((n : Int) = i64Min ∨ (n : Int) = i64Max) := by unfold i64Min; omega
  rw [if_neg h1]
  dsimp only
  rw [Int.natAbs_natCast, bind_ok (popN_run h _ _ _), if_neg (by omega), padTake_succ_last, List.dropLast_concat]
  have h2 : (padTake n l ++ [l.getD n 0]).getLastD 0 = l.getD n 0 := by simp
  rw [h2]
  show (pushAll pushTop _ >>= _) _ = _
  rw [bind_ok (pushAll_run h _ _ _), bind_ok (pushTop_run h _ _ _)]
  simp [pure_run, padTake_length]

/-- **C51.** `L` with `u ≥ 0` brings the value at depth `u` to the top; the ones above it move down by one, the ones below stay. -/
theorem C51_roll {s : St} (h : s.Lifo) {n : Nat} {l : List Int} (hi : s.items = (n : Int) :: l) (hn : n < l.length) (hl : (n : Int) < i64Max) :
    ∃ s', fpRun .FRTH 76 s = .ok (.none, s') ∧ s.Leaves s' (rolled n l) := by
  obtain ⟨k, hk⟩ := roll_run h hi hl
  refine ⟨_, hk, k, ?_⟩
  rw [padTake_eq_take (by omega)]
  unfold rolled
  rw [List.eraseIdx_eq_take_drop_succ, List.cons_append]

/-- **C51.** The same on a stack with too few values: zeros lie below the bottom. -/
theorem C51_roll_short {s : St} (h : s.Lifo) {n : Nat} {l : List Int} (hi : s.items = (n : Int) :: l) (hn : l.length ≤ n) (hl : (n : Int) < i64Max) :
    ∃ s', fpRun .FRTH 76 s = .ok (.none, s') ∧ s.Leaves s' (0 :: l ++ List.replicate (n - l.length) 0) := by
  obtain ⟨k, hk⟩ := roll_run h hi hl
  refine ⟨_, hk, k, ?_⟩
  rw [padTake_eq, List.take_of_length_le hn, List.drop_eq_nil_of_le (by omega)]
  have : l.getD n 0 = 0 := by simp [hn]
  rw [this]; simp

/-- **C51.** `L` with `-n` moves the topmost value below the `n` following ones. -/
theorem C51_roll_back {s : St} (h : s.Lifo) {n : Nat} {l : List Int} (hi : s.items = -(n : Int) :: l) (h0 : 0 < n) (hn : n < l.length)
    (hl : (n : Int) < i64Max) : ∃ s', fpRun .FRTH 76 s = .ok (.none, s') ∧ s.Leaves s' (rolledBack n l) := by
  obtain ⟨x, t, rfl⟩ : ∃ x t, l = x :: t := by cases l with | nil => simp at hn | cons x t => exact ⟨x, t, rfl⟩
  simp only [List.length_cons] at hn
  refine ⟨s.setItems (rolledBack n (x :: t)) (s.top.ops + 1 + (n + 1) + 1 + n), ?_, _, rfl⟩
  show frthRoll s = _
  conv => lhs; rw [← setItems_self h, hi]
  rw [frthRoll, bind_ok (popTop_head h _ _ _)]
  have h1 : ¬ (-(n : Int) = i64Min ∨ -(n : Int) = i64Max) := by unfold i64Min i64Max at *; omega
  rw [if_neg h1]
  dsimp only
  rw [Int.natAbs_neg, Int.natAbs_natCast, bind_ok (popN_run h _ _ _), if_pos (by omega), padTake_eq_take (by simp; omega), List.take_succ_cons,
    List.drop_succ_cons]
  dsimp only [List.headD_cons, List.tail_cons]
  show (pushTop x >>= _) _ = _
  rw [bind_ok (pushTop_run h _ _ _), bind_ok (pushAll_run h _ _ _)]
  have : min n t.length = n := by omega
  simp [pure_run, rolledBack, this]

/-- **C51.** Rolling by `n` and then, with `-n` pushed, by `-n` restores the stack. -/
theorem C51_roll_inverse {s : St} (h : s.Lifo) {n : Nat} {l : List Int} (hi : s.items = (n : Int) :: l) (h0 : 0 < n) (hn : n < l.length)
    (hl : (n : Int) < i64Max) :
    ∃ s1 s2 s3, fpRun .FRTH 76 s = .ok (.none, s1) ∧ pushTop (-(n : Int)) s1 = .ok ((), s2) ∧ fpRun .FRTH 76 s2 = .ok (.none, s3) ∧ s.Leaves s3 l := by
  obtain ⟨s1, h1, k, rfl⟩ := C51_roll h hi hn hl
  have hp := pushTop_run h (rolled n l) k (-(n : Int))
  have hlen : n < (rolled n l).length := by simp [rolled, List.length_eraseIdx]; split <;> omega
  obtain ⟨s3, h3, k3, rfl⟩ := C51_roll_back (lifo_setItems h (-(n : Int) :: rolled n l) (k + 1)) (items_setItems h _ _) h0 hlen hl
  refine ⟨_, _, _, h1, hp, h3, k3, ?_⟩
  rw [setItems_setItems h, rolledBack_rolled n l hn]

/-- **C51.** `O` copies the second value to the top, `R` brings the third value to the top, `D` pushes the number of values. -/
theorem C51_over_rot_depth {s : St} (h : s.Lifo) :
    (∀ b a l, s.items = b :: a :: l → ∃ s', fpRun .FRTH 79 s = .ok (.none, s') ∧ s.Leaves s' (a :: b :: a :: l)) ∧
    (∀ c b a l, s.items = c :: b :: a :: l → ∃ s', fpRun .FRTH 82 s = .ok (.none, s') ∧ s.Leaves s' (rolled 2 (c :: b :: a :: l))) ∧
    (∃ s', fpRun .FRTH 68 s = .ok (.none, s') ∧ s.Leaves s' ((s.items.length : Int) :: s.items)) := by
  refine ⟨?_, ?_, ?_⟩
  · intro b a l hi
    refine ⟨s.setItems (a :: b :: a :: l) (s.top.ops + 1 + 1 + 1 + 1 + 1), ?_, _, rfl⟩
    show frthOver s = _
    conv => lhs; rw [← setItems_self h, hi]
    rw [frthOver, bind_ok (popTop_run h _ _), bind_ok (popTop_run h _ _), bind_ok (pushTop_run h _ _ _), bind_ok (pushTop_run h _ _ _),
      bind_ok (pushTop_run h _ _ _)]; rfl
  · intro c b a l hi
    refine ⟨s.setItems (a :: c :: b :: l) (s.top.ops + 1 + 1 + 1 + 1 + 1 + 1), ?_, _, rfl⟩
    show frthRot s = _
    conv => lhs; rw [← setItems_self h, hi]
    rw [frthRot, bind_ok (popTop_run h _ _), bind_ok (popTop_run h _ _), bind_ok (popTop_run h _ _), bind_ok (pushTop_run h _ _ _),
      bind_ok (pushTop_run h _ _ _), bind_ok (pushTop_run h _ _ _)]; rfl
  · refine ⟨s.setItems ((s.items.length : Int) :: s.items) (s.top.ops + 1), ?_, _, rfl⟩
    show frthDepth s = _
    conv => lhs; rw [← setItems_self h]
    rw [frthDepth, bind_ok (sizeTop_run h _ _), bind_ok (pushTop_run h _ _ _)]; rfl

/-- A stack on which all of this applies: `3 7 8 9 5` with `2` on top. -/
example : ((machine []).setItems [2, 5, 9, 8, 7, 3] 0).Lifo ∧ ((machine []).setItems [2, 5, 9, 8, 7, 3] 0).items = ((2 : Nat) : Int) :: [5, 9, 8, 7, 3] ∧
    rolled 2 [5, 9, 8, 7, 3] = [8, 5, 9, 7, 3] ∧ rolledBack 2 [8, 5, 9, 7, 3] = [5, 9, 8, 7, 3] ∧ ((2 : Nat) : Int) < i64Max := by decide +kernel

end Funge
