import Verif.Props.C25_Blocks
import Verif.Props.C50_Directions
/-!
# C27: `y`
-/
namespace Funge
open Exec

/-- The strings of a list, each followed by a 0. -/
def zeroTerminated (strs : List (List Int)) : List Int := strs.flatMap fun x => x ++ [0]

/-- The system information, first cell first, for a runner whose topmost stack holds `size` values. -/
def sysInfo (s : St) (size : Nat) (time date : Int) : List Int :=
  let d := s.g.cfg.dims
  ([16 + (if s.g.cfg.concurrent then 1 else 0) + (if s.g.cfg.execute then 8 else 0) + (if s.g.cfg.filesystem then 6 else 0),
   8, 0x464e2b2b, 1, 1, 47, d, s.cur.id, 0] : List Int) ++
  coords d s.cur.ip.pos ++ coords d s.cur.ip.delta ++ coords d s.cur.ip.storage ++
  ((List.range d).map s.g.field.min).reverse ++ ((List.range d).map fun i => s.g.field.max i - s.g.field.min i).reverse ++
  ([date, time, s.cur.ss.stacks.length, size] : List Int) ++ s.cur.ss.stacks.tail.map (fun st => (st.items.length : Int)) ++
  zeroTerminated s.g.cfg.args ++ [0, 0] ++ zeroTerminated s.g.cfg.env ++ [0, 0]

theorem pushStrings_run {s : St} (h : s.Lifo) (strs : List (List Int)) (l n) :
    ∃ n', pushStrings strs (s.setItems l n) = .ok ((zeroTerminated strs).length, s.setItems (zeroTerminated strs ++ l) n') := by
  induction strs generalizing l n with
  | nil => exact ⟨n, rfl⟩
  | cons x r ih =>
    obtain ⟨n', h1⟩ := ih l n
    refine ⟨n' + 1 + x.length, ?_⟩
    rw [pushStrings, bind_ok h1, bind_ok (pushString_run h x _ _), pure_run]
    simp [zeroTerminated]; omega

theorem sizeAt_run {s : St} {k : Nat} (hk : k < s.cur.ss.stacks.length) : sizeAt k s = .ok (s.cur.ss.stacks[k].items.length, s) := by
  have h1 : s.cur.ss.stacks[k]? = some s.cur.ss.stacks[k] := by simp [hk]
  have h2 : s.cur.ss.setAt k s.cur.ss.stacks[k] = s.cur.ss := by unfold StackStack.setAt; simp
  simp only [sizeAt, onStack, StackStack.at', h1, Stack.size, h2]

theorem pushSizes_run {s : St} (h : s.Lifo) (hsel : s.cur.ss.select = 0) (k : Nat) (hk : k < s.cur.ss.stacks.length) (l n) :
    ∃ n', pushSizes k (s.setItems l n) =
      .ok ((), s.setItems ((s.cur.ss.stacks.tail.take k).map (fun st => (st.items.length : Int)) ++ l) n') := by
  induction k generalizing l n with
  | zero => exact ⟨n, rfl⟩
  | succ k ih =>
    obtain ⟨n', h1⟩ := ih (by omega) ((s.cur.ss.stacks[k + 1].items.length : Int) :: l) (n + 1)
    refine ⟨n', ?_⟩
    have hk' : k + 1 < (s.setItems l n).cur.ss.stacks.length := by rw [setItems_len]; exact hk
    have hst : (s.setItems l n).cur.ss.stacks[k + 1] = s.cur.ss.stacks[k + 1] := by
      simp [St.setItems, St.setTop, StackStack.setAt, hsel]
    rw [pushSizes, bind_ok (sizeAt_run hk'), hst, bind_ok (pushTop_run h _ _ _), h1]
    have : s.cur.ss.stacks.tail.take (k + 1) = s.cur.ss.stacks.tail.take k ++ [s.cur.ss.stacks[k + 1]] := by
      rw [List.take_add_one]
      have : s.cur.ss.stacks.tail[k]? = some s.cur.ss.stacks[k + 1] := by rw [List.getElem?_tail]; simp [hk]
      rw [this]; rfl
    rw [this]; simp

theorem dropN_run {s : St} (h : s.Lifo) (k : Nat) (l n) : dropN k (s.setItems l n) = .ok ((), s.setItems (l.drop k) (n + k)) := by
  induction k generalizing l n with
  | zero => rfl
  | succ k ih =>
    rw [dropN, bind_ok (popTop_run h l n), ih]
    simp [Nat.add_comm, Nat.add_left_comm]

theorem sysInfo_length (s : St) (size : Nat) (time date : Int) : (sysInfo s size time date).length =
    2 + (zeroTerminated s.g.cfg.env).length + 2 + (zeroTerminated s.g.cfg.args).length + (s.cur.ss.stacks.length - 1) + 1 + 1 + 2 +
      s.g.cfg.dims + s.g.cfg.dims + s.g.cfg.dims + s.g.cfg.dims + s.g.cfg.dims + 9 := by
  simp only [sysInfo, List.length_append, List.length_cons, List.length_nil, coords_length, List.length_reverse, List.length_map,
    List.length_range, List.length_tail]
  omega

theorem ask_run (s : St) : ask s = .ok (s.g.orc s.g.asked, s.asked) := rfl

theorem asked_setItems (s : St) (l n) : (s.setItems l n).asked = s.asked.setItems l n := rfl

theorem pushSysInfo_run {s : St} (h : s.Lifo) (hsel : s.cur.ss.select = 0) (num : Int) (l n) :
    ∃ n', pushSysInfo num (s.setItems l n) = .ok ((), s.asked.asked.setItems
      (if num > 0 then (sysInfo s l.length (s.g.orc s.g.asked) (s.g.orc (s.g.asked + 1)) ++ l).getD (num.toNat - 1) 0 :: l
       else sysInfo s l.length (s.g.orc s.g.asked) (s.g.orc (s.g.asked + 1)) ++ l) n') := by
  have h2 : s.asked.asked.Lifo := h
  obtain ⟨n1, e1⟩ := pushStrings_run h s.g.cfg.env (0 :: 0 :: l) (n + 1 + 1)
  obtain ⟨n2, e2⟩ := pushStrings_run h s.g.cfg.args (0 :: 0 :: (zeroTerminated s.g.cfg.env ++ 0 :: 0 :: l)) (n1 + 1 + 1)
  have hlen : 0 < s.cur.ss.stacks.length := by have := h.1; omega
  obtain ⟨n3, e3⟩ := pushSizes_run h hsel (s.cur.ss.stacks.length - 1) (by omega)
    (zeroTerminated s.g.cfg.args ++ 0 :: 0 :: (zeroTerminated s.g.cfg.env ++ 0 :: 0 :: l)) n2
  have hns : ∀ l n, numStacks (s.setItems l n) = .ok (s.cur.ss.stacks.length, s.setItems l n) := by
    intro l n
    rw [numStacks_run]
    show Except.ok ((s.setItems l n).cur.ss.stacks.length, _) = _
    rw [setItems_len]
  have htake : s.cur.ss.stacks.tail.take (s.cur.ss.stacks.length - 1) = s.cur.ss.stacks.tail := by
    rw [List.take_of_length_le (by simp)]
  rw [htake] at e3
  -- everything before the choice
  have main : ∃ n', pushSysInfo num (s.setItems l n) = (if num > 0 then do
      let val ← getTop num.toNat
      dropN (sysInfo s l.length (s.g.orc s.g.asked) (s.g.orc (s.g.asked + 1))).length
      pushTop val
    else pure () : Exec Unit)
      (s.asked.asked.setItems (sysInfo s l.length (s.g.orc s.g.asked) (s.g.orc (s.g.asked + 1)) ++ l) n') := by
    refine ⟨n3 + 1 + 1 + 1 + 1 + s.g.cfg.dims + s.g.cfg.dims + s.g.cfg.dims + s.g.cfg.dims + s.g.cfg.dims + 9, ?_⟩
    rw [pushSysInfo, bind_ok (getDims_run _), bind_ok (sizeTop_run h _ _), bind_ok (getCfg_run _), bind_ok (pushTop_run h _ _ _),
      bind_ok (pushTop_run h _ _ _), setItems_g, bind_ok e1, bind_ok (pushTop_run h _ _ _), bind_ok (pushTop_run h _ _ _), bind_ok e2,
      bind_ok (hns _ _), bind_ok e3, bind_ok (pushTop_run h _ _ _), bind_ok (pushTop_run h _ _ _), bind_ok (ask_run _), asked_setItems,
      bind_ok (pushTop_run (s := s.asked) h _ _ _), bind_ok (ask_run _), asked_setItems, bind_ok (pushTop_run h2 _ _ _),
      bind_ok (get_run _), bind_ok (pushAll_run h2 _ _ _), bind_ok (pushAll_run h2 _ _ _), bind_ok (pushVector_run h2 _ _ _),
      bind_ok (pushVector_run h2 _ _ _), bind_ok (pushVector_run h2 _ _ _),
      bind_ok (pushTop_run h2 _ _ _), bind_ok (pushTop_run h2 _ _ _), bind_ok (pushTop_run h2 _ _ _), bind_ok (pushTop_run h2 _ _ _),
      bind_ok (pushTop_run h2 _ _ _), bind_ok (pushTop_run h2 _ _ _), bind_ok (pushTop_run h2 _ _ _), bind_ok (pushTop_run h2 _ _ _),
      bind_ok (pushTop_run h2 _ _ _)]
    rw [sysInfo_length]
    congr 1
    simp [sysInfo, coords, envFlags, St.asked, Nat.add_assoc]
  obtain ⟨n', hm⟩ := main
  by_cases hn : num > 0
  · refine ⟨n' + (sysInfo s l.length (s.g.orc s.g.asked) (s.g.orc (s.g.asked + 1))).length + 1, ?_⟩
    rw [hm, if_pos hn, if_pos hn, bind_ok (getTop_run h2 _ _ _), bind_ok (dropN_run h2 _ _ _), pushTop_run h2]
    rw [if_pos (by omega), List.drop_append]
    simp
  · exact ⟨n', by rw [hm, if_neg hn, if_neg hn]; rfl⟩

/-- **C27** `n y` with n > 0 replaces n by one cell: the n-th cell of the list formed by the system information followed by the stack
below n. The cells below are unchanged, and so is everything else (the clock has been read twice). The count fits an `int`. -/
theorem C27_sysinfo_partial (exec : Int → Exec Err) (s : St) (h : s.Lifo) (hsel : s.cur.ss.select = 0) (n : Int) (l : List Int)
    (hl : s.items = n :: l) (hn : 0 < n ∧ n ≤ 2147483647) :
    ∃ s', runOp exec .sysInfo s = .ok (.none, s') ∧
      s.asked.asked.Leaves s' ((sysInfo s l.length (s.g.orc s.g.asked) (s.g.orc (s.g.asked + 1)) ++ l).getD (n.toNat - 1) 0 :: l) := by
  obtain ⟨k, hk⟩ := pushSysInfo_run h hsel (toInt n) l (s.top.ops + 1)
  have hi : toInt n = n := by unfold toInt; rw [Int.bmod_def]; split <;> omega
  rw [hi, if_pos (by omega)] at hk
  refine ⟨_, ?_, ⟨k, rfl⟩⟩
  show iSysInfo s = _
  apply run_items h
  rw [iSysInfo, bind_ok (popTop_run h _ _), hl, List.headD_cons, List.tail_cons, hi, bind_ok hk]
  rfl

/-- **C27** `n y` with n ≤ 0 replaces n by the whole list. -/
theorem C27_sysinfo_all (exec : Int → Exec Err) (s : St) (h : s.Lifo) (hsel : s.cur.ss.select = 0) (n : Int) (l : List Int)
    (hl : s.items = n :: l) (hn : -2147483648 ≤ n ∧ n ≤ 0) :
    ∃ s', runOp exec .sysInfo s = .ok (.none, s') ∧ s.asked.asked.Leaves s' (sysInfo s l.length (s.g.orc s.g.asked) (s.g.orc (s.g.asked + 1)) ++ l) := by
  obtain ⟨k, hk⟩ := pushSysInfo_run h hsel (toInt n) l (s.top.ops + 1)
  have hi : toInt n = n := by unfold toInt; rw [Int.bmod_def]; split <;> omega
  rw [hi, if_neg (by omega)] at hk
  refine ⟨_, ?_, ⟨k, rfl⟩⟩
  show iSysInfo s = _
  apply run_items h
  rw [iSysInfo, bind_ok (popTop_run h _ _), hl, List.headD_cons, List.tail_cons, hi, bind_ok hk]
  rfl

example : (exTwo [3, 5] [6, 7, 8]).Lifo ∧ (exTwo [3, 5] [6, 7, 8]).cur.ss.select = 0 ∧ (exTwo [3, 5] [6, 7, 8]).items = [3, 5] := by decide

/-- In Befunge-98 the list without arguments and environment, for two stacks of sizes 4 and 3. -/
example : sysInfo (exTwo [3, 5] [6, 7, 8]) 4 100 200 =
    [31, 8, 1179527979, 1, 1, 47, 2, 0, 0, 0, 0, 0, 1, 20, 10, 0, 0, 0, 0, 200, 100, 2, 4, 3, 0, 0, 0, 0] := by decide +kernel

/-- **C27** is violated by counts beyond the range of `int`: with 2^32 on the stack, n > 0, yet the whole list is pushed. -/
theorem C27_false_beyond_int (exec : Int → Exec Err) (s : St) (h : s.Lifo) (hsel : s.cur.ss.select = 0) (l : List Int)
    (hl : s.items = 4294967296 :: l) :
    ∃ s', runOp exec .sysInfo s = .ok (.none, s') ∧ s.asked.asked.Leaves s' (sysInfo s l.length (s.g.orc s.g.asked) (s.g.orc (s.g.asked + 1)) ++ l) ∧
      (sysInfo s l.length (s.g.orc s.g.asked) (s.g.orc (s.g.asked + 1)) ++ l).length > l.length + 1 := by
  obtain ⟨k, hk⟩ := pushSysInfo_run h hsel (toInt 4294967296) l (s.top.ops + 1)
  have hi : toInt 4294967296 = 0 := by decide
  rw [hi, if_neg (by omega)] at hk
  refine ⟨_, ?_, ⟨k, rfl⟩, ?_⟩
  · show iSysInfo s = _
    apply run_items h
    rw [iSysInfo, bind_ok (popTop_run h _ _), hl, List.headD_cons, List.tail_cons, hi, bind_ok hk]
    rfl
  · rw [List.length_append, sysInfo_length]; omega

example : (exTwo [4294967296, 5] [6]).Lifo ∧ (exTwo [4294967296, 5] [6]).items = [4294967296, 5] := by decide

end Funge
