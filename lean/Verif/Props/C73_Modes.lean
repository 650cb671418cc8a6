import Verif.Props.C73_Bits
import Verif.Props.C88_Modes
/-!
# C73 and C89 in all modes of the stack

The bitwise letters, `'` and `s` take their operands from the end at which the stack gives and push at the end at which it takes.
-/
namespace Funge
open Exec

/-! ### C73 -/

/-- **C73** in all modes of the stack: a two-operand bitwise letter takes two cells, zeros standing in for missing ones, pushes the cell whose
every bit is made of the two bits in that place, and changes nothing else. -/
theorem C73_bits_any_mode (exec : Int → Exec Err) (f : Fp) (c : Int) (g : Bool → Bool → Bool) (hg : bitwise f c = some g) (s : St)
    (h : s.cur.ss.select < s.cur.ss.stacks.length) (hw : ∀ x ∈ s.due, InI64 x) :
    ∃ s' r, runOp exec (.fing f c) s = .ok (.none, s') ∧
      s.Leaves s' (pushedTo (hasMode s.top.mode modeInvert) [r] (fromEnd (hasMode s.top.mode modeQueue) (s.due.drop 2))) ∧ InI64 r ∧
      ∀ i, bitAt r i = g (bitAt (s.due.tail.headD 0) i) (bitAt (s.due.headD 0) i) := by
  obtain ⟨ha, hb⟩ := head_inI64 hw
  have key : ∀ (o : Int → Int → Except Fault Int) (v : BitVec 64), fpRun f c = iBin o →
      o (s.due.tail.headD 0) (s.due.headD 0) = .ok v.toInt →
      (∀ i, bitAt v.toInt i = g (bitAt (s.due.tail.headD 0) i) (bitAt (s.due.headD 0) i)) →
      ∃ s' r, runOp exec (.fing f c) s = .ok (.none, s') ∧
        s.Leaves s' (pushedTo (hasMode s.top.mode modeInvert) [r] (fromEnd (hasMode s.top.mode modeQueue) (s.due.drop 2))) ∧ InI64 r ∧
        ∀ i, bitAt r i = g (bitAt (s.due.tail.headD 0) i) (bitAt (s.due.headD 0) i) := by
    intro o v hrun ho hbits
    refine ⟨_, v.toInt, ?_, ⟨s.top.ops + 3, rfl⟩, toInt_inI64 v, hbits⟩
    show fpRun f c s = _
    rw [hrun]
    exact iBin_any h o _ ho
  have hbit : ∀ x i, InI64 x → bitAt x i = if i < 64 then (BitVec.ofInt 64 x).getLsbD i else (BitVec.ofInt 64 x).msb := by
    intro x i hx
    rw [← bitAt_toInt, toInt_ofInt_of_inI64 hx]
  unfold bitwise at hg
  split at hg
  all_goals first | cases hg; done | skip
  all_goals
    injection hg with hg
    subst hg
  case h_1 | h_2 | h_3 | h_4 =>
    refine key andOp _ rfl rfl fun i => ?_
    rw [bitAt_toInt, hbit _ i ha, hbit _ i hb]
    split
    · exact BitVec.getLsbD_and
    · exact BitVec.msb_and
  case h_5 | h_6 | h_7 | h_8 =>
    refine key orOp _ rfl rfl fun i => ?_
    rw [bitAt_toInt, hbit _ i ha, hbit _ i hb]
    split
    · exact BitVec.getLsbD_or
    · exact BitVec.msb_or
  case h_9 | h_10 | h_11 | h_12 =>
    refine key xorOp _ rfl rfl fun i => ?_
    rw [bitAt_toInt, hbit _ i ha, hbit _ i hb]
    split
    · exact BitVec.getLsbD_xor
    · exact BitVec.msb_xor

/-- **C73** in all modes of the stack: `N` of BITW and BOOL takes a cell and pushes the cell whose every bit is the opposite. -/
theorem C73_not_any_mode (exec : Int → Exec Err) (f : Fp) (hf : f = .BITW ∨ f = .BOOL) (s : St) (h : s.cur.ss.select < s.cur.ss.stacks.length)
    (hw : ∀ x ∈ s.due, InI64 x) :
    ∃ s' r, runOp exec (.fing f 78) s = .ok (.none, s') ∧
      s.Leaves s' (pushedTo (hasMode s.top.mode modeInvert) [r] (fromEnd (hasMode s.top.mode modeQueue) s.due.tail)) ∧ InI64 r ∧
      ∀ i, bitAt r i = !bitAt (s.due.headD 0) i := by
  have hrun : runOp exec (.fing f 78) = bitNot := by rcases hf with rfl | rfl <;> rfl
  rw [hrun]
  have ha := (head_inI64 hw).1
  have hp := popTop_any h rfl s.due s.top.ops
  rw [due_self h rfl] at hp
  refine ⟨_, -(s.due.headD 0) - 1, ?_, ⟨s.top.ops + 1 + 1, rfl⟩, ?_, fun i => ?_⟩
  · rw [bitNot, bind_ok hp, bind_ok (pushTop_any h _ _ _)]
    rfl
  · unfold InI64 i64Min i64Max at *; omega
  · generalize s.due.headD 0 = a
    have hp : (0 : Int) < 2 ^ i := Int.pow_pos (by decide)
    have e : (-a - 1) / 2 ^ i = -(a / 2 ^ i) - 1 := by
      rw [Int.ediv_eq_iff_of_pos hp]
      have h1 := Int.mul_ediv_self_le (x := a) (k := 2 ^ i) (by omega)
      have h2 := Int.lt_mul_ediv_self_add (x := a) (k := 2 ^ i) hp
      generalize a / 2 ^ i = q at *
      generalize (2 : Int) ^ i = p at *
      have e1 : (-q - 1) * p = -(p * q) - p := by rw [Int.sub_mul, Int.neg_mul, Int.mul_comm]; omega
      rw [e1]
      omega
    unfold bitAt
    rw [e, ← decide_not]
    apply decide_eq_decide.2
    omega

/-- **C73** in all modes of the stack (partial: see `C73_undefined_shift`): `L` and `R` of BITW shift by 0 to 63 places. -/
theorem C73_shift_any_mode_partial (exec : Int → Exec Err) (s : St) (h : s.cur.ss.select < s.cur.ss.stacks.length) (n : Nat) (hn : s.due.headD 0 = n) (h64 : n < 64) :
    (∃ s' r, runOp exec (.fing .BITW 76) s = .ok (.none, s') ∧
      s.Leaves s' (pushedTo (hasMode s.top.mode modeInvert) [r] (fromEnd (hasMode s.top.mode modeQueue) (s.due.drop 2))) ∧ InI64 r ∧
      ∃ k, s.due.tail.headD 0 * 2 ^ n = r + k * 2 ^ 64) ∧
    (∃ s' r, runOp exec (.fing .BITW 82) s = .ok (.none, s') ∧
      s.Leaves s' (pushedTo (hasMode s.top.mode modeInvert) [r] (fromEnd (hasMode s.top.mode modeQueue) (s.due.drop 2))) ∧
      r * 2 ^ n ≤ s.due.tail.headD 0 ∧ s.due.tail.headD 0 < (r + 1) * 2 ^ n) := by
  have e1 : shlOp (s.due.tail.headD 0) (s.due.headD 0) = .ok (toI64 (s.due.tail.headD 0 * 2 ^ n)) := by
    rw [shlOp, if_pos (by omega), hn]; rfl
  have e2 : shrOp (s.due.tail.headD 0) (s.due.headD 0) = .ok (s.due.tail.headD 0 / 2 ^ n) := by
    rw [shrOp, if_pos (by omega), hn]; rfl
  have hp : (0 : Int) < 2 ^ n := Int.pow_pos (by decide)
  refine ⟨⟨_, _, iBin_any h shlOp _ e1, ⟨_, rfl⟩, ?_, ?_⟩, _, _, iBin_any h shrOp _ e2, ⟨_, rfl⟩, Int.ediv_mul_le _ (by omega), Int.lt_ediv_add_one_mul_self _ hp⟩
  · unfold toI64 InI64 i64Min i64Max
    have h1 := Int.le_bmod (x := s.due.tail.headD 0 * 2 ^ n) (m := 18446744073709551616) (by decide)
    have h2 := Int.bmod_lt (x := s.due.tail.headD 0 * 2 ^ n) (m := 18446744073709551616) (by decide)
    omega
  · refine ⟨Int.bdiv (s.due.tail.headD 0 * 2 ^ n) 18446744073709551616, ?_⟩
    have := Int.bmod_add_bdiv (s.due.tail.headD 0 * 2 ^ n) 18446744073709551616
    unfold toI64
    omega

/-- A queue that was given 3 and 5: 5 shifted by 3 places, and 5 or 3. -/
example : let s := (exState []).setTop ⟨modeQueue, [5, 3], 0⟩
    s.cur.ss.select < s.cur.ss.stacks.length ∧ s.due.headD 0 = (3 : Nat) ∧ (∀ x ∈ s.due, InI64 x) ∧ s.due.tail.headD 0 = 5 ∧
    (bitwise .BITW 79).isSome = true := by decide

/-! ### C89 -/

/-- **C89** in all modes of the stack (partial: see `C89_false_for_wide_cells`): `'` goes to the next cell and pushes its value, if it is a 32-bit
number; nothing else changes. -/
theorem C89_fetch_any_mode_partial (exec : Int → Exec Err) {s : St} (h : s.cur.ss.select < s.cur.ss.stacks.length) :
    ∃ ip s', s.cur.ip.next s.g.cfg.dims s.g.cfg.topo s.g.field = .ok ip ∧ runOp exec .fetch s = .ok (.none, s') ∧
      (InI32 (s.g.field.get ip.pos) → (s.setIP ip).Leaves s' (pushedTo (hasMode s.top.mode modeInvert) [s.g.field.get ip.pos] s.items)) := by
  obtain ⟨ip, hip⟩ := IP.C15_always_terminates s.g.cfg.dims s.g.cfg.topo s.g.field s.cur.ip
  refine ⟨ip, (s.setIP ip).setItems (pushedTo (hasMode s.top.mode modeInvert) [toInt (s.g.field.get ip.pos)] s.items) (s.top.ops + 1), hip, ?_,
    fun hx => ⟨s.top.ops + 1, ?_⟩⟩
  · show iFetch s = _
    rw [iFetch, bind_ok (ipNext_run hip), bind_ok (ipGet_run _)]
    conv => lhs; rw [← show (s.setIP ip).setItems s.items s.top.ops = s.setIP ip from setTop_self (s := s.setIP ip) h]
    rw [bind_ok (pushTop_any (s := s.setIP ip) h _ _ _)]; rfl
  · have : toInt (s.g.field.get ip.pos) = s.g.field.get ip.pos := by
      unfold InI32 at hx; unfold toInt; rw [Int.bmod_def]; split <;> omega
    rw [this]

/-- **C89** in all modes of the stack (partial: see `C89_false_beyond_a_byte`): `s` goes to the next cell and puts there the value it takes from the
stack, if it is between -128 and 127; no other cell, and nothing else, changes. -/
theorem C89_store_any_mode_partial (exec : Int → Exec Err) {s : St} (h : s.cur.ss.select < s.cur.ss.stacks.length) (hu : Field.UniqueKeys s.g.field.cells) :
    ∃ ip s' f, s.cur.ip.next s.g.cfg.dims s.g.cfg.topo s.g.field = .ok ip ∧ runOp exec .store s = .ok (.none, s') ∧
      (s.setIP ip).Puts s' (fromEnd (hasMode s.top.mode modeQueue) s.due.tail) f ∧
      (-128 ≤ s.due.headD 0 ∧ s.due.headD 0 ≤ 127 → f.get ip.pos = s.due.headD 0) ∧ ∀ q, ip.pos.eqv q = false → f.get q = s.g.field.get q := by
  obtain ⟨ip, hip⟩ := IP.C15_always_terminates s.g.cfg.dims s.g.cfg.topo s.g.field s.cur.ip
  refine ⟨ip, _, s.g.field.put ip.pos (toChar (toInt (s.due.headD 0))), hip, ?_, ⟨s.top.ops + 1, rfl⟩, fun hx => ?_, fun q hq => ?_⟩
  · show iStore s = _
    rw [iStore, bind_ok (ipNext_run hip)]
    have hp := popTop_any (s := s.setIP ip) h (q := hasMode s.top.mode modeQueue) rfl s.due s.top.ops
    rw [show (s.setIP ip).setItems (fromEnd (hasMode s.top.mode modeQueue) s.due) s.top.ops = s.setIP ip from
      due_self (s := s.setIP ip) h rfl] at hp
    rw [bind_ok hp]; rfl
  · generalize s.due.headD 0 = x at *
    have : toChar (toInt x) = x := by
      unfold toInt toChar; rw [Int.bmod_def, Int.bmod_def]; split <;> split <;> omega
    rw [Field.get_put hu, if_pos (Vec.eqv_refl _), this, Field.cellOf]
    split
    · unfold toChar; rw [Int.bmod_def]; split <;> omega
    · rfl
  · rw [Field.get_put hu, if_neg (by rw [hq]; decide)]

/-- `s` and `'` with a queue that gives 65 first. -/
example : let s := (machine [115, 32]).setTop ⟨modeQueue, [7, 65], 0⟩
    s.cur.ss.select < s.cur.ss.stacks.length ∧ s.due = [65, 7] ∧ Field.UniqueKeys s.g.field.cells ∧
    stackAfter ((machine [39, 66]).setTop ⟨modeInvert, [7, 65], 0⟩) 1 = some [7, 65, 66] := by
  unfold Field.UniqueKeys; decide +kernel

end Funge
