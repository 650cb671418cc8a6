import Verif.Props.C23_Arithmetic
/-!
# C73: bitwise instructions

BITW, BOOL, ORTH and FIXP.
-/
namespace Funge
open Exec

/-- The bit of weight `2^i` of a number in two's complement (the sign for all large `i`). -/
def bitAt (a : Int) (i : Nat) : Bool := a / 2 ^ i % 2 = 1

/-- What a user expects of the two-operand letters. -/
def bitwise : Fp → Int → Option (Bool → Bool → Bool)
  | .BITW, 65 | .BOOL, 65 | .ORTH, 65 | .FIXP, 65 => some fun b a => b && a
  | .BITW, 79 | .BOOL, 79 | .ORTH, 79 | .FIXP, 79 => some fun b a => b || a
  | .BITW, 88 | .BOOL, 88 | .ORTH, 69 | .FIXP, 88 => some fun b a => b != a
  | _, _ => none

theorem bitAt_toInt (x : BitVec 64) (i : Nat) : bitAt x.toInt i = if i < 64 then x.getLsbD i else x.msb := by
  have hp : (0 : Int) < 2 ^ i := Int.pow_pos (by decide)
  have hlt : x.toNat < 2 ^ 64 := x.isLt
  have hnat : ∀ m : Nat, (decide ((m : Int) / 2 ^ i % 2 = 1)) = m.testBit i := by
    intro m
    rw [Nat.testBit_eq_decide_div_mod_eq]
    apply decide_eq_decide.2
    have e : ((m : Int) / 2 ^ i % 2) = ((m / 2 ^ i % 2 : Nat) : Int) := by simp
    rw [e]; omega
  unfold bitAt
  rw [BitVec.toInt_eq_msb_cond]
  by_cases hi : i < 64
  · rw [if_pos hi]
    show _ = x.toNat.testBit i
    rw [← hnat]
    split
    · apply decide_eq_decide.2
      have e : ((2 : Int) ^ 64) = 2 ^ (63 - i) * 2 * 2 ^ i := by
        rw [Int.mul_assoc, ← Int.pow_succ', ← Int.pow_add]; congr 1; omega
      have e2 : ((x.toNat : Int) - 2 ^ 64) / 2 ^ i = (x.toNat : Int) / 2 ^ i - 2 ^ (63 - i) * 2 := by
        rw [e, Int.sub_mul_ediv_right _ _ (by omega)]
      rw [show ((2 ^ 64 : Nat) : Int) = 2 ^ 64 from rfl, e2]
      generalize (2 : Int) ^ (63 - i) = k
      omega
    · rfl
  · rw [if_neg hi]
    have hle : (2 : Nat) ^ 64 ≤ 2 ^ i := Nat.pow_le_pow_right (by decide) (by omega)
    have hle' : (2 : Int) ^ 64 ≤ 2 ^ i := by exact_mod_cast hle
    have hlt' : (x.toNat : Int) < 2 ^ 64 := by exact_mod_cast hlt
    split
    · rename_i hm
      have e : ((x.toNat : Int) - 2 ^ 64) / 2 ^ i = -1 := by
        rw [Int.ediv_eq_iff_of_pos hp]
        omega
      rw [show ((2 ^ 64 : Nat) : Int) = 2 ^ 64 from rfl, e, hm]; rfl
    · rename_i hm
      rw [Int.ediv_eq_zero_of_lt (by omega) (by omega)]
      rw [Bool.not_eq_true] at hm
      rw [hm]; rfl

theorem toInt_inI64 (x : BitVec 64) : InI64 x.toInt := by
  have h1 := BitVec.le_toInt x
  have h2 := BitVec.toInt_lt (x := x)
  unfold InI64 i64Min i64Max
  omega

theorem toInt_ofInt_of_inI64 {a : Int} (h : InI64 a) : (BitVec.ofInt 64 a).toInt = a := by
  unfold InI64 i64Min i64Max at h
  rw [BitVec.toInt_ofInt]
  exact Int.bmod_eq_of_le (by omega) (by omega)

theorem head_inI64 {l : List Int} (h : ∀ x ∈ l, InI64 x) : InI64 (l.headD 0) ∧ InI64 (l.tail.headD 0) := by
  match l, h with
  | [], _ => exact ⟨by decide, by decide⟩
  | [x], h => exact ⟨h x (by simp), (by decide : InI64 0)⟩
  | x :: y :: _, h => exact ⟨h x (by simp), h y (by simp)⟩

/-- **C73** A two-operand bitwise letter replaces the two topmost cells, zeros standing in for missing ones, by the cell whose every bit is made of the two
bits in that place, and changes nothing else. -/
theorem C73_bits (exec : Int → Exec Err) (f : Fp) (c : Int) (g : Bool → Bool → Bool) (hg : bitwise f c = some g) (s : St) (h : s.Lifo)
    (hw : ∀ x ∈ s.items, InI64 x) :
    ∃ s' r, runOp exec (.fing f c) s = .ok (.none, s') ∧ s.Leaves s' (r :: s.items.drop 2) ∧ InI64 r ∧
      ∀ i, bitAt r i = g (bitAt (s.items.tail.headD 0) i) (bitAt (s.items.headD 0) i) := by
  obtain ⟨ha, hb⟩ := head_inI64 hw
  have key : ∀ (o : Int → Int → Except Fault Int) (v : BitVec 64), fpRun f c = iBin o →
      o (s.items.tail.headD 0) (s.items.headD 0) = .ok v.toInt →
      (∀ i, bitAt v.toInt i = g (bitAt (s.items.tail.headD 0) i) (bitAt (s.items.headD 0) i)) →
      ∃ s' r, runOp exec (.fing f c) s = .ok (.none, s') ∧ s.Leaves s' (r :: s.items.drop 2) ∧ InI64 r ∧
        ∀ i, bitAt r i = g (bitAt (s.items.tail.headD 0) i) (bitAt (s.items.headD 0) i) := by
    intro o v hrun ho hbits
    refine ⟨s.setItems (v.toInt :: s.items.drop 2) (s.top.ops + 3), v.toInt, ?_, ⟨_, rfl⟩, toInt_inI64 v, hbits⟩
    show fpRun f c s = _
    rw [hrun]
    exact iBin_ok h o _ ho
  have hbit : ∀ x i, InI64 x → bitAt x i = if i < 64 then (BitVec.ofInt 64 x).getLsbD i else (BitVec.ofInt 64 x).msb := by
    intro x i hx
    rw [← bitAt_toInt, toInt_ofInt_of_inI64 hx]
  unfold bitwise at hg
  split at hg
  all_goals first | cases hg; done | skip
  all_goals
    injection hg with hg
    subst hg
  case h_1 | h_2 | h_3 | h_4 =>
    refine key andOp _ rfl rfl fun i => ?_
    rw [bitAt_toInt, hbit _ i ha, hbit _ i hb]
    split
    · exact BitVec.getLsbD_and
    · exact BitVec.msb_and
  case h_5 | h_6 | h_7 | h_8 =>
    refine key orOp _ rfl rfl fun i => ?_
    rw [bitAt_toInt, hbit _ i ha, hbit _ i hb]
    split
    · exact BitVec.getLsbD_or
    · exact BitVec.msb_or
  case h_9 | h_10 | h_11 | h_12 =>
    refine key xorOp _ rfl rfl fun i => ?_
    rw [bitAt_toInt, hbit _ i ha, hbit _ i hb]
    split
    · exact BitVec.getLsbD_xor
    · exact BitVec.msb_xor

example : bitwise .BITW 88 = some (fun b a => b != a) ∧ (exState [12, -10]).Lifo ∧ (∀ x ∈ (exState [12, -10]).items, InI64 x) ∧ bitAt (-10) 1 = true ∧
    bitAt 12 1 = false := ⟨rfl, by decide⟩

/-- **C73** `N` of BITW and BOOL replaces the topmost cell by the cell whose every bit is the opposite. -/
theorem C73_not (exec : Int → Exec Err) (f : Fp) (hf : f = .BITW ∨ f = .BOOL) (s : St) (h : s.Lifo) (hw : ∀ x ∈ s.items, InI64 x) :
    ∃ s' r, runOp exec (.fing f 78) s = .ok (.none, s') ∧ s.Leaves s' (r :: s.items.drop 1) ∧ InI64 r ∧ ∀ i, bitAt r i = !bitAt (s.items.headD 0) i := by
  have hrun : runOp exec (.fing f 78) = bitNot := by rcases hf with rfl | rfl <;> rfl
  rw [hrun]
  have ha := (head_inI64 hw).1
  refine ⟨s.setItems ((-(s.items.headD 0) - 1) :: s.items.drop 1) (s.top.ops + 2), -(s.items.headD 0) - 1, ?_, ⟨_, rfl⟩, ?_, fun i => ?_⟩
  · apply run_items h
    rw [bitNot, bind_ok (popTop_run h _ _), bind_ok (pushTop_run h _ _ _)]
    simp [pure_run]
  · have ha := (head_inI64 hw).1
    unfold InI64 i64Min i64Max at *; omega
  · generalize s.items.headD 0 = a
    have hp : (0 : Int) < 2 ^ i := Int.pow_pos (by decide)
    have e : (-a - 1) / 2 ^ i = -(a / 2 ^ i) - 1 := by
      rw [Int.ediv_eq_iff_of_pos hp]
      have h1 := Int.mul_ediv_self_le (x := a) (k := 2 ^ i) (by omega)
      have h2 := Int.lt_mul_ediv_self_add (x := a) (k := 2 ^ i) hp
      generalize a / 2 ^ i = q at *
      generalize (2 : Int) ^ i = p at *
      have e1 : (-q - 1) * p = -(p * q) - p := by rw [Int.sub_mul, Int.neg_mul, Int.mul_comm]; omega
      rw [e1]
      omega
    unfold bitAt
    rw [e, ← decide_not]
    apply decide_eq_decide.2
    omega

example : (exState [5]).Lifo ∧ (∀ x ∈ (exState [5]).items, InI64 x) := by decide

/-- **C73** (partial: see `C73_undefined_shift`) `L` of BITW shifts left by 0 to 63 places: the cell is multiplied by the power of two, modulo 2^64. -/
theorem C73_left_partial (exec : Int → Exec Err) (s : St) (h : s.Lifo) (n : Nat) (hn : s.items.headD 0 = n) (h64 : n < 64) :
    ∃ s' r, runOp exec (.fing .BITW 76) s = .ok (.none, s') ∧ s.Leaves s' (r :: s.items.drop 2) ∧ InI64 r ∧
      ∃ k, s.items.tail.headD 0 * 2 ^ n = r + k * 2 ^ 64 := by
  have e : shlOp (s.items.tail.headD 0) (s.items.headD 0) = .ok (toI64 (s.items.tail.headD 0 * 2 ^ n)) := by
    rw [shlOp, if_pos (by omega), hn]; rfl
  refine ⟨_, _, iBin_ok h shlOp _ e, ⟨_, rfl⟩, ?_, ?_⟩
  · unfold toI64 InI64 i64Min i64Max
    have h1 := Int.le_bmod (x := s.items.tail.headD 0 * 2 ^ n) (m := 18446744073709551616) (by decide)
    have h2 := Int.bmod_lt (x := s.items.tail.headD 0 * 2 ^ n) (m := 18446744073709551616) (by decide)
    omega
  · refine ⟨Int.bdiv (s.items.tail.headD 0 * 2 ^ n) 18446744073709551616, ?_⟩
    have := Int.bmod_add_bdiv (s.items.tail.headD 0 * 2 ^ n) 18446744073709551616
    unfold toI64
    omega

example : (exState [3, 5]).Lifo ∧ (exState [3, 5]).items.headD 0 = (3 : Nat) := by decide

/-- **C73** (partial: see `C73_undefined_shift`) `R` of BITW shifts right by 0 to 63 places: the cell is divided by the power of two, rounding down. -/
theorem C73_right_partial (exec : Int → Exec Err) (s : St) (h : s.Lifo) (n : Nat) (hn : s.items.headD 0 = n) (h64 : n < 64) :
    ∃ s' r, runOp exec (.fing .BITW 82) s = .ok (.none, s') ∧ s.Leaves s' (r :: s.items.drop 2) ∧
      r * 2 ^ n ≤ s.items.tail.headD 0 ∧ s.items.tail.headD 0 < (r + 1) * 2 ^ n := by
  have e : shrOp (s.items.tail.headD 0) (s.items.headD 0) = .ok (s.items.tail.headD 0 / 2 ^ n) := by
    rw [shrOp, if_pos (by omega), hn]; rfl
  have hp : (0 : Int) < 2 ^ n := Int.pow_pos (by decide)
  refine ⟨_, _, iBin_ok h shrOp _ e, ⟨_, rfl⟩, Int.ediv_mul_le _ (by omega), ?_⟩
  exact Int.lt_ediv_add_one_mul_self _ hp

example : (exState [1, -5]).Lifo ∧ (exState [1, -5]).items.headD 0 = (1 : Nat) := by decide

/-- **C73** is violated: shifting by 64 or more places, or by a negative number, whose result would be plain, is undefined. -/
theorem C73_undefined_shift (exec : Int → Exec Err) (c : Int) (hc : c = 76 ∨ c = 82) (s : St) (h : s.Lifo)
    (hn : s.items.headD 0 < 0 ∨ 64 ≤ s.items.headD 0) : runOp exec (.fing .BITW c) s = .error .badShift := by
  rcases hc with rfl | rfl
  · exact iBin_error h shlOp _ (by rw [shlOp, if_neg (by omega)])
  · exact iBin_error h shrOp _ (by rw [shrOp, if_neg (by omega)])

example : (exState [64, 1]).Lifo ∧ (exState [-1, 1]).Lifo ∧ 64 ≤ (exState [64, 1]).items.headD 0 ∧ (exState [-1, 1]).items.headD 0 < 0 := by decide

end Funge
