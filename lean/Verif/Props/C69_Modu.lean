import Verif.Lemmas.LibPath
import Verif.Lemmas.LibModu
/-!
C69: the instructions of MODU, a fingerprint written in Funge (`fing/MODU.fl`). `b` is the divisor, on top of the stack, and `a` below it.
R leaves the remainder of C, M the remainder with the sign of the divisor, U the remainder that is not negative; 0 for a divisor of 0.
-/
namespace Funge
open Lib

/-- `r` is what remains of `a` when multiples of `b` are taken away, with the sign of `a`. -/
def TruncRem (a b r : Int) : Prop := (∃ q, a = b * q + r) ∧ r.natAbs < b.natAbs ∧ (0 ≤ a → 0 ≤ r) ∧ (a ≤ 0 → r ≤ 0)

/-- `r` is what remains of `a` when multiples of `b` are taken away, with the sign of `b`. -/
def FloorRem (a b r : Int) : Prop := (∃ q, a = b * q + r) ∧ r.natAbs < b.natAbs ∧ (0 < b → 0 ≤ r) ∧ (b < 0 → r ≤ 0)

/-- `r` is what remains of `a` when multiples of `b` are taken away, and is not negative. -/
def AbsRem (a b r : Int) : Prop := (∃ q, a = b * q + r) ∧ r.natAbs < b.natAbs ∧ 0 ≤ r

theorem modu_dims : moduField.dims = 3 := rfl

section
variable {s : St} {a b : Int} {l : List Int}

theorem modu_zero (cmd : Int) (hc : cmd = 77 ∨ cmd = 82 ∨ cmd = 85) (h : s.Synced) (hf : 40 ≤ s.g.fuel) (hi : s.items = 0 :: a :: l) :
    ∃ s', libCall moduLib cmd s = .ok (.none, s') ∧ s.Answers s' (0 :: l) [] := by
  rw [moduLib_eq]
  rcases hc with rfl | rfl | rfl
  · refine libCall_path (d := 6) (path := [0]) (x := 7) (y := 0) (ps := [(0 : Int) = 0]) h modu_dims hi (by omega) (fun e => ?_) ⟨rfl, trivial⟩ (by decide +kernel)
    krfl
  · refine libCall_path (d := 6) (path := [0]) (x := 7) (y := 0) (ps := [(0 : Int) = 0]) h modu_dims hi (by omega) (fun e => ?_) ⟨rfl, trivial⟩ (by decide +kernel)
    krfl
  · refine libCall_path (d := 6) (path := [0]) (x := 7) (y := 0) (ps := [(0 : Int) = 0]) h modu_dims hi (by omega) (fun e => ?_) ⟨rfl, trivial⟩ (by decide +kernel)
    krfl

theorem modu_R (h : s.Synced) (hf : 40 ≤ s.g.fuel) (hi : s.items = b :: a :: l) (hb : b ≠ 0) (ho : ¬(a = i64Min ∧ b = -1)) :
    ∃ s', libCall moduLib 82 s = .ok (.none, s') ∧ s.Answers s' (a.tmod b :: l) [] := by
  rw [moduLib_eq]
  refine libCall_path (d := 6) (path := [1]) (x := 4) (y := 1) (ps := [b ≠ 0, b ≠ 0, ¬(a = i64Min ∧ b = -1)]) h modu_dims hi (by omega)
    (fun e => ?_) ⟨hb, hb, ho, trivial⟩ (by decide +kernel)
  krfl

theorem modu_M_pos (h : s.Synced) (hf : 40 ≤ s.g.fuel) (hi : s.items = b :: a :: l) (hb : b ≠ 0) (h1 : InI64 (a.tdiv b)) (h2 : 0 ≤ a.tdiv b)
    (h3 : InI64 (b * a.tdiv b)) (h4 : InI64 (a - b * a.tdiv b)) :
    ∃ s', libCall moduLib 77 s = .ok (.none, s') ∧ s.Answers s' ((a - b * a.tdiv b) :: l) [] := by
  rw [moduLib_eq]
  refine libCall_path (d := 20) (path := [1, 2, 0]) (x := 19) (y := 1)
    (ps := [b ≠ 0, (2 : Int) = 2, b ≠ 0, InI64 (a.tdiv b), (if (0 : Int) > a.tdiv b then (1 : Int) else 0) = 0, InI64 (b * a.tdiv b), InI64 (a - b * a.tdiv b)])
    h modu_dims hi (by omega) (fun e => ?_) ⟨hb, rfl, hb, h1, if_neg (by omega), h3, h4, trivial⟩ (by decide +kernel)
  krfl

theorem modu_M_neg (h : s.Synced) (hf : 40 ≤ s.g.fuel) (hi : s.items = b :: a :: l) (hb : b ≠ 0) (h1 : InI64 (a.tdiv b)) (h2 : a.tdiv b < 0)
    (h5 : InI64 (a.tdiv b - 1)) (h3 : InI64 (b * (a.tdiv b - 1))) (h4 : InI64 (a - b * (a.tdiv b - 1))) :
    ∃ s', libCall moduLib 77 s = .ok (.none, s') ∧ s.Answers s' ((a - b * (a.tdiv b - 1)) :: l) [] := by
  rw [moduLib_eq]
  refine libCall_path (d := 24) (path := [1, 2, 1]) (x := 19) (y := 1)
    (ps := [b ≠ 0, (2 : Int) = 2, b ≠ 0, InI64 (a.tdiv b), (if (0 : Int) > a.tdiv b then (1 : Int) else 0) ≠ 0, InI64 (a.tdiv b - 1),
      InI64 (b * (a.tdiv b - 1)), InI64 (a - b * (a.tdiv b - 1))])
    h modu_dims hi (by omega) (fun e => ?_) ⟨hb, rfl, hb, h1, by rw [if_pos (by omega)]; decide, h5, h3, h4, trivial⟩ (by decide +kernel)
  krfl

theorem modu_U_pos (h : s.Synced) (hf : 40 ≤ s.g.fuel) (hi : s.items = b :: a :: l) (hb : b ≠ 0) (ho : ¬(a = i64Min ∧ b = -1)) (h1 : 0 < a.tmod b) :
    ∃ s', libCall moduLib 85 s = .ok (.none, s') ∧ s.Answers s' (a.tmod b :: l) [] := by
  rw [moduLib_eq]
  refine libCall_path (d := 21) (path := [1, 2, 1]) (x := 17) (y := 0)
    (ps := [b ≠ 0, (2 : Int) = 2, b ≠ 0, ¬(a = i64Min ∧ b = -1), (if a.tmod b > 0 then (1 : Int) else 0) ≠ 0])
    h modu_dims hi (by omega) (fun e => ?_) ⟨hb, rfl, hb, ho, by rw [if_pos (by omega)]; decide, trivial⟩ (by decide +kernel)
  krfl

theorem modu_U_up (h : s.Synced) (hf : 40 ≤ s.g.fuel) (hi : s.items = b :: a :: l) (hb : 0 < b) (ho : ¬(a = i64Min ∧ b = -1)) (h1 : a.tmod b ≤ 0)
    (h2 : InI64 (a.tmod b + b)) : ∃ s', libCall moduLib 85 s = .ok (.none, s') ∧ s.Answers s' ((a.tmod b + b) :: l) [] := by
  rw [moduLib_eq]
  refine libCall_path (d := 32) (path := [1, 2, 0, 1]) (x := 28) (y := 1)
    (ps := [b ≠ 0, (2 : Int) = 2, b ≠ 0, ¬(a = i64Min ∧ b = -1), (if a.tmod b > 0 then (1 : Int) else 0) = 0, (if b > 0 then (1 : Int) else 0) ≠ 0,
      InI64 (a.tmod b + b)])
    h modu_dims hi (by omega) (fun e => ?_)
    ⟨by omega, rfl, by omega, ho, if_neg (by omega), by rw [if_pos (by omega)]; decide, h2, trivial⟩ (by decide +kernel)
  krfl

theorem modu_U_down (h : s.Synced) (hf : 40 ≤ s.g.fuel) (hi : s.items = b :: a :: l) (hb : b < 0) (ho : ¬(a = i64Min ∧ b = -1)) (h1 : a.tmod b ≤ 0)
    (h3 : InI64 (0 - b)) (h2 : InI64 (a.tmod b + (0 - b))) :
    ∃ s', libCall moduLib 85 s = .ok (.none, s') ∧ s.Answers s' ((a.tmod b + (0 - b)) :: l) [] := by
  rw [moduLib_eq]
  refine libCall_path (d := 28) (path := [1, 2, 0, 0]) (x := 28) (y := 1)
    (ps := [b ≠ 0, (2 : Int) = 2, b ≠ 0, ¬(a = i64Min ∧ b = -1), (if a.tmod b > 0 then (1 : Int) else 0) = 0, (if b > 0 then (1 : Int) else 0) = 0,
      InI64 (0 - b), InI64 (a.tmod b + (0 - b))])
    h modu_dims hi (by omega) (fun e => ?_)
    ⟨by omega, rfl, by omega, ho, if_neg (by omega), if_neg (by omega), h3, h2, trivial⟩ (by decide +kernel)
  krfl

/-- A divisor of 0 leaves 0 (C69). -/
theorem C69_zero (cmd : Int) (hc : cmd = 77 ∨ cmd = 82 ∨ cmd = 85) (h : s.Synced) (hf : 40 ≤ s.g.fuel) (hi : s.items = 0 :: a :: l) :
    ∃ s', libCall moduLib cmd s = .ok (.none, s') ∧ s.Answers s' (0 :: l) [] := modu_zero cmd hc h hf hi

theorem tmod_truncRem (a : Int) {b : Int} (hb : b ≠ 0) : TruncRem a b (a.tmod b) := by
  refine ⟨⟨a.tdiv b, (Int.mul_tdiv_add_tmod a b).symm⟩, ?_, fun h => Int.tmod_nonneg b h, fun h => ?_⟩
  · rw [Int.natAbs_tmod]; exact Nat.mod_lt _ (by omega)
  · have := Int.tmod_nonneg b (show 0 ≤ -a by omega)
    rw [Int.neg_tmod] at this; omega

theorem tmod_le (a b : Int) : (a.tmod b).natAbs ≤ a.natAbs := by
  rw [Int.natAbs_tmod]; exact Nat.mod_le _ _

/-- R leaves the remainder that has the sign of the dividend, unless the quotient overflows (C69; `C69_undefined_R` is about that). -/
theorem C69_R_partial (h : s.Synced) (hf : 40 ≤ s.g.fuel) (hi : s.items = b :: a :: l) (hb : b ≠ 0) (ho : ¬(a = i64Min ∧ b = -1)) :
    ∃ r s', TruncRem a b r ∧ libCall moduLib 82 s = .ok (.none, s') ∧ s.Answers s' (r :: l) [] := by
  obtain ⟨s', h1, h2⟩ := modu_R h hf hi hb ho
  exact ⟨_, s', tmod_truncRem a hb, h1, h2⟩

theorem in_tdiv (ha : InI64 a) (hb : b ≠ 0) (ho : ¬(a = i64Min ∧ b = -1)) : InI64 (a.tdiv b) ∧ InI64 (b * a.tdiv b) := by
  have h1 := Int.mul_tdiv_add_tmod a b
  obtain ⟨-, h2, h3, h4⟩ := tmod_truncRem a hb
  have h5 : (a.tdiv b).natAbs = a.natAbs / b.natAbs := Int.natAbs_tdiv a b
  have h8 : (a.tmod b).natAbs ≤ a.natAbs := tmod_le a b
  have h6 : a.natAbs / b.natAbs ≤ a.natAbs := Nat.div_le_self _ _
  unfold InI64 i64Min i64Max at *
  refine ⟨?_, ?_⟩
  · by_cases hm : a = -9223372036854775808
    · have h7 : b ≠ -1 := fun h => ho ⟨hm, h⟩
      by_cases h8 : b = 1
      · subst h8; rw [Int.tdiv_one]; omega
      · have h9 : a.natAbs / b.natAbs ≤ a.natAbs / 2 := Nat.div_le_div_left (by omega) (by omega)
        omega
    · omega
  · omega

/-- M leaves the remainder that has the sign of the divisor, unless the operands differ in sign and either the dividend is the smaller one or it is
    a multiple of the divisor (C69). `C69_false_M` and `C69_false_M_small` are about those, `C69_undefined_M` about the hypothesis on `a - b`. -/
theorem C69_M_partial (h : s.Synced) (hf : 40 ≤ s.g.fuel) (hi : s.items = b :: a :: l) (hb : b ≠ 0) (ha : InI64 a) (hi64 : InI64 b)
    (hab : InI64 (a - b)) (ho : ¬(a = i64Min ∧ b = -1)) (hw : (0 ≤ a ∧ 0 < b) ∨ (a ≤ 0 ∧ b < 0) ∨ (b.natAbs ≤ a.natAbs ∧ ¬ b ∣ a)) :
    ∃ r s', FloorRem a b r ∧ libCall moduLib 77 s = .ok (.none, s') ∧ s.Answers s' (r :: l) [] := by
  obtain ⟨h1, h3⟩ := in_tdiv ha hb ho
  have hq := Int.mul_tdiv_add_tmod a b
  obtain ⟨-, t2, t3, t4⟩ := tmod_truncRem a hb
  have hd : a.tmod b = 0 → b ∣ a := fun h => Int.dvd_of_tmod_eq_zero h
  have h5 : (a.tdiv b).natAbs = a.natAbs / b.natAbs := Int.natAbs_tdiv a b
  have h8 : (a.tmod b).natAbs ≤ a.natAbs := tmod_le a b
  by_cases hn : 0 ≤ a.tdiv b
  · obtain ⟨s', r1, r2⟩ := modu_M_pos h hf hi hb h1 hn h3 (by unfold InI64 i64Min i64Max at *; omega)
    refine ⟨_, s', ⟨⟨a.tdiv b, by omega⟩, by omega, fun hp => ?_, fun hp => ?_⟩, r1, r2⟩
    · rcases hw with hw | hw | hw
      · omega
      · omega
      · have := Int.mul_nonneg (Int.le_of_lt hp) hn
        have h6 : 0 < a.natAbs / b.natAbs := Nat.div_pos hw.1 (by omega)
        have := Int.mul_pos hp (show 0 < a.tdiv b by omega)
        omega
    · rcases hw with hw | hw | hw
      · omega
      · omega
      · have h6 : 0 < a.natAbs / b.natAbs := Nat.div_pos hw.1 (by omega)
        have := Int.mul_neg_of_neg_of_pos hp (show 0 < a.tdiv b by omega)
        omega
  · have he : b * (a.tdiv b - 1) = b * a.tdiv b - b := by rw [Int.mul_sub, Int.mul_one]
    have hw' : ¬ b ∣ a := by
      rcases hw with hw | hw | hw
      · exact absurd (Int.tdiv_nonneg hw.1 (Int.le_of_lt hw.2)) hn
      · exact absurd (Int.tdiv_nonneg_of_nonpos_of_nonpos hw.1 (Int.le_of_lt hw.2)) hn
      · exact hw.2
    have hr : a.tmod b ≠ 0 := fun h => hw' (hd h)
    have h2 : 2 ≤ b.natAbs := by
      rcases Nat.lt_or_ge b.natAbs 2 with h | h
      · rcases (show b = 1 ∨ b = -1 by omega) with rfl | rfl
        · exact absurd ⟨a, by omega⟩ hw'
        · exact absurd ⟨-a, by omega⟩ hw'
      · exact h
    have h9 : a.natAbs / b.natAbs ≤ a.natAbs / 2 := Nat.div_le_div_left h2 (by omega)
    rcases Int.lt_or_gt_of_ne hb with hp | hp
    · have := Int.mul_pos_of_neg_of_neg hp (show a.tdiv b < 0 by omega)
      obtain ⟨s', r1, r2⟩ := modu_M_neg h hf hi hb h1 (by omega) (by unfold InI64 i64Min i64Max at *; omega)
        (by unfold InI64 i64Min i64Max at *; omega) (by unfold InI64 i64Min i64Max at *; omega)
      exact ⟨_, s', ⟨⟨a.tdiv b - 1, by omega⟩, by omega, by omega, by omega⟩, r1, r2⟩
    · have := Int.mul_neg_of_pos_of_neg hp (show a.tdiv b < 0 by omega)
      obtain ⟨s', r1, r2⟩ := modu_M_neg h hf hi hb h1 (by omega) (by unfold InI64 i64Min i64Max at *; omega)
        (by unfold InI64 i64Min i64Max at *; omega) (by unfold InI64 i64Min i64Max at *; omega)
      exact ⟨_, s', ⟨⟨a.tdiv b - 1, by omega⟩, by omega, by omega, by omega⟩, r1, r2⟩

/-- U leaves the remainder that is not negative, unless the dividend is a multiple of the divisor (C69). `C69_false_U` is about those. -/
theorem C69_U_partial (h : s.Synced) (hf : 40 ≤ s.g.fuel) (hi : s.items = b :: a :: l) (hb : b ≠ 0) (hi64 : InI64 b) (hm : b ≠ i64Min)
    (hw : ¬ b ∣ a) : ∃ r s', AbsRem a b r ∧ libCall moduLib 85 s = .ok (.none, s') ∧ s.Answers s' (r :: l) [] := by
  have hq := Int.mul_tdiv_add_tmod a b
  obtain ⟨-, t2, t3, t4⟩ := tmod_truncRem a hb
  have hr : a.tmod b ≠ 0 := fun h => hw (Int.dvd_of_tmod_eq_zero h)
  have ho : ¬(a = i64Min ∧ b = -1) := fun h => hw (by rw [h.2]; exact ⟨-a, by omega⟩)
  by_cases hp : 0 < a.tmod b
  · obtain ⟨s', r1, r2⟩ := modu_U_pos h hf hi hb ho hp
    exact ⟨_, s', ⟨⟨a.tdiv b, by omega⟩, by omega, by omega⟩, r1, r2⟩
  · rcases Int.lt_or_gt_of_ne hb with hn | hn
    · obtain ⟨s', r1, r2⟩ := modu_U_down h hf hi hn ho (by omega) (by unfold InI64 i64Min i64Max at *; omega) (by unfold InI64 i64Min i64Max at *; omega)
      exact ⟨_, s', ⟨⟨a.tdiv b + 1, by rw [Int.mul_add, Int.mul_one]; omega⟩, by omega, by omega⟩, r1, r2⟩
    · obtain ⟨s', r1, r2⟩ := modu_U_up h hf hi hn ho (by omega) (by unfold InI64 i64Min i64Max at *; omega)
      exact ⟨_, s', ⟨⟨a.tdiv b - 1, by rw [Int.mul_sub, Int.mul_one]; omega⟩, by omega, by omega⟩, r1, r2⟩

end

/-- The call. -/
def moduCall (cmd : Int) (l : List Int) : Except Fault (List Int) := (libCall moduLib cmd (libState l)).map fun r => r.2.items

example : ∃ s', libCall moduLib 77 (libState [0, 5, 8]) = .ok (.none, s') ∧ (libState [0, 5, 8]).Answers s' [0, 8] [] :=
  C69_zero 77 (.inl rfl) (libState_synced _) (by decide) rfl

example : ∃ r s', TruncRem (-7) 3 r ∧ libCall moduLib 82 (libState [3, -7, 8]) = .ok (.none, s') ∧ (libState [3, -7, 8]).Answers s' [r, 8] [] :=
  C69_R_partial (libState_synced _) (by decide) rfl (by decide) (by decide)

example : ∃ r s', FloorRem (-7) 3 r ∧ libCall moduLib 77 (libState [3, -7, 8]) = .ok (.none, s') ∧ (libState [3, -7, 8]).Answers s' [r, 8] [] :=
  C69_M_partial (libState_synced _) (by decide) rfl (by decide) (by decide) (by decide) (by decide) (by decide) (by decide)

example : ∃ r s', AbsRem (-7) (-3) r ∧ libCall moduLib 85 (libState [-3, -7, 8]) = .ok (.none, s') ∧ (libState [-3, -7, 8]).Answers s' [r, 8] [] :=
  C69_U_partial (libState_synced _) (by decide) rfl (by decide) (by decide) (by decide) (by decide)

/-- M leaves 2 for -4 and 2, where 0 is due: the quotient is lowered though nothing remains (/repo/fing/MODU.fl:1-3). -/
theorem C69_false_M : moduCall 77 [2, -4] = .ok [2] ∧ ¬ FloorRem (-4) 2 2 := by
  refine ⟨?_, fun h => absurd h.2.1 (by decide)⟩
  rw [moduCall, moduLib_eq]; decide +kernel

/-- M leaves -1 for -1 and 2, where 1 is due: a quotient of 0 does not tell that the signs differ (/repo/fing/MODU.fl:1-3). -/
theorem C69_false_M_small : moduCall 77 [2, -1] = .ok [-1] ∧ ¬ FloorRem (-1) 2 (-1) := by
  refine ⟨?_, fun h => absurd (h.2.2.1 (by decide)) (by decide)⟩
  rw [moduCall, moduLib_eq]; decide +kernel

/-- R overflows for the least value and -1, where 0 is due (/repo/fing/MODU.fl:4-6): `%` is undefined there. -/
theorem C69_undefined_R : moduCall 82 [-1, i64Min] = .error .overflow ∧ TruncRem i64Min (-1) 0 := by
  refine ⟨?_, ?_⟩
  · rw [moduCall, moduLib_eq]; decide +kernel
  · have := tmod_truncRem i64Min (b := -1) (by decide)
    exact this

/-- M overflows for the least value and 3, where 1 is due (/repo/fing/MODU.fl:1-3). -/
theorem C69_undefined_M : moduCall 77 [3, i64Min] = .error .overflow ∧ FloorRem i64Min 3 1 := by
  refine ⟨?_, ⟨-3074457345618258603, by decide⟩, by decide, by decide, by decide⟩
  rw [moduCall, moduLib_eq]; decide +kernel

/-- U overflows when the divisor is the least value, where 9223372036854775803 is due (/repo/fing/MODU.fl:7-9). -/
theorem C69_undefined_U : moduCall 85 [i64Min, -5] = .error .overflow ∧ AbsRem (-5) i64Min 9223372036854775803 := by
  refine ⟨?_, ⟨1, by decide⟩, by decide, by decide⟩
  rw [moduCall, moduLib_eq]; decide +kernel

/-- U leaves 2 for 4 and 2, where 0 is due: the divisor is added though nothing remains (/repo/fing/MODU.fl:7-9). -/
theorem C69_false_U : moduCall 85 [2, 4] = .ok [2] ∧ ¬ AbsRem 4 2 2 := by
  refine ⟨?_, fun h => absurd h.2.1 (by decide)⟩
  rw [moduCall, moduLib_eq]; decide +kernel

end Funge
