import Verif.Lemmas.LibPath
import Verif.Lemmas.LibTerm
/-!
The ways through the letters of TERM (/repo/fing/TERM.fl).
-/
namespace Funge
open Lib

theorem termC_begin (l : List Int) (e : List Eff) : arun termField 10 [] (start 67 (l) e) =
    some (atEast 67 10 0 ((27) :: (91) :: (50) :: (74) :: (0) :: l) (e), [InI64 (27 : Int)]) := by
  krfl

theorem termC_print (c : Int) (l : List Int) (e : List Eff) : arun termField 6 [1] (atEast 67 10 0 ((c) :: l) e) =
    some (atEast 67 10 0 (l) (e ++ [.out [if c = 10 then 10 else toChar c]]), [(c) ≠ 0]) := by
  krfl

theorem termC_end (c : Int) (l : List Int) (e : List Eff) : arun termField 4 [0] (atEast 67 10 0 ((c) :: l) e) =
    some (atEast 67 15 0 (l) (e), [(c) = 0]) := by
  krfl

theorem termH_begin (l : List Int) (e : List Eff) : arun termField 12 [] (start 72 (l) e) =
    some (atEast 72 12 0 ((27) :: (91) :: (49) :: (59) :: (49) :: (72) :: (0) :: l) (e), [InI64 (27 : Int)]) := by
  krfl

theorem termH_print (c : Int) (l : List Int) (e : List Eff) : arun termField 6 [1] (atEast 72 12 0 ((c) :: l) e) =
    some (atEast 72 12 0 (l) (e ++ [.out [if c = 10 then 10 else toChar c]]), [(c) ≠ 0]) := by
  krfl

theorem termH_end (c : Int) (l : List Int) (e : List Eff) : arun termField 4 [0] (atEast 72 12 0 ((c) :: l) e) =
    some (atEast 72 17 0 (l) (e), [(c) = 0]) := by
  krfl

theorem termL_begin (l : List Int) (e : List Eff) : arun termField 10 [] (start 76 (l) e) =
    some (atEast 76 10 0 ((27) :: (91) :: (48) :: (75) :: (0) :: l) (e), [InI64 (27 : Int)]) := by
  krfl

theorem termL_print (c : Int) (l : List Int) (e : List Eff) : arun termField 6 [1] (atEast 76 10 0 ((c) :: l) e) =
    some (atEast 76 10 0 (l) (e ++ [.out [if c = 10 then 10 else toChar c]]), [(c) ≠ 0]) := by
  krfl

theorem termL_end (c : Int) (l : List Int) (e : List Eff) : arun termField 4 [0] (atEast 76 10 0 ((c) :: l) e) =
    some (atEast 76 15 0 (l) (e), [(c) = 0]) := by
  krfl

theorem termS_begin (l : List Int) (e : List Eff) : arun termField 10 [] (start 83 (l) e) =
    some (atEast 83 10 0 ((27) :: (91) :: (48) :: (74) :: (0) :: l) (e), [InI64 (27 : Int)]) := by
  krfl

theorem termS_print (c : Int) (l : List Int) (e : List Eff) : arun termField 6 [1] (atEast 83 10 0 ((c) :: l) e) =
    some (atEast 83 10 0 (l) (e ++ [.out [if c = 10 then 10 else toChar c]]), [(c) ≠ 0]) := by
  krfl

theorem termS_end (c : Int) (l : List Int) (e : List Eff) : arun termField 4 [0] (atEast 83 10 0 ((c) :: l) e) =
    some (atEast 83 15 0 (l) (e), [(c) = 0]) := by
  krfl

theorem termD_pos (n : Int) (l : List Int) (e : List Eff) : arun termField 18 [1] (start 68 ((n) :: l) e) =
    some (atEast 68 16 0 ((n) :: (66) :: (0) :: l) (e), [(if (n) > 0 then (1 : Int) else 0) ≠ 0]) := by
  krfl

theorem termD_neg (n : Int) (l : List Int) (e : List Eff) : arun termField 14 [0] (start 68 ((n) :: l) e) =
    some (atEast 68 16 0 (((n) * (-1)) :: (65) :: (0) :: l) (e), [(if (n) > 0 then (1 : Int) else 0) = 0, InI64 (-1 : Int), InI64 ((n) * (-1))]) := by
  krfl

theorem termD_digit (n : Int) (l : List Int) (e : List Eff) : arun termField 26 [1] (atEast 68 16 0 ((n) :: l) e) =
    some (atEast 68 16 0 ((Int.tdiv (n) 10) :: ((Int.tmod (n) 10) + 48) :: l) (e), [(10 : Int) ≠ 0, ¬((n) = i64Min ∧ (10 : Int) = -1), InI64 ((Int.tmod (n) 10) + 48), (10 : Int) ≠ 0, InI64 (Int.tdiv (n) 10), (Int.tdiv (n) 10) ≠ 0]) := by
  krfl

theorem termD_last (n : Int) (l : List Int) (e : List Eff) : arun termField 19 [0] (atEast 68 16 0 ((n) :: l) e) =
    some (atEast 68 37 0 ((27) :: (91) :: ((Int.tmod (n) 10) + 48) :: l) (e), [(10 : Int) ≠ 0, ¬((n) = i64Min ∧ (10 : Int) = -1), InI64 ((Int.tmod (n) 10) + 48), (10 : Int) ≠ 0, InI64 (Int.tdiv (n) 10), (Int.tdiv (n) 10) = 0, InI64 (27 : Int)]) := by
  krfl

theorem termD_print (c : Int) (l : List Int) (e : List Eff) : arun termField 6 [1] (atEast 68 37 0 ((c) :: l) e) =
    some (atEast 68 37 0 (l) (e ++ [.out [if c = 10 then 10 else toChar c]]), [(c) ≠ 0]) := by
  krfl

theorem termD_end (c : Int) (l : List Int) (e : List Eff) : arun termField 4 [0] (atEast 68 37 0 ((c) :: l) e) =
    some (atEast 68 42 0 (l) (e), [(c) = 0]) := by
  krfl

theorem termU_pos (n : Int) (l : List Int) (e : List Eff) : arun termField 18 [1] (start 85 ((n) :: l) e) =
    some (atEast 85 16 0 ((n) :: (65) :: (0) :: l) (e), [(if (n) > 0 then (1 : Int) else 0) ≠ 0]) := by
  krfl

theorem termU_neg (n : Int) (l : List Int) (e : List Eff) : arun termField 14 [0] (start 85 ((n) :: l) e) =
    some (atEast 85 16 0 (((n) * (-1)) :: (66) :: (0) :: l) (e), [(if (n) > 0 then (1 : Int) else 0) = 0, InI64 (-1 : Int), InI64 ((n) * (-1))]) := by
  krfl

theorem termU_digit (n : Int) (l : List Int) (e : List Eff) : arun termField 26 [1] (atEast 85 16 0 ((n) :: l) e) =
    some (atEast 85 16 0 ((Int.tdiv (n) 10) :: ((Int.tmod (n) 10) + 48) :: l) (e), [(10 : Int) ≠ 0, ¬((n) = i64Min ∧ (10 : Int) = -1), InI64 ((Int.tmod (n) 10) + 48), (10 : Int) ≠ 0, InI64 (Int.tdiv (n) 10), (Int.tdiv (n) 10) ≠ 0]) := by
  krfl

theorem termU_last (n : Int) (l : List Int) (e : List Eff) : arun termField 19 [0] (atEast 85 16 0 ((n) :: l) e) =
    some (atEast 85 37 0 ((27) :: (91) :: ((Int.tmod (n) 10) + 48) :: l) (e), [(10 : Int) ≠ 0, ¬((n) = i64Min ∧ (10 : Int) = -1), InI64 ((Int.tmod (n) 10) + 48), (10 : Int) ≠ 0, InI64 (Int.tdiv (n) 10), (Int.tdiv (n) 10) = 0, InI64 (27 : Int)]) := by
  krfl

theorem termU_print (c : Int) (l : List Int) (e : List Eff) : arun termField 6 [1] (atEast 85 37 0 ((c) :: l) e) =
    some (atEast 85 37 0 (l) (e ++ [.out [if c = 10 then 10 else toChar c]]), [(c) ≠ 0]) := by
  krfl

theorem termU_end (c : Int) (l : List Int) (e : List Eff) : arun termField 4 [0] (atEast 85 37 0 ((c) :: l) e) =
    some (atEast 85 42 0 (l) (e), [(c) = 0]) := by
  krfl

theorem termG_begin (y : Int) (l : List Int) (e : List Eff) : arun termField 7 [] (start 71 ((y) :: l) e) =
    some (atEast 71 8 0 (((y) + 1) :: (59) :: (0) :: l) (e), [InI64 ((y) + 1)]) := by
  krfl

theorem termG_digit (n : Int) (l : List Int) (e : List Eff) : arun termField 26 [1] (atEast 71 8 0 ((n) :: l) e) =
    some (atEast 71 8 0 ((Int.tdiv (n) 10) :: ((Int.tmod (n) 10) + 48) :: l) (e), [(10 : Int) ≠ 0, ¬((n) = i64Min ∧ (10 : Int) = -1), InI64 ((Int.tmod (n) 10) + 48), (10 : Int) ≠ 0, InI64 (Int.tdiv (n) 10), (Int.tdiv (n) 10) ≠ 0]) := by
  krfl

theorem termG_last (n : Int) (l : List Int) (e : List Eff) : arun termField 17 [0] (atEast 71 8 0 ((n) :: l) e) =
    some (atEast 71 28 0 ((27) :: (91) :: ((Int.tmod (n) 10) + 48) :: l) (e), [(10 : Int) ≠ 0, ¬((n) = i64Min ∧ (10 : Int) = -1), InI64 ((Int.tmod (n) 10) + 48), (10 : Int) ≠ 0, InI64 (Int.tdiv (n) 10), (Int.tdiv (n) 10) = 0, InI64 (27 : Int)]) := by
  krfl

theorem termG_print (c : Int) (l : List Int) (e : List Eff) : arun termField 6 [1] (atEast 71 28 0 ((c) :: l) e) =
    some (atEast 71 28 0 (l) (e ++ [.out [if c = 10 then 10 else toChar c]]), [(c) ≠ 0]) := by
  krfl

theorem termG_end (c : Int) (l : List Int) (e : List Eff) : arun termField 4 [0] (atEast 71 28 0 ((c) :: l) e) =
    some (atEast 71 33 0 (l) (e), [(c) = 0]) := by
  krfl

theorem termG_begin2 (x : Int) (l : List Int) (e : List Eff) : arun termField 7 [] (atEast 71 33 0 ((x) :: l) e) =
    some (atEast 71 41 0 (((x) + 1) :: (72) :: (0) :: l) (e), [InI64 ((x) + 1)]) := by
  krfl

theorem termG_digit2 (n : Int) (l : List Int) (e : List Eff) : arun termField 26 [1] (atEast 71 41 0 ((n) :: l) e) =
    some (atEast 71 41 0 ((Int.tdiv (n) 10) :: ((Int.tmod (n) 10) + 48) :: l) (e), [(10 : Int) ≠ 0, ¬((n) = i64Min ∧ (10 : Int) = -1), InI64 ((Int.tmod (n) 10) + 48), (10 : Int) ≠ 0, InI64 (Int.tdiv (n) 10), (Int.tdiv (n) 10) ≠ 0]) := by
  krfl

theorem termG_last2 (n : Int) (l : List Int) (e : List Eff) : arun termField 13 [0] (atEast 71 41 0 ((n) :: l) e) =
    some (atEast 71 56 0 (((Int.tmod (n) 10) + 48) :: l) (e), [(10 : Int) ≠ 0, ¬((n) = i64Min ∧ (10 : Int) = -1), InI64 ((Int.tmod (n) 10) + 48), (10 : Int) ≠ 0, InI64 (Int.tdiv (n) 10), (Int.tdiv (n) 10) = 0]) := by
  krfl

theorem termG_print2 (c : Int) (l : List Int) (e : List Eff) : arun termField 6 [1] (atEast 71 56 0 ((c) :: l) e) =
    some (atEast 71 56 0 (l) (e ++ [.out [if c = 10 then 10 else toChar c]]), [(c) ≠ 0]) := by
  krfl

theorem termG_end2 (c : Int) (l : List Int) (e : List Eff) : arun termField 4 [0] (atEast 71 56 0 ((c) :: l) e) =
    some (atEast 71 61 0 (l) (e), [(c) = 0]) := by
  krfl

end Funge
