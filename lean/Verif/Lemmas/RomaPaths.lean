import Verif.Lemmas.LibPath
import Verif.Lemmas.LibRoma
/-!
The ways through the letter P of ROMA (/repo/fing/ROMA.fl:15-23): one for each digit.
-/
namespace Funge
open Lib

theorem roma_hundred_0 (n : Int) (l : List Int) (e : List Eff) : arun romaField 41 [0, 0] (atEast 80 17 1 (n :: l) e) =
    some (atEast 80 38 0 (((n) - ((Int.tdiv (n) 100) * 100)) :: l) (outs e []), [InI64 (100 : Int), (100 : Int) ≠ 0, InI64 (Int.tdiv (n) 100), (Int.tdiv (n) 100) = 0, (0 : Int) = 0, InI64 (100 : Int), InI64 ((Int.tdiv (n) 100) * 100), InI64 ((n) - ((Int.tdiv (n) 100) * 100))]) := by
  krfl

theorem roma_hundred_1 (n : Int) (l : List Int) (e : List Eff) : arun romaField 46 [1, 1, 0] (atEast 80 17 1 (n :: l) e) =
    some (atEast 80 38 0 (((n) - ((Int.tdiv (n) 100) * 100)) :: l) (outs e [67]), [InI64 (100 : Int), (100 : Int) ≠ 0, InI64 (Int.tdiv (n) 100), (Int.tdiv (n) 100) = 1, (67 : Int) ≠ 0, (0 : Int) = 0, InI64 (100 : Int), InI64 ((Int.tdiv (n) 100) * 100), InI64 ((n) - ((Int.tdiv (n) 100) * 100))]) := by
  krfl

theorem roma_hundred_2 (n : Int) (l : List Int) (e : List Eff) : arun romaField 51 [2, 1, 1, 0] (atEast 80 17 1 (n :: l) e) =
    some (atEast 80 38 0 (((n) - ((Int.tdiv (n) 100) * 100)) :: l) (outs e [67, 67]), [InI64 (100 : Int), (100 : Int) ≠ 0, InI64 (Int.tdiv (n) 100), (Int.tdiv (n) 100) = 2, (67 : Int) ≠ 0, (67 : Int) ≠ 0, (0 : Int) = 0, InI64 (100 : Int), InI64 ((Int.tdiv (n) 100) * 100), InI64 ((n) - ((Int.tdiv (n) 100) * 100))]) := by
  krfl

theorem roma_hundred_3 (n : Int) (l : List Int) (e : List Eff) : arun romaField 56 [3, 1, 1, 1, 0] (atEast 80 17 1 (n :: l) e) =
    some (atEast 80 38 0 (((n) - ((Int.tdiv (n) 100) * 100)) :: l) (outs e [67, 67, 67]), [InI64 (100 : Int), (100 : Int) ≠ 0, InI64 (Int.tdiv (n) 100), (Int.tdiv (n) 100) = 3, (67 : Int) ≠ 0, (67 : Int) ≠ 0, (67 : Int) ≠ 0, (0 : Int) = 0, InI64 (100 : Int), InI64 ((Int.tdiv (n) 100) * 100), InI64 ((n) - ((Int.tdiv (n) 100) * 100))]) := by
  krfl

theorem roma_hundred_4 (n : Int) (l : List Int) (e : List Eff) : arun romaField 49 [4, 1, 1, 0] (atEast 80 17 1 (n :: l) e) =
    some (atEast 80 38 0 (((n) - ((Int.tdiv (n) 100) * 100)) :: l) (outs e [67, 68]), [InI64 (100 : Int), (100 : Int) ≠ 0, InI64 (Int.tdiv (n) 100), (Int.tdiv (n) 100) = 4, (67 : Int) ≠ 0, (68 : Int) ≠ 0, (0 : Int) = 0, InI64 (100 : Int), InI64 ((Int.tdiv (n) 100) * 100), InI64 ((n) - ((Int.tdiv (n) 100) * 100))]) := by
  krfl

theorem roma_hundred_5 (n : Int) (l : List Int) (e : List Eff) : arun romaField 42 [5, 1, 0] (atEast 80 17 1 (n :: l) e) =
    some (atEast 80 38 0 (((n) - ((Int.tdiv (n) 100) * 100)) :: l) (outs e [68]), [InI64 (100 : Int), (100 : Int) ≠ 0, InI64 (Int.tdiv (n) 100), (Int.tdiv (n) 100) = 5, (68 : Int) ≠ 0, (0 : Int) = 0, InI64 (100 : Int), InI64 ((Int.tdiv (n) 100) * 100), InI64 ((n) - ((Int.tdiv (n) 100) * 100))]) := by
  krfl

theorem roma_hundred_6 (n : Int) (l : List Int) (e : List Eff) : arun romaField 47 [6, 1, 1, 0] (atEast 80 17 1 (n :: l) e) =
    some (atEast 80 38 0 (((n) - ((Int.tdiv (n) 100) * 100)) :: l) (outs e [68, 67]), [InI64 (100 : Int), (100 : Int) ≠ 0, InI64 (Int.tdiv (n) 100), (Int.tdiv (n) 100) = 6, (68 : Int) ≠ 0, (67 : Int) ≠ 0, (0 : Int) = 0, InI64 (100 : Int), InI64 ((Int.tdiv (n) 100) * 100), InI64 ((n) - ((Int.tdiv (n) 100) * 100))]) := by
  krfl

theorem roma_hundred_7 (n : Int) (l : List Int) (e : List Eff) : arun romaField 52 [7, 1, 1, 1, 0] (atEast 80 17 1 (n :: l) e) =
    some (atEast 80 38 0 (((n) - ((Int.tdiv (n) 100) * 100)) :: l) (outs e [68, 67, 67]), [InI64 (100 : Int), (100 : Int) ≠ 0, InI64 (Int.tdiv (n) 100), (Int.tdiv (n) 100) = 7, (68 : Int) ≠ 0, (67 : Int) ≠ 0, (67 : Int) ≠ 0, (0 : Int) = 0, InI64 (100 : Int), InI64 ((Int.tdiv (n) 100) * 100), InI64 ((n) - ((Int.tdiv (n) 100) * 100))]) := by
  krfl

theorem roma_hundred_8 (n : Int) (l : List Int) (e : List Eff) : arun romaField 57 [8, 1, 1, 1, 1, 0] (atEast 80 17 1 (n :: l) e) =
    some (atEast 80 38 0 (((n) - ((Int.tdiv (n) 100) * 100)) :: l) (outs e [68, 67, 67, 67]), [InI64 (100 : Int), (100 : Int) ≠ 0, InI64 (Int.tdiv (n) 100), (Int.tdiv (n) 100) = 8, (68 : Int) ≠ 0, (67 : Int) ≠ 0, (67 : Int) ≠ 0, (67 : Int) ≠ 0, (0 : Int) = 0, InI64 (100 : Int), InI64 ((Int.tdiv (n) 100) * 100), InI64 ((n) - ((Int.tdiv (n) 100) * 100))]) := by
  krfl

theorem roma_hundred_9 (n : Int) (l : List Int) (e : List Eff) : arun romaField 44 [9, 1, 1, 0] (atEast 80 17 1 (n :: l) e) =
    some (atEast 80 38 0 (((n) - ((Int.tdiv (n) 100) * 100)) :: l) (outs e [67, 77]), [InI64 (100 : Int), (100 : Int) ≠ 0, InI64 (Int.tdiv (n) 100), (Int.tdiv (n) 100) = 9, (67 : Int) ≠ 0, (77 : Int) ≠ 0, (0 : Int) = 0, InI64 (100 : Int), InI64 ((Int.tdiv (n) 100) * 100), InI64 ((n) - ((Int.tdiv (n) 100) * 100))]) := by
  krfl

theorem roma_ten_0 (n : Int) (l : List Int) (e : List Eff) : arun romaField 36 [0, 0] (atEast 80 38 0 (n :: l) e) =
    some (atEast 80 59 0 (((n) - ((Int.tdiv (n) 10) * 10)) :: l) (outs e []), [(10 : Int) ≠ 0, InI64 (Int.tdiv (n) 10), (Int.tdiv (n) 10) = 0, (0 : Int) = 0, InI64 ((Int.tdiv (n) 10) * 10), InI64 ((n) - ((Int.tdiv (n) 10) * 10))]) := by
  krfl

theorem roma_ten_1 (n : Int) (l : List Int) (e : List Eff) : arun romaField 42 [1, 1, 0] (atEast 80 38 0 (n :: l) e) =
    some (atEast 80 59 0 (((n) - ((Int.tdiv (n) 10) * 10)) :: l) (outs e [88]), [(10 : Int) ≠ 0, InI64 (Int.tdiv (n) 10), (Int.tdiv (n) 10) = 1, (88 : Int) ≠ 0, (0 : Int) = 0, InI64 ((Int.tdiv (n) 10) * 10), InI64 ((n) - ((Int.tdiv (n) 10) * 10))]) := by
  krfl

theorem roma_ten_2 (n : Int) (l : List Int) (e : List Eff) : arun romaField 48 [2, 1, 1, 0] (atEast 80 38 0 (n :: l) e) =
    some (atEast 80 59 0 (((n) - ((Int.tdiv (n) 10) * 10)) :: l) (outs e [88, 88]), [(10 : Int) ≠ 0, InI64 (Int.tdiv (n) 10), (Int.tdiv (n) 10) = 2, (88 : Int) ≠ 0, (88 : Int) ≠ 0, (0 : Int) = 0, InI64 ((Int.tdiv (n) 10) * 10), InI64 ((n) - ((Int.tdiv (n) 10) * 10))]) := by
  krfl

theorem roma_ten_3 (n : Int) (l : List Int) (e : List Eff) : arun romaField 54 [3, 1, 1, 1, 0] (atEast 80 38 0 (n :: l) e) =
    some (atEast 80 59 0 (((n) - ((Int.tdiv (n) 10) * 10)) :: l) (outs e [88, 88, 88]), [(10 : Int) ≠ 0, InI64 (Int.tdiv (n) 10), (Int.tdiv (n) 10) = 3, (88 : Int) ≠ 0, (88 : Int) ≠ 0, (88 : Int) ≠ 0, (0 : Int) = 0, InI64 ((Int.tdiv (n) 10) * 10), InI64 ((n) - ((Int.tdiv (n) 10) * 10))]) := by
  krfl

theorem roma_ten_4 (n : Int) (l : List Int) (e : List Eff) : arun romaField 46 [4, 1, 1, 0] (atEast 80 38 0 (n :: l) e) =
    some (atEast 80 59 0 (((n) - ((Int.tdiv (n) 10) * 10)) :: l) (outs e [88, 76]), [(10 : Int) ≠ 0, InI64 (Int.tdiv (n) 10), (Int.tdiv (n) 10) = 4, (88 : Int) ≠ 0, (76 : Int) ≠ 0, (0 : Int) = 0, InI64 ((Int.tdiv (n) 10) * 10), InI64 ((n) - ((Int.tdiv (n) 10) * 10))]) := by
  krfl

theorem roma_ten_5 (n : Int) (l : List Int) (e : List Eff) : arun romaField 38 [5, 1, 0] (atEast 80 38 0 (n :: l) e) =
    some (atEast 80 59 0 (((n) - ((Int.tdiv (n) 10) * 10)) :: l) (outs e [76]), [(10 : Int) ≠ 0, InI64 (Int.tdiv (n) 10), (Int.tdiv (n) 10) = 5, (76 : Int) ≠ 0, (0 : Int) = 0, InI64 ((Int.tdiv (n) 10) * 10), InI64 ((n) - ((Int.tdiv (n) 10) * 10))]) := by
  krfl

theorem roma_ten_6 (n : Int) (l : List Int) (e : List Eff) : arun romaField 44 [6, 1, 1, 0] (atEast 80 38 0 (n :: l) e) =
    some (atEast 80 59 0 (((n) - ((Int.tdiv (n) 10) * 10)) :: l) (outs e [76, 88]), [(10 : Int) ≠ 0, InI64 (Int.tdiv (n) 10), (Int.tdiv (n) 10) = 6, (76 : Int) ≠ 0, (88 : Int) ≠ 0, (0 : Int) = 0, InI64 ((Int.tdiv (n) 10) * 10), InI64 ((n) - ((Int.tdiv (n) 10) * 10))]) := by
  krfl

theorem roma_ten_7 (n : Int) (l : List Int) (e : List Eff) : arun romaField 50 [7, 1, 1, 1, 0] (atEast 80 38 0 (n :: l) e) =
    some (atEast 80 59 0 (((n) - ((Int.tdiv (n) 10) * 10)) :: l) (outs e [76, 88, 88]), [(10 : Int) ≠ 0, InI64 (Int.tdiv (n) 10), (Int.tdiv (n) 10) = 7, (76 : Int) ≠ 0, (88 : Int) ≠ 0, (88 : Int) ≠ 0, (0 : Int) = 0, InI64 ((Int.tdiv (n) 10) * 10), InI64 ((n) - ((Int.tdiv (n) 10) * 10))]) := by
  krfl

theorem roma_ten_8 (n : Int) (l : List Int) (e : List Eff) : arun romaField 56 [8, 1, 1, 1, 1, 0] (atEast 80 38 0 (n :: l) e) =
    some (atEast 80 59 0 (((n) - ((Int.tdiv (n) 10) * 10)) :: l) (outs e [76, 88, 88, 88]), [(10 : Int) ≠ 0, InI64 (Int.tdiv (n) 10), (Int.tdiv (n) 10) = 8, (76 : Int) ≠ 0, (88 : Int) ≠ 0, (88 : Int) ≠ 0, (88 : Int) ≠ 0, (0 : Int) = 0, InI64 ((Int.tdiv (n) 10) * 10), InI64 ((n) - ((Int.tdiv (n) 10) * 10))]) := by
  krfl

theorem roma_ten_9 (n : Int) (l : List Int) (e : List Eff) : arun romaField 41 [9, 1, 1, 0] (atEast 80 38 0 (n :: l) e) =
    some (atEast 80 59 0 (((n) - ((Int.tdiv (n) 10) * 10)) :: l) (outs e [88, 67]), [(10 : Int) ≠ 0, InI64 (Int.tdiv (n) 10), (Int.tdiv (n) 10) = 9, (88 : Int) ≠ 0, (67 : Int) ≠ 0, (0 : Int) = 0, InI64 ((Int.tdiv (n) 10) * 10), InI64 ((n) - ((Int.tdiv (n) 10) * 10))]) := by
  krfl

theorem roma_unit_0 (n : Int) (l : List Int) (e : List Eff) : arun romaField 26 [0, 0] (atEast 80 59 0 (n :: l) e) =
    some (atEast 80 80 7 (l) (outs e [32]), [(n) = 0, (0 : Int) = 0]) := by
  krfl

theorem roma_unit_1 (n : Int) (l : List Int) (e : List Eff) : arun romaField 31 [1, 1, 0] (atEast 80 59 0 (n :: l) e) =
    some (atEast 80 80 7 (l) (outs e [73, 32]), [(n) = 1, (73 : Int) ≠ 0, (0 : Int) = 0]) := by
  krfl

theorem roma_unit_2 (n : Int) (l : List Int) (e : List Eff) : arun romaField 36 [2, 1, 1, 0] (atEast 80 59 0 (n :: l) e) =
    some (atEast 80 80 7 (l) (outs e [73, 73, 32]), [(n) = 2, (73 : Int) ≠ 0, (73 : Int) ≠ 0, (0 : Int) = 0]) := by
  krfl

theorem roma_unit_3 (n : Int) (l : List Int) (e : List Eff) : arun romaField 41 [3, 1, 1, 1, 0] (atEast 80 59 0 (n :: l) e) =
    some (atEast 80 80 7 (l) (outs e [73, 73, 73, 32]), [(n) = 3, (73 : Int) ≠ 0, (73 : Int) ≠ 0, (73 : Int) ≠ 0, (0 : Int) = 0]) := by
  krfl

theorem roma_unit_4 (n : Int) (l : List Int) (e : List Eff) : arun romaField 34 [4, 1, 1, 0] (atEast 80 59 0 (n :: l) e) =
    some (atEast 80 80 7 (l) (outs e [73, 86, 32]), [(n) = 4, (73 : Int) ≠ 0, (86 : Int) ≠ 0, (0 : Int) = 0]) := by
  krfl

theorem roma_unit_5 (n : Int) (l : List Int) (e : List Eff) : arun romaField 27 [5, 1, 0] (atEast 80 59 0 (n :: l) e) =
    some (atEast 80 80 7 (l) (outs e [86, 32]), [(n) = 5, (86 : Int) ≠ 0, (0 : Int) = 0]) := by
  krfl

theorem roma_unit_6 (n : Int) (l : List Int) (e : List Eff) : arun romaField 32 [6, 1, 1, 0] (atEast 80 59 0 (n :: l) e) =
    some (atEast 80 80 7 (l) (outs e [86, 73, 32]), [(n) = 6, (86 : Int) ≠ 0, (73 : Int) ≠ 0, (0 : Int) = 0]) := by
  krfl

theorem roma_unit_7 (n : Int) (l : List Int) (e : List Eff) : arun romaField 37 [7, 1, 1, 1, 0] (atEast 80 59 0 (n :: l) e) =
    some (atEast 80 80 7 (l) (outs e [86, 73, 73, 32]), [(n) = 7, (86 : Int) ≠ 0, (73 : Int) ≠ 0, (73 : Int) ≠ 0, (0 : Int) = 0]) := by
  krfl

theorem roma_unit_8 (n : Int) (l : List Int) (e : List Eff) : arun romaField 42 [8, 1, 1, 1, 1, 0] (atEast 80 59 0 (n :: l) e) =
    some (atEast 80 80 7 (l) (outs e [86, 73, 73, 73, 32]), [(n) = 8, (86 : Int) ≠ 0, (73 : Int) ≠ 0, (73 : Int) ≠ 0, (73 : Int) ≠ 0, (0 : Int) = 0]) := by
  krfl

theorem roma_unit_9 (n : Int) (l : List Int) (e : List Eff) : arun romaField 29 [9, 1, 1, 0] (atEast 80 59 0 (n :: l) e) =
    some (atEast 80 80 7 (l) (outs e [73, 88, 32]), [(n) = 9, (73 : Int) ≠ 0, (88 : Int) ≠ 0, (0 : Int) = 0]) := by
  krfl

theorem roma_begin (n : Int) (l : List Int) (e : List Eff) : arun romaField 7 [1] (start 80 (n :: l) e) =
    some (atEast 80 5 1 ((n) :: l) (outs e []), [(if (n) > 0 then (1 : Int) else 0) ≠ 0]) := by
  krfl

theorem roma_thousand (n : Int) (l : List Int) (e : List Eff) : arun romaField 24 [1] (atEast 80 5 1 (n :: l) e) =
    some (atEast 80 5 1 (((n) - 1000) :: l) (outs e [77]), [InI64 (100 : Int), InI64 (1000 : Int), InI64 (999 : Int), (if (n) > 999 then (1 : Int) else 0) ≠ 0, InI64 (100 : Int), InI64 (1000 : Int), InI64 ((n) - 1000)]) := by
  krfl

theorem roma_rest (n : Int) (l : List Int) (e : List Eff) : arun romaField 11 [0] (atEast 80 5 1 (n :: l) e) =
    some (atEast 80 17 1 ((n) :: l) (outs e []), [InI64 (100 : Int), InI64 (1000 : Int), InI64 (999 : Int), (if (n) > 999 then (1 : Int) else 0) = 0]) := by
  krfl

end Funge
