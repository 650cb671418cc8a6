import Verif.Model.Libs
/-!
The field of MODU, cell by cell.
-/
namespace Funge

set_option maxRecDepth 100000

/-- The characters of MODU and where they are. -/
def moduCells : List (List Int × Int) := [
    ([0, 0, 12], 58), ([1, 0, 12], 35), ([2, 0, 12], 118), ([3, 0, 12], 95), ([4, 0, 12], 36), ([5, 0, 12], 36), ([6, 0, 12], 48),
    ([7, 0, 12], 64), ([13, 0, 12], 62), ([14, 0, 12], 49), ([15, 0, 12], 45), ([16, 0, 12], 118), ([2, 1, 12], 62),
    ([3, 1, 12], 58), ([4, 1, 12], 50), ([5, 1, 12], 75), ([6, 1, 12], 92), ([7, 1, 12], 47), ([8, 1, 12], 58), ([9, 1, 12], 48),
    ([10, 1, 12], 92), ([11, 1, 12], 96), ([12, 1, 12], 35), ([13, 1, 12], 94), ([14, 1, 12], 95), ([16, 1, 12], 62),
    ([17, 1, 12], 42), ([18, 1, 12], 45), ([19, 1, 12], 64), ([0, 0, 17], 58), ([1, 0, 17], 35), ([2, 0, 17], 118),
    ([3, 0, 17], 95), ([4, 0, 17], 36), ([5, 0, 17], 36), ([6, 0, 17], 48), ([7, 0, 17], 64), ([2, 1, 17], 62), ([3, 1, 17], 37),
    ([4, 1, 17], 64), ([0, 0, 20], 58), ([1, 0, 20], 35), ([2, 0, 20], 118), ([3, 0, 20], 95), ([4, 0, 20], 36), ([5, 0, 20], 36),
    ([6, 0, 20], 48), ([7, 0, 20], 64), ([12, 0, 20], 62), ([13, 0, 20], 92), ([14, 0, 20], 36), ([15, 0, 20], 92),
    ([16, 0, 20], 36), ([17, 0, 20], 64), ([19, 0, 20], 62), ([24, 0, 20], 118), ([2, 1, 20], 62), ([3, 1, 20], 58),
    ([4, 1, 20], 50), ([5, 1, 20], 75), ([6, 1, 20], 92), ([7, 1, 20], 37), ([8, 1, 20], 58), ([9, 1, 20], 48), ([10, 1, 20], 96),
    ([11, 1, 20], 35), ([12, 1, 20], 94), ([13, 1, 20], 95), ([14, 1, 20], 92), ([15, 1, 20], 58), ([16, 1, 20], 48),
    ([17, 1, 20], 96), ([18, 1, 20], 35), ([19, 1, 20], 94), ([20, 1, 20], 95), ([21, 1, 20], 48), ([22, 1, 20], 92),
    ([23, 1, 20], 45), ([24, 1, 20], 62), ([25, 1, 20], 43), ([26, 1, 20], 92), ([27, 1, 20], 36), ([28, 1, 20], 64),
    ([0, 2, 20], 65), ([1, 2, 20], 98), ([2, 2, 20], 111), ([3, 2, 20], 118), ([4, 2, 20], 101), ([6, 2, 20], 109),
    ([7, 2, 20], 97), ([8, 2, 20], 116), ([9, 2, 20], 99), ([10, 2, 20], 104), ([11, 2, 20], 101), ([12, 2, 20], 115),
    ([14, 2, 20], 67), ([15, 2, 20], 67), ([16, 2, 20], 66), ([17, 2, 20], 73), ([18, 2, 20], 44), ([20, 2, 20], 98),
    ([21, 2, 20], 101), ([22, 2, 20], 108), ([23, 2, 20], 111), ([24, 2, 20], 119), ([26, 2, 20], 109), ([27, 2, 20], 97),
    ([28, 2, 20], 116), ([29, 2, 20], 99), ([30, 2, 20], 104), ([31, 2, 20], 101), ([32, 2, 20], 115), ([34, 2, 20], 114),
    ([35, 2, 20], 99), ([36, 2, 20], 102), ([37, 2, 20], 117), ([38, 2, 20], 110), ([39, 2, 20], 103), ([40, 2, 20], 101),
    ([0, 3, 20], 58), ([1, 3, 20], 35), ([2, 3, 20], 118), ([3, 3, 20], 95), ([4, 3, 20], 36), ([5, 3, 20], 36), ([6, 3, 20], 48),
    ([7, 3, 20], 64), ([2, 4, 20], 62), ([3, 4, 20], 58), ([4, 4, 20], 48), ([5, 4, 20], 96), ([6, 4, 20], 35), ([7, 4, 20], 118),
    ([8, 4, 20], 95), ([9, 4, 20], 48), ([10, 4, 20], 92), ([11, 4, 20], 45), ([12, 4, 20], 62), ([13, 4, 20], 92),
    ([14, 4, 20], 58), ([15, 4, 20], 48), ([16, 4, 20], 96), ([17, 4, 20], 35), ([18, 4, 20], 118), ([19, 4, 20], 95),
    ([20, 4, 20], 48), ([21, 4, 20], 92), ([22, 4, 20], 45), ([23, 4, 20], 62), ([24, 4, 20], 92), ([25, 4, 20], 37),
    ([26, 4, 20], 64), ([7, 5, 20], 62), ([12, 5, 20], 94), ([18, 5, 20], 62), ([23, 5, 20], 94)]

/-- The field of MODU. -/
def moduField : Field where
  cells := moduCells.map fun p => (⟨p.1⟩, p.2)
  maxs := [40, 5, 20]
  mins := [0, 0, 0]
  planes := [77, 82, 85]
  dims := 3
  charCells := false

/-- Loading the file gives this field. -/
theorem moduLib_eq : moduLib = moduField := by decide +kernel

end Funge
