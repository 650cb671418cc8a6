import Verif.Model.Libs
/-!
The field of TERM, cell by cell.
-/
namespace Funge

set_option maxRecDepth 100000

/-- The characters of TERM and where they are. -/
def termCells : List (List Int × Int) := [
    ([0, 0, 2], 48), ([1, 0, 2], 34), ([2, 0, 2], 74), ([3, 0, 2], 50), ([4, 0, 2], 91), ([5, 0, 2], 34), ([6, 0, 2], 51),
    ([7, 0, 2], 57), ([8, 0, 2], 42), ([9, 0, 2], 62), ([10, 0, 2], 58), ([11, 0, 2], 35), ([12, 0, 2], 44), ([13, 0, 2], 95),
    ([14, 0, 2], 36), ([15, 0, 2], 64), ([0, 0, 3], 48), ([1, 0, 3], 92), ([2, 0, 3], 58), ([3, 0, 3], 48), ([4, 0, 3], 96),
    ([5, 0, 3], 35), ([6, 0, 3], 118), ([7, 0, 3], 95), ([8, 0, 3], 39), ([9, 0, 3], 65), ([10, 0, 3], 92), ([11, 0, 3], 48),
    ([12, 0, 3], 49), ([13, 0, 3], 45), ([14, 0, 3], 42), ([15, 0, 3], 62), ([16, 0, 3], 58), ([17, 0, 3], 97), ([18, 0, 3], 37),
    ([19, 0, 3], 39), ([20, 0, 3], 48), ([21, 0, 3], 43), ([22, 0, 3], 92), ([23, 0, 3], 97), ([24, 0, 3], 47), ([25, 0, 3], 58),
    ([26, 0, 3], 35), ([27, 0, 3], 118), ([28, 0, 3], 95), ([29, 0, 3], 36), ([30, 0, 3], 34), ([31, 0, 3], 91), ([32, 0, 3], 34),
    ([33, 0, 3], 51), ([34, 0, 3], 57), ([35, 0, 3], 42), ([36, 0, 3], 62), ([37, 0, 3], 58), ([38, 0, 3], 35), ([39, 0, 3], 44),
    ([40, 0, 3], 95), ([41, 0, 3], 36), ([42, 0, 3], 64), ([6, 1, 3], 62), ([7, 1, 3], 39), ([8, 1, 3], 66), ([9, 1, 3], 92),
    ([15, 1, 3], 94), ([27, 1, 3], 60), ([0, 0, 6], 48), ([1, 0, 6], 92), ([2, 0, 6], 39), ([3, 0, 6], 59), ([4, 0, 6], 92),
    ([5, 0, 6], 49), ([6, 0, 6], 43), ([7, 0, 6], 62), ([8, 0, 6], 58), ([9, 0, 6], 97), ([10, 0, 6], 37), ([11, 0, 6], 39),
    ([12, 0, 6], 48), ([13, 0, 6], 43), ([14, 0, 6], 92), ([15, 0, 6], 97), ([16, 0, 6], 47), ([17, 0, 6], 58), ([18, 0, 6], 35),
    ([19, 0, 6], 118), ([20, 0, 6], 95), ([21, 0, 6], 36), ([22, 0, 6], 39), ([23, 0, 6], 91), ([24, 0, 6], 51), ([25, 0, 6], 57),
    ([26, 0, 6], 42), ([27, 0, 6], 62), ([28, 0, 6], 58), ([29, 0, 6], 35), ([30, 0, 6], 44), ([31, 0, 6], 95), ([32, 0, 6], 36),
    ([33, 0, 6], 48), ([34, 0, 6], 92), ([35, 0, 6], 39), ([36, 0, 6], 72), ([37, 0, 6], 92), ([38, 0, 6], 49), ([39, 0, 6], 43),
    ([40, 0, 6], 62), ([41, 0, 6], 58), ([42, 0, 6], 97), ([43, 0, 6], 37), ([44, 0, 6], 39), ([45, 0, 6], 48), ([46, 0, 6], 43),
    ([47, 0, 6], 92), ([48, 0, 6], 97), ([49, 0, 6], 47), ([50, 0, 6], 58), ([51, 0, 6], 35), ([52, 0, 6], 118), ([53, 0, 6], 95),
    ([54, 0, 6], 36), ([55, 0, 6], 62), ([56, 0, 6], 58), ([57, 0, 6], 35), ([58, 0, 6], 44), ([59, 0, 6], 95), ([60, 0, 6], 36),
    ([61, 0, 6], 64), ([7, 1, 6], 94), ([19, 1, 6], 60), ([40, 1, 6], 94), ([52, 1, 6], 60), ([0, 0, 7], 48), ([1, 0, 7], 34),
    ([2, 0, 7], 72), ([3, 0, 7], 49), ([4, 0, 7], 59), ([5, 0, 7], 49), ([6, 0, 7], 91), ([7, 0, 7], 34), ([8, 0, 7], 51),
    ([9, 0, 7], 57), ([10, 0, 7], 42), ([11, 0, 7], 62), ([12, 0, 7], 58), ([13, 0, 7], 35), ([14, 0, 7], 44), ([15, 0, 7], 95),
    ([16, 0, 7], 36), ([17, 0, 7], 64), ([0, 0, 11], 48), ([1, 0, 11], 34), ([2, 0, 11], 75), ([3, 0, 11], 48), ([4, 0, 11], 91),
    ([5, 0, 11], 34), ([6, 0, 11], 51), ([7, 0, 11], 57), ([8, 0, 11], 42), ([9, 0, 11], 62), ([10, 0, 11], 58), ([11, 0, 11], 35),
    ([12, 0, 11], 44), ([13, 0, 11], 95), ([14, 0, 11], 36), ([15, 0, 11], 64), ([0, 0, 18], 48), ([1, 0, 18], 34),
    ([2, 0, 18], 74), ([3, 0, 18], 48), ([4, 0, 18], 91), ([5, 0, 18], 34), ([6, 0, 18], 51), ([7, 0, 18], 57), ([8, 0, 18], 42),
    ([9, 0, 18], 62), ([10, 0, 18], 58), ([11, 0, 18], 35), ([12, 0, 18], 44), ([13, 0, 18], 95), ([14, 0, 18], 36),
    ([15, 0, 18], 64), ([0, 0, 20], 48), ([1, 0, 20], 92), ([2, 0, 20], 58), ([3, 0, 20], 48), ([4, 0, 20], 96), ([5, 0, 20], 35),
    ([6, 0, 20], 118), ([7, 0, 20], 95), ([8, 0, 20], 39), ([9, 0, 20], 66), ([10, 0, 20], 92), ([11, 0, 20], 48),
    ([12, 0, 20], 49), ([13, 0, 20], 45), ([14, 0, 20], 42), ([15, 0, 20], 62), ([16, 0, 20], 58), ([17, 0, 20], 97),
    ([18, 0, 20], 37), ([19, 0, 20], 39), ([20, 0, 20], 48), ([21, 0, 20], 43), ([22, 0, 20], 92), ([23, 0, 20], 97),
    ([24, 0, 20], 47), ([25, 0, 20], 58), ([26, 0, 20], 35), ([27, 0, 20], 118), ([28, 0, 20], 95), ([29, 0, 20], 36),
    ([30, 0, 20], 34), ([31, 0, 20], 91), ([32, 0, 20], 34), ([33, 0, 20], 51), ([34, 0, 20], 57), ([35, 0, 20], 42),
    ([36, 0, 20], 62), ([37, 0, 20], 58), ([38, 0, 20], 35), ([39, 0, 20], 44), ([40, 0, 20], 95), ([41, 0, 20], 36),
    ([42, 0, 20], 64), ([6, 1, 20], 62), ([7, 1, 20], 39), ([8, 1, 20], 65), ([9, 1, 20], 92), ([15, 1, 20], 94), ([27, 1, 20], 60)]

/-- The field of TERM. -/
def termField : Field where
  cells := termCells.map fun p => (⟨p.1⟩, p.2)
  maxs := [61, 1, 20]
  mins := [0, 0, 0]
  planes := [67, 68, 71, 72, 76, 83, 85]
  dims := 3
  charCells := false

/-- Loading the file gives this field. -/
theorem termLib_eq : termLib = termField := by decide +kernel

end Funge
