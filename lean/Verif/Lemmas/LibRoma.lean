import Verif.Model.Libs
/-!
The field of ROMA, cell by cell.
-/
namespace Funge

set_option maxRecDepth 100000

/-- The characters of ROMA and where they are. -/
def romaCells : List (List Int × Int) := [
    ([0, 0, 8], 49), ([1, 0, 8], 64), ([0, 0, 21], 53), ([1, 0, 21], 64), ([0, 0, 23], 97), ([1, 0, 23], 64), ([0, 0, 11], 97),
    ([1, 0, 11], 53), ([2, 0, 11], 42), ([3, 0, 11], 64), ([0, 0, 2], 97), ([1, 0, 2], 97), ([2, 0, 2], 42), ([3, 0, 2], 64),
    ([0, 0, 3], 97), ([1, 0, 3], 97), ([2, 0, 3], 53), ([3, 0, 3], 42), ([4, 0, 3], 42), ([5, 0, 3], 64), ([0, 0, 12], 97),
    ([1, 0, 12], 97), ([2, 0, 12], 97), ([3, 0, 12], 42), ([4, 0, 12], 42), ([5, 0, 12], 64), ([0, 0, 15], 58), ([1, 0, 15], 48),
    ([2, 0, 15], 96), ([3, 0, 15], 35), ([4, 0, 15], 118), ([5, 0, 15], 95), ([6, 0, 15], 48), ([7, 0, 15], 46), ([8, 0, 15], 36),
    ([9, 0, 15], 64), ([36, 0, 15], 118), ([37, 0, 15], 62), ([38, 0, 15], 58), ([39, 0, 15], 97), ([40, 0, 15], 47),
    ([41, 0, 15], 58), ([42, 0, 15], 48), ([43, 0, 15], 92), ([44, 0, 15], 106), ([45, 0, 15], 118), ([46, 0, 15], 118),
    ([47, 0, 15], 118), ([48, 0, 15], 118), ([49, 0, 15], 118), ([50, 0, 15], 118), ([51, 0, 15], 118), ([52, 0, 15], 118),
    ([53, 0, 15], 118), ([54, 0, 15], 118), ([55, 0, 15], 62), ([56, 0, 15], 118), ([57, 0, 15], 62), ([58, 0, 15], 62),
    ([59, 0, 15], 48), ([60, 0, 15], 92), ([61, 0, 15], 106), ([62, 0, 15], 118), ([63, 0, 15], 118), ([64, 0, 15], 118),
    ([65, 0, 15], 118), ([66, 0, 15], 118), ([67, 0, 15], 118), ([68, 0, 15], 118), ([69, 0, 15], 118), ([70, 0, 15], 118),
    ([71, 0, 15], 118), ([4, 1, 15], 62), ([5, 1, 15], 58), ([6, 1, 15], 97), ([7, 1, 15], 97), ([8, 1, 15], 97), ([9, 1, 15], 42),
    ([10, 1, 15], 42), ([11, 1, 15], 49), ([12, 1, 15], 45), ([13, 1, 15], 96), ([14, 1, 15], 35), ([15, 1, 15], 118),
    ([16, 1, 15], 95), ([17, 1, 15], 58), ([18, 1, 15], 97), ([19, 1, 15], 97), ([20, 1, 15], 42), ([21, 1, 15], 47),
    ([22, 1, 15], 58), ([23, 1, 15], 48), ([24, 1, 15], 92), ([25, 1, 15], 106), ([26, 1, 15], 118), ([27, 1, 15], 118),
    ([28, 1, 15], 118), ([29, 1, 15], 118), ([30, 1, 15], 118), ([31, 1, 15], 118), ([32, 1, 15], 118), ([33, 1, 15], 118),
    ([34, 1, 15], 118), ([35, 1, 15], 118), ([36, 1, 15], 58), ([37, 1, 15], 45), ([46, 1, 15], 34), ([47, 1, 15], 34),
    ([48, 1, 15], 34), ([49, 1, 15], 34), ([50, 1, 15], 34), ([51, 1, 15], 34), ([52, 1, 15], 34), ([53, 1, 15], 34),
    ([54, 1, 15], 34), ([55, 1, 15], 35), ([57, 1, 15], 45), ([63, 1, 15], 34), ([64, 1, 15], 34), ([65, 1, 15], 34),
    ([66, 1, 15], 34), ([67, 1, 15], 34), ([68, 1, 15], 34), ([69, 1, 15], 34), ([70, 1, 15], 34), ([71, 1, 15], 34),
    ([4, 2, 15], 94), ([5, 2, 15], 44), ([6, 2, 15], 77), ([7, 2, 15], 39), ([9, 2, 15], 45), ([10, 2, 15], 42), ([11, 2, 15], 42),
    ([12, 2, 15], 97), ([13, 2, 15], 97), ([14, 2, 15], 97), ([15, 2, 15], 60), ([27, 2, 15], 34), ([28, 2, 15], 34),
    ([29, 2, 15], 34), ([30, 2, 15], 34), ([31, 2, 15], 34), ([32, 2, 15], 34), ([33, 2, 15], 34), ([34, 2, 15], 34),
    ([35, 2, 15], 34), ([36, 2, 15], 35), ([37, 2, 15], 42), ([46, 2, 15], 88), ([47, 2, 15], 88), ([48, 2, 15], 88),
    ([49, 2, 15], 76), ([50, 2, 15], 76), ([51, 2, 15], 88), ([52, 2, 15], 88), ([53, 2, 15], 88), ([54, 2, 15], 67),
    ([55, 2, 15], 44), ([56, 2, 15], 58), ([57, 2, 15], 42), ([63, 2, 15], 73), ([64, 2, 15], 73), ([65, 2, 15], 73),
    ([66, 2, 15], 86), ([67, 2, 15], 86), ([68, 2, 15], 73), ([69, 2, 15], 73), ([70, 2, 15], 73), ([71, 2, 15], 88),
    ([27, 3, 15], 67), ([28, 3, 15], 67), ([29, 3, 15], 67), ([30, 3, 15], 68), ([31, 3, 15], 68), ([32, 3, 15], 67),
    ([33, 3, 15], 67), ([34, 3, 15], 67), ([35, 3, 15], 77), ([36, 3, 15], 44), ([37, 3, 15], 42), ([46, 3, 15], 34),
    ([47, 3, 15], 88), ([48, 3, 15], 88), ([49, 3, 15], 88), ([50, 3, 15], 34), ([51, 3, 15], 76), ([52, 3, 15], 88),
    ([53, 3, 15], 88), ([54, 3, 15], 88), ([55, 3, 15], 124), ([56, 3, 15], 60), ([57, 3, 15], 97), ([63, 3, 15], 34),
    ([64, 3, 15], 73), ([65, 3, 15], 73), ([66, 3, 15], 73), ([67, 3, 15], 34), ([68, 3, 15], 86), ([69, 3, 15], 73),
    ([70, 3, 15], 73), ([71, 3, 15], 73), ([27, 4, 15], 34), ([28, 4, 15], 67), ([29, 4, 15], 67), ([30, 4, 15], 67),
    ([31, 4, 15], 34), ([32, 4, 15], 68), ([33, 4, 15], 67), ([34, 4, 15], 67), ([35, 4, 15], 67), ([36, 4, 15], 124),
    ([37, 4, 15], 94), ([38, 4, 15], 97), ([39, 4, 15], 60), ([47, 4, 15], 34), ([48, 4, 15], 88), ([49, 4, 15], 34),
    ([51, 4, 15], 34), ([52, 4, 15], 76), ([53, 4, 15], 88), ([54, 4, 15], 34), ([55, 4, 15], 62), ([56, 4, 15], 36),
    ([57, 4, 15], 94), ([64, 4, 15], 34), ([65, 4, 15], 73), ([66, 4, 15], 34), ([68, 4, 15], 34), ([69, 4, 15], 86),
    ([70, 4, 15], 73), ([71, 4, 15], 34), ([28, 5, 15], 34), ([29, 5, 15], 67), ([30, 5, 15], 34), ([32, 5, 15], 34),
    ([33, 5, 15], 68), ([34, 5, 15], 67), ([35, 5, 15], 34), ([36, 5, 15], 62), ([37, 5, 15], 36), ([38, 5, 15], 97),
    ([39, 5, 15], 94), ([48, 5, 15], 34), ([52, 5, 15], 34), ([53, 5, 15], 76), ([55, 5, 15], 35), ([65, 5, 15], 34),
    ([69, 5, 15], 34), ([70, 5, 15], 86), ([29, 6, 15], 34), ([33, 6, 15], 34), ([34, 6, 15], 68), ([36, 6, 15], 35),
    ([53, 6, 15], 34), ([55, 6, 15], 58), ([70, 6, 15], 34), ([34, 7, 15], 34), ([36, 7, 15], 58), ([45, 7, 15], 62),
    ([46, 7, 15], 62), ([47, 7, 15], 62), ([48, 7, 15], 62), ([49, 7, 15], 62), ([50, 7, 15], 62), ([51, 7, 15], 62),
    ([52, 7, 15], 62), ([53, 7, 15], 62), ([54, 7, 15], 62), ([55, 7, 15], 94), ([62, 7, 15], 62), ([63, 7, 15], 62),
    ([64, 7, 15], 62), ([65, 7, 15], 62), ([66, 7, 15], 62), ([67, 7, 15], 62), ([68, 7, 15], 62), ([69, 7, 15], 62),
    ([70, 7, 15], 62), ([71, 7, 15], 62), ([72, 7, 15], 58), ([73, 7, 15], 35), ([74, 7, 15], 44), ([75, 7, 15], 95),
    ([76, 7, 15], 36), ([77, 7, 15], 39), ([79, 7, 15], 44), ([80, 7, 15], 64), ([26, 8, 15], 62), ([27, 8, 15], 62),
    ([28, 8, 15], 62), ([29, 8, 15], 62), ([30, 8, 15], 62), ([31, 8, 15], 62), ([32, 8, 15], 62), ([33, 8, 15], 62),
    ([34, 8, 15], 62), ([35, 8, 15], 62), ([36, 8, 15], 94)]

/-- The field of ROMA. -/
def romaField : Field where
  cells := romaCells.map fun p => (⟨p.1⟩, p.2)
  maxs := [80, 8, 23]
  mins := [0, 0, 0]
  planes := [73, 86, 88, 76, 67, 68, 77, 80]
  dims := 3
  charCells := false

/-- Loading the file gives this field. -/
theorem romaLib_eq : romaLib = romaField := by decide +kernel

end Funge
