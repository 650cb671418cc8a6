import Verif.Model.Libs
/-!
The field of NULL, cell by cell.
-/
namespace Funge

set_option maxRecDepth 100000

/-- The characters of NULL and where they are. -/
def nullCells : List (List Int × Int) := [
    ([0], 82), ([1], 64), ([0, 0, 1], 82), ([1, 0, 1], 64), ([0, 0, 2], 82), ([1, 0, 2], 64), ([0, 0, 3], 82), ([1, 0, 3], 64),
    ([0, 0, 4], 82), ([1, 0, 4], 64), ([0, 0, 5], 82), ([1, 0, 5], 64), ([0, 0, 6], 82), ([1, 0, 6], 64), ([0, 0, 7], 82),
    ([1, 0, 7], 64), ([0, 0, 8], 82), ([1, 0, 8], 64), ([0, 0, 9], 82), ([1, 0, 9], 64), ([0, 0, 10], 82), ([1, 0, 10], 64),
    ([0, 0, 11], 82), ([1, 0, 11], 64), ([0, 0, 12], 82), ([1, 0, 12], 64), ([0, 0, 13], 82), ([1, 0, 13], 64), ([0, 0, 14], 82),
    ([1, 0, 14], 64), ([0, 0, 15], 82), ([1, 0, 15], 64), ([0, 0, 16], 82), ([1, 0, 16], 64), ([0, 0, 17], 82), ([1, 0, 17], 64),
    ([0, 0, 18], 82), ([1, 0, 18], 64), ([0, 0, 19], 82), ([1, 0, 19], 64), ([0, 0, 20], 82), ([1, 0, 20], 64), ([0, 0, 21], 82),
    ([1, 0, 21], 64), ([0, 0, 22], 82), ([1, 0, 22], 64), ([0, 0, 23], 82), ([1, 0, 23], 64), ([0, 0, 24], 82), ([1, 0, 24], 64),
    ([0, 0, 25], 82), ([1, 0, 25], 64)]

/-- The field of NULL. -/
def nullField : Field where
  cells := nullCells.map fun p => (⟨p.1⟩, p.2)
  maxs := [1, 0, 25]
  mins := [0, 0, 0]
  planes := [65, 66, 67, 68, 69, 70, 71, 72, 73, 74, 75, 76, 77, 78, 79, 80, 81, 82, 83, 84, 85, 86, 87, 88, 89, 90]
  dims := 3
  charCells := false

/-- Loading the file gives this field. -/
theorem nullLib_eq : nullLib = nullField := by decide +kernel

end Funge
