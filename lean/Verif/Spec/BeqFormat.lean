import Verif.Model.Vec
import Verif.Spec.Decimal
/-!
Specification of BeQunge files: what the file says, and which character it puts where. A file is a list of lines.

    Version 1,Dimensions 3
    Lines 2,Origin 0:0,Coord -1:
    first line of the block
    second line of the block
-/
namespace Funge
namespace BeqFormat

/-- A block of text: the lines, the coordinates of the first character of the first line given by `Origin`, and the further ones given by `Coord`. -/
structure Block where
  origin : List Int
  coord : List Int
  lines : List (List Int)

/-- The point of the character in column `j` of line `i` of a block whose first character is at `o`. -/
def posAt (o : List Int) (i j : Nat) : Vec := Vec.ofList ((o.getD 0 0 + j) :: (o.getD 1 0 + i) :: o.drop 2)

/-- The characters of a line with the points they belong to. -/
def rowWrites (o : List Int) (i : Nat) (line : List Int) : List (Vec × Int) := line.mapIdx fun j c => (posAt o i j, c)

/-- The characters of a block, in the order of the file. -/
def Block.writes (b : Block) : List (Vec × Int) := (b.lines.mapIdx fun i l => rowWrites (b.origin ++ b.coord) i l).flatten

/-- The characters of a file, in the order of the file. -/
def fileWrites (bs : List Block) : List (Vec × Int) := (bs.map Block.writes).flatten

/-- Numbers separated by colons: `1:-2:3`. -/
inductive Numbers : List Int → List Int → Prop
  | one {n : Int} {t : List Int} : IsDecimal n t → Numbers [n] t
  | cons {n : Int} {t : List Int} {ns ts : List Int} : IsDecimal n t → Numbers ns ts → Numbers (n :: ns) (t ++ 58 :: ts)

/-- Numbers each followed by a colon: `1:-2:3:`. -/
inductive Coords : List Int → List Int → Prop
  | nil : Coords [] []
  | cons {n : Int} {t : List Int} {ns ts : List Int} : IsDecimal n t → Coords ns ts → Coords (n :: ns) (t ++ 58 :: ts)

/-- ASCII bytes. -/
def ascii (s : String) : List Int := s.toList.map fun c => (c.toNat : Int)

/-- A number that fits `int`. -/
def FitsInt (n : Int) : Prop := -2147483648 ≤ n ∧ n ≤ 2147483647

/-- `ls` are the lines that write the block `b`: the control line and the text. -/
def IsBlock (b : Block) (ls : List (List Int)) : Prop :=
  ∃ nt ot ct, IsDecimal b.lines.length nt ∧ Numbers b.origin ot ∧ Coords b.coord ct ∧
    (∀ n ∈ b.origin ++ b.coord, FitsInt n) ∧ b.lines.length < 2 ^ 64 ∧
    ls = (ascii "Lines " ++ nt ++ ascii ",Origin " ++ ot ++ ascii ",Coord " ++ ct) :: b.lines ∧
    ∀ l ∈ b.lines, (10 : Int) ∉ l

/-- `ls` are the lines that write the blocks `bs`. -/
inductive IsBlocks : List Block → List (List Int) → Prop
  | nil : IsBlocks [] []
  | cons {b : Block} {bs : List Block} {l ls : List (List Int)} : IsBlock b l → IsBlocks bs ls → IsBlocks (b :: bs) (l ++ ls)

/-- The lines of a file, with newlines between them. -/
def unlines : List (List Int) → List Int
  | [] => []
  | [l] => l
  | l :: m :: ls => l ++ 10 :: unlines (m :: ls)

/-- `bytes` is a BeQunge file that declares `d` dimensions and consists of the blocks `bs`. The last line may or may not end in a newline. -/
def IsFile (d : Nat) (bs : List Block) (bytes : List Int) : Prop :=
  ∃ dt ls e, IsDecimal d dt ∧ d < 2 ^ 64 ∧ IsBlocks bs ls ∧ (e = [] ∨ e = [[]]) ∧
    bytes = unlines ((ascii "Version 1,Dimensions " ++ dt) :: (ls ++ e))

end BeqFormat
end Funge
