/-!
Specification of how a source text is laid out (C11–C14), independent of the loader.
A text is given as lines, planes of lines and volumes of planes; characters are bytes.
-/
namespace Funge.Spec

/-- An ordinary character: not a line break, form feed or vertical tab. -/
def Plain (c : Int) : Prop := c ≠ 10 ∧ c ≠ 13 ∧ c ≠ 12 ∧ c ≠ 11

/-- Index a list by an integer; nothing at negative indices or past the end. -/
def at' {α : Type} (l : List α) (i : Int) : Option α := if 0 ≤ i then l[i.toNat]? else none

/-- The character at column `x` of line `y`. -/
def cell2 (lines : List (List Int)) (x y : Int) : Option Int := (at' lines y).bind (at' · x)

/-- The character at column `x` of line `y` of plane `z`. -/
def cell3 (planes : List (List (List Int))) (x y z : Int) : Option Int :=
  (at' planes z).bind (cell2 · x y)

/-- The character at column `x` of line `y` of plane `z` of volume `w`. -/
def cell4 (vols : List (List (List (List Int)))) (x y z w : Int) : Option Int :=
  (at' vols w).bind (cell3 · x y z)

/-- What a cell reads after a character has been put over it: blanks are transparent. -/
def overlay : Option Int → Int → Int
  | none, old => old
  | some c, old => if c = 32 then old else c

/-- Join with a separator. -/
def joinWith (sep : List Int) : List (List Int) → List Int
  | [] => []
  | [l] => l
  | l :: t => l ++ sep ++ joinWith sep t

/-- Text of a plane: lines separated by LF. -/
def planeText (lines : List (List Int)) : List Int := joinWith [10] lines

/-- Text of a volume: planes separated by FF. -/
def volText (planes : List (List (List Int))) : List Int := joinWith [12] (planes.map planeText)

/-- Whole text: volumes separated by VT. -/
def text (vols : List (List (List (List Int)))) : List Int := joinWith [11] (vols.map volText)

/-- A plane does not begin with an empty line, unless that is all there is in it. -/
def Begins (p : List (List Int)) : Prop := p.head? ≠ some [] ∨ p = [[]]

/-- The text without the LFs that directly follow a FF or a VT; `after` is whether it follows one itself. -/
def dropBreaks (after : Bool) : List Int → List Int
  | [] => []
  | c :: t => if c = 10 ∧ after = true then dropBreaks true t else c :: dropBreaks (c == 11 || c == 12) t

end Funge.Spec

namespace Funge.Spec

/-- The value a cell has after the byte `c` has been stored in it: one-byte cells are signed. -/
def stored (charCells : Bool) (c : Int) : Int := if charCells then c.bmod 256 else c

/-- Replace every CRLF and every other CR by LF. -/
def toLF : List Int → List Int
  | 13 :: 10 :: t => 10 :: toLF t
  | c :: t => (if c = 13 then 10 else c) :: toLF t
  | [] => []

/-- The three line ending styles. -/
inductive Ending | lf | cr | crlf

/-- Bytes of a line ending. -/
def Ending.bytes : Ending → List Int
  | .lf => [10]
  | .cr => [13]
  | .crlf => [13, 10]

/-- Lines each with its own ending, then a last line without ending. -/
def mixedText : List (List Int × Ending) → List Int → List Int
  | [], last => last
  | (l, e) :: t, last => l ++ e.bytes ++ mixedText t last

/-- The same text with LF everywhere. -/
def lfText : List (List Int × Ending) → List Int → List Int
  | [], last => last
  | (l, _) :: t, last => l ++ [10] ++ lfText t last

/-- No lone CR is directly followed by an LF (which together would be a CRLF). -/
def Unambiguous : List (List Int × Ending) → Prop
  | (_, .cr) :: ([], .lf) :: _ => False
  | _ :: t => Unambiguous t
  | [] => True

end Funge.Spec
