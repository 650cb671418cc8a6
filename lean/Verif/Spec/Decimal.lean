/-!
Specification of decimal notation: what it means that a text is the decimal representation of an integer.
-/
namespace Funge

/-- The number a list of ASCII digits (most significant first) stands for. -/
def digitsValue (l : List Int) : Int := l.foldl (fun a c => a * 10 + (c - 48)) 0

/-- `l` is a non-empty list of ASCII digits without superfluous leading zeros. -/
def IsDigits (l : List Int) : Prop := l ≠ [] ∧ (∀ c ∈ l, 48 ≤ c ∧ c ≤ 57) ∧ (l.head? = some 48 → l.length = 1)

/-- `t` is the usual decimal notation of `x`. -/
def IsDecimal (x : Int) (t : List Int) : Prop :=
  (0 ≤ x ∧ IsDigits t ∧ digitsValue t = x) ∨ (x < 0 ∧ ∃ ds, t = 45 :: ds ∧ IsDigits ds ∧ digitsValue ds = -x)

end Funge
