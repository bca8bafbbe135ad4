import Verif.Sfv.Types
import Verif.Basic
/-
Specification of the order of structured-field values, used by C41. Independent of the comparison functions of the
model: a relation, one rule per kind of value.
-/
namespace Httpsig

/-- `a` comes before `b` in the dictionary, letters being bytes: `a` is a proper prefix of `b`, or at the first place
where they differ `a` has the smaller byte. -/
def Before (a b : Bytes) : Prop :=
  (∃ c r, b = a ++ c :: r) ∨ ∃ p x y r s, a = p ++ x :: r ∧ b = p ++ y :: s ∧ x < y

/-- The signed numerator of a decimal; its value is `numerator d / 10 ^ d.scale`. -/
def numerator (d : Decimal) : Int := if d.neg then -(d.mant : Int) else d.mant

/-- Two values of the same kind, the first smaller than the second. -/
inductive ValueLess : BareItem → BareItem → Prop
  | string {x y} : Before (utf8 x) (utf8 y) → ValueLess (.string x) (.string y)
  | token {x y} : Before (utf8 x) (utf8 y) → ValueLess (.token x) (.token y)
  | byteSeq {x y} : Before x y → ValueLess (.byteSeq x) (.byteSeq y)
  | integer {i j : Int} : i < j → ValueLess (.integer i) (.integer j)
  | boolean : ValueLess (.boolean false) (.boolean true)
  /-- `m / 10^s < n / 10^t`, multiplied out. -/
  | decimal {d e : Decimal} : numerator d * (10 : Int) ^ e.scale < numerator e * (10 : Int) ^ d.scale → ValueLess (.decimal d) (.decimal e)

end Httpsig
