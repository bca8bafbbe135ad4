import Verif.Basic
/-
Specification vocabulary for string splitting and trimming.
-/
namespace Httpsig

/-- `t` is `s` without its longest prefix and suffix of characters satisfying `p`. -/
def Trimmed (p : Char → Bool) (s t : Str) : Prop :=
  ∃ a b, s = a ++ t ++ b ∧ (∀ c ∈ a, p c = true) ∧ (∀ c ∈ b, p c = true) ∧
    (∀ c ∈ t.head?, p c = false) ∧ (∀ c ∈ t.getLast?, p c = false)

/-- White space: the characters with Unicode's property `White_Space`. -/
def whiteSpace (c : Char) : Bool :=
  [0x9, 0xA, 0xB, 0xC, 0xD, 0x20, 0x85, 0xA0, 0x1680, 0x2000, 0x2001, 0x2002, 0x2003, 0x2004, 0x2005, 0x2006, 0x2007, 0x2008,
    0x2009, 0x200A, 0x2028, 0x2029, 0x202F, 0x205F, 0x3000].contains c.toNat

/-- `s` with the letters `A` to `Z` in lower case. -/
def lowered (s : Str) : Str :=
  s.map fun c => (((str% "ABCDEFGHIJKLMNOPQRSTUVWXYZ").zip (str% "abcdefghijklmnopqrstuvwxyz")).lookup c).getD c

end Httpsig
