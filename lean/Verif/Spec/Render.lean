import Verif.Spec.Grammar
/-
How RFC 8941 (section 4.1) writes values, as relations between values and texts. No function of the serialiser is used.
Where the `sfv` crate is more liberal than the RFC (empty names, empty tokens), it says so.
-/
namespace Httpsig
open Grammar

/-- A structured-field string: in double quotes, with `"` and `\` escaped. -/
def quoted (s : Str) : Str := '"' :: s.flatMap (fun c => if c = '"' ∨ c = '\\' then ['\\', c] else [c]) ++ ['"']

/-- Decimal text of a time. -/
def timeText (t : Int) : Str := (if t < 0 then ['-'] else []) ++ Nat.toDigits 10 t.natAbs

/-- Names that are written: keys, and the empty name. -/
def NameText (k : Str) : Prop := k = [] ∨ Key k

/-- Tokens that are written: tokens, and the empty one. -/
def TokenText (t : Str) : Prop := t = [] ∨ Token t

/-- The digits after the point: one zero if the number is an integer, otherwise all `n` digits. -/
inductive Fraction (n value : Nat) : Str → Prop
  | zero : value = 0 → Fraction n value ['0']
  | digits {s : Str} : value ≠ 0 → s.length = n → Digits s value → Fraction n value s

/-- The text of a value. Decimals are rounded to three places (or fewer, if they have fewer). -/
inductive BareText : BareItem → Str → Prop
  | true : BareText (.boolean Bool.true) ['?', '1']
  | false : BareText (.boolean Bool.false) ['?', '0']
  | string {s : Str} : (∀ c ∈ s, 32 ≤ c.toNat ∧ c.toNat < 127) → BareText (.string s) (quoted s)
  | binary {b : Bytes} {t : Str} : IsBase64 t b → BareText (.byteSeq b) (':' :: t ++ [':'])
  | token {t : Str} : TokenText t → BareText (.token t) t
  | integer {i : Int} : -999999999999999 ≤ i → i ≤ 999999999999999 → BareText (.integer i) (timeText i)
  | decimal {a b : Decimal} {f : Str} : Rounded a b → b.scale = min a.scale 3 → b.mant / 10 ^ b.scale ≤ 999999999999 →
      Fraction b.scale (b.mant % 10 ^ b.scale) f →
      BareText (.decimal a) (sign b.neg ++ Nat.toDigits 10 (b.mant / 10 ^ b.scale) ++ '.' :: f)

/-- The text of parameters: `;name=value`, or `;name` if the value is true. -/
inductive ParamsText : Params → Str → Prop
  | nil : ParamsText [] []
  | flag {k s : Str} {ps : Params} : NameText k → ParamsText ps s → ParamsText ((k, .boolean Bool.true) :: ps) (';' :: k ++ s)
  | value {k t s : Str} {v : BareItem} {ps : Params} : NameText k → v ≠ .boolean Bool.true → BareText v t → ParamsText ps s →
      ParamsText ((k, v) :: ps) (';' :: k ++ '=' :: t ++ s)

/-- The text of an item: its value and its parameters. -/
inductive WrittenItem : Item → Str → Prop
  | mk {b : BareItem} {ps : Params} {s p : Str} : BareText b s → ParamsText ps p → WrittenItem ⟨b, ps⟩ (s ++ p)

/-- The text of an inner list: items separated by single spaces, in parentheses, and parameters. -/
inductive WrittenList : InnerList → Str → Prop
  | empty {ps : Params} {p : Str} : ParamsText ps p → WrittenList ⟨[], ps⟩ (str% "()" ++ p)
  | items {i : Item} {is : List Item} {ps : Params} {s p : Str} {ss : List Str} : WrittenItem i s → Forall2 WrittenItem is ss →
      ParamsText ps p → WrittenList ⟨i :: is, ps⟩ ('(' :: s ++ ss.flatMap (fun t => ' ' :: t) ++ ')' :: p)

/-- The values that have a text. Everything has one but strings and tokens with other characters, integers of more than 15
digits, and decimals of more than 12 digits before the point once rounded. -/
inductive Representable : BareItem → Prop
  | boolean (b : Bool) : Representable (.boolean b)
  | string {s : Str} : (∀ c ∈ s, 32 ≤ c.toNat ∧ c.toNat < 127) → Representable (.string s)
  | binary (b : Bytes) : Representable (.byteSeq b)
  | token {t : Str} : TokenText t → Representable (.token t)
  | integer {i : Int} : i.natAbs < 1000000000000000 → Representable (.integer i)
  | decimal {d : Decimal} :
      2000 * d.mant + (if d.scale ≤ 3 then 0 else 10 ^ d.scale) < 2000 * (1000000000000 * 10 ^ d.scale) →
      Representable (.decimal d)

end Httpsig
