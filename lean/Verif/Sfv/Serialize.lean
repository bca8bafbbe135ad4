import Verif.Sfv.Types
import Verif.Base64
/-
Serialiser of the `sfv` 0.9 crate (dependency; RFC 8941 section 4.1). `none` = `Err`.
Reached from src/derived.rs:203 (Item), src/signature_input.rs:47-50 (List with one inner list)
and src/signature_input.rs:122 (Dictionary).
-/
namespace Httpsig.Sfv

/-- Characters allowed in a key after the first: lcalpha, DIGIT, `_ - * .`. -/
def isKeyChar (c : Char) : Bool :=
  c.isLower || c.isDigit || c == '_' || c == '-' || c == '*' || c == '.'

/-- First character of a key: lcalpha or `*`. -/
def isKeyStart (c : Char) : Bool := c.isLower || c == '*'

/-- `utils::is_tchar`. -/
def isTchar (c : Char) : Bool :=
  c.isAlphanum || c == '!' || c == '#' || c == '$' || c == '%' || c == '&' || c == '\'' || c == '*' ||
  c == '+' || c == '-' || c == '.' || c == '^' || c == '_' || c == '`' || c == '|' || c == '~'

/-- Characters allowed in a token after the first. -/
def isTokenChar (c : Char) : Bool := isTchar c || c == ':' || c == '/'

/-- First character of a token. -/
def isTokenStart (c : Char) : Bool := c.isAlpha || c == '*'

/-- Visible ASCII or space: what a structured-field string may contain. -/
def isStringChar (c : Char) : Bool := 0x20 ≤ c.toNat && c.toNat < 0x7f

/-- `serialize_key`. Quirk kept: the empty key is accepted. -/
def serKey (k : Str) : Option Str :=
  if k.all isKeyChar then
    match k with
    | [] => some []
    | c :: _ => if isKeyStart c then some k else none
  else none

/-- Escape `"` and `\`. -/
def escape : Str → Str
  | [] => []
  | c :: cs => if c = '\\' ∨ c = '"' then '\\' :: c :: escape cs else c :: escape cs

/-- `serialize_string`. -/
def serString (s : Str) : Option Str :=
  if s.all isStringChar then some ('"' :: escape s ++ ['"']) else none

/-- `serialize_token`. Quirk kept: the empty token is accepted. -/
def serToken (t : Str) : Option Str :=
  match t with
  | [] => some []
  | c :: cs => if isTokenStart c && cs.all isTokenChar then some t else none

/-- Largest magnitude of a structured-field integer. -/
def maxInt : Int := 999999999999999

/-- Decimal rendering of a natural number. -/
def natStr (n : Nat) : Str := Nat.toDigits 10 n

/-- Rendering of an `i64`. -/
def intStr : Int → Str
  | .ofNat n => natStr n
  | .negSucc n => '-' :: natStr (n + 1)

/-- `serialize_integer`. -/
def serInteger (i : Int) : Option Str :=
  if -maxInt ≤ i ∧ i ≤ maxInt then some (intStr i) else none

/-- `Decimal::round_dp(3)` (round half to even). -/
def Decimal.round3 (d : Decimal) : Decimal :=
  if d.scale ≤ 3 then d
  else
    let p := 10 ^ (d.scale - 3)
    let q := d.mant / p
    let r := d.mant % p
    let q' := if 2 * r > p ∨ (2 * r = p ∧ q % 2 = 1) then q + 1 else q
    { neg := d.neg, mant := q', scale := 3 }

/-- Left-pad with zeros to width `w`. -/
def padZero (w : Nat) (s : Str) : Str := List.replicate (w - s.length) '0' ++ s

/-- `serialize_decimal`. -/
def serDecimal (d : Decimal) : Option Str :=
  let r := Decimal.round3 d
  let ip := r.mant / 10 ^ r.scale
  let fp := r.mant % 10 ^ r.scale
  if ip > 999999999999 then none
  else
    let sign := if r.neg then ['-'] else []
    if fp = 0 then some (sign ++ natStr ip ++ ['.', '0'])
    else some (sign ++ natStr ip ++ '.' :: padZero r.scale (natStr fp))

/-- `serialize_bare_item`. -/
def serBare : BareItem → Option Str
  | .boolean b => some (if b then ['?', '1'] else ['?', '0'])
  | .string s => serString s
  | .byteSeq b => some (':' :: Base64.encode b ++ [':'])
  | .token t => serToken t
  | .integer i => serInteger i
  | .decimal d => serDecimal d

/-- One parameter: `;key` or `;key=value` (a `true` value is omitted). -/
def serParam (k : Str) (v : BareItem) : Option Str := do
  let ks ← serKey k
  if v = .boolean true then some (';' :: ks)
  else
    let vs ← serBare v
    some (';' :: ks ++ '=' :: vs)

/-- `serialize_parameters`. -/
def serParams : Params → Option Str
  | [] => some []
  | (k, v) :: rest => do
    let a ← serParam k v
    let b ← serParams rest
    some (a ++ b)

/-- `serialize_item` (`Item::serialize_value`, src/derived.rs:203). -/
def serItem (i : Item) : Option Str := do
  let a ← serBare i.bare
  let b ← serParams i.params
  some (a ++ b)

/-- The items of an inner list, separated by single spaces. -/
def serItems : List Item → Option Str
  | [] => some []
  | [i] => serItem i
  | i :: j :: rest => do
    let a ← serItem i
    let b ← serItems (j :: rest)
    some (a ++ ' ' :: b)

/-- `serialize_inner_list`. -/
def serInnerList (l : InnerList) : Option Str := do
  let a ← serItems l.items
  let b ← serParams l.params
  some ('(' :: a ++ ')' :: b)

/-- `serialize_list` on the one-element list built by `ComponentList::as_list` (src/signature_input.rs:28-30,47-50). -/
def serSingletonList (l : InnerList) : Option Str := serInnerList l

/-- One dictionary member. -/
def serMember (k : Str) (e : ListEntry) : Option Str := do
  let ks ← serKey k
  match e with
  | .item i =>
    if i.bare = .boolean true then
      let ps ← serParams i.params
      some (ks ++ ps)
    else
      let s ← serItem i
      some (ks ++ '=' :: s)
  | .innerList l =>
    let s ← serInnerList l
    some (ks ++ '=' :: s)

/-- `serialize_dict` (`Dictionary::serialize_value`, src/signature_input.rs:122); an empty dictionary is an error. -/
def serDict : Dictionary → Option Str
  | [] => none
  | [(k, e)] => serMember k e
  | (k, e) :: m :: rest => do
    let a ← serMember k e
    let b ← serDict (m :: rest)
    some (a ++ ',' :: ' ' :: b)

end Httpsig.Sfv
