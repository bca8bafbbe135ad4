import Verif.Model.Debug
import Verif.Spec.Config
/- Specification of the texts of values and errors (namespace `Shown`). -/
namespace Httpsig.Shown
open Sfv

/-- A hexadecimal digit, with small letters. -/
inductive HexDigit : Nat → Char → Prop
  | digit {n : Nat} : n < 10 → HexDigit n (Char.ofNat (48 + n))
  | letter {n : Nat} : 10 ≤ n → n < 16 → HexDigit n (Char.ofNat (87 + n))

/-- A number in hexadecimal, without leading zeros. -/
inductive HexText : Nat → Str → Prop
  | one {n : Nat} {c : Char} : HexDigit n c → HexText n [c]
  | more {m d : Nat} {t : Str} {c : Char} : 0 < m → HexText m t → HexDigit d c → HexText (16 * m + d) (t ++ [c])

/-- How a character of a quoted text is written. -/
inductive CharText (printable : Char → Bool) : Char → Str → Prop
  | quote : CharText printable '"' (str% "\\\"")
  | backslash : CharText printable '\\' (str% "\\\\")
  | newline : CharText printable '\n' (str% "\\n")
  | ret : CharText printable '\r' (str% "\\r")
  | tab : CharText printable '\t' (str% "\\t")
  | nul : CharText printable (Char.ofNat 0) (str% "\\0")
  | plain {c : Char} : c ≠ '"' → c ≠ '\\' → 32 ≤ c.toNat → c.toNat < 127 → CharText printable c [c]
  | other {c : Char} : 127 < c.toNat → printable c = true → CharText printable c [c]
  | code {c : Char} {t : Str} : c ∉ [Char.ofNat 0, '\t', '\n', '\r'] →
      (c.toNat < 32 ∨ c.toNat = 127 ∨ 127 < c.toNat ∧ printable c = false) → HexText c.toNat t →
      CharText printable c (str% "\\u{" ++ t ++ str% "}")

/-- A quoted text. -/
def Quoted (f : Fmt) (s t : Str) : Prop :=
  ∃ parts, Forall2 (CharText f.printable) s parts ∧ t = str% "\"" ++ parts.flatten ++ str% "\""

/-- A list between `opening` and `closing`, separated by commas. -/
def Listed {α : Type} (R : α → Str → Prop) (opening closing : Str) (l : List α) (t : Str) : Prop :=
  ∃ parts, Forall2 R l parts ∧ t = opening ++ List.intercalate (str% ", ") parts ++ closing

/-- A decimal: the digits before and after the point, together, are its mantissa; as many after the point as the scale says, none
superfluous before it. -/
def DecimalText (d : Decimal) (t : Str) : Prop :=
  ∃ whole frac : Str, (∀ c ∈ whole ++ frac, c.isDigit = true) ∧ whole ≠ [] ∧ (whole.head? = some '0' → whole.length = 1) ∧
    frac.length = d.scale ∧ (whole ++ frac).foldl (fun n c => 10 * n + (c.toNat - 48)) 0 = d.mant ∧
    t = (if d.neg then str% "-" else []) ++ whole ++ if d.scale = 0 then [] else str% "." ++ frac

/-- A value. -/
inductive BareText (f : Fmt) : BareItem → Str → Prop
  | decimal {d : Decimal} {t : Str} : DecimalText d t → BareText f (.decimal d) (str% "Decimal(" ++ t ++ str% ")")
  | integer {i : Int} : BareText f (.integer i) (str% "Integer(" ++ (toString i).toList ++ str% ")")
  | string {s t : Str} : Quoted f s t → BareText f (.string s) (str% "String(" ++ t ++ str% ")")
  | bytes {b : Bytes} {t : Str} : Listed (fun x t => t = (toString x.toNat).toList) (str% "[") (str% "]") b t →
      BareText f (.byteSeq b) (str% "ByteSeq(" ++ t ++ str% ")")
  | true : BareText f (.boolean true) (str% "Boolean(true)")
  | false : BareText f (.boolean false) (str% "Boolean(false)")
  | token {s t : Str} : Quoted f s t → BareText f (.token s) (str% "Token(" ++ t ++ str% ")")

/-- Parameters. -/
def ParamsText (f : Fmt) : Params → Str → Prop :=
  Listed (fun e t => ∃ k v, Quoted f e.1 k ∧ BareText f e.2 v ∧ t = k ++ str% ": " ++ v) (str% "{") (str% "}")

/-- An item. -/
def ItemText (f : Fmt) (i : Item) (t : Str) : Prop :=
  ∃ b p, BareText f i.bare b ∧ ParamsText f i.params p ∧ t = str% "Item { bare_item: " ++ b ++ str% ", params: " ++ p ++ str% " }"

/-- A `Signature-Input` value. -/
def InputText (f : Fmt) (s : SignatureInput) (t : Str) : Prop :=
  ∃ label items params, Quoted f s.label label ∧ Listed (ItemText f) (str% "[") (str% "]") s.list.inner.items items ∧
    ParamsText f s.list.inner.params params ∧
    t = str% "SignatureInput { label: " ++ label ++ str% ", list: ComponentList { inner: InnerList { items: " ++ items ++
      str% ", params: " ++ params ++ str% " } } }"

section
variable [Deps]

/-- A component. -/
inductive ComponentText (f : Fmt) : SignatureComponent → Str → Prop
  | header {h : HeaderName} {t : Str} : Quoted f h.str t → ComponentText f (.header h) (str% "Header(" ++ t ++ str% ")")
  | derived {d : DerivedComponent} {t : Str} : ItemText f d.item t →
      ComponentText f (.derived d) (str% "Derived(DerivedComponent { item: " ++ t ++ str% " })")

/-- The message of an error. -/
inductive ErrorText (f : Fmt) : Error → Str → Prop
  | parse : ErrorText f .parseError (str% "Malformed request for MockRequest")
  | missing {l : List SignatureComponent} {t : Str} : Listed (ComponentText f) (str% "[") (str% "]") l t →
      ErrorText f (.missingComponents l) (str% "Missing components required for signature: " ++ t)
  | input {t : Str} : Quoted f f.reason t → ErrorText f .signatureInputParse (str% "Failed to parse SignatureInput: " ++ t)
  | malformed : ErrorText f .signatureInputError (str% "Malformed Signature-Input component")
  | canonicalize : ErrorText f .canonicalize (str% "Failed to canonicalize request")
  | created : ErrorText f .invalidSignatureCreationDate (str% "Signature creation date was in the future")
  | expires : ErrorText f .invalidSignatureExpiresDate (str% "Signature expires date was in the past")
  | unrecognized {s t : Str} : Quoted f s t →
      ErrorText f (.unrecognizedDerivedComponent s) (str% "Unrecognized derived component: " ++ t)
  | derived {s t : Str} : Quoted f s t → ErrorText f (.derivedComponentParse (some s)) (str% "Failed to parse DerivedComponent: " ++ t)
  | derivedReason {t : Str} : Quoted f f.reason t →
      ErrorText f (.derivedComponentParse none) (str% "Failed to parse DerivedComponent: " ++ t)
  | header {s t : Str} : Quoted f s t → ErrorText f (.headerNameParse s) (str% "Failed to parse HeaderName: " ++ t)
  | serialize : ErrorText f .failedToSerialize (str% "Failed to serialize")
  | convert : ErrorText f .convertHeader (str% "Failed to create signature header value")

/-- The debug text of an error. -/
inductive ErrorDebug (f : Fmt) : Error → Str → Prop
  | parse : ErrorDebug f .parseError (str% "ParseError")
  | missing {l : List SignatureComponent} {t : Str} : Listed (ComponentText f) (str% "[") (str% "]") l t →
      ErrorDebug f (.missingComponents l) (str% "MissingComponents(" ++ t ++ str% ")")
  | input {t : Str} : Quoted f f.reason t → ErrorDebug f .signatureInputParse (str% "SignatureInputParseError(" ++ t ++ str% ")")
  | malformed : ErrorDebug f .signatureInputError (str% "SignatureInputError")
  | canonicalize : ErrorDebug f .canonicalize (str% "Canonicalize")
  | created : ErrorDebug f .invalidSignatureCreationDate (str% "InvalidSignatureCreationDate")
  | expires : ErrorDebug f .invalidSignatureExpiresDate (str% "InvalidSignatureExpiresDate")
  | unrecognized {s t : Str} : Quoted f s t →
      ErrorDebug f (.unrecognizedDerivedComponent s) (str% "UnrecognizedDerivedComponent(" ++ t ++ str% ")")
  | derived {s t : Str} : Quoted f s t → ErrorDebug f (.derivedComponentParse (some s)) (str% "DerivedComponentParse(" ++ t ++ str% ")")
  | derivedReason {t : Str} : Quoted f f.reason t →
      ErrorDebug f (.derivedComponentParse none) (str% "DerivedComponentParse(" ++ t ++ str% ")")
  | header {s t : Str} : Quoted f s t → ErrorDebug f (.headerNameParse s) (str% "HeaderNameParse(" ++ t ++ str% ")")
  | serialize : ErrorDebug f .failedToSerialize (str% "FailedToSerialize")
  | convert : ErrorDebug f .convertHeader (str% "ConvertHeader(InvalidHeaderValue)")

/-- An error with the reason of the parser put in. -/
def told (f : Fmt) : Error → Error
  | .derivedComponentParse none => .derivedComponentParse (some f.reason)
  | e => e

end
end Httpsig.Shown
