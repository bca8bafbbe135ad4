import Verif.Model.Input
/-
Texts of values and errors: `Debug` of the values that get into messages, `Display` and `Debug` of `Error` (src/errors.rs).
-/
namespace Httpsig
open Sfv

/-- What the texts depend on outside the modelled code: `Display` of chrono's `TimeDelta` (here in nanoseconds), which characters outside
ASCII the standard library considers printable, and the reasons sfv gives for a parse error. -/
structure Fmt where
  delta : Int → Str
  printable : Char → Bool
  reason : Str

/-- `Debug for rust_decimal::Decimal`, which is its `Display`: sign, digits, and as many decimal places as the scale says. -/
def decimalText (d : Decimal) : Str :=
  (if d.neg then ['-'] else []) ++ natStr (d.mant / 10 ^ d.scale) ++
    if d.scale = 0 then [] else '.' :: padZero d.scale (natStr (d.mant % 10 ^ d.scale))

/-- `Debug for Vec<u8>`. -/
def debugBytes (b : Bytes) : Str := str% "[" ++ joinWith (str% ", ") (b.map fun x => natStr x.toNat) ++ str% "]"

namespace Fmt
variable (f : Fmt)

/-- `Debug for str`, one character. -/
def debugChar (c : Char) : Str :=
  if c = '"' then str% "\\\"" else if c = '\\' then str% "\\\\"
  else if c = '\n' then str% "\\n" else if c = '\r' then str% "\\r" else if c = '\t' then str% "\\t"
  else if c.toNat = 0 then str% "\\0"
  else if (32 ≤ c.toNat ∧ c.toNat < 127) ∨ (127 < c.toNat ∧ f.printable c = true) then [c]
  else str% "\\u{" ++ Nat.toDigits 16 c.toNat ++ str% "}"

/-- `Debug for str`. -/
def debugStr (s : Str) : Str := '"' :: s.flatMap f.debugChar ++ str% "\""

/-- Derived `Debug for sfv::BareItem`. -/
def debugBare : BareItem → Str
  | .decimal d => str% "Decimal(" ++ decimalText d ++ str% ")"
  | .integer i => str% "Integer(" ++ intStr i ++ str% ")"
  | .string s => str% "String(" ++ f.debugStr s ++ str% ")"
  | .byteSeq b => str% "ByteSeq(" ++ debugBytes b ++ str% ")"
  | .boolean b => str% "Boolean(" ++ (if b then str% "true" else str% "false") ++ str% ")"
  | .token t => str% "Token(" ++ f.debugStr t ++ str% ")"

/-- `Debug for IndexMap`, of parameters. -/
def debugParams (p : Params) : Str :=
  str% "{" ++ joinWith (str% ", ") (p.map fun e => f.debugStr e.1 ++ str% ": " ++ f.debugBare e.2) ++ str% "}"

/-- Derived `Debug for sfv::Item`. -/
def debugItem (i : Item) : Str :=
  str% "Item { bare_item: " ++ f.debugBare i.bare ++ str% ", params: " ++ f.debugParams i.params ++ str% " }"

/-- Derived `Debug for SignatureInput` and `ComponentList`, src/signature_input.rs:9,81, and for `sfv::InnerList`. -/
def debugInput (s : SignatureInput) : Str :=
  str% "SignatureInput { label: " ++ f.debugStr s.label ++ str% ", list: ComponentList { inner: InnerList { items: [" ++
    joinWith (str% ", ") (s.list.inner.items.map f.debugItem) ++ str% "], params: " ++ f.debugParams s.list.inner.params ++
    str% " } } }"

variable [Deps]

/-- Derived `Debug for SignatureComponent`, src/signature_component.rs:16, and `DerivedComponent`, src/derived.rs:53. -/
def debugComponent : SignatureComponent → Str
  | .header h => str% "Header(" ++ f.debugStr h.str ++ str% ")"
  | .derived d => str% "Derived(DerivedComponent { item: " ++ f.debugItem d.item ++ str% " })"

/-- `Debug for Vec<SignatureComponent>`. -/
def debugComponents (l : List SignatureComponent) : Str := str% "[" ++ joinWith (str% ", ") (l.map f.debugComponent) ++ str% "]"

/-- `Display for Error`, src/errors.rs:13-61. -/
def displayError : Error → Str
  | .parseError => str% "Malformed request for MockRequest"
  | .missingComponents l => str% "Missing components required for signature: " ++ f.debugComponents l
  | .signatureInputParse => str% "Failed to parse SignatureInput: " ++ f.debugStr f.reason
  | .signatureInputError => str% "Malformed Signature-Input component"
  | .canonicalize => str% "Failed to canonicalize request"
  | .invalidSignatureCreationDate => str% "Signature creation date was in the future"
  | .invalidSignatureExpiresDate => str% "Signature expires date was in the past"
  | .unrecognizedDerivedComponent s => str% "Unrecognized derived component: " ++ f.debugStr s
  | .derivedComponentParse s => str% "Failed to parse DerivedComponent: " ++ f.debugStr (s.getD f.reason)
  | .headerNameParse s => str% "Failed to parse HeaderName: " ++ f.debugStr s
  | .failedToSerialize => str% "Failed to serialize"
  | .convertHeader => str% "Failed to create signature header value"

/-- Derived `Debug for Error`, src/errors.rs:10. -/
def debugError : Error → Str
  | .parseError => str% "ParseError"
  | .missingComponents l => str% "MissingComponents(" ++ f.debugComponents l ++ str% ")"
  | .signatureInputParse => str% "SignatureInputParseError(" ++ f.debugStr f.reason ++ str% ")"
  | .signatureInputError => str% "SignatureInputError"
  | .canonicalize => str% "Canonicalize"
  | .invalidSignatureCreationDate => str% "InvalidSignatureCreationDate"
  | .invalidSignatureExpiresDate => str% "InvalidSignatureExpiresDate"
  | .unrecognizedDerivedComponent s => str% "UnrecognizedDerivedComponent(" ++ f.debugStr s ++ str% ")"
  | .derivedComponentParse s => str% "DerivedComponentParse(" ++ f.debugStr (s.getD f.reason) ++ str% ")"
  | .headerNameParse s => str% "HeaderNameParse(" ++ f.debugStr s ++ str% ")"
  | .failedToSerialize => str% "FailedToSerialize"
  | .convertHeader => str% "ConvertHeader(InvalidHeaderValue)"

end Fmt
end Httpsig
