import Verif.Http
/-
`DerivedComponent` (src/derived.rs), `SignatureComponent` (src/signature_component.rs) and
`Error` (src/errors.rs).
-/
namespace Httpsig
open Sfv

/-- `Decimal::cmp`: numeric order. -/
def Decimal.cmp (a b : Decimal) : Ordering :=
  let v (d : Decimal) (s : Nat) : Int := (if d.neg then -1 else 1) * (d.mant * 10 ^ s : Nat)
  compare (v a b.scale) (v b a.scale)

/-- `PartialEq for sfv::BareItem` (derived; `Decimal` compares numerically). -/
def BareItem.rustEq : BareItem → BareItem → Bool
  | .decimal a, .decimal b => Decimal.cmp a b == .eq
  | a, b => a == b

/-- Equality of `IndexMap`s: same length and same value under every key, order ignored
(`PartialEq for IndexMap`, reached from src/derived.rs:133). -/
def Params.rustEq (a b : Params) : Bool :=
  a.length == b.length && a.all fun (k, v) =>
    match IMap.get b k with
    | some w => BareItem.rustEq v w
    | none => false

/-- `PartialEq for sfv::Item` (derived: bare item and parameters). -/
def Item.rustEq (a b : Item) : Bool := BareItem.rustEq a.bare b.bare && Params.rustEq a.params b.params

/-- `DerivedComponent`, src/derived.rs:53-56. -/
structure DerivedComponent where
  item : Item
deriving DecidableEq, Repr

/-- `AT_*` constants, src/derived.rs:12-42. -/
def atSignatureParams : Str := str% "@signature-params"
@[inherit_doc atSignatureParams] def atMethod : Str := str% "@method"
@[inherit_doc atSignatureParams] def atTargetUri : Str := str% "@target-uri"
@[inherit_doc atSignatureParams] def atAuthority : Str := str% "@authority"
@[inherit_doc atSignatureParams] def atScheme : Str := str% "@scheme"
@[inherit_doc atSignatureParams] def atRequestTarget : Str := str% "@request-target"
@[inherit_doc atSignatureParams] def atPath : Str := str% "@path"
@[inherit_doc atSignatureParams] def atQuery : Str := str% "@query"
@[inherit_doc atSignatureParams] def atQueryParams : Str := str% "@query-params"
@[inherit_doc atSignatureParams] def atStatus : Str := str% "@status"
@[inherit_doc atSignatureParams] def atRequestResponse : Str := str% "@request-response"

namespace DerivedComponent

/-- `DerivedComponent::new`, src/derived.rs:60-65. -/
def new (name : Str) : DerivedComponent := ⟨{ bare := .string name, params := [] }⟩

/-- `From<Item>`, src/derived.rs:208-212: any item, whatever its bare value. -/
def ofItem (i : Item) : DerivedComponent := ⟨i⟩

/-- `with_param`, src/derived.rs:68-72. -/
def withParam (d : DerivedComponent) (key value : Str) : DerivedComponent :=
  ⟨{ d.item with params := IMap.insert d.item.params key (.string value) }⟩

/-- `name`, src/derived.rs:75-77: panics unless the bare item is a string. -/
def name (d : DerivedComponent) : P Str :=
  match d.item.bare.asStr with
  | some s => .ok s
  | none => .error .derivedNameNotString

/-- `param`, src/derived.rs:80-86. -/
def param (d : DerivedComponent) (key : Str) : Option Str :=
  match IMap.get d.item.params key with
  | some x => x.asStr
  | none => none

/-- The `match` of `derive`, src/derived.rs:100-127, once the name is known. -/
def deriveNamed (d : DerivedComponent) (nm : Str) (host : Option Str) (method : Method) (url : Url) : Option Str :=
  if nm = atMethod then some method.str
  else if nm = atRequestTarget then some url.asStr
  else if nm = atTargetUri then some url.asStr
  else if nm = atAuthority then host
  else if nm = atScheme then some url.scheme
  else if nm = atPath then some url.path
  else if nm = atQuery then url.query.map fun q => '?' :: q
  else if nm = atQueryParams then
    match d.param (str% "name") with
    | none => none
    | some field =>
      some (joinWith (str% "\n") ((url.queryPairs.filter fun p => field = p.1).map Prod.snd))
  else none

/-- `derive`, src/derived.rs:94-128. -/
def derive (d : DerivedComponent) (host : Option Str) (method : Method) (url : Url) : P (Option Str) := do
  let nm ← d.name
  return d.deriveNamed nm host method url

/-- `PartialEq`, src/derived.rs:131-135. -/
def rustEq (a b : DerivedComponent) : Bool := Item.rustEq a.item b.item

/-- `Ord for DerivedComponent`, src/derived.rs:140-181: compares bare items of the same type,
says `Equal` when the types differ, ignores parameters. -/
def cmp (a b : DerivedComponent) : Ordering :=
  match a.item.bare, b.item.bare with
  | .string x, .string y => strCmp x y
  | .token x, .token y => strCmp x y
  | .decimal x, .decimal y => Decimal.cmp x y
  | .integer x, .integer y => compare x y
  | .boolean x, .boolean y => compare x.toNat y.toNat
  | .byteSeq x, .byteSeq y => bytesCmp x y
  | _, _ => .eq

/-- `Display`, src/derived.rs:201-206: panics when the item cannot be serialised. -/
def display (d : DerivedComponent) : P Str :=
  match serItem d.item with
  | some s => .ok s
  | none => .error .displayDerived

end DerivedComponent

/-- `Derivable<T>`, src/derived.rs:214-218. -/
class Derivable (R T : Type) where
  deriveComponent : R → T → P (Option Str)

section
variable [Deps]

/-- `SignatureComponent`, src/signature_component.rs:17-22. -/
inductive SignatureComponent where
  | derived (d : DerivedComponent)
  | header (h : HeaderName)
deriving DecidableEq

/-- `Error`, src/errors.rs:10-62. Free-text payloads produced by dependency crates are dropped (`none` in `derivedComponentParse`).
`UnrecognizedDerivedComponent` and `FailedToSerialize` are never made. -/
inductive Error where
  | parseError
  | missingComponents (l : List SignatureComponent)
  | signatureInputParse
  | signatureInputError
  | canonicalize
  | invalidSignatureCreationDate
  | invalidSignatureExpiresDate
  | unrecognizedDerivedComponent (s : Str)
  | derivedComponentParse (s : Option Str)
  | headerNameParse (s : Str)
  | failedToSerialize
  | convertHeader
deriving DecidableEq

/-- `FromStr for DerivedComponent`, src/derived.rs:188-199. -/
def DerivedComponent.fromStr (text : Str) : Except Error DerivedComponent :=
  if (str% "\"@").isPrefixOf text then
    match parseItem text with
    | some i => .ok ⟨i⟩
    | none => .error (.derivedComponentParse none)
  else .error (.derivedComponentParse (some text))

namespace SignatureComponent

/-- `to_item`, src/signature_component.rs:27-32 (also `Into<Item>`, 102-109). -/
def toItem : SignatureComponent → Item
  | .derived d => d.item
  | .header h => { bare := .string h.str, params := [] }

/-- `to_header_name`, src/signature_component.rs:35-40. -/
def toHeaderName : SignatureComponent → Option HeaderName
  | .header h => some h
  | .derived _ => none

/-- `Display`, src/signature_component.rs:43-52. -/
def display : SignatureComponent → P Str
  | .derived d => d.display
  | .header h => .ok h.str

/-- `FromStr`, src/signature_component.rs:54-65. -/
def fromStr (s : Str) : Except Error SignatureComponent :=
  if (str% "@").isPrefixOf s || (str% "\"").isPrefixOf s then
    (DerivedComponent.fromStr s).map .derived
  else
    match HeaderName.fromStr s with
    | some h => .ok (.header h)
    | none => .error (.headerNameParse s)

/-- Derived `PartialEq`, src/signature_component.rs:16. -/
def rustEq : SignatureComponent → SignatureComponent → Bool
  | .derived a, .derived b => a.rustEq b
  | .header a, .header b => a == b
  | _, _ => false

/-- `Ord`, src/signature_component.rs:67-71. -/
def cmp (a b : SignatureComponent) : P Ordering := do
  let x ← a.display
  let y ← b.display
  return strCmp x y

/-- `From<Item>`, src/signature_component.rs:91-100: both `unwrap`s can panic. -/
def ofItem (i : Item) : P SignatureComponent :=
  match i.bare.asStr with
  | none => .error .itemNotString
  | some nm =>
    if (str% "@").isPrefixOf nm then .ok (.derived ⟨i⟩)
    else match HeaderName.fromStr nm with
      | some h => .ok (.header h)
      | none => .error .itemBadHeaderName

end SignatureComponent
end
end Httpsig
