import Verif.Model.Component
/-
`SignatureParams` (src/signature_params.rs), `ComponentList` and `SignatureInput` (src/signature_input.rs).
-/
namespace Httpsig
open Sfv

/-- Parameter names, src/signature_params.rs:14-23. -/
def kCreated : Str := str% "created"
@[inherit_doc kCreated] def kExpires : Str := str% "expires"
@[inherit_doc kCreated] def kNonce : Str := str% "nonce"
@[inherit_doc kCreated] def kAlg : Str := str% "alg"
@[inherit_doc kCreated] def kKeyid : Str := str% "keyid"

/-- `SignatureParams`, src/signature_params.rs:26-29. Its `From<&Parameters>` (31-37) and `params`
(40-43) are the constructor and the projection. -/
structure SignatureParams where
  params : Params := []
deriving DecidableEq, Repr

namespace SignatureParams

/-- `set_created`, src/signature_params.rs:46-50. -/
def setCreated (p : SignatureParams) (v : Int) : SignatureParams := ⟨IMap.insert p.params kCreated (.integer v)⟩
/-- `get_created`, src/signature_params.rs:53-55. -/
def getCreated (p : SignatureParams) : Option Int := (IMap.get p.params kCreated).bind BareItem.asInt
/-- `set_expires`, src/signature_params.rs:58-62. -/
def setExpires (p : SignatureParams) (v : Int) : SignatureParams := ⟨IMap.insert p.params kExpires (.integer v)⟩
/-- `get_expires`, src/signature_params.rs:65-67. -/
def getExpires (p : SignatureParams) : Option Int := (IMap.get p.params kExpires).bind BareItem.asInt
/-- `set_nonce`, src/signature_params.rs:70-74 (a *token*, not a string). -/
def setNonce (p : SignatureParams) (v : Str) : SignatureParams := ⟨IMap.insert p.params kNonce (.token v)⟩
/-- `get_nonce`, src/signature_params.rs:78-80. -/
def getNonce (p : SignatureParams) : Option Str := (IMap.get p.params kNonce).bind BareItem.asToken
/-- `set_alg`, src/signature_params.rs:83-87. -/
def setAlg (p : SignatureParams) (v : Str) : SignatureParams := ⟨IMap.insert p.params kAlg (.string v)⟩
/-- `get_alg`, src/signature_params.rs:90-92. -/
def getAlg (p : SignatureParams) : Option Str := (IMap.get p.params kAlg).bind BareItem.asStr
/-- `set_keyid`, src/signature_params.rs:95-99. -/
def setKeyid (p : SignatureParams) (v : Str) : SignatureParams := ⟨IMap.insert p.params kKeyid (.string v)⟩
/-- `get_keyid`, src/signature_params.rs:102-104. -/
def getKeyid (p : SignatureParams) : Option Str := (IMap.get p.params kKeyid).bind BareItem.asStr

end SignatureParams

/-- `ComponentList`, src/signature_input.rs:10-13. -/
structure ComponentList where
  inner : InnerList
deriving DecidableEq, Repr

namespace ComponentList
variable [Deps]

/-- `ComponentList::new`, src/signature_input.rs:17-25. -/
def new (components : List SignatureComponent) (params : SignatureParams) : ComponentList :=
  ⟨{ items := components.map SignatureComponent.toItem, params := params.params }⟩

/-- `get_item`, src/signature_input.rs:33-42: first item whose *string* bare item equals the key. -/
def getItem (l : ComponentList) (key : Str) : Option Item :=
  l.inner.items.find? fun i =>
    match i.bare.asStr with
    | some k => key = k
    | none => false

/-- `to_string` through `Display`, src/signature_input.rs:45-53. -/
def display (l : ComponentList) : P Str :=
  match serSingletonList l.inner with
  | some s => .ok s
  | none => .error .displayComponentList

/-- `TryFrom<&ListEntry>`, src/signature_input.rs:55-66. -/
def ofListEntry : ListEntry → Except Error ComponentList
  | .innerList l => .ok ⟨l⟩
  | .item _ => .error .signatureInputError

/-- `as_list`, src/signature_input.rs:28-30. -/
def asList (l : ComponentList) : List ListEntry := [.innerList l.inner]

/-- `TryFrom<&List>`, src/signature_input.rs:68-77: the first entry. -/
def ofList (l : List ListEntry) : Except Error ComponentList :=
  match l.head? with
  | some e => ofListEntry e
  | none => .error .signatureInputError

end ComponentList

/-- `SignatureInput`, src/signature_input.rs:82-87. -/
structure SignatureInput where
  label : Str
  list : ComponentList
deriving DecidableEq, Repr

namespace SignatureInput
variable [Deps]

/-- `SignatureInput::new`, src/signature_input.rs:91-100. -/
def new (label : Str) (components : List SignatureComponent) (params : SignatureParams) : SignatureInput :=
  ⟨label, ComponentList.new components params⟩

/-- `get_param`, src/signature_input.rs:109-111. -/
def getParam (s : SignatureInput) (key : Str) : Option BareItem := IMap.get s.list.inner.params key

/-- `to_string` through `Display`, src/signature_input.rs:114-125. -/
def display (s : SignatureInput) : P Str :=
  match serDict (IMap.insert [] s.label (.innerList s.list.inner)) with
  | some x => .ok x
  | none => .error .displaySignatureInput

/-- `TryFrom<&str>`, src/signature_input.rs:137-157: only the first dictionary member is looked at. -/
def ofStr (header : Str) : Except Error SignatureInput :=
  match parseDictionary header with
  | none => .error .signatureInputParse
  | some d =>
    match d.head? with
    | some (label, entry) => do
      let list ← ComponentList.ofListEntry entry
      return ⟨label, list⟩
    | none => .error .signatureInputError

end SignatureInput
end Httpsig
