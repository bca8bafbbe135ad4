import Verif.Model.Input
/-
`RequestLike`, `CanonicalizeConfig`, `canonicalize` (src/canonicalize.rs).
-/
namespace Httpsig
variable [Deps]

/-- `RequestLike`, src/canonicalize.rs:19-29. Implementations may panic (the built-in ones do, through
`DerivedComponent::name`). -/
class RequestLike (R : Type) where
  derive : R → SignatureComponent → P (Option Str)
  hasComponent : R → SignatureComponent → P Bool

/-- `CanonicalizeConfig`, src/canonicalize.rs:47-52. -/
structure CanonicalizeConfig where
  label : Option Str := none
  components : List SignatureComponent := []
  params : SignatureParams := {}
deriving DecidableEq

namespace CanonicalizeConfig

/-- `get_label`, src/canonicalize.rs:76-81. -/
def getLabel (c : CanonicalizeConfig) : Str := c.label.getD (str% "sig")
/-- `set_label`, src/canonicalize.rs:84-87. -/
def setLabel (c : CanonicalizeConfig) (l : Str) : CanonicalizeConfig := { c with label := some l }
/-- `with_components` / `set_components`, src/canonicalize.rs:90-99. -/
def setComponents (c : CanonicalizeConfig) (l : List SignatureComponent) : CanonicalizeConfig := { c with components := l }
/-- `created`, src/canonicalize.rs:110-112. -/
def created (c : CanonicalizeConfig) : Option Int := c.params.getCreated
/-- `set_created`, src/canonicalize.rs:115-117. -/
def setCreated (c : CanonicalizeConfig) (t : Int) : CanonicalizeConfig := { c with params := c.params.setCreated t }
/-- `expires`, src/canonicalize.rs:120-122. -/
def expires (c : CanonicalizeConfig) : Option Int := c.params.getExpires
/-- `set_expires`, src/canonicalize.rs:125-127. -/
def setExpires (c : CanonicalizeConfig) (t : Int) : CanonicalizeConfig := { c with params := c.params.setExpires t }
/-- `alg`, src/canonicalize.rs:130-132. -/
def alg (c : CanonicalizeConfig) : Option Str := c.params.getAlg
/-- `set_alg`, src/canonicalize.rs:135-137. -/
def setAlg (c : CanonicalizeConfig) (a : Str) : CanonicalizeConfig := { c with params := c.params.setAlg a }
/-- `set_nonce`, src/canonicalize.rs:140-142. -/
def setNonce (c : CanonicalizeConfig) (n : Str) : CanonicalizeConfig := { c with params := c.params.setNonce n }
/-- `keyid`, src/canonicalize.rs:145-147. -/
def keyid (c : CanonicalizeConfig) : Option Str := c.params.getKeyid
/-- `set_keyid`, src/canonicalize.rs:150-152. -/
def setKeyid (c : CanonicalizeConfig) (k : Str) : CanonicalizeConfig := { c with params := c.params.setKeyid k }

/-- `to_signature_input`, src/canonicalize.rs:67-73. -/
def toSignatureInput (c : CanonicalizeConfig) : SignatureInput :=
  SignatureInput.new c.getLabel c.components c.params

/-- `From<&SignatureInput>`, src/canonicalize.rs:155-174. -/
def ofSignatureInput (s : SignatureInput) : P CanonicalizeConfig := do
  let comps ← s.list.inner.items.mapM SignatureComponent.ofItem
  return { label := some s.label, components := comps, params := ⟨s.list.inner.params⟩ }

/-- `from_signature_input`, src/canonicalize.rs:61-64. -/
def fromSignatureInput (input : Str) : P (Except Error CanonicalizeConfig) :=
  match SignatureInput.ofStr input with
  | .error e => .ok (.error e)
  | .ok s => do
    let c ← ofSignatureInput s
    return .ok c

end CanonicalizeConfig

/-- The loop of `partition_map`, src/canonicalize.rs:194-204. -/
def deriveAll {R : Type} [RequestLike R] (req : R) :
    List SignatureComponent → P (List (SignatureComponent × Str) × List SignatureComponent)
  | [] => .ok ([], [])
  | c :: cs => do
    let v ← RequestLike.derive req c
    let (found, missing) ← deriveAll req cs
    match v with
    | some x => return ((c, x) :: found, missing)
    | none => return (found, c :: missing)

/-- One line of the signature base, src/canonicalize.rs:229-232. -/
def baseLine (e : SignatureComponent × Str) : P Str := do
  let nm ← e.1.display
  match e.1 with
  | .header _ => return '"' :: nm ++ str% "\": " ++ e.2
  | .derived _ => return nm ++ str% ": " ++ e.2

/-- `canonicalize`, src/canonicalize.rs:192-244. -/
def canonicalize {R : Type} [RequestLike R] (req : R) (c : CanonicalizeConfig) :
    P (Except Error (Bytes × SignatureInput)) := do
  let (found, missing) ← deriveAll req c.components
  if missing ≠ [] then
    return .error (.missingComponents missing)
  else
    let si := c.toSignatureInput
    let sp ← si.list.display
    let lines ← (found ++ [(SignatureComponent.derived (.new atSignatureParams), sp)]).mapM baseLine
    return .ok (utf8 (joinWith (str% "\n") lines), si)

end Httpsig
