import Verif.Spec.EndToEnd
import Verif.Model.Reqwest
import Verif.Model.Mock
/-
Specification vocabulary for requests that travel from a client to a server.
-/
namespace Httpsig
open Sfv
variable [Deps]

/-- The request a server sees when a client sends method, URL, headers and body; version and path are the server's own view. -/
def served (v : Version) (path : Str) (m : Method) (u : Url) (h : HeaderMap) (b : Option Bytes) : MockRequest where
  version := v
  method := m
  url := u
  path := path
  headers := h
  body := b

/-- The bytes of an in-memory or absent body. -/
def AsyncBody.sent : AsyncBody → Option Bytes
  | .bytes b => some b
  | _ => none

/-- The component is not `@authority`. -/
def NotAuthority : SignatureComponent → Prop
  | .header _ => True
  | .derived d => ¬ d.Called (str% "@authority")

/-- Signing options that fit a server of this library: tidy components, none of which is a signature header or
`@authority` (the validator's requests have no host), no empty nonce, the label `sig`. -/
structure Deliverable (config : SigningConfig) : Prop where
  components : ∀ k ∈ config.components, ComponentTidy k ∧ NotAuthority k
  signature : .header hSignature ∉ config.components
  input : .header hSignatureInput ∉ config.components
  nonce : config.nonce ≠ some []
  label : config.label = str% "sig"

/-- A verifier with one key, under one key id, and date validation turned off; all other options at their defaults. -/
def plainVerifier (id : Str) (k : HttpSignatureVerify) : VerifyingConfig :=
  (VerifyingConfig.new fun i => if i = id then [k] else []).setValidateDate false

/-- Second `now` is within the window of a signature made at second `made`. -/
def WithinWindow (config : SigningConfig) (made now : Int) : Prop :=
  (∀ t, createdTime config made = some t → t ≤ now) ∧ ∀ t, expiresTime config made = some t → now ≤ t

/-- The two halves of a key of this library, for the MAC algorithms. -/
inductive MacPair : HttpSignatureSign → HttpSignatureVerify → Prop
  | sha256 (key : Bytes) : MacPair (hmacSha256Sign key) (hmacSha256Verify key)
  | sha512 (key : Bytes) : MacPair (hmacSha512Sign key) (hmacSha512Verify key)

end Httpsig
