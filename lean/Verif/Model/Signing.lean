import Verif.Model.Algorithm
/-
src/signing.rs
-/
namespace Httpsig

/-- `SignatureCreated`, src/signing.rs:34-39. -/
inductive SignatureCreated where
  | omit | automatic | absolute (ts : Int)
deriving DecidableEq, Repr

/-- `SignatureCreated::get`, src/signing.rs:41-49. -/
def SignatureCreated.get : SignatureCreated → Int → Option Int
  | .omit, _ => none
  | .automatic, ts => some ts
  | .absolute t, _ => some t

/-- `i64::MIN` and `i64::MAX`. -/
def i64Min : Int := -9223372036854775808
@[inherit_doc i64Min] def i64Max : Int := 9223372036854775807

/-- `i64::saturating_add`, src/signing.rs:62. -/
def satAdd (a b : Int) : Int := max i64Min (min i64Max (a + b))

/-- `SignatureExpires`, src/signing.rs:51-56. -/
inductive SignatureExpires where
  | omit | relative (offset : Int) | absolute (ts : Int)
deriving DecidableEq, Repr

/-- `SignatureExpires::get`, src/signing.rs:58-66. -/
def SignatureExpires.get : SignatureExpires → Int → Option Int
  | .omit, _ => none
  | .relative off, ts => some (satAdd ts off)
  | .absolute t, _ => some t

section
variable [Deps]

/-- `ClientRequestLike`, src/signing.rs:17-32. `&mut self` becomes state passing. -/
class ClientRequestLike (R : Type) extends RequestLike R where
  host : R → Option Str
  setHeader : R → HeaderName → HeaderValue → R
  computeDigest : R → HttpDigest → R × Option Str

/-- `SigningConfig`, src/signing.rs:70-83. -/
structure SigningConfig where
  label : Str
  signature : HttpSignatureSign
  digest : HttpDigest
  keyId : Str
  nonce : Option Str
  components : List SignatureComponent
  computeDigest : Bool
  addDate : Bool
  addHost : Bool
  skipMissing : Bool
  created : SignatureCreated
  expires : SignatureExpires

namespace SigningConfig

/-- `SigningConfig::new`, src/signing.rs:94-109. -/
def new (label keyId : Str) (signature : HttpSignatureSign) : SigningConfig where
  label := label
  signature := signature
  digest := defaultDigest
  keyId := keyId
  nonce := none
  components := []
  computeDigest := true
  addDate := true
  addHost := true
  skipMissing := true
  created := .omit
  expires := .omit

/-- `SigningConfig::new_default`, src/signing.rs:88-90. -/
def newDefault (label keyId : Str) (key : Bytes) : SigningConfig := new label keyId (hmacSha256Sign key)

/-- `set_nonce` / `with_nonce`, src/signing.rs:120-128. -/
def setNonce (c : SigningConfig) (n : Str) : SigningConfig := { c with nonce := some n }
/-- `with_digest`, src/signing.rs:135-143. -/
def setDigest (c : SigningConfig) (d : HttpDigest) : SigningConfig := { c with digest := d }
/-- `set_compute_digest` / `with_compute_digest`, src/signing.rs:155-166. -/
def setComputeDigest (c : SigningConfig) (b : Bool) : SigningConfig := { c with computeDigest := b }
/-- `set_add_date` / `with_add_date`, src/signing.rs:178-189. -/
def setAddDate (c : SigningConfig) (b : Bool) : SigningConfig := { c with addDate := b }
/-- `set_add_host` / `with_add_host`, src/signing.rs:201-212. -/
def setAddHost (c : SigningConfig) (b : Bool) : SigningConfig := { c with addHost := b }
/-- `set_components` / `with_components`, src/signing.rs:224-233. -/
def setComponents (c : SigningConfig) (l : List SignatureComponent) : SigningConfig := { c with components := l }
/-- `set_skip_missing` / `with_skip_missing`, src/signing.rs:245-256. -/
def setSkipMissing (c : SigningConfig) (b : Bool) : SigningConfig := { c with skipMissing := b }
/-- `set_signature_created_auto` / `with_signature_created_auto`, src/signing.rs:261-272. -/
def setCreatedAuto (c : SigningConfig) : SigningConfig := { c with created := .automatic }
/-- `signature_created_auto`, src/signing.rs:277-279. -/
def createdAuto (c : SigningConfig) : Bool := c.created == .automatic
/-- `set_signature_created_at` / `with_signature_created_at`, src/signing.rs:284-295. -/
def setCreatedAt (c : SigningConfig) (ts : Int) : SigningConfig := { c with created := .absolute ts }
/-- `signature_created_at`, src/signing.rs:300-306. -/
def createdAt (c : SigningConfig) : Option Int :=
  match c.created with
  | .absolute ts => some ts
  | _ => none
/-- `set_signature_expires_relative` / `with_signature_expires_auto`, src/signing.rs:311-322. -/
def setExpiresRelative (c : SigningConfig) (off : Int) : SigningConfig := { c with expires := .relative off }
/-- `signature_expires_relative`, src/signing.rs:327-333. -/
def expiresRelative (c : SigningConfig) : Option Int :=
  match c.expires with
  | .relative off => some off
  | _ => none
/-- `set_signature_expires_at` / `with_signature_expires_at`, src/signing.rs:338-349. -/
def setExpiresAt (c : SigningConfig) (ts : Int) : SigningConfig := { c with expires := .absolute ts }
/-- `signature_expires_at`, src/signing.rs:354-360. -/
def expiresAt (c : SigningConfig) : Option Int :=
  match c.expires with
  | .absolute ts => some ts
  | _ => none

end SigningConfig

/-- What `sign` reads from its surroundings: `Utc::now()` in seconds (src/signing.rs:382),
`SystemTime::now()` in nanoseconds since the epoch (src/signing.rs:426), randomness for the signature. -/
structure SignEnv where
  utcNow : Int
  sysNow : Int
  rnd : Nat

/-- `unix_timestamp`, src/signing.rs:425-430 and src/verifying.rs:377-382. -/
def unixTimestamp (sysNow : Int) : P Int :=
  if sysNow < 0 then .error .clockBeforeEpoch else .ok (sysNow / 1000000000)

/-- `value.try_into().expect(..)`. -/
def headerValueOrPanic (p : Panic) (s : Str) : P HeaderValue :=
  match HeaderValue.fromStr s with
  | some v => .ok v
  | none => .error p

variable {R : Type} [ClientRequestLike R]

/-- Date part of `add_auto_headers`, src/signing.rs:381-388. -/
def addDateHeader (req : R) (config : SigningConfig) (env : SignEnv) : P R :=
  if config.addDate then do
    if !(← RequestLike.hasComponent req (.header hDate)) then
      let v ← headerValueOrPanic .dateHeader (formatDate env.utcNow)
      return ClientRequestLike.setHeader req hDate v
    else return req
  else return req

/-- Host part of `add_auto_headers`, src/signing.rs:390-398. -/
def addHostHeader (req : R) (config : SigningConfig) : P R :=
  if config.addHost then do
    if !(← RequestLike.hasComponent req (.header hHost)) then
      match ClientRequestLike.host req with
      | some host =>
        let v ← headerValueOrPanic .hostHeader host
        return ClientRequestLike.setHeader req hHost v
      | none => return req
    else return req
  else return req

/-- Digest part of `add_auto_headers`, src/signing.rs:400-410. -/
def addDigestHeader (req : R) (config : SigningConfig) : P R :=
  if config.computeDigest then do
    if !(← RequestLike.hasComponent req (.header hDigest)) then
      let (req', d) := ClientRequestLike.computeDigest req config.digest
      match d with
      | some s =>
        let v ← headerValueOrPanic .digestHeader (config.digest.name ++ str% "=" ++ s)
        return ClientRequestLike.setHeader req' hDigest v
      | none => return req'
    else return req
  else return req

/-- `filter(has_component)` with panics propagated. -/
def filterPresent (req : R) : List SignatureComponent → P (List SignatureComponent)
  | [] => .ok []
  | c :: cs => do
    let b ← RequestLike.hasComponent req c
    let rest ← filterPresent req cs
    return if b then c :: rest else rest

/-- `add_auto_headers`, src/signing.rs:376-423. -/
def addAutoHeaders (req : R) (config : SigningConfig) (env : SignEnv) : P (R × List SignatureComponent) := do
  let req ← addDateHeader req config env
  let req ← addHostHeader req config
  let req ← addDigestHeader req config
  if config.skipMissing then
    return (req, ← filterPresent req config.components)
  else
    return (req, config.components)

/-- The part of `sign` that builds the canonicalisation configuration, src/signing.rs:437-462.
The label is never set. -/
def buildCanonicalizeConfig (config : SigningConfig) (components : List SignatureComponent) (ts : Int) :
    Except Error CanonicalizeConfig := do
  let c : CanonicalizeConfig := { components := components }
  let c := c.setAlg config.signature.name
  let c ← match config.created.get ts with
    | some created =>
      if created > ts then Except.error Error.invalidSignatureCreationDate else pure (c.setCreated created)
    | none => pure c
  let c ← match config.expires.get ts with
    | some expires =>
      if expires < ts then Except.error Error.invalidSignatureExpiresDate else pure (c.setExpires expires)
    | none => pure c
  let c := c.setKeyid config.keyId
  return match config.nonce with
    | some n => c.setNonce n
    | none => c

/-- `sign`, src/signing.rs:433-486. The request is returned as it is left, also on error. -/
def sign (req : R) (config : SigningConfig) (env : SignEnv) : P (R × Except Error Unit) := do
  let (req, components) ← addAutoHeaders req config env
  let ts ← unixTimestamp env.sysNow
  match buildCanonicalizeConfig config components ts with
  | .error e => return (req, .error e)
  | .ok cc =>
    match ← canonicalize req cc with
    | .error _ => return (req, .error .canonicalize)
    | .ok (base, input) =>
      let inputStr ← input.display
      match HeaderValue.fromStr inputStr with
      | none => return (req, .error .signatureInputError)
      | some v =>
        let req := ClientRequestLike.setHeader req hSignatureInput v
        let signature := config.signature.sign env.rnd base
        match HeaderValue.fromStr (config.label ++ str% "=:" ++ signature ++ str% ":") with
        | none => return (req, .error .convertHeader)
        | some w => return (ClientRequestLike.setHeader req hSignature w, .ok ())

/-- `signed`, src/signing.rs:367-370: consumes the request. -/
def signed (req : R) (config : SigningConfig) (env : SignEnv) : P (Except Error R) := do
  match ← sign req config env with
  | (req, .ok ()) => return .ok req
  | (_, .error e) => return .error e

end
end Httpsig
