import Verif.Spec.Base
import Verif.Spec.Render
import Verif.Model.Signing
/-
Specification vocabulary for signing.
-/
namespace Httpsig
open Sfv
variable [Deps]

/-- What signing relies on in a request type: `has_component` says whether `derive` finds a value, setting a header is
seen when reading that component and nowhere else, does not change the host or the body, and computing a digest does not
change what is read, the host or the digests.
`Verif/Lemmas/Sign.lean` proves it for the three request types of the repository. -/
class LawfulClient (R : Type) [ClientRequestLike R] : Prop where
  has_eq (r : R) (k : SignatureComponent) :
    RequestLike.hasComponent r k = (RequestLike.derive r k).map Option.isSome
  derive_header (r : R) (h : HeaderName) : ∃ v, RequestLike.derive r (.header h) = .ok v
  derive_set_same (r : R) (h : HeaderName) (v : HeaderValue) (s : Str) :
    v.toStr = some s → RequestLike.derive (ClientRequestLike.setHeader r h v) (.header h) = .ok (some s)
  derive_set_ne (r : R) (h : HeaderName) (v : HeaderValue) (k : SignatureComponent) :
    k ≠ .header h → RequestLike.derive (ClientRequestLike.setHeader r h v) k = RequestLike.derive r k
  derive_digest (r : R) (d : HttpDigest) (k : SignatureComponent) :
    RequestLike.derive (ClientRequestLike.computeDigest r d).1 k = RequestLike.derive r k
  host_set (r : R) (h : HeaderName) (v : HeaderValue) :
    ClientRequestLike.host (ClientRequestLike.setHeader r h v) = ClientRequestLike.host r
  digest_set (r : R) (h : HeaderName) (v : HeaderValue) (d : HttpDigest) :
    (ClientRequestLike.computeDigest (ClientRequestLike.setHeader r h v) d).2 = (ClientRequestLike.computeDigest r d).2
  host_digest (r : R) (d : HttpDigest) :
    ClientRequestLike.host (ClientRequestLike.computeDigest r d).1 = ClientRequestLike.host r
  digest_digest (r : R) (d d' : HttpDigest) :
    (ClientRequestLike.computeDigest (ClientRequestLike.computeDigest r d).1 d').2 = (ClientRequestLike.computeDigest r d').2

/-- The creation time a signature made at second `now` is given: none, that second, or the configured time. -/
def createdTime (config : SigningConfig) (now : Int) : Option Int :=
  match config.created with
  | .omit => none
  | .automatic => some now
  | .absolute t => some t

/-- The expiry time a signature made at second `now` is given: none, the configured time, or the configured number of seconds
later, or the closest 64-bit number to that. -/
def expiresTime (config : SigningConfig) (now : Int) : Option Int :=
  match config.expires with
  | .omit => none
  | .absolute t => some t
  | .relative offset => some <|
    if now + offset < -9223372036854775808 then -9223372036854775808
    else if 9223372036854775807 < now + offset then 9223372036854775807
    else now + offset

/-- The parameters of a signature made at second `now`, in the order they are written. -/
def SignedParams (config : SigningConfig) (now : Int) : Params :=
  [(str% "alg", .string config.signature.name)] ++
  (createdTime config now).toList.map (fun t => (str% "created", .integer t)) ++
  (expiresTime config now).toList.map (fun t => (str% "expires", .integer t)) ++
  [(str% "keyid", .string config.keyId)] ++
  config.nonce.toList.map (fun n => (str% "nonce", .token n))

/-- The configured times are admissible at second `now`. -/
def TimesOk (config : SigningConfig) (now : Int) : Prop :=
  (∀ t, createdTime config now = some t → t ≤ now) ∧ (∀ t, expiresTime config now = some t → now ≤ t)

/-- The headers signing may write: its two own headers, and `date`, `host` and `digest` if the option is on and the
request has no readable value. -/
def MayWrite {R : Type} [ClientRequestLike R] (r : R) (config : SigningConfig) (h : HeaderName) : Prop :=
  h = hSignature ∨ h = hSignatureInput ∨
  ((h = hDate ∧ config.addDate = true) ∨ (h = hHost ∧ config.addHost = true) ∨
    (h = hDigest ∧ config.computeDigest = true)) ∧ RequestLike.derive r (.header h) = .ok none

/-- `r'` arises from `r` by setting headers satisfying `w` and computing digests. -/
inductive Touches {R : Type} [ClientRequestLike R] (w : HeaderName → Prop) (r : R) : R → Prop
  | refl : Touches w r r
  | set {r' : R} (h : HeaderName) (v : HeaderValue) : w h → Touches w r r' →
      Touches w r (ClientRequestLike.setHeader r' h v)
  | digest {r' : R} (d : HttpDigest) : Touches w r r' → Touches w r (ClientRequestLike.computeDigest r' d).1

/-- A request type whose headers are a header map. -/
class HeaderStore (R : Type) [ClientRequestLike R] where
  headers : R → HeaderMap
  headers_set (r : R) (h : HeaderName) (v : HeaderValue) :
    headers (ClientRequestLike.setHeader r h v) = (headers r).insert h v
  headers_digest (r : R) (d : HttpDigest) : headers (ClientRequestLike.computeDigest r d).1 = headers r

/-- What is read under a header name depends on nothing but the values stored under it. Proved for the three request types in
`Verif/Lemmas/Sign4.lean`. -/
class HeaderReads (R : Type) [ClientRequestLike R] [HeaderStore R] : Prop where
  derive_congr (r s : R) (h : HeaderName) : (HeaderStore.headers r).getAll h = (HeaderStore.headers s).getAll h →
    RequestLike.derive r (.header h) = RequestLike.derive s (.header h)

section
variable {R : Type} [ClientRequestLike R]

/-- The value of a component at the moment of signing, when signing turned `r` into `r'`: automatic headers are already
there, the two signature headers are still those of `r`. -/
def signedValue (r r' : R) (k : SignatureComponent) : Option Str :=
  if k = .header hSignature ∨ k = .header hSignatureInput then valueOf r k else valueOf r' k

/-- The components a signature covers: with `skip_missing` the configured ones that have a value, otherwise all. -/
def coveredComponents (r r' : R) (config : SigningConfig) : List SignatureComponent :=
  if config.skipMissing then config.components.filter fun k => (signedValue r r' k).isSome else config.components

/-- The automatic headers that signing has to add: the option is on and the request has no readable value. -/
def AutoWrite (r : R) (config : SigningConfig) (h : HeaderName) : Prop :=
  ((h = hDate ∧ config.addDate = true) ∨ (h = hHost ∧ config.addHost = true) ∨
    (h = hDigest ∧ config.computeDigest = true)) ∧ RequestLike.derive r (.header h) = .ok none

/-- The characters that no HTTP header value can contain: the ASCII control characters other than the tab. -/
def Control (c : Char) : Prop := (c.toNat < 32 ∧ c ≠ '\t') ∨ c.toNat = 127

/-- Automatic headers can be written. -/
structure AutoOk (r : R) (config : SigningConfig) : Prop where
  host : AutoWrite r config hHost → ∀ s, ClientRequestLike.host r = some s → ∀ c ∈ s, ¬ Control c
  digest : AutoWrite r config hDigest → ∀ s, (ClientRequestLike.computeDigest r config.digest).2 = some s →
    ∀ c ∈ config.digest.name ++ str% "=" ++ s, ¬ Control c

/-- Automatic headers consist of visible ASCII characters. -/
structure AutoVisible (r : R) (config : SigningConfig) : Prop where
  host : AutoWrite r config hHost → ∀ s, ClientRequestLike.host r = some s → s.all isVisibleChar = true
  digest : AutoWrite r config hDigest → ∀ s, (ClientRequestLike.computeDigest r config.digest).2 = some s →
    (config.digest.name ++ str% "=" ++ s).all isVisibleChar = true

/-- Components that get a value from an automatic header. -/
def Supplied (r : R) (config : SigningConfig) (k : SignatureComponent) : Prop :=
  (k = .header hDate ∧ config.addDate = true) ∨
  (k = .header hHost ∧ config.addHost = true ∧ ∃ s, ClientRequestLike.host r = some s) ∨
  (k = .header hDigest ∧ config.computeDigest = true ∧ ∃ s, (ClientRequestLike.computeDigest r config.digest).2 = some s)

/-- Components that have a value when the signature base is built: those of the request, and automatic headers. -/
def Available (r : R) (config : SigningConfig) (k : SignatureComponent) : Prop :=
  valueOf r k ≠ none ∨ Supplied r config k

end

/-- The configuration adds no headers by itself. -/
def NoAuto (config : SigningConfig) : Prop :=
  config.addDate = false ∧ config.addHost = false ∧ config.computeDigest = false

/-- The parameters as text: `;alg="…";created=…;expires=…;keyid="…";nonce=…`, the optional ones if configured. -/
def signedParamsText (config : SigningConfig) (now : Int) : Str :=
  str% ";alg=" ++ quoted config.signature.name ++
  (match createdTime config now with | some t => str% ";created=" ++ timeText t | none => []) ++
  (match expiresTime config now with | some t => str% ";expires=" ++ timeText t | none => []) ++
  str% ";keyid=" ++ quoted config.keyId ++
  (match config.nonce with | some n => str% ";nonce=" ++ n | none => [])

/-- The configured values can be written as structured fields: printable algorithm name and key id, times of at most 15
digits, and a nonce that is a token or empty. -/
structure WritableParams (config : SigningConfig) (now : Int) : Prop where
  alg : ∀ c ∈ config.signature.name, 32 ≤ c.toNat ∧ c.toNat < 127
  keyid : ∀ c ∈ config.keyId, 32 ≤ c.toNat ∧ c.toNat < 127
  created : ∀ t, createdTime config now = some t → -999999999999999 ≤ t ∧ t ≤ 999999999999999
  expires : ∀ t, expiresTime config now = some t → -999999999999999 ≤ t ∧ t ≤ 999999999999999
  nonce : ∀ n, config.nonce = some n → TokenText n

end Httpsig
