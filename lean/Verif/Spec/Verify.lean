import Verif.Spec.Text
import Verif.Spec.Digest
import Verif.Spec.Base
import Verif.Model.Verifying
/-
Specification of acceptance by the verifier, as separate conditions without the control flow of `verify`.
-/
namespace Httpsig
open Sfv
variable [Deps]

/-- A `Signature` header value: `label=text`, where `sig` is `text` without surrounding colons. -/
def SignatureHeader (value label sig : Str) : Prop :=
  ∃ text, value = label ++ '=' :: text ∧ '=' ∉ label ∧ Trimmed (· == ':') text sig

/-- `created` is not after and `expires` is not before second `now` (integer values only; anything else is ignored). -/
def InWindow (c : CanonicalizeConfig) (now : Int) : Prop :=
  (∀ t, (str% "created", BareItem.integer t) ∈ c.params.params → t ≤ now) ∧
  (∀ t, (str% "expires", BareItem.integer t) ∈ c.params.params → now ≤ t)

variable {R Rem : Type} [ServerRequestLike R Rem]

/-- The signature part: headers `Signature-Input` (read as `c`) and `Signature` (with signature text `sig`) are there,
their labels agree, `keyid` and `alg` are string parameters, the time window is respected, and one of the keys provided
for `keyid` accepts `sig` over the signature base that the request has for `c`. -/
structure SignatureOk (req : R) (config : VerifyingConfig) (env : VerifyEnv) (c : CanonicalizeConfig) (sig keyId : Str)
    (base : Bytes) : Prop where
  input : ∃ v, RequestLike.derive req (.header hSignatureInput) = .ok (some v) ∧
    CanonicalizeConfig.fromSignatureInput v = .ok (.ok c)
  signature : ∃ v label, RequestLike.derive req (.header hSignature) = .ok (some v) ∧ SignatureHeader v label sig ∧
    c.label = some label
  keyid : (str% "keyid", BareItem.string keyId) ∈ c.params.params
  alg : ∃ a, (str% "alg", BareItem.string a) ∈ c.params.params
  clock : 0 ≤ env.sysNow
  window : InWindow c (env.sysNow / 1000000000)
  canon : ∃ si, canonicalize req c = .ok (.ok (base, si))
  key : ∃ k ∈ config.keyProvider keyId, k.verify base sig = true

/-- The part of `SignatureOk` that is looked at before the clock: the two headers and the parameters `keyid` and `alg`. -/
structure SignaturePresented (req : R) (c : CanonicalizeConfig) (sig keyId : Str) : Prop where
  input : ∃ v, RequestLike.derive req (.header hSignatureInput) = .ok (some v) ∧
    CanonicalizeConfig.fromSignatureInput v = .ok (.ok c)
  signature : ∃ v label, RequestLike.derive req (.header hSignature) = .ok (some v) ∧ SignatureHeader v label sig ∧
    c.label = some label
  keyid : (str% "keyid", BareItem.string keyId) ∈ c.params.params
  alg : ∃ a, (str% "alg", BareItem.string a) ∈ c.params.params

/-- The required components are covered up to one that cannot be printed. -/
def RequiredPanics (config : VerifyingConfig) (c : CanonicalizeConfig) : Prop :=
  ∃ before k after, config.requiredComponents = before ++ k :: after ∧ (∀ s, k.display ≠ .ok s) ∧
    ∀ r ∈ before, ∃ s, r.display = .ok s ∧ ∃ k ∈ c.components, (itemOf k).bare = .string s

/-- Every required component is covered: some covered item has the component's printed form as its string value.
(For derived components the printed form has quotes around it; see C12.) -/
def RequiredOk (config : VerifyingConfig) (c : CanonicalizeConfig) : Prop :=
  ∀ r ∈ config.requiredComponents, ∃ s, r.display = .ok s ∧ ∃ k ∈ c.components, (itemOf k).bare = .string s

/-- With date validation, there is an integer parameter `date` whose distance to the clock is within the leeway. -/
def DateOk (config : VerifyingConfig) (env : VerifyEnv) (c : CanonicalizeConfig) : Prop :=
  config.validateDate = true →
    ∃ v, (str% "date", BareItem.integer v) ∈ c.params.params ∧ Deps.timestampInRange v = true ∧
      v * 1000000000 - env.utcNow ≤ config.dateLeeway ∧ env.utcNow - v * 1000000000 ≤ config.dateLeeway

/-- A digest-header entry `name=value` (spaces around both ignored) with an algorithm known to the provider. -/
def Supported (provider : Str → Option HttpDigest) (entry : Str) (alg : HttpDigest) (value : Str) : Prop :=
  ∃ k v name, entry = k ++ '=' :: v ∧ '=' ∉ k ∧ Trimmed whiteSpace k name ∧ Trimmed whiteSpace v value ∧
    provider name = some alg

/-- The first supported entry of a comma-separated digest header. -/
def FirstSupported (provider : Str → Option HttpDigest) (header : Str) (alg : HttpDigest) (value : Str) : Prop :=
  ∃ before entry after, header = joinWith (str% ",") (before ++ entry :: after) ∧
    (∀ e ∈ before ++ entry :: after, ',' ∉ e) ∧ Supported provider entry alg value ∧
    ∀ e ∈ before, ∀ a v, ¬ Supported provider e a v

/-- The digest part, and what remains of the request afterwards. -/
def DigestOk (req : R) (config : VerifyingConfig) (rem : Rem) : Prop :=
  (∃ v, RequestLike.derive req (.header hDigest) = .ok (some v) ∧
    if config.validateDigest then
      ∃ alg value, FirstSupported config.digestProvider v alg value ∧
        ServerRequestLike.completeWithDigest req alg = (some value, rem)
    else rem = ServerRequestLike.complete req) ∨
  (RequestLike.derive req (.header hDigest) = .ok none ∧
    if config.requireDigest then ServerRequestLike.completeWithDigest req documentedSha256 = (none, rem)
    else rem = ServerRequestLike.complete req)

end Httpsig
