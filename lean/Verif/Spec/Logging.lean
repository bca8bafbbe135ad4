import Verif.Spec.Verify
import Verif.Model.Logging
/-
Specification of the log: for every reason of rejection the condition under which it is the first one, and its text.
-/
namespace Httpsig
open Sfv
variable [Deps] {R Rem : Type} [ServerRequestLike R Rem]

/-- `Signature-Input` is there and read as `c`. -/
def InputRead (req : R) (c : CanonicalizeConfig) : Prop :=
  ∃ v, RequestLike.derive req (.header hSignatureInput) = .ok (some v) ∧ CanonicalizeConfig.fromSignatureInput v = .ok (.ok c)

/-- And `Signature` has the same label and signature text `sig`. -/
def LabelsAgree (req : R) (c : CanonicalizeConfig) (sig : Str) : Prop :=
  InputRead req c ∧ ∃ v label, RequestLike.derive req (.header hSignature) = .ok (some v) ∧ SignatureHeader v label sig ∧
    c.label = some label

/-- And `keyid` and `alg` are given. -/
def Identified (req : R) (c : CanonicalizeConfig) (sig keyId alg : Str) : Prop :=
  LabelsAgree req c sig ∧ (str% "keyid", BareItem.string keyId) ∈ c.params.params ∧ (str% "alg", BareItem.string alg) ∈ c.params.params

/-- And the clock works and the times are respected. -/
def Timely (req : R) (env : VerifyEnv) (c : CanonicalizeConfig) (sig keyId alg : Str) : Prop :=
  Identified req c sig keyId alg ∧ 0 ≤ env.sysNow ∧ InWindow c (env.sysNow / 1000000000)

/-- Reasons for which a signature is not accepted, with what is logged. -/
inductive SignatureRefusal (f : Fmt) (req : R) (config : VerifyingConfig) (env : VerifyEnv) : List Str → Prop
  | noInput : RequestLike.derive req (.header hSignatureInput) = .ok none →
      SignatureRefusal f req config env [str% "Verification Failed: No 'Signature-Input' header"]
  | noSignature {c : CanonicalizeConfig} : InputRead req c → RequestLike.derive req (.header hSignature) = .ok none →
      SignatureRefusal f req config env [str% "Verification Failed: Missing 'Signature' header"]
  | malformed {c : CanonicalizeConfig} {v : Str} : InputRead req c → RequestLike.derive req (.header hSignature) = .ok (some v) →
      '=' ∉ v → SignatureRefusal f req config env
        [str% "Verification Failed: Malformed 'Signature' header", str% "Verification Failed: Malformed 'Signature' header"]
  | label {c : CanonicalizeConfig} {v label sig : Str} : InputRead req c → RequestLike.derive req (.header hSignature) = .ok (some v) →
      SignatureHeader v label sig → c.label ≠ some label →
      SignatureRefusal f req config env [str% "Verification Failed: Mismatched signature labels"]
  | keyid {c : CanonicalizeConfig} {sig : Str} : LabelsAgree req c sig → (∀ k, (str% "keyid", BareItem.string k) ∉ c.params.params) →
      SignatureRefusal f req config env [str% "Verification Failed: Missing required 'keyid' in 'Signature-Input' header"]
  | alg {c : CanonicalizeConfig} {sig keyId : Str} : LabelsAgree req c sig → (str% "keyid", BareItem.string keyId) ∈ c.params.params →
      (∀ a, (str% "alg", BareItem.string a) ∉ c.params.params) →
      SignatureRefusal f req config env [str% "Verification Failed: Missing required 'alg' in 'Signature-Input' header"]
  | created {c : CanonicalizeConfig} {sig keyId alg : Str} {t : Int} : Identified req c sig keyId alg → 0 ≤ env.sysNow →
      (str% "created", BareItem.integer t) ∈ c.params.params → env.sysNow / 1000000000 < t →
      SignatureRefusal f req config env [str% "Verification Failed: Bad created time"]
  | expires {c : CanonicalizeConfig} {sig keyId alg : Str} {t : Int} : Identified req c sig keyId alg → 0 ≤ env.sysNow →
      (∀ u, (str% "created", BareItem.integer u) ∈ c.params.params → u ≤ env.sysNow / 1000000000) →
      (str% "expires", BareItem.integer t) ∈ c.params.params → t < env.sysNow / 1000000000 →
      SignatureRefusal f req config env [str% "Verification Failed: Bad expires time"]
  | unknownKey {c : CanonicalizeConfig} {sig keyId alg : Str} : Timely req env c sig keyId alg → config.keyProvider keyId = [] →
      SignatureRefusal f req config env
        [str% "Verification Failed: Unknown key (keyId=" ++ keyId ++ str% ", algorithm=" ++ alg ++ str% ")"]
  | missing {c : CanonicalizeConfig} {sig keyId alg : Str} {l : List SignatureComponent} : Timely req env c sig keyId alg →
      config.keyProvider keyId ≠ [] → canonicalize req c = .ok (.error (.missingComponents l)) →
      SignatureRefusal f req config env [str% "Canonicalization Failed: Missing components required for signature: [" ++
        joinWith (str% ", ") (l.map f.debugComponent) ++ str% "]"]
  | invalid {c : CanonicalizeConfig} {sig keyId alg : Str} {base : Bytes} {si : SignatureInput} : Timely req env c sig keyId alg →
      config.keyProvider keyId ≠ [] → canonicalize req c = .ok (.ok (base, si)) →
      (∀ k ∈ config.keyProvider keyId, k.verify base sig = false) →
      SignatureRefusal f req config env [str% "Verification Failed: Invalid signature provided"]

/-- Is one of the covered items the string `s`? -/
def CoversText (c : CanonicalizeConfig) (s : Str) : Prop := ∃ k ∈ c.components, (itemOf k).bare = .string s

/-- Reasons for which the coverage or the date is not accepted. -/
inductive ConditionRefusal (f : Fmt) (config : VerifyingConfig) (env : VerifyEnv) (c : CanonicalizeConfig) : Str → Prop
  | required {before after : List SignatureComponent} {k : SignatureComponent} {s : Str} :
      config.requiredComponents = before ++ k :: after → (∀ r ∈ before, ∃ t, r.display = .ok t ∧ CoversText c t) →
      k.display = .ok s → ¬ CoversText c s →
      ConditionRefusal f config env c (str% "Verification Failed: Missing header '" ++ s ++ str% "' required by configuration")
  | noDate : RequiredOk config c → config.validateDate = true → (∀ v, (str% "date", BareItem.integer v) ∉ c.params.params) →
      ConditionRefusal f config env c (str% "Verification Failed: No DATE field in request")
  | badDate {v : Int} : RequiredOk config c → config.validateDate = true → (str% "date", BareItem.integer v) ∈ c.params.params →
      Deps.timestampInRange v = false → ConditionRefusal f config env c (str% "Verification Failed: Invalid date")
  | skew {v : Int} : RequiredOk config c → config.validateDate = true → (str% "date", BareItem.integer v) ∈ c.params.params →
      Deps.timestampInRange v = true → config.dateLeeway < (v * 1000000000 - env.utcNow).natAbs →
      ConditionRefusal f config env c (str% "Verification Failed: Date skew of '" ++ f.delta (v * 1000000000 - env.utcNow) ++
        str% "' is outside allowed range")

/-- Reasons for which the digest is not accepted. -/
inductive DigestRefusal (req : R) (config : VerifyingConfig) : Str → Prop
  | unsupported {v : Str} : config.validateDigest = true → RequestLike.derive req (.header hDigest) = .ok (some v) →
      (∀ alg value, ¬ FirstSupported config.digestProvider v alg value) →
      DigestRefusal req config (str% "Verification Failed: No supported digest algorithms were used")
  | uncomputable {v value : Str} {alg : HttpDigest} : config.validateDigest = true →
      RequestLike.derive req (.header hDigest) = .ok (some v) → FirstSupported config.digestProvider v alg value →
      (ServerRequestLike.completeWithDigest req alg).1 = none →
      DigestRefusal req config (str% "Verification Failed: Unable to compute digest for comparison")
  | differs {v value d : Str} {alg : HttpDigest} : config.validateDigest = true →
      RequestLike.derive req (.header hDigest) = .ok (some v) → FirstSupported config.digestProvider v alg value →
      (ServerRequestLike.completeWithDigest req alg).1 = some d → d ≠ value →
      DigestRefusal req config (str% "Verification Failed: Computed digest did not match the 'digest' header")
  | missing {d : Str} : config.requireDigest = true → RequestLike.derive req (.header hDigest) = .ok none →
      (ServerRequestLike.completeWithDigest req documentedSha256).1 = some d →
      DigestRefusal req config
        (str% "Verification Failed: 'digest' header was not included in signature, but is required by configuration")

/-- The first reason of rejection, with what is logged. -/
inductive Refusal (f : Fmt) (req : R) (config : VerifyingConfig) (env : VerifyEnv) : List Str → Prop
  | signature {ms : List Str} : SignatureRefusal f req config env ms → Refusal f req config env ms
  | condition {c : CanonicalizeConfig} {sig keyId m : Str} {base : Bytes} : SignatureOk req config env c sig keyId base →
      ConditionRefusal f config env c m → Refusal f req config env [m]
  | digest {c : CanonicalizeConfig} {sig keyId m : Str} {base : Bytes} : SignatureOk req config env c sig keyId base →
      RequiredOk config c → DateOk config env c → DigestRefusal req config m → Refusal f req config env [m]

/-- The records for a `Signature-Input` value that cannot be read. -/
inductive BadInput (v : Str) : List Str → Prop
  | syntax : parseDictionary v = none → BadInput v
      [str% "Verification Failed: failed to parse SignatureInput", str% "Verification Failed: Bad 'Signature-input' header"]
  | empty : parseDictionary v = some [] → BadInput v
      [str% "Verification Failed: malformed structured field", str% "Verification Failed: Bad 'Signature-input' header"]
  | item {label : Str} {i : Item} {rest : Dictionary} : parseDictionary v = some ((label, .item i) :: rest) → BadInput v
      [str% "Verification Failed: Bad 'Signature-input' header"]

/-- A line of printable ASCII characters. -/
def PrintableLine (s : Str) : Prop := ∀ c ∈ s, 32 ≤ c.toNat ∧ c.toNat < 127

/-- Durations are formatted as printable ASCII. -/
def Fmt.Printable (f : Fmt) : Prop := ∀ d, PrintableLine (f.delta d)

end Httpsig
