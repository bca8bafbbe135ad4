import Verif.Spec.Text
import Verif.Spec.Digest
import Verif.Spec.EndToEnd
import Verif.Model.Cli
/-
Specification vocabulary for the validator (httpsig-validator).
-/
namespace Httpsig

/-- ASCII whitespace: space, tab, line feed, form feed, carriage return. -/
def Blank (c : Char) : Prop := c ∈ [' ', '\t', '\n', '\x0c', '\r']

/-- `ws` are the words of `s`: the maximal non-empty pieces without blanks, in order. -/
inductive Words : Str → List Str → Prop
  | nil {s : Str} : (∀ c ∈ s, Blank c) → Words s []
  | cons {a w rest : Str} {ws : List Str} : (∀ c ∈ a, Blank c) → w ≠ [] → (∀ c ∈ w, ¬ Blank c) →
      (∀ c ∈ rest.head?, Blank c) → Words rest ws → Words (a ++ w ++ rest) (w :: ws)

variable [Deps]

/-- The URL of a request read from a file: the path itself if it is an absolute URL, otherwise the path on the host named
by the first `host` header, over http. -/
def UrlOf (path : Str) (headers : HeaderMap) (url : Url) : Prop :=
  Deps.parseUrl path = .ok url ∨
  (Deps.parseUrl path = .relative ∧ ∃ v h, (headers.getAll hHost).head? = some v ∧ v.toStr = some h ∧
    Deps.parseUrl (str% "http://" ++ h ++ path) = .ok url)

/-- Requests in the shape that files can express: a path that is one word, the URL that belongs to it, every header once,
and no blanks around header values. -/
structure Readable (r : MockRequest) : Prop where
  path : r.path ≠ [] ∧ ∀ c ∈ r.path, ¬ Blank c
  url : UrlOf r.path r.headers r.url
  names : (r.headers.map Prod.fst).Nodup
  values : ∀ e ∈ r.headers, ∀ s, e.2.toStr = some s → Trimmed whiteSpace s s

/-- The components named by the `--headers` option. -/
def HeaderOption (o : Opt) (comps : List SignatureComponent) : Prop :=
  match o.headers with
  | none => comps = []
  | some none => comps = []
  | some (some s) => ∃ ws, Words s ws ∧ Forall2 (fun w k => SignatureComponent.fromStr w = .ok k) ws comps

/-- The algorithm names that the validator knows. -/
def algorithmNames : List Str :=
  [str% "rsa-v1_5-sha256", str% "rsa-v1_5-sha512", str% "rsa-pss-sha256", str% "rsa-pss-sha512", str% "ecdsa-p256-sha256",
   str% "hmac-sha256"]

/-- The algorithms sign and verify modes support: option, name put into the signature, primitive. -/
inductive Supports : Str → Str → Primitive → Prop
  | pkcs256 : Supports (str% "rsa-v1_5-sha256") (str% "rsa-v1_5-sha256") .rsaPkcs1Sha256
  | pkcs512 : Supports (str% "rsa-v1_5-sha512") (str% "rsa-v1_5-sha512") .rsaPkcs1Sha512
  | pss256 : Supports (str% "rsa-pss-sha256") (str% "rsa-pss-sha512") .rsaPssSha512
  | pss512 : Supports (str% "rsa-pss-sha512") (str% "rsa-pss-sha512") .rsaPssSha512

/-- The public key in a file: SPKI or else PKCS#1 for rsa-v1_5-sha256, PKCS#1 for the others. -/
def PublicKey (alg : Str) (pem key : Bytes) : Prop :=
  (alg = str% "rsa-v1_5-sha256" ∧ (publicSpkiPem pem = some key ∨
    (publicSpkiPem pem = none ∧ publicPkcs1Pem pem = some key))) ∨
  (alg ≠ str% "rsa-v1_5-sha256" ∧ publicPkcs1Pem pem = some key)

/-- A word of the `--headers` option does not name a component; the first such word gives the error. -/
def BadHeaderOption (o : Opt) (e : Error) : Prop :=
  ∃ s before w after, o.headers = some (some s) ∧ Words s (before ++ w :: after) ∧
    (∀ x ∈ before, ∃ k, SignatureComponent.fromStr x = .ok k) ∧ SignatureComponent.fromStr w = .error e

/-- Why the options of sign mode are refused. -/
inductive SignRefused (o : Opt) : AppError → Prop
  | keyFile : o.privateKey = some none → SignRefused o .io
  | unknown (a : Str) : o.privateKey ≠ some none → o.algorithm = some a → a ∉ algorithmNames →
      SignRefused o (.badArg (str% "Unknown algorithm: " ++ a))
  | noAlgorithm : o.privateKey ≠ some none → o.algorithm = none → SignRefused o (.badArg (str% "No algorithm provided"))
  | noKey (a : Str) : o.privateKey = none → o.algorithm = some a → a ∈ algorithmNames →
      SignRefused o (.badArg (str% "No key provided"))
  | unsupported (a : Str) (pem : Bytes) : o.privateKey = some (some pem) → o.algorithm = some a → a ∈ algorithmNames →
      (∀ name prim, ¬ Supports a name prim) → SignRefused o (.badArg (str% "Unsupported algorithm: " ++ a))
  | badKey (a name : Str) (prim : Primitive) (pem : Bytes) : o.privateKey = some (some pem) → o.algorithm = some a →
      Supports a name prim → privatePkcs8Pem pem = none → SignRefused o .badKey
  | headers (a name : Str) (prim : Primitive) (pem key : Bytes) (e : Error) : o.privateKey = some (some pem) →
      o.algorithm = some a → Supports a name prim → privatePkcs8Pem pem = some key → BadHeaderOption o e → SignRefused o (.lib e)

/-- Why the options of verify mode are refused. -/
inductive VerifyRefused (o : Opt) : AppError → Prop
  | keyFile : o.publicKey = some none → VerifyRefused o .io
  | unknown (a : Str) : o.publicKey ≠ some none → o.algorithm = some a → a ∉ algorithmNames →
      VerifyRefused o (.badArg (str% "Unknown algorithm: " ++ a))
  | noKey (a : Str) : o.publicKey = none → o.algorithm = some a → a ∈ algorithmNames →
      VerifyRefused o (.badArg (str% "No key provided"))
  | unsupported (a : Str) (pem : Bytes) : o.publicKey = some (some pem) → o.algorithm = some a → a ∈ algorithmNames →
      (∀ name prim, ¬ Supports a name prim) → VerifyRefused o (.badArg (str% "Unknown key type: " ++ a))
  | badKey (a name : Str) (prim : Primitive) (pem : Bytes) : o.publicKey = some (some pem) → o.algorithm = some a →
      Supports a name prim → (∀ key, ¬ PublicKey a pem key) → VerifyRefused o .badKey

/-- Why the options of canonicalize mode are refused. -/
inductive CanonicalizeRefused (o : Opt) : AppError → Prop
  | headers (e : Error) : BadHeaderOption o e → CanonicalizeRefused o (.lib e)
  | unknown (a : Str) (comps : List SignatureComponent) : HeaderOption o comps → o.algorithm = some a → a ∉ algorithmNames →
      CanonicalizeRefused o (.badArg (str% "Unknown algorithm: " ++ a))
  | noAlgorithm (comps : List SignatureComponent) : HeaderOption o comps → o.algorithm = none →
      CanonicalizeRefused o (.badArg (str% "No algorithm provided"))

/-- What sign mode signs with. -/
def optSigning (o : Opt) (name : Str) (prim : Primitive) (key : Bytes) (comps : List SignatureComponent) : SigningConfig where
  label := o.label.getD (str% "sig")
  signature := asymSigner name prim key
  digest := documentedSha256
  keyId := o.keyId.getD []
  nonce := none
  components := comps
  computeDigest := false
  addDate := false
  addHost := false
  skipMissing := false
  created := match o.created with | some t => .absolute t | none => .omit
  expires := match o.expires with | some t => .absolute t | none => .omit

/-- The only key is `k`, under `id`. -/
def onlyKey (id : Str) (k : HttpSignatureVerify) (i : Str) : List HttpSignatureVerify := if i = id then [k] else []

/-- What verify mode verifies with. -/
def optVerifying (keys : Str → List HttpSignatureVerify) : VerifyingConfig :=
  { VerifyingConfig.new keys with requireDigest := false, validateDate := false }

/-- What canonicalize mode canonicalizes with. -/
def optCanonicalize (o : Opt) (alg : Str) (comps : List SignatureComponent) : CanonicalizeConfig where
  label := o.label
  components := comps
  params := ⟨o.created.toList.map (fun t => (str% "created", .integer t)) ++
    o.expires.toList.map (fun t => (str% "expires", .integer t)) ++
    o.nonce.toList.map (fun n => (str% "nonce", .token n)) ++
    o.keyId.toList.map (fun k => (str% "keyid", .string k)) ++ [(str% "alg", .string alg)]⟩

/-- The request has no digest header, or the first supported digest in it is the digest of the body. -/
def DigestFits (r : MockRequest) : Prop :=
  r.headers.getAll hDigest = [] ∨
  ∃ v s alg b, (r.headers.getAll hDigest).head? = some v ∧ v.toStr = some s ∧ r.body = some b ∧
    FirstSupported defaultDigestProvider s alg (alg.digest b)

/-- Labels that can be read back from the `Signature` header of a file: visible ASCII without `=`, not starting with a blank. -/
def PlainLabel (l : Str) : Prop := (∀ c ∈ l, VisibleChar c ∧ c ≠ '=') ∧ ∀ c ∈ l.head?, ¬ Blank c

/-- The options name no signature header as a component to sign. -/
def NoSignatureHeaders (o : Opt) : Prop :=
  ∀ comps, HeaderOption o comps → .header hSignature ∉ comps ∧ .header hSignatureInput ∉ comps

/-- The parameters sign mode writes for these options. -/
def optParamsText (o : Opt) (name : Str) : Str :=
  str% ";alg=" ++ quoted name ++
  (match o.created with | some t => str% ";created=" ++ timeText t | none => []) ++
  (match o.expires with | some t => str% ";expires=" ++ timeText t | none => []) ++
  str% ";keyid=" ++ quoted (o.keyId.getD [])

/-- What sign mode signs: the components named by the options with their values on the request, and the parameters. -/
def OptBase (r : MockRequest) (o : Opt) (name : Str) (base : Bytes) : Prop :=
  ∃ comps ids lids vals, HeaderOption o comps ∧ Values r comps vals ∧ Forall2 Ident comps ids ∧ Forall2 ListIdent comps lids ∧
    base = utf8 (specBase ids lids vals (optParamsText o name))

end Httpsig
