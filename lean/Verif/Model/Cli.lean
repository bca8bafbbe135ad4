import Verif.Model.KeyFiles
/-
httpsig-validator/src/main.rs
-/
namespace Httpsig
variable [Deps]

/-- `Opt`, main.rs:32-77, after command-line parsing. `headers` is `--headers` with its optional value;
a key is the outcome of reading its file (`some none` = the file cannot be read). -/
structure Opt where
  headers : Option (Option Str) := none
  keyId : Option Str := none
  privateKey : Option (Option Bytes) := none
  publicKey : Option (Option Bytes) := none
  label : Option Str := none
  algorithm : Option Str := none
  created : Option Int := none
  expires : Option Int := none
  nonce : Option Str := none

/-- Errors `main` can return. -/
inductive AppError where
  /-- `AppError::BadArg`, httpsig-validator/src/error.rs:8-9 -/
  | badArg (msg : Str)
  | io | badKey
  | lib (e : Error)
  /-- verification failed -/
  | verification
  /-- writing the signed request failed -/
  | write
deriving DecidableEq

namespace Opt

/-- `parse_headers`, main.rs:80-94. -/
def parseHeaders (o : Opt) : Except Error (Option (List SignatureComponent)) :=
  match o.headers with
  | none => .ok none
  | some none => .ok (some [])
  | some (some s) => do
    let l ← (splitAsciiWs s).mapM SignatureComponent.fromStr
    return some l

/-- Algorithm names accepted by the option checks, main.rs:118-123,160-165,239-244. -/
def knownAlgorithms : List Str :=
  [str% "rsa-v1_5-sha256", str% "rsa-v1_5-sha512", str% "rsa-pss-sha256", str% "rsa-pss-sha512",
   str% "ecdsa-p256-sha256", str% "hmac-sha256"]

/-- `canonicalize_config`, main.rs:96-147. -/
def canonicalizeConfig (o : Opt) : Except AppError CanonicalizeConfig := do
  let c : CanonicalizeConfig := {}
  let c := match o.created with | some t => c.setCreated t | none => c
  let c := match o.expires with | some t => c.setExpires t | none => c
  let hs ← o.parseHeaders.mapError .lib
  let c := match hs with | some l => c.setComponents l | none => c
  let c := match o.nonce with | some n => c.setNonce n | none => c
  let c := match o.label with | some l => c.setLabel l | none => c
  let c := match o.keyId with | some k => c.setKeyid k | none => c
  let c ← match o.algorithm with
    | some a => if a ∈ knownAlgorithms then pure (c.setAlg a) else throw (.badArg (str% "Unknown algorithm: " ++ a))
    | none => throw (.badArg (str% "No algorithm provided"))
  let hs ← o.parseHeaders.mapError .lib
  return c.setComponents (hs.getD [])

/-- Check of the algorithm option, main.rs:159-173 and 238-252. -/
def checkAlgorithm (o : Opt) : Except AppError Unit :=
  match o.algorithm with
  | some a => if a ∈ knownAlgorithms then .ok () else .error (.badArg (str% "Unknown algorithm: " ++ a))
  | none => .ok ()

/-- Read an optional key file, main.rs:153-157 and 228-234. -/
def readKey (k : Option (Option Bytes)) : Except AppError (Option Bytes) :=
  match k with
  | none => .ok none
  | some none => .error .io
  | some (some b) => .ok (some b)

/-- The ring signing types used by the validator, main.rs:176-187 with src/algorithm/ring.rs:223-226. -/
def signerFor (alg : Str) : Option (Bytes → HttpSignatureSign) :=
  if alg = str% "rsa-v1_5-sha256" then some (asymSigner (str% "rsa-v1_5-sha256") .rsaPkcs1Sha256)
  else if alg = str% "rsa-v1_5-sha512" then some (asymSigner (str% "rsa-v1_5-sha512") .rsaPkcs1Sha512)
  else if alg = str% "rsa-pss-sha256" then some (asymSigner (str% "rsa-pss-sha512") .rsaPssSha512)
  else if alg = str% "rsa-pss-sha512" then some (asymSigner (str% "rsa-pss-sha512") .rsaPssSha512)
  else none

/-- `signing_config`, main.rs:149-223. The nonce option is not used. -/
def signingConfig (o : Opt) : Except AppError SigningConfig := do
  let keyId := o.keyId.getD []
  let label := o.label.getD (str% "sig")
  let keyData ← readKey o.privateKey
  o.checkAlgorithm
  let config ← match o.algorithm, keyData with
    | none, _ => throw (.badArg (str% "No algorithm provided"))
    | some _, none => throw (.badArg (str% "No key provided"))
    | some a, some pkey =>
      match signerFor a with
      | none => throw (.badArg (str% "Unsupported algorithm: " ++ a))
      | some build =>
        match privatePkcs8Pem pkey with
        | some k => pure (SigningConfig.new label keyId (build k))
        | none => throw .badKey
  let hs ← o.parseHeaders.mapError .lib
  let config := match hs with | some l => config.setComponents l | none => config
  let config := match o.created with | some t => config.setCreatedAt t | none => config
  let config := match o.expires with | some t => config.setExpiresAt t | none => config
  let config := config.setAddDate false
  let config := config.setComputeDigest false
  let config := config.setAddHost false
  return config.setSkipMissing false

/-- The ring verifying types used by the validator with their key-file format, main.rs:258-280.
`rsa-v1_5-sha256` tries SPKI first, the others read PKCS#1 only. -/
def verifierFor (alg : Str) : Option (Bytes → Option HttpSignatureVerify) :=
  if alg = str% "rsa-v1_5-sha256" then
    some fun pem => ((publicSpkiPem pem).or (publicPkcs1Pem pem)).map
      (asymVerifier (str% "rsa-v1_5-sha256") .rsaPkcs1Sha256)
  else if alg = str% "rsa-v1_5-sha512" then
    some fun pem => (publicPkcs1Pem pem).map (asymVerifier (str% "rsa-v1_5-sha512") .rsaPkcs1Sha512)
  else if alg = str% "rsa-pss-sha256" then
    some fun pem => (publicPkcs1Pem pem).map (asymVerifier (str% "rsa-pss-sha512") .rsaPssSha512)
  else if alg = str% "rsa-pss-sha512" then
    some fun pem => (publicPkcs1Pem pem).map (asymVerifier (str% "rsa-pss-sha512") .rsaPssSha512)
  else none

/-- `verification_config`, main.rs:225-304. -/
def verificationConfig (o : Opt) : Except AppError VerifyingConfig := do
  let keyId := o.keyId.getD []
  let keyData ← readKey o.publicKey
  o.checkAlgorithm
  let provider : SimpleKeyProvider ← match o.algorithm, keyData with
    | none, _ => pure ({} : SimpleKeyProvider)
    | some _, none => throw (.badArg (str% "No key provided"))
    | some a, some pkey =>
      match verifierFor a with
      | none => throw (.badArg (str% "Unknown key type: " ++ a))
      | some build =>
        match build pkey with
        | some v => pure (SimpleKeyProvider.add {} keyId v)
        | none => throw .badKey
  let config := VerifyingConfig.new provider.provideKeys
  return (config.setRequireDigest false).setValidateDate false

end Opt

/-- `main` in mode `canonicalize`, main.rs:327-330, on a request that was read successfully. -/
def runCanonicalize (req : MockRequest) (o : Opt) : P (Except AppError Bytes) :=
  match o.canonicalizeConfig with
  | .error e => .ok (.error e)
  | .ok c => do
    match ← canonicalize req c with
    | .error e => return .error (.lib e)
    | .ok (base, _) => return .ok base

/-- `main` in mode `sign`, main.rs:331-334. -/
def runSign (req : MockRequest) (o : Opt) (env : SignEnv) : P (Except AppError Bytes) :=
  match o.signingConfig with
  | .error e => .ok (.error e)
  | .ok c => do
    match ← sign req c env with
    | (_, .error e) => return .error (.lib e)
    | (req', .ok ()) =>
      match req'.write with
      | some out => return .ok out
      | none => return .error .write

/-- `main` in mode `verify`, main.rs:335-338. -/
def runVerify (req : MockRequest) (o : Opt) (env : VerifyEnv) : P (Except AppError Unit) :=
  match o.verificationConfig with
  | .error e => .ok (.error e)
  | .ok c => do
    match ← verify req c env with
    | .error _ => return .error .verification
    | .ok _ => return .ok ()

end Httpsig
