import Verif.Model.Verifying
/-
The calls `verify` and `sign` make of what the user of the crate supplies: the key provider, the keys, the digest provider, and those
methods of the request that read its body, change it or take it apart. The functions are those of `Verif.Model.Verifying` and
`Verif.Model.Signing` with the calls put in; `C131_result` and `C132_result` say that nothing else changed. Calls of `derive`,
`has_component` and `name` are left out.
-/
namespace Httpsig
open Sfv

variable [Deps]

/-- The calls that are recorded. -/
inductive Call where
  /-- `KeyProvider::provide_keys`, src/verifying.rs:53. -/
  | provideKeys (id : Str)
  /-- `HttpSignatureVerify::http_verify`, src/algorithm.rs:33. -/
  | httpVerify (key : HttpSignatureVerify) (base : Bytes) (sig : Str)
  /-- `DigestProvider::provide_digest`, src/verifying.rs:111. -/
  | provideDigest (name : Str)
  /-- `ServerRequestLike::complete_with_digest`, src/verifying.rs:333. -/
  | completeWithDigest (alg : HttpDigest)
  /-- `ServerRequestLike::complete`, src/verifying.rs:336. -/
  | complete
  /-- `ClientRequestLike::host`, src/signing.rs:22. -/
  | host
  /-- `ClientRequestLike::compute_digest`, src/signing.rs:31. -/
  | computeDigest (alg : HttpDigest)
  /-- `ClientRequestLike::set_header`, src/signing.rs:28. -/
  | setHeader (h : HeaderName) (v : HeaderValue)
  /-- `HttpSignatureSign::http_sign`, src/algorithm.rs:22. -/
  | httpSign (base : Bytes)

/-- A computation that may panic, with the calls made until then. -/
structure Called (α : Type) where
  calls : List Call
  result : P α

instance : Monad Called where
  pure a := ⟨[], .ok a⟩
  bind x f := match x.result with
    | .error p => ⟨x.calls, .error p⟩
    | .ok a => ⟨x.calls ++ (f a).calls, (f a).result⟩

instance : MonadLift (Except Panic) Called := ⟨fun p => ⟨[], p⟩⟩

/-- A call is made. -/
def call (c : Call) : Called Unit := ⟨[c], .ok ()⟩

/-- The loop over the keys, src/verifying.rs:478-482. -/
def tryKeys (base : Bytes) (sig : Str) : List HttpSignatureVerify → Called Bool
  | [] => return false
  | k :: ks => do
    call (.httpVerify k base sig)
    if k.verify base sig then return true else tryKeys base sig ks

/-- Selection of the digest entry, src/verifying.rs:575-585: iterators are lazy, so that nothing after the first supported entry
is looked at. -/
def firstDigest (provider : Str → Option HttpDigest) : List Str → Called (Option (HttpDigest × Str))
  | [] => return none
  | part :: parts =>
    match splitOnce '=' part with
    | none => firstDigest provider parts
    | some (k, v) => do
      call (.provideDigest (trim k))
      match provider (trim k) with
      | none => firstDigest provider parts
      | some d => return some (d, trim v)

section
variable {R Rem : Type} [ServerRequestLike R Rem]

/-- `verify_signature_only`, src/verifying.rs:385-490. -/
def verifySignatureOnlyCalled (req : R) (config : VerifyingConfig) (env : VerifyEnv) : Called (Option (SignatureInput × Str)) := do
  match ← RequestLike.derive req (.header hSignatureInput) with
  | none => return none
  | some inputValue =>
  match ← CanonicalizeConfig.fromSignatureInput inputValue with
  | .error _ => (throw .badSignatureInput : P _)
  | .ok cc =>
  match ← RequestLike.derive req (.header hSignature) with
  | none => return none
  | some sigValue =>
  match parseSignatureHeader sigValue with
  | none => return none
  | some (sigLabel, provided) =>
  if cc.getLabel ≠ sigLabel then return none else
  match cc.keyid with
  | none => return none
  | some keyId =>
  match cc.alg with
  | none => return none
  | some _ =>
  let ts ← unixTimestamp env.sysNow
  if createdInFuture cc ts then return none else
  if alreadyExpired cc ts then return none else
  call (.provideKeys keyId)
  let algorithms := config.keyProvider keyId
  if algorithms.isEmpty then return none else
  match ← canonicalize req cc with
  | .error _ => return none
  | .ok (base, input) =>
    if ← tryKeys base provided algorithms then return some (input, keyId) else return none

/-- `verify_except_digest`, src/verifying.rs:492-551. -/
def verifyExceptDigestCalled (req : R) (config : VerifyingConfig) (env : VerifyEnv) : Called (Option Str) := do
  match ← verifySignatureOnlyCalled req config env with
  | none => return none
  | some (input, keyId) =>
    if !(← checkRequired input config.requiredComponents) then return none else
    if !(← checkDate input config env) then return none else
    return some keyId

/-- `verify`, src/verifying.rs:556-638. -/
def verifyCalled (req : R) (config : VerifyingConfig) (env : VerifyEnv) : Called (Except Rem (Rem × Str)) := do
  match ← verifyExceptDigestCalled req config env with
  | none =>
    call .complete
    return .error (ServerRequestLike.complete req)
  | some keyId =>
    match ← RequestLike.derive req (.header hDigest) with
    | some digestValue =>
      if config.validateDigest then
        match ← firstDigest config.digestProvider (splitOn ',' digestValue) with
        | some (alg, provided) =>
          call (.completeWithDigest alg)
          let (maybe, rem) := ServerRequestLike.completeWithDigest req alg
          match maybe with
          | some expected => if utf8 provided = utf8 expected then return .ok (rem, keyId) else return .error rem
          | none => return .error rem
        | none =>
          call .complete
          return .error (ServerRequestLike.complete req)
      else
        call .complete
        return .ok (ServerRequestLike.complete req, keyId)
    | none =>
      if config.requireDigest then
        call (.completeWithDigest defaultDigest)
        let (maybe, rem) := ServerRequestLike.completeWithDigest req defaultDigest
        if maybe.isSome then return .error rem else return .ok (rem, keyId)
      else
        call .complete
        return .ok (ServerRequestLike.complete req, keyId)

end

section
variable {R : Type} [ClientRequestLike R]

/-- `set_header`, with the call. -/
def setHeaderCalled (req : R) (h : HeaderName) (v : HeaderValue) : Called R := do
  call (.setHeader h v)
  return ClientRequestLike.setHeader req h v

/-- Date part of `add_auto_headers`, src/signing.rs:381-388. -/
def addDateHeaderCalled (req : R) (config : SigningConfig) (env : SignEnv) : Called R :=
  if config.addDate then do
    if !(← RequestLike.hasComponent req (.header hDate)) then
      let v ← headerValueOrPanic .dateHeader (formatDate env.utcNow)
      setHeaderCalled req hDate v
    else return req
  else return req

/-- Host part of `add_auto_headers`, src/signing.rs:390-398. -/
def addHostHeaderCalled (req : R) (config : SigningConfig) : Called R :=
  if config.addHost then do
    if !(← RequestLike.hasComponent req (.header hHost)) then
      call .host
      match ClientRequestLike.host req with
      | some host =>
        let v ← headerValueOrPanic .hostHeader host
        setHeaderCalled req hHost v
      | none => return req
    else return req
  else return req

/-- Digest part of `add_auto_headers`, src/signing.rs:400-410. -/
def addDigestHeaderCalled (req : R) (config : SigningConfig) : Called R :=
  if config.computeDigest then do
    if !(← RequestLike.hasComponent req (.header hDigest)) then
      call (.computeDigest config.digest)
      let (req', d) := ClientRequestLike.computeDigest req config.digest
      match d with
      | some s =>
        let v ← headerValueOrPanic .digestHeader (config.digest.name ++ str% "=" ++ s)
        setHeaderCalled req' hDigest v
      | none => return req'
    else return req
  else return req

/-- `add_auto_headers`, src/signing.rs:376-423. -/
def addAutoHeadersCalled (req : R) (config : SigningConfig) (env : SignEnv) : Called (R × List SignatureComponent) := do
  let req ← addDateHeaderCalled req config env
  let req ← addHostHeaderCalled req config
  let req ← addDigestHeaderCalled req config
  if config.skipMissing then
    let present ← filterPresent req config.components
    return (req, present)
  else
    return (req, config.components)

/-- `sign`, src/signing.rs:433-486. -/
def signCalled (req : R) (config : SigningConfig) (env : SignEnv) : Called (R × Except Error Unit) := do
  let (req, components) ← addAutoHeadersCalled req config env
  let ts ← unixTimestamp env.sysNow
  match buildCanonicalizeConfig config components ts with
  | .error e => return (req, .error e)
  | .ok cc =>
    match ← canonicalize req cc with
    | .error _ => return (req, .error .canonicalize)
    | .ok (base, input) =>
      let inputStr ← input.display
      match HeaderValue.fromStr inputStr with
      | none => return (req, .error .signatureInputError)
      | some v =>
        let req ← setHeaderCalled req hSignatureInput v
        call (.httpSign base)
        let signature := config.signature.sign env.rnd base
        match HeaderValue.fromStr (config.label ++ str% "=:" ++ signature ++ str% ":") with
        | none => return (req, .error .convertHeader)
        | some w =>
          let req ← setHeaderCalled req hSignature w
          return (req, .ok ())

end
end Httpsig
