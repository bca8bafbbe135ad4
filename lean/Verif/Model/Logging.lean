import Verif.Model.Verifying
import Verif.Model.Debug
/-
The records `verify` logs at level info (src/verifying.rs, src/signature_input.rs, src/macros.rs). The functions are those of
`Verif.Model.Verifying` with the calls of `info!` put in; `C116_result` says that nothing else changed. Trace records are
left out.
-/
namespace Httpsig
open Sfv

/-- A computation that may panic, with the info records written until then. -/
structure Logged (α : Type) where
  records : List Str
  result : P α

instance : Monad Logged where
  pure a := ⟨[], .ok a⟩
  bind x f := match x.result with
    | .error p => ⟨x.records, .error p⟩
    | .ok a => ⟨x.records ++ (f a).records, (f a).result⟩

instance : MonadLift (Except Panic) Logged := ⟨fun p => ⟨[], p⟩⟩

/-- `info!`, src/macros.rs:1-13. -/
def info (s : Str) : Logged Unit := ⟨[s], .ok ()⟩

section
variable [Deps]

/-- `TryFrom<&str> for SignatureInput`, src/signature_input.rs:137-157. -/
def SignatureInput.ofStrLogged (header : Str) : Logged (Except Error SignatureInput) :=
  match parseDictionary header with
  | none => do
    info (str% "Verification Failed: failed to parse SignatureInput")
    return .error .signatureInputParse
  | some d =>
    match d.head? with
    | some (label, entry) => return (ComponentList.ofListEntry entry).map fun list => ⟨label, list⟩
    | none => do
      info (str% "Verification Failed: malformed structured field")
      return .error .signatureInputError

/-- `from_signature_input`, src/canonicalize.rs:61-64. -/
def CanonicalizeConfig.fromSignatureInputLogged (input : Str) : Logged (Except Error CanonicalizeConfig) := do
  match ← SignatureInput.ofStrLogged input with
  | .error e => return .error e
  | .ok s =>
    let c ← CanonicalizeConfig.ofSignatureInput s
    return .ok c

/-- `parse_signature_header`, src/verifying.rs:368-375. -/
def parseSignatureHeaderLogged (s : Str) : Logged (Option (Str × Str)) :=
  match parseSignatureHeader s with
  | none => do
    info (str% "Verification Failed: Malformed 'Signature' header")
    return none
  | some x => return some x

variable {R Rem : Type} [ServerRequestLike R Rem] (f : Fmt)

/-- `verify_signature_only`, src/verifying.rs:385-490; `canon` is `canonicalize` and the trace record after it. -/
def verifySignatureOnlyWith (canon : R → CanonicalizeConfig → Logged (Except Error (Bytes × SignatureInput))) (req : R)
    (config : VerifyingConfig) (env : VerifyEnv) : Logged (Option (SignatureInput × Str)) := do
  match ← RequestLike.derive req (.header hSignatureInput) with
  | none =>
    info (str% "Verification Failed: No 'Signature-Input' header")
    return none
  | some inputValue =>
  match ← CanonicalizeConfig.fromSignatureInputLogged inputValue with
  | .error _ =>
    info (str% "Verification Failed: Bad 'Signature-input' header")
    (throw .badSignatureInput : P _)
  | .ok cc =>
  match ← RequestLike.derive req (.header hSignature) with
  | none =>
    info (str% "Verification Failed: Missing 'Signature' header")
    return none
  | some sigValue =>
  match ← parseSignatureHeaderLogged sigValue with
  | none =>
    info (str% "Verification Failed: Malformed 'Signature' header")
    return none
  | some (sigLabel, provided) =>
  if cc.getLabel ≠ sigLabel then
    info (str% "Verification Failed: Mismatched signature labels")
    return none
  else
  match cc.keyid with
  | none =>
    info (str% "Verification Failed: Missing required 'keyid' in 'Signature-Input' header")
    return none
  | some keyId =>
  match cc.alg with
  | none =>
    info (str% "Verification Failed: Missing required 'alg' in 'Signature-Input' header")
    return none
  | some algorithmName =>
  let ts ← unixTimestamp env.sysNow
  if createdInFuture cc ts then
    info (str% "Verification Failed: Bad created time")
    return none
  else if alreadyExpired cc ts then
    info (str% "Verification Failed: Bad expires time")
    return none
  else
  let algorithms := config.keyProvider keyId
  if algorithms.isEmpty then
    info (str% "Verification Failed: Unknown key (keyId=" ++ keyId ++ str% ", algorithm=" ++ algorithmName ++ str% ")")
    return none
  else
  match ← canon req cc with
  | .error e =>
    info (str% "Canonicalization Failed: " ++ f.displayError e)
    return none
  | .ok (base, input) =>
    if algorithms.any fun a => a.verify base provided then return some (input, keyId)
    else
      info (if algorithms.isEmpty then str% "Verification Failed: No keys found for this keyId"
        else str% "Verification Failed: Invalid signature provided")
      return none

/-- The required-components loop, src/verifying.rs:499-511. -/
def checkRequiredLogged (input : SignatureInput) : List SignatureComponent → Logged Bool
  | [] => return true
  | c :: cs => do
    let s ← c.display
    if (input.list.getItem s).isNone then
      info (str% "Verification Failed: Missing header '" ++ s ++ str% "' required by configuration")
      return false
    else checkRequiredLogged input cs

/-- The date check, src/verifying.rs:514-548. -/
def checkDateLogged (input : SignatureInput) (config : VerifyingConfig) (env : VerifyEnv) : Logged Bool :=
  if config.validateDate then
    match (input.getParam (str% "date")).bind BareItem.asInt with
    | none => do
      info (str% "Verification Failed: No DATE field in request")
      return false
    | some v =>
      if Deps.timestampInRange v then
        let delta := v * 1000000000 - env.utcNow
        match (toStd delta).or (toStd (-delta)) with
        | none => (throw .dateDelta : P _)
        | some d =>
          if d ≤ config.dateLeeway then return true
          else do
            info (str% "Verification Failed: Date skew of '" ++ f.delta delta ++ str% "' is outside allowed range")
            return false
      else do
        info (str% "Verification Failed: Invalid date")
        return false
  else return true

/-- `verify_except_digest`, src/verifying.rs:492-551. -/
def verifyExceptDigestWith (canon : R → CanonicalizeConfig → Logged (Except Error (Bytes × SignatureInput))) (req : R)
    (config : VerifyingConfig) (env : VerifyEnv) : Logged (Option Str) := do
  match ← verifySignatureOnlyWith f canon req config env with
  | none => return none
  | some (input, keyId) =>
    if !(← checkRequiredLogged input config.requiredComponents) then return none else
    if !(← checkDateLogged f input config env) then return none else
    return some keyId

/-- `verify`, src/verifying.rs:556-638. -/
def verifyWith (canon : R → CanonicalizeConfig → Logged (Except Error (Bytes × SignatureInput))) (req : R)
    (config : VerifyingConfig) (env : VerifyEnv) : Logged (Except Rem (Rem × Str)) := do
  match ← verifyExceptDigestWith f canon req config env with
  | none => return .error (ServerRequestLike.complete req)
  | some keyId =>
    match ← RequestLike.derive req (.header hDigest) with
    | some digestValue =>
      if config.validateDigest then
        match selectDigest config.digestProvider digestValue with
        | some (alg, provided) =>
          let (maybe, rem) := ServerRequestLike.completeWithDigest req alg
          match maybe with
          | some expected =>
            if utf8 provided = utf8 expected then return .ok (rem, keyId)
            else
              info (str% "Verification Failed: Computed digest did not match the 'digest' header")
              return .error rem
          | none =>
            info (str% "Verification Failed: Unable to compute digest for comparison")
            return .error rem
        | none =>
          info (str% "Verification Failed: No supported digest algorithms were used")
          return .error (ServerRequestLike.complete req)
      else return .ok (ServerRequestLike.complete req, keyId)
    | none =>
      if config.requireDigest then
        let (maybe, rem) := ServerRequestLike.completeWithDigest req defaultDigest
        if maybe.isSome then
          info (str% "Verification Failed: 'digest' header was not included in signature, but is required by configuration")
          return .error rem
        else return .ok (rem, keyId)
      else return .ok (ServerRequestLike.complete req, keyId)

/-- `canonicalize` with trace records off. -/
def plainCanon (req : R) (c : CanonicalizeConfig) : Logged (Except Error (Bytes × SignatureInput)) := liftM (canonicalize req c)

/-- `verify_signature_only` at level info. -/
def verifySignatureOnlyLogged (req : R) (config : VerifyingConfig) (env : VerifyEnv) : Logged (Option (SignatureInput × Str)) :=
  verifySignatureOnlyWith f plainCanon req config env

/-- `verify_except_digest` at level info. -/
def verifyExceptDigestLogged (req : R) (config : VerifyingConfig) (env : VerifyEnv) : Logged (Option Str) :=
  verifyExceptDigestWith f plainCanon req config env

/-- `verify` at level info. -/
def verifyLogged (req : R) (config : VerifyingConfig) (env : VerifyEnv) : Logged (Except Rem (Rem × Str)) :=
  verifyWith f plainCanon req config env

end
end Httpsig
