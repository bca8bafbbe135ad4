import Verif.Model.Logging
import Verif.Model.Mock
/-
Signing and verification with trace records on (src/canonicalize.rs:209-242, src/verifying.rs:473-476). The arguments of a trace
record are only evaluated when the record is wanted; two of them contain a conversion that panics when it fails.
-/
namespace Httpsig
open Sfv

/-- `log::trace!`. -/
def tracing (s : Str) : Logged Unit := ⟨[s], .ok ()⟩

section
variable [Deps] (f : Fmt)

/-- `String::from_utf8(..).expect(..)` in a trace message. -/
def traceText (b : Bytes) : P Str :=
  match utf8Decode b with
  | some s => .ok s
  | none => .error .traceBase

/-- `canonicalize`, src/canonicalize.rs:192-244. -/
def canonicalizeTraced {R : Type} [RequestLike R] (req : R) (c : CanonicalizeConfig) :
    Logged (Except Error (Bytes × SignatureInput)) := do
  let (found, missing) ← deriveAll req c.components
  if missing ≠ [] then
    tracing (str% "CanonicalizeConfig is missing required components: " ++ f.debugComponents missing)
    return .error (.missingComponents missing)
  else
    let si := c.toSignatureInput
    let sp ← si.list.display
    let lines ← ((found ++ [(SignatureComponent.derived (.new atSignatureParams), sp)]).mapM baseLine : P _)
    let base := utf8 (joinWith (str% "\n") lines)
    tracing (str% "Signature Base [u8]: " ++ debugBytes base)
    let s ← traceText base
    tracing (str% "Signature Base String: " ++ s)
    tracing (str% "SignatureInut: " ++ f.debugInput si)
    return .ok (base, si)

/-- The call of `canonicalize` in `verify_signature_only` and the trace record after it, src/verifying.rs:467-476. -/
def tracedCanon {R : Type} [RequestLike R] (req : R) (c : CanonicalizeConfig) : Logged (Except Error (Bytes × SignatureInput)) := do
  match ← canonicalizeTraced f req c with
  | .error e => return .error e
  | .ok (base, si) =>
    let s ← traceText base
    tracing (str% "Verifying SignatureString: " ++ s)
    return .ok (base, si)

/-- `verify` at level trace. -/
def verifyTraced {R Rem : Type} [ServerRequestLike R Rem] (req : R) (config : VerifyingConfig) (env : VerifyEnv) :
    Logged (Except Rem (Rem × Str)) := verifyWith f (tracedCanon f) req config env

/-- `sign` at level trace, src/signing.rs:433-486. -/
def signTraced {R : Type} [ClientRequestLike R] (req : R) (config : SigningConfig) (env : SignEnv) :
    Logged (R × Except Error Unit) := do
  let (req, components) ← addAutoHeaders req config env
  let ts ← unixTimestamp env.sysNow
  match buildCanonicalizeConfig config components ts with
  | .error e => return (req, .error e)
  | .ok cc =>
    match ← canonicalizeTraced f req cc with
    | .error _ => return (req, .error .canonicalize)
    | .ok (base, input) =>
      let inputStr ← input.display
      match HeaderValue.fromStr inputStr with
      | none => return (req, .error .signatureInputError)
      | some v =>
        let req := ClientRequestLike.setHeader req hSignatureInput v
        let signature := config.signature.sign env.rnd base
        match HeaderValue.fromStr (config.label ++ str% "=:" ++ signature ++ str% ":") with
        | none => return (req, .error .convertHeader)
        | some w => return (ClientRequestLike.setHeader req hSignature w, .ok ())

end
end Httpsig
