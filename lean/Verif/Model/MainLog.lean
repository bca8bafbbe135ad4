import Verif.Model.Main
import Verif.Model.Trace
/-
The log of httpsig-validator: its own records (httpsig-validator/src/main.rs, mock_request.rs) and those of the library, at level
trace if `Host.trace`, else at level info. The functions are those of Model/Mock, Model/Cli and Model/Main with the records put in;
`C123_exit` says that nothing else changed. `env_logger`'s decoration of records (time, level, module) is left out.
-/
namespace Httpsig

/-- `log::trace!`, at the level of the process. -/
def traceAt (on : Bool) (s : Str) : Logged Unit := if on then tracing s else pure ()

variable [Deps]

namespace MockRequest

/-- `derive_url`, mock_request.rs:188-216. -/
def deriveUrlLogged (trace : Bool) (path : Str) (headers : HeaderMap) : Logged (Option Url) :=
  match Deps.parseUrl path with
  | .ok u => pure (some u)
  | .bad => pure none
  | .relative =>
    match headers.get hHost with
    | none => do
      info (str% "Cannot use relative URLs: " ++ path)
      return none
    | some host => do
      traceAt trace (str% "Attempting to use host header")
      match host.toStr with
      | none => return none
      | some h =>
        match Deps.parseUrl (str% "http://" ++ h ++ path) with
        | .ok u => return some u
        | _ => ⟨[], .error .mockRequest⟩

/-- The record of the body, mock_request.rs:159-162; its text is only computed if the record is wanted. -/
def bodyRecord (trace : Bool) (body : Bytes) : Logged Unit :=
  if trace then
    match utf8Decode body with
    | none => ⟨[], .error .traceBody⟩
    | some s => tracing (str% "Messge Body: " ++ s)
  else pure ()

/-- `from_reader`, mock_request.rs:117-181. -/
def fromReaderLogged (input : Bytes) (trace : Bool) : Logged (Option MockRequest) :=
  match utf8Decode (readLine input).1 with
  | none => pure none
  | some line =>
    match splitAsciiWs line with
    | m :: path :: v :: _ =>
      match Method.ofStr m, Version.ofStr v with
      | some method, some version =>
        match readHeaders [] (readLine input).2 with
        | none => pure none
        | some (headers, hasBody, rest) => do
          if hasBody then bodyRecord trace rest
          let url ← deriveUrlLogged trace path headers
          return url.map fun url => ⟨version, method, url, path, headers, if hasBody then some rest else none⟩
      | _, _ => pure none
    | _ => pure none

end MockRequest

/-- Formatting: of the library's values, and `{:#?}` of a `MockRequest`. -/
structure AppFmt extends Fmt where
  request : MockRequest → Str

/-- `verification_config`, main.rs:225-304. Its records are all at level trace. -/
def Opt.verificationConfigLogged (o : Opt) (trace : Bool) : Logged (Except AppError VerifyingConfig) := do
  let keyId := o.keyId.getD []
  traceAt trace (str% "Using key_id: " ++ keyId)
  match o.publicKey with
  | some _ => traceAt trace (str% "Reading public key from file")
  | none => traceAt trace (str% "No public key was read.  This is bad.")
  match Opt.readKey o.publicKey with
  | .error e => return .error e
  | .ok keyData =>
    match o.checkAlgorithm with
    | .error e => return .error e
    | .ok () =>
      match o.algorithm with
      | none => traceAt trace (str% "No recognized algorithm was provided")
      | some _ => pure ()
      match o.algorithm, keyData with
      | none, _ =>
        traceAt trace (str% "No key was loaded")
        let config := VerifyingConfig.new ({} : SimpleKeyProvider).provideKeys
        return .ok ((config.setRequireDigest false).setValidateDate false)
      | some _, none =>
        traceAt trace (str% "No key provided")
        return .error (.badArg (str% "No key provided"))
      | some a, some pkey =>
        match Opt.verifierFor a with
        | none => return .error (.badArg (str% "Unknown key type: " ++ a))
        | some build =>
          traceAt trace (str% "Loading " ++ a)
          if a = str% "rsa-v1_5-sha256" ∧ publicSpkiPem pkey = none then
            traceAt trace (str% "Not an SPKI formatted key.  Trying PKCS1")
          match build pkey with
          | none => return .error .badKey
          | some v =>
            let config := VerifyingConfig.new (SimpleKeyProvider.add {} keyId v).provideKeys
            return .ok ((config.setRequireDigest false).setValidateDate false)

variable (f : AppFmt)

/-- The calls of the library at the level of the process. -/
def canonicalizeAt (trace : Bool) (req : MockRequest) (c : CanonicalizeConfig) : Logged (Except Error (Bytes × SignatureInput)) :=
  if trace then canonicalizeTraced f.toFmt req c else ⟨[], canonicalize req c⟩
@[inherit_doc canonicalizeAt]
def signAt (trace : Bool) (req : MockRequest) (c : SigningConfig) (env : SignEnv) : Logged (MockRequest × Except Error Unit) :=
  if trace then signTraced f.toFmt req c env else ⟨[], sign req c env⟩
@[inherit_doc canonicalizeAt]
def verifyAt (trace : Bool) (req : MockRequest) (c : VerifyingConfig) (env : VerifyEnv) : Logged (Except Unit (Unit × Str)) :=
  if trace then verifyTraced f.toFmt req c env else verifyLogged f.toFmt req c env

/-- A run with its log. -/
structure LoggedExit extends Exit where
  records : List Str

/-- A run that goes on after some records. -/
def Logged.then {α : Type} (x : Logged α) (g : α → LoggedExit) : LoggedExit :=
  match x.result with
  | .error p => ⟨⟨[], .error p⟩, x.records⟩
  | .ok a => { g a with records := x.records ++ (g a).records }

/-- The three modes, main.rs:326-339. -/
def Args.runLogged (a : Args) (h : Host) (req : MockRequest) : LoggedExit :=
  match a.mode with
  | .canonicalize =>
    match (a.opt h).canonicalizeConfig with
    | .error e => ⟨⟨[], .ok (.error e)⟩, []⟩
    | .ok c => (canonicalizeAt f h.trace req c).then fun
      | .error e => ⟨⟨[], .ok (.error (.lib e))⟩, []⟩
      | .ok (base, _) => ⟨⟨base, .ok (.ok ())⟩, []⟩
  | .sign =>
    match (a.opt h).signingConfig with
    | .error e => ⟨⟨[], .ok (.error e)⟩, []⟩
    | .ok c => (signAt f h.trace req c h.signEnv).then fun
      | (_, .error e) => ⟨⟨[], .ok (.error (.lib e))⟩, []⟩
      | (req', .ok ()) => ⟨⟨req'.writeTo.1, .ok (if req'.writeTo.2 then .ok () else .error .write)⟩, []⟩
  | .verify =>
    ((a.opt h).verificationConfigLogged h.trace).then fun
      | .error e => ⟨⟨[], .ok (.error e)⟩, []⟩
      | .ok c => (verifyAt f h.trace req c h.verifyEnv).then fun
        | .error _ => ⟨⟨[], .ok (.error .verification)⟩, []⟩
        | .ok _ => ⟨⟨[], .ok (.ok ())⟩, []⟩

/-- `main`, main.rs:310-342. -/
def Args.mainLogged (a : Args) (h : Host) : LoggedExit :=
  match a.input h with
  | .error p => ⟨⟨[], .error p⟩, []⟩
  | .ok input => (MockRequest.fromReaderLogged input h.trace).then fun
    | none => ⟨⟨[], .error .readInput⟩, []⟩
    | some req => (traceAt h.trace (f.request req)).then fun _ => a.runLogged f h req

end Httpsig
