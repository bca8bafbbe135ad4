import Verif.Spec.Main
import Verif.Spec.Trace
import Verif.Model.MainLog
/-
Specification of the validator's log.
-/
namespace Httpsig
variable [Deps]

/-- The record of a body, at level trace. -/
inductive BodyRecords (trace : Bool) : Option Bytes → List Str → Prop
  | none : BodyRecords trace none []
  | off {b : Bytes} : trace = false → BodyRecords trace (some b) []
  | text {s : Str} : trace = true → BodyRecords trace (some (utf8 s)) [str% "Messge Body: " ++ s]

/-- The record of a request target that is no URL: at level info if there is no `Host` header, else at level trace. -/
inductive TargetRecords (trace : Bool) (path : Str) (headers : HeaderMap) : List Str → Prop
  | url : Deps.parseUrl path ≠ .relative → TargetRecords trace path headers []
  | noHost : Deps.parseUrl path = .relative → headers.getAll hHost = [] →
      TargetRecords trace path headers [str% "Cannot use relative URLs: " ++ path]
  | host : Deps.parseUrl path = .relative → headers.getAll hHost ≠ [] → trace = true →
      TargetRecords trace path headers [str% "Attempting to use host header"]
  | hostOff : Deps.parseUrl path = .relative → headers.getAll hHost ≠ [] → trace = false → TargetRecords trace path headers []

/-- The records of reading an input: none if it has not the form of a request or if its body should be logged but is no text. -/
inductive ReadRecords (trace : Bool) (input : Bytes) : List Str → Prop
  | malformed : (∀ method path version headers body, ¬ RequestText input method path version headers body) → ReadRecords trace input []
  | body {method : Method} {path : Str} {version : Version} {headers : HeaderMap} {b : Bytes} :
      RequestText input method path version headers (some b) → trace = true → (∀ s, utf8 s ≠ b) → ReadRecords trace input []
  | text {method : Method} {path : Str} {version : Version} {headers : HeaderMap} {body : Option Bytes} {l l' : List Str} :
      RequestText input method path version headers body → BodyRecords trace body l → TargetRecords trace path headers l' →
      ReadRecords trace input (l ++ l')

/-- The records before a mode starts: those of reading and, at level trace, the request. -/
def StartRecords (f : AppFmt) (a : Args) (h : Host) (req : MockRequest) (l : List Str) : Prop :=
  ∃ input l', Source a h input ∧ ReadRecords h.trace input l' ∧ l = l' ++ if h.trace then [f.request req] else []

/-- The same process with other contents in the file `p`. -/
def Host.withFile (h : Host) (p : Str) (s : FileState) : Host := { h with files := fun q => if q = p then s else h.files q }

/-- What verify mode verifies with: no key if no algorithm is named, else the one key in the file, under the key id given. -/
inductive VerifyConfig (a : Args) (h : Host) : VerifyingConfig → Prop
  | noKey : a.algorithm = none → (∀ path, a.publicKey = some path → ∃ b, h.files path = .contents b) →
      VerifyConfig a h (optVerifying fun _ => [])
  | key {name : Str} {prim : Primitive} {key : Bytes} : VerifyOptions a h name prim key →
      VerifyConfig a h (optVerifying fun i => if i = a.keyId.getD [] then [asymVerifier name prim key] else [])

/-- The input has the form of a request, but its target is not an absolute URL and there is no `Host` header. -/
def Homeless (a : Args) (h : Host) (path : Str) : Prop :=
  ∃ input method version headers body, Source a h input ∧ RequestText input method path version headers body ∧
    Deps.parseUrl path = .relative ∧ headers.getAll hHost = []

/-- What sign mode canonicalizes with: algorithm name, times and key id as parameters. -/
def signCanon (a : Args) (name : Str) (comps : List SignatureComponent) : CanonicalizeConfig where
  label := none
  components := comps
  params := ⟨[(str% "alg", .string name)] ++ a.created.toList.map (fun t => (str% "created", .integer t)) ++
    a.expires.toList.map (fun t => (str% "expires", .integer t)) ++ [(str% "keyid", .string (a.keyId.getD []))]⟩

end Httpsig
