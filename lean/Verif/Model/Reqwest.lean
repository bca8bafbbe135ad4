import Verif.Model.Verifying
/-
src/reqwest_impls.rs
-/
namespace Httpsig
variable [Deps]

/-- Body of a `reqwest::Request`: absent, in memory, or a stream. -/
inductive AsyncBody where
  | absent
  | bytes (b : Bytes)
  | stream
deriving DecidableEq, Repr

/-- `reqwest::Request`, the parts httpsig reads and writes. -/
structure ReqwestRequest where
  method : Method
  url : Url
  headers : HeaderMap
  body : AsyncBody
deriving DecidableEq

/-- Header lookup of the reqwest implementations, src/reqwest_impls.rs:8-12,40-44:
the *first* value, and only if it is visible ASCII. -/
def reqwestHeader (headers : HeaderMap) (h : HeaderName) : Option Str :=
  (headers.get h).bind HeaderValue.toStr

/-- `derive` of both reqwest implementations, src/reqwest_impls.rs:6-18 and 38-50. -/
def reqwestDerive (method : Method) (url : Url) (headers : HeaderMap) : SignatureComponent → P (Option Str)
  | .header h => .ok (reqwestHeader headers h)
  | .derived d => d.derive url.host method url

/-- src/reqwest_impls.rs:5-35. `has_component` is `derive(..).is_some()` (20-22);
`compute_digest` needs an in-memory body (29-31). -/
instance : ClientRequestLike ReqwestRequest where
  derive r c := reqwestDerive r.method r.url r.headers c
  hasComponent r c := do return (← reqwestDerive r.method r.url r.headers c).isSome
  host r := r.url.host
  setHeader r h v := { r with headers := r.headers.insert h v }
  computeDigest r d :=
    match r.body with
    | .bytes b => (r, some (d.digest b))
    | _ => (r, none)

/-- Body of a `reqwest::blocking::Request`: absent, in memory, or a reader.
`reader (some b)` reads to the end giving `b`, `reader none` fails when read (simplification: what a failed
read consumes is not tracked). -/
inductive BlockingBody where
  | absent
  | bytes (b : Bytes)
  | reader (content : Option Bytes)
deriving DecidableEq, Repr

/-- `reqwest::blocking::Request`. -/
structure BlockingRequest where
  method : Method
  url : Url
  headers : HeaderMap
  body : BlockingBody
deriving DecidableEq

/-- src/reqwest_impls.rs:37-68. `compute_digest` buffers a reader into memory (61-64). -/
instance : ClientRequestLike BlockingRequest where
  derive r c := reqwestDerive r.method r.url r.headers c
  hasComponent r c := do return (← reqwestDerive r.method r.url r.headers c).isSome
  host r := r.url.host
  setHeader r h v := { r with headers := r.headers.insert h v }
  computeDigest r d :=
    match r.body with
    | .bytes b => (r, some (d.digest b))
    | .reader (some b) => ({ r with body := .bytes b }, some (d.digest b))
    | _ => (r, none)

/-- `Derivable<DerivedComponent>` of `reqwest::Request`, src/reqwest_impls.rs:70-74. -/
instance : Derivable ReqwestRequest DerivedComponent where
  deriveComponent r d := d.derive (ClientRequestLike.host r) r.method r.url

/-- `Derivable<DerivedComponent>` of `reqwest::blocking::Request`, src/reqwest_impls.rs:76-80. -/
instance : Derivable BlockingRequest DerivedComponent where
  deriveComponent r d := d.derive (ClientRequestLike.host r) r.method r.url

end Httpsig
