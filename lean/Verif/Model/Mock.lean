import Verif.Model.Verifying
/-
httpsig-validator/src/mock_request.rs
-/
namespace Httpsig

/-- `http::Version` values the validator knows. -/
inductive Version where
  | http09 | http10 | http11 | http2 | http3
deriving DecidableEq, Repr

/-- `version_try_from_string`, mock_request.rs:16-25. -/
def Version.ofStr (s : Str) : Option Version :=
  if s = str% "HTTP/0.9" then some .http09
  else if s = str% "HTTP/1.0" then some .http10
  else if s = str% "HTTP/1.1" then some .http11
  else if s = str% "HTTP/2.0" then some .http2
  else if s = str% "HTTP/3.0" then some .http3
  else none

/-- Strict UTF-8 decoding (`read_line` fails on invalid UTF-8): the text whose encoding is the input. -/
def utf8Decode (b : Bytes) : Option Str := if utf8 (utf8Lossy b) = b then some (utf8Lossy b) else none

/-- `BufRead::read_line` on the raw bytes: the line including its newline, and the rest. -/
def readLine : Bytes → Bytes × Bytes
  | [] => ([], [])
  | b :: bs => if b = 10 then ([b], bs) else (b :: (readLine bs).1, (readLine bs).2)

theorem readLine_append (b : Bytes) : (readLine b).1 ++ (readLine b).2 = b := by
  induction b with
  | nil => rfl
  | cons x xs ih => unfold readLine; split <;> simp_all

theorem readLine_fst_ne_nil {b : Bytes} (h : b ≠ []) : (readLine b).1 ≠ [] := by
  cases b with
  | nil => exact absurd rfl h
  | cons x xs => unfold readLine; split <;> simp

/-- ASCII whitespace (`char::is_ascii_whitespace`). -/
def isAsciiWs (c : Char) : Bool := c == ' ' || c == '\t' || c == '\n' || c == '\x0c' || c == '\r'

/-- `str::split_ascii_whitespace`. -/
def splitAsciiWs (s : Str) : List Str :=
  let rec go (cur : Str) : Str → List Str
    | [] => if cur.isEmpty then [] else [cur]
    | c :: cs =>
      if isAsciiWs c then (if cur.isEmpty then go [] cs else cur :: go [] cs)
      else go (cur ++ [c]) cs
  go [] s

/-- `Method::from_str`. -/
def Method.ofStr (s : Str) : Option Method :=
  if h : (!s.isEmpty && s.all Sfv.isTchar) = true then some ⟨s, h⟩ else none

section
variable [Deps]

/-- `MockRequest`, mock_request.rs:32-40. The fields are also the accessors `version`, `method`, `url`, `path`, `headers` and
`body`, mock_request.rs:44-63,76-78. -/
structure MockRequest where
  version : Version
  method : Method
  url : Url
  path : Str
  headers : HeaderMap
  body : Option Bytes
deriving DecidableEq

namespace MockRequest

/-- `derive` for `MockRequest`, mock_request.rs:246-258 with 239-244. `host()` is the trait default `None`
(src/signing.rs:22-24), because the implementation at 265-272 does not override it; a header value that is
not visible ASCII reads as the empty string. -/
def derive (r : MockRequest) : SignatureComponent → P (Option Str)
  | .header h => .ok ((r.headers.get h).map fun v => v.toStr.getD [])
  | .derived d => d.derive none r.method r.url

/-- `has_header`, mock_request.rs:66-68. -/
def hasHeader (r : MockRequest) (h : HeaderName) : Bool := (r.headers.get h).isSome

/-- `header`, mock_request.rs:71-73. -/
def header (r : MockRequest) (h : HeaderName) : Option HeaderValue := r.headers.get h

/-- `set_header`, mock_request.rs:269-271. -/
def setHeader (r : MockRequest) (h : HeaderName) (v : HeaderValue) : MockRequest :=
  { r with headers := r.headers.insert h v }

/-- mock_request.rs:246-272. -/
instance : ClientRequestLike MockRequest where
  derive := derive
  hasComponent r c := do return (← derive r c).isSome
  host _ := none
  setHeader := setHeader
  computeDigest r d := (r, r.body.map d.digest)

/-- `Derivable<DerivedComponent>`, mock_request.rs:239-244, through which `derive` above reads derived components. -/
instance : Derivable MockRequest DerivedComponent where
  deriveComponent r d := d.derive (ClientRequestLike.host r) r.method r.url

/-- mock_request.rs:274-286. -/
instance : ServerRequestLike MockRequest Unit where
  derive := derive
  hasComponent r c := do return (← derive r c).isSome
  completeWithDigest r d := (r.body.map d.digest, ())
  complete _ := ()

/-- `with_header`, mock_request.rs:101-107. -/
def withHeader (r : MockRequest) (name value : Str) : P MockRequest :=
  match HeaderName.fromStr name, HeaderValue.fromBytes (utf8 value) with
  | some n, some v => .ok (r.setHeader n v)
  | _, _ => .error .mockRequest

/-- `new`, mock_request.rs:81-98. -/
def new (version : Version) (method : Method) (path : Str) (headers : HeaderMap) : P MockRequest :=
  match Deps.parseUrl path with
  | .ok url =>
    let res : MockRequest := ⟨version, method, url, path, headers, none⟩
    match url.host with
    | some host => res.withHeader (str% "Host") host
    | none => .ok res
  | _ => .error .mockRequest

/-- `with_body`, mock_request.rs:110-114. -/
def withBody (r : MockRequest) (body : Bytes) : P MockRequest :=
  MockRequest.withHeader { r with body := some body } (str% "Content-Length") (Sfv.natStr body.length)

/-- `derive_url`, mock_request.rs:188-216 (`schema` is always `None` at the only call site). -/
def deriveUrl (path : Str) (headers : HeaderMap) : P (Option Url) :=
  match Deps.parseUrl path with
  | .ok u => .ok (some u)
  | .bad => .ok none
  | .relative =>
    match headers.get hHost with
    | none => .ok none
    | some host =>
      match host.toStr with
      | none => .ok none
      | some h =>
        match Deps.parseUrl (str% "http://" ++ h ++ path) with
        | .ok u => .ok (some u)
        | _ => .error .mockRequest

/-- The header loop of `from_reader`, mock_request.rs:138-154. Returns the headers, whether a blank line
was seen, and the remaining bytes; `none` = `Err`. -/
def readHeaders (headers : HeaderMap) (input : Bytes) : Option (HeaderMap × Bool × Bytes) :=
  if _hin : input = [] then some (headers, false, [])
  else
    match utf8Decode (readLine input).1 with
    | none => none
    | some line =>
      if (trim line).isEmpty then some (headers, true, (readLine input).2)
      else
        match splitOnce ':' line with
        | none => none
        | some (n, v) =>
          match HeaderName.fromStr (trim n), HeaderValue.fromStr (trim v) with
          | some name, some value => readHeaders (headers.insert name value) (readLine input).2
          | _, _ => none
termination_by input.length
decreasing_by
  have h := congrArg List.length (readLine_append input)
  have h2 := List.length_pos_iff.mpr (readLine_fst_ne_nil _hin)
  simp at h
  omega

/-- `from_reader`, mock_request.rs:117-181, on the complete input. `none` = `Err`. `trace` says whether trace logging
is enabled: if so, a body that is not UTF-8 is a panic (159-162).
Simplification: a malformed header name without a colon is reported as the same `Err`. -/
def fromReader (input : Bytes) (trace : Bool := false) : P (Option MockRequest) :=
  match utf8Decode (readLine input).1 with
  | none => .ok none
  | some line =>
    match splitAsciiWs line with
    | m :: path :: v :: _ =>
      match Method.ofStr m, Version.ofStr v with
      | some method, some version =>
        match readHeaders [] (readLine input).2 with
        | none => .ok none
        | some (headers, hasBody, rest) => do
          if trace && hasBody && (utf8Decode rest).isNone then throw .traceBody
          match ← deriveUrl path headers with
          | none => return none
          | some url => return some ⟨version, method, url, path, headers, if hasBody then some rest else none⟩
      | _, _ => .ok none
    | _ => .ok none

/-- One header line of `write`, mock_request.rs:221-228. -/
def writeHeaders : HeaderMap → Option Str
  | [] => some []
  | (n, v) :: rest => do
    let s ← v.toStr
    let r ← writeHeaders rest
    some (n.str ++ str% ": " ++ s ++ str% "\n" ++ r)

/-- `write`, mock_request.rs:219-236. `none` = `Err`; for the bytes that have already been written then see `writeTo`
in Model/Main. The version is always written as HTTP/1.1. -/
def write (r : MockRequest) : Option Bytes := do
  let hs ← writeHeaders r.headers
  let head := utf8 (r.method.str ++ str% " " ++ r.path ++ str% " HTTP/1.1\n" ++ hs)
  match r.body with
  | some b => some (head ++ 10 :: b)
  | none => some head

end MockRequest
end
end Httpsig
