import Verif.Spec.Delivery
import Verif.Spec.UrlRequest
/-
Specification vocabulary for requests on the wire: RFC 9110 (Host, target URI) and RFC 9112 (message syntax).
-/
namespace Httpsig
open Sfv

/-- `host:port`: the value of `Host` and the authority of the target URI, without the user information (RFC 9110, 4.2.4 and 7.2). -/
def Authority.hostPort (a : Authority) : Str := a.host ++ portText a.port

/-- The path and query of a URL: the request target of a request to the origin server (RFC 9112, 3.2.1). -/
def UrlParts.originForm (u : UrlParts) : Str := u.path ++ markedText '?' u.query

/-- The target URI of a request (RFC 9110, 7.1): scheme, host and port, path and query. -/
def UrlParts.targetUri (u : UrlParts) (a : Authority) : Str := u.scheme ++ str% "://" ++ a.hostPort ++ u.originForm

/-- The two URLs differ at most in port and user information. -/
structure SameHost (u w : Url) : Prop where
  scheme : u.scheme = w.scheme
  host : ∃ a b, u.authority = some a ∧ w.authority = some b ∧ a.host = b.host
  path : u.path = w.path
  query : u.query = w.query
  fragment : u.fragment = w.fragment

/-- The URL that a server derives from `http`, a `Host` header with or without the port, and the request target. -/
def Url.seen (u : Url) (port : Bool) : Url where
  scheme := str% "http"
  authority := u.authority.map fun a => { host := a.host, port := if port then a.port else none }
  path := u.path
  query := u.query
  fragment := none
  ok := by
    have := u.ok
    unfold UrlParts.valid at this ⊢
    simp only [Bool.and_eq_true] at this ⊢
    refine ⟨⟨⟨⟨⟨by decide, by decide⟩, ?_⟩, this.1.1.2⟩, this.1.2⟩, trivial⟩
    have h := this.1.1.1.2
    cases ha : u.authority with
    | none => rw [ha] at h; exact h
    | some a =>
      rw [ha] at h
      simp only [Bool.and_eq_true] at h
      simp only [Option.map_some, Bool.and_eq_true]
      refine ⟨⟨⟨trivial, h.1.1.2⟩, ?_⟩, h.2⟩
      cases port
      · rfl
      · exact h.1.2

variable [Deps]

/-- The header lines of a message; `eol` is the end of a line. -/
def wireHeaders (eol : Str) : HeaderMap → Bytes
  | [] => []
  | (n, v) :: hs => utf8 (n.str ++ str% ": ") ++ v.bytes ++ utf8 eol ++ wireHeaders eol hs

/-- A request as an HTTP/1.1 message: request line, header lines, empty line, body. -/
def wireText (eol : Str) (m : Method) (u : UrlParts) (hs : HeaderMap) (body : Bytes) : Bytes :=
  utf8 (m.str ++ str% " " ++ u.originForm ++ str% " HTTP/1.1" ++ eol) ++ wireHeaders eol hs ++ utf8 eol ++ body

/-- Ends of lines: CR LF, or the bare LF that recipients may accept (RFC 9112, 2.2). -/
def LineEnd (eol : Str) : Prop := eol = str% "\r\n" ∨ eol = str% "\n"

/-- The headers `sent` are those of the request, to which the client adds a `Host` if there is none; every name occurs once,
and the values are text without white space at the ends. -/
structure SentHeaders (headers sent : HeaderMap) : Prop where
  same : ∀ n, n ≠ hHost ∨ headers.getAll hHost ≠ [] → sent.getAll n = headers.getAll n
  once : (sent.map Prod.fst).Nodup
  text : ∀ e ∈ sent, ∃ s, e.2.bytes = utf8 s ∧ Trimmed whiteSpace s s

/-- The URL and the headers `sent` describe a request to an origin server: the headers name the host of the URL, with the port or
without, and the server reads host and request target as the URL that they describe. (The url crate reads back the URLs that it
prints, and says of texts that begin with one slash that they are not absolute. A path after an authority has no spaces.) -/
structure OnWire (u : Url) (sent : HeaderMap) (port : Bool) : Prop where
  host : ∃ a v, u.authority = some a ∧ sent.get hHost = some v ∧ v.toStr = some (if port then a.hostPort else a.host)
  path : u.path ≠ [] ∧ ' ' ∉ u.path
  relative : Deps.parseUrl u.originForm = .relative
  parse : Deps.parseUrl (u.seen port).asStr = .ok (u.seen port)

/-- The derived component has this name. -/
def Named (name : Str) : SignatureComponent → Prop
  | .header _ => False
  | .derived d => d.Called name

/-- The component is the whole URL. -/
def WholeUrl (k : SignatureComponent) : Prop := Named (str% "@target-uri") k ∨ Named (str% "@request-target") k

end Httpsig
