import Verif.Sfv.Serialize
/-
`url::Url` of the `url` 2.4 crate (dependency; not in /repo): what its accessors return and how it is printed.
-/
namespace Httpsig

/-- The authority of a URL: `userinfo@host:port`. -/
structure Authority where
  /-- `username:password`, percent-encoded -/
  userinfo : Option Str := none
  /-- domain, IPv4 address or bracketed IPv6 address; may be empty -/
  host : Str
  /-- absent when it is the default port of the scheme -/
  port : Option Nat := none
deriving DecidableEq, Repr

/-- The parts of a URL. -/
structure UrlParts where
  scheme : Str
  authority : Option Authority
  path : Str
  query : Option Str := none
  fragment : Option Str := none
deriving DecidableEq, Repr

namespace UrlParts

/-- Printable ASCII, with or without the space: the only characters in a URL, because the parser percent-encodes or removes
all others. -/
def printable (c : Char) : Bool := 32 ≤ c.toNat && c.toNat ≤ 126
@[inherit_doc printable] def graphic (c : Char) : Bool := 33 ≤ c.toNat && c.toNat ≤ 126

/-- Characters of a scheme. -/
def schemeChar (c : Char) : Bool := c.isLower || c.isDigit || c == '+' || c == '-' || c == '.'

/-- Characters of the authority, outside of brackets. -/
def authorityChar (c : Char) : Bool := graphic c && c != '/' && c != '?' && c != '#' && c != '@' && c != '\\'

/-- A host: a domain or an IPv4 address, or an IPv6 address in brackets. -/
def hostOk (h : Str) : Bool :=
  h.all (fun c => authorityChar c && c != ':' && c != '[' && c != ']') ||
  match h with
  | '[' :: r => r.getLast? == some ']' && r.dropLast.all fun c => c.isDigit || (c.isLower && c ≤ 'f') || c == ':' || c == '.'
  | _ => false

/-- Characters of a path. A space can only be in the path of a URL like `data:x y`. -/
def pathChar (c : Char) : Bool := printable c && c != '?' && c != '#'

/-- Characters of a query. -/
def queryChar (c : Char) : Bool := graphic c && c != '#'

end UrlParts

/-- `userinfo@`. -/
def userinfoText : Option Str → Str
  | some u => u ++ str% "@"
  | none => []

/-- `:port`. -/
def portText : Option Nat → Str
  | some n => ':' :: Sfv.natStr n
  | none => []

/-- A part of a URL that begins with a mark. -/
def markedText (mark : Char) : Option Str → Str
  | some s => mark :: s
  | none => []

/-- `userinfo@host:port`. -/
def Authority.text (a : Authority) : Str := userinfoText a.userinfo ++ a.host ++ portText a.port

namespace UrlParts

/-- The part of the printed URL between the scheme and the path. The url crate puts `/.` in front of a path that could
otherwise be taken for an authority. -/
def authorityText (p : UrlParts) : Str :=
  match p.authority with
  | some a => str% "//" ++ a.text
  | none => if (str% "//").isPrefixOf p.path then str% "/." else []

/-- `to_string`. -/
def text (p : UrlParts) : Str :=
  p.scheme ++ ':' :: (p.authorityText ++ p.path ++ markedText '?' p.query ++ markedText '#' p.fragment)

/-- Invariants of `url::Url`. (More is true; this is what the properties need.) -/
def valid (p : UrlParts) : Bool :=
  !p.scheme.isEmpty && p.scheme.all schemeChar &&
  (match p.authority with
    | some a => (match a.userinfo with | some u => u.all authorityChar | none => true) && hostOk a.host &&
        (match a.port with | some n => decide (n < 65536) | none => true) && (p.path.isEmpty || (str% "/").isPrefixOf p.path)
    | none => !(str% "/.//").isPrefixOf p.path) &&
  p.path.all pathChar &&
  (match p.query with | some q => q.all queryChar | none => true) &&
  (match p.fragment with | some f => f.all printable | none => true)

end UrlParts

/-- A `url::Url`. -/
structure Url extends UrlParts where
  ok : toUrlParts.valid = true
deriving Repr

instance : DecidableEq Url := fun a b =>
  if h : a.toUrlParts = b.toUrlParts then isTrue (by cases a; cases b; simp at h; subst h; rfl)
  else isFalse (fun e => h (by rw [e]))

namespace Url

/-- `to_string`, called at src/derived.rs:104-105. -/
def asStr (u : Url) : Str := u.text

/-- `host_str`, called at src/reqwest_impls.rs:27,59 and httpsig-validator/src/mock_request.rs:92: the host without the port; an
empty host is no host. -/
def host (u : Url) : Option Str :=
  match u.authority with
  | some a => if a.host = [] then none else some a.host
  | none => none

end Url

/-- Result of `str::parse::<Url>()` (httpsig-validator/src/mock_request.rs:194-212). -/
inductive UrlParse where
  | ok (u : Url)
  /-- `ParseError::RelativeUrlWithoutBase` -/
  | relative
  /-- any other `ParseError` -/
  | bad
deriving DecidableEq, Repr

end Httpsig
