import Verif.Sfv.Parse
import Verif.Url
/-
`str::parse::<Url>()` of the `url` 2.4 crate (dependency; not in /repo) for the schemes http, https, ws, wss and ftp, as called at
httpsig-validator/src/mock_request.rs:82,85,194,202. There is never a base URL. Reading of hosts (IDNA, IPv4, IPv6; see
`Verif/UrlHost`) and of URLs with other schemes are parameters.
-/
namespace Httpsig
namespace UrlParser

/-- What the model of the parser leaves open. -/
structure Env where
  /-- `Host::parse`, printed; `none` = `Err` -/
  host : Str → Option { h : Str // UrlParts.hostOk h = true }
  /-- reading of a URL with another scheme; `none` = `Err` (never `RelativeUrlWithoutBase`) -/
  other : Str → Str → Option Url
  /-- path segments that a following `..` does not remove (the crate keeps drive letters such as `C:`) -/
  keeps : Str → Bool

/-- `Input::new`: C0 controls and spaces are removed at both ends, tabs and line ends everywhere. -/
def clean (s : Str) : Str :=
  (trimMatches (fun c => c.toNat ≤ 32) s).filter fun c => c != '\t' && c != '\n' && c != '\r'

/-- The loop of `parse_scheme`: the scheme in lower case, and what follows the colon. -/
def schemeLoop : Str → Option (Str × Str)
  | [] => none
  | c :: cs =>
    if c = ':' then some ([], cs)
    else if c.isAlphanum || c == '+' || c == '-' || c == '.' then (schemeLoop cs).map fun (s, r) => (asciiLower c :: s, r)
    else none

/-- `parse_scheme`. -/
def parseScheme (s : Str) : Option (Str × Str) :=
  match s with
  | [] => none
  | c :: _ => if c.isAlpha then schemeLoop s else none

/-- `SchemeType::SpecialNotFile` and `default_port`. -/
def defaultPort (scheme : Str) : Option Nat :=
  if scheme = str% "http" ∨ scheme = str% "ws" then some 80
  else if scheme = str% "https" ∨ scheme = str% "wss" then some 443
  else if scheme = str% "ftp" then some 21
  else none

/-- A byte as `%XX`. -/
def pctByte (b : UInt8) : Str :=
  let digit (n : Nat) : Char := if n < 10 then Char.ofNat (48 + n) else Char.ofNat (55 + n)
  ['%', digit (b.toNat / 16), digit (b.toNat % 16)]

/-- `utf8_percent_encode` with the complement of a set. -/
def encode (keep : Char → Bool) (s : Str) : Str :=
  s.flatMap fun c => if keep c then [c] else (String.utf8EncodeChar c).flatMap pctByte

/-- What is not in the set `FRAGMENT`. -/
def keepFragment (c : Char) : Bool := UrlParts.graphic c && c != '"' && c != '<' && c != '>' && c != '`'
/-- What is not in the set `PATH`. -/
def keepPath (c : Char) : Bool := keepFragment c && c != '#' && c != '?' && c != '{' && c != '}'
/-- What is not in the set `USERINFO`. -/
def keepUser (c : Char) : Bool :=
  keepPath c && c != '/' && c != ':' && c != ';' && c != '=' && c != '@' && c != '[' && c != '\\' && c != ']' && c != '^' && c != '|'
/-- What is not in the set `SPECIAL_QUERY`. -/
def keepQuery (c : Char) : Bool := UrlParts.graphic c && c != '"' && c != '#' && c != '<' && c != '>' && c != '\''

/-- `/` and `\`. -/
def isSlash (c : Char) : Bool := c == '/' || c == '\\'

/-- The end of the authority. -/
def isDelim (c : Char) : Bool := isSlash c || c == '?' || c == '#'

/-- `parse_userinfo`: what precedes the last `@`, and what follows it. -/
def splitAt (auth : Str) : Option Str × Str :=
  match splitOnce '@' auth.reverse with
  | none => (none, auth)
  | some (h, u) => (some u.reverse, h.reverse)

/-- `parse_userinfo`: user name and password as they are written. An empty password leaves no colon, and an empty user name without
a password nothing at all. -/
def userinfo (u : Str) : Option Str :=
  let t := match splitOnce ':' u with
    | none => encode keepUser u
    | some (name, password) => encode keepUser name ++ if password = [] then [] else ':' :: encode keepUser password
  if t = [] then none else some t

/-- `parse_host`: up to a colon that is not in brackets. -/
def splitHost (inside : Bool) : Str → Str × Str
  | [] => ([], [])
  | c :: cs =>
    if c = ':' ∧ inside = false then ([], c :: cs)
    else
      let (h, r) := splitHost (if c = '[' then true else if c = ']' then false else inside) cs
      (c :: h, r)

/-- `parse_port`: no port for no digits or the default port; `none` = `InvalidPort`. -/
def parsePort (dflt : Nat) (digits : Str) : Option (Option Nat) :=
  if digits.all Char.isDigit ∧ Sfv.digitsVal digits < 65536 then
    some (if digits = [] ∨ Sfv.digitsVal digits = dflt then none else some (Sfv.digitsVal digits))
  else none

/-- `parse_userinfo` and `parse_host_and_port`. -/
def parseAuthority (E : Env) (dflt : Nat) (auth : Str) : Option Authority :=
  let (u, hp) := splitAt auth
  let (h, r) := splitHost false hp
  if h = [] then none
  else
    match E.host h with
    | none => none
    | some h =>
      if h.1 = [] then none
      else (parsePort dflt (r.drop 1)).map fun port => { userinfo := u.bind userinfo, host := h.1, port := port }

/-- Segments that mean "here", and "up". -/
def isDot (s : Str) : Bool := s.map asciiLower == str% "." || s.map asciiLower == str% "%2e"
@[inherit_doc isDot]
def isDotDot (s : Str) : Bool :=
  s.map asciiLower == str% ".." || s.map asciiLower == str% ".%2e" || s.map asciiLower == str% "%2e." || s.map asciiLower == str% "%2e%2e"

/-- `shorten_path`, on the segments so far, last one first. -/
def up (keeps : Str → Bool) : List Str → List Str
  | [] => []
  | s :: done => if keeps s then s :: done else done

/-- The loop of `parse_path`: `done` are the segments so far, last one first; the result too. -/
def walk (keeps : Str → Bool) (done : List Str) : List Str → List Str
  | [] => done
  | [s] => if isDotDot s then [] :: up keeps done else if isDot s then [] :: done else s :: done
  | s :: t :: rest =>
    if isDotDot s then walk keeps (up keeps done) (t :: rest)
    else if isDot s then walk keeps done (t :: rest)
    else walk keeps (s :: done) (t :: rest)

/-- `parse_path_start` and `parse_path`. A backslash is a slash. -/
def parsePath (E : Env) (p : Str) : Str :=
  let raw := splitOn '/' ((p.drop 1).map fun c => if c = '\\' then '/' else c)
  (walk E.keeps [] (raw.map (encode keepPath))).reverse.flatMap ('/' :: ·)

/-- `parse_query_and_fragment`. -/
def parseTail (t : Str) : Option Str × Option Str :=
  let q := match t with
    | '?' :: r => some (encode keepQuery (r.takeWhile (· != '#')))
    | _ => none
  let f := match t.dropWhile (· != '#') with
    | '#' :: r => some (encode keepFragment r)
    | _ => none
  (q, f)

/-- `after_double_slash`. -/
def parseParts (E : Env) (scheme : Str) (dflt : Nat) (rest : Str) : Option UrlParts :=
  let r := rest.dropWhile isSlash
  let after := r.dropWhile fun c => !isDelim c
  (parseAuthority E dflt (r.takeWhile fun c => !isDelim c)).map fun a =>
    let (q, f) := parseTail (after.dropWhile fun c => c != '?' && c != '#')
    { scheme := scheme, authority := some a, path := parsePath E (after.takeWhile fun c => c != '?' && c != '#'),
      query := q, fragment := f }

/-- `str::parse::<Url>()`: `Url::options().parse(…)`, `parse_url`, `parse_with_scheme`. (The test of `valid` always succeeds:
`parseParts_valid`.) -/
def parse (E : Env) (s : Str) : UrlParse :=
  match parseScheme (clean s) with
  | none => .relative
  | some (scheme, rest) =>
    match defaultPort scheme with
    | none =>
      match E.other scheme rest with
      | some u => .ok u
      | none => .bad
    | some d =>
      match parseParts E scheme d rest with
      | some p => if h : p.valid = true then .ok ⟨p, h⟩ else .bad
      | none => .bad

end UrlParser
end Httpsig
