import Verif.Sfv.Parse
import Verif.Url
/-
A reader for printed URLs. It is not the parser of the `url` crate, which also accepts and repairs many other texts. It shows
that a printed URL has only one reading, and serves as `parseUrl` in the examples.
-/
namespace Httpsig

/-- A text that can be a query. -/
structure QueryText where
  text : Str
  ok : text.all UrlParts.queryChar = true := by rfl

/-- A URL with another query. -/
def Url.withQuery (u : Url) (q : QueryText) : Url where
  toUrlParts := { u.toUrlParts with query := some q.text }
  ok := by
    have := u.ok
    unfold UrlParts.valid at this ⊢
    simp only [Bool.and_eq_true] at this ⊢
    exact ⟨⟨this.1.1, q.ok⟩, this.2⟩

/-- A URL without its query. -/
def Url.withoutQuery (u : Url) : Url where
  toUrlParts := { u.toUrlParts with query := none }
  ok := by
    have := u.ok
    unfold UrlParts.valid at this ⊢
    simp only [Bool.and_eq_true] at this ⊢
    exact ⟨⟨this.1.1, trivial⟩, this.2⟩

/-- The text before the first `c`, and the text after it. -/
def cut (c : Char) (s : Str) : Str × Option Str :=
  match splitOnce c s with
  | some (a, b) => (a, some b)
  | none => (s, none)

/-- The part that ends in `@`, and what follows. -/
def cutUserinfo (s : Str) : Option Str × Str :=
  match splitOnce '@' s with
  | some (u, r) => (some u, r)
  | none => (none, s)

/-- The reading of `host:port`. -/
def cutPort (r : Str) : Str × Option Str :=
  if (str% "[").isPrefixOf r then (r.takeWhile (· != ']') ++ str% "]", ((r.dropWhile (· != ']')).drop 1).tail?)
  else cut ':' r

/-- The reading of `userinfo@host:port`. -/
def readAuthority (s : Str) : Authority where
  userinfo := (cutUserinfo s).1
  host := (cutPort (cutUserinfo s).2).1
  port := (cutPort (cutUserinfo s).2).2.map Sfv.digitsVal

/-- The reading of what is between scheme and query. -/
def readHier (r : Str) : Option Authority × Str :=
  if (str% "//").isPrefixOf r then (some (readAuthority ((r.drop 2).takeWhile (· != '/'))), (r.drop 2).dropWhile (· != '/'))
  else (none, if (str% "/.//").isPrefixOf r then r.drop 2 else r)

/-- The reading of a printed URL. -/
def readUrl (s : Str) : UrlParts :=
  let (scheme, r) := cut ':' s
  let (r, fragment) := cut '#' (r.getD [])
  let (r, query) := cut '?' r
  { scheme := scheme, authority := (readHier r).1, path := (readHier r).2, query := query, fragment := fragment }

/-- The printed URLs, read. -/
def plainParseUrl (s : Str) : UrlParse :=
  if (str% "/").isPrefixOf s then .relative
  else if h : (readUrl s).valid = true then (if (readUrl s).text = s then .ok ⟨readUrl s, h⟩ else .bad) else .bad

end Httpsig
