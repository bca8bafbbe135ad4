import Verif.Spec.Cli
/-
The format of request files, as a grammar: what the validator reads (C60).
-/
namespace Httpsig
variable [Deps]

/-- The text `l` is the first line of `input`, without its line feed, and `rest` is what follows. The last line of a file
need not end with a line feed. -/
inductive TextLine : Bytes → Str → Bytes → Prop
  | full {l : Str} {rest : Bytes} : '\n' ∉ l → TextLine (utf8 l ++ 10 :: rest) l rest
  | last {l : Str} : '\n' ∉ l → TextLine (utf8 l) l []

/-- The header lines of a file in order, and the body if there is one: header lines have the form `name: value`, with
any white space around name and value; they end at the end of the file (then there is no body) or at the first line of
nothing but white space (then everything after it is the body). -/
inductive HeaderBlock : Bytes → List (HeaderName × HeaderValue) → Option Bytes → Prop
  | endOfFile : HeaderBlock [] [] none
  | blank {input rest : Bytes} {l : Str} : input ≠ [] → TextLine input l rest → (∀ c ∈ l, whiteSpace c = true) →
      HeaderBlock input [] (some rest)
  | header {input rest : Bytes} {n v n' v' : Str} {name : HeaderName} {value : HeaderValue}
      {hs : List (HeaderName × HeaderValue)} {body : Option Bytes} :
      TextLine input (n ++ ':' :: v) rest → ':' ∉ n → Trimmed whiteSpace n n' → Trimmed whiteSpace v v' →
      name.str = lowered n' → value.bytes = utf8 v' → HeaderBlock rest hs body →
      HeaderBlock input ((name, value) :: hs) body

/-- Every name once, in the order in which the names appear, each with the last of its values. -/
def LastValues (lines headers : List (HeaderName × HeaderValue)) : Prop :=
  headers.map Prod.fst = (lines.map Prod.fst).eraseDups ∧
  ∀ n, ((headers.filter fun e => e.1 = n).map Prod.snd) = ((lines.filter fun e => e.1 = n).map Prod.snd).getLast?.toList

/-- How versions are written. -/
def versionText : Version → Str
  | .http09 => str% "HTTP/0.9"
  | .http10 => str% "HTTP/1.0"
  | .http11 => str% "HTTP/1.1"
  | .http2 => str% "HTTP/2.0"
  | .http3 => str% "HTTP/3.0"

/-- A file containing a request, apart from its URL: method, path and version are the first three words of the first line
(further words are ignored), followed by headers and body. -/
structure RequestText (input : Bytes) (method : Method) (path : Str) (version : Version) (headers : HeaderMap)
    (body : Option Bytes) : Prop where
  parts : ∃ line rest more lines, TextLine input line rest ∧
    Words line (method.str :: path :: versionText version :: more) ∧ HeaderBlock rest lines body ∧ LastValues lines headers

/-- A file containing a request. -/
def RequestFile (input : Bytes) (r : MockRequest) : Prop :=
  RequestText input r.method r.path r.version r.headers r.body ∧ UrlOf r.path r.headers r.url

end Httpsig
