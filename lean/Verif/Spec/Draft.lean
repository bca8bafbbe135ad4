import Verif.Spec.Wire
import Verif.Spec.Grammar
/-
The parts of draft-ietf-httpbis-message-signatures that the README names as what this crate implements: values of components
(sections 2.1 and 2.2), the signature base (2.5), the types of the signature parameters (2.3) and the check of a signature (3.2).
-/
namespace Httpsig
open Sfv

/-- Optional white space (RFC 9110, 5.6.3). -/
def isOws (c : Char) : Bool := c == ' ' || c == '\t'

/-- A text without upper-case letters. -/
def NoUpper (s : Str) : Prop := ∀ c ∈ s, c.isUpper = false

variable [Deps]

/-- A request message. -/
structure Message where
  method : Method
  url : UrlParts
  fields : HeaderMap

/-- The value of a field, from the values of its lines in order (2.1): white space at the ends of each is removed, and they are
joined by a comma and a space. -/
inductive FieldValue : List HeaderValue → Str → Prop
  | one {v : HeaderValue} {s t : Str} : v.toStr = some s → Trimmed isOws s t → FieldValue [v] t
  | more {v : HeaderValue} {vs : List HeaderValue} {s t u : Str} : v.toStr = some s → Trimmed isOws s t → FieldValue vs u →
      FieldValue (v :: vs) (t ++ str% ", " ++ u)

/-- The value of a component (2.1, 2.2.1 to 2.2.7). The URL has its port only if it is not the default port. `@status` is for
responses; query parameters are left out, because the draft calls the component `@query-param`. -/
inductive DraftValue (m : Message) : SignatureComponent → Str → Prop
  | field {n : HeaderName} {s : Str} : FieldValue (m.fields.getAll n) s → DraftValue m (.header n) s
  | method : DraftValue m (.derived (.new (str% "@method"))) m.method.str
  | targetUri {a : Authority} : m.url.authority = some a → DraftValue m (.derived (.new (str% "@target-uri"))) (m.url.targetUri a)
  | authority {a : Authority} : m.url.authority = some a →
      DraftValue m (.derived (.new (str% "@authority"))) (lowered a.hostPort)
  | scheme : DraftValue m (.derived (.new (str% "@scheme"))) (lowered m.url.scheme)
  | requestTarget : DraftValue m (.derived (.new (str% "@request-target")))
      ((if m.url.path = [] then str% "/" else m.url.path) ++ markedText '?' m.url.query)
  | path : DraftValue m (.derived (.new (str% "@path"))) (if m.url.path = [] then str% "/" else m.url.path)
  | query : DraftValue m (.derived (.new (str% "@query"))) ('?' :: m.url.query.getD [])

/-- The signature base (2.5): a line for each covered component, none of them twice, and the line of the parameters. -/
def DraftBase (m : Message) (comps : List SignatureComponent) (params : Params) (base : Str) : Prop :=
  comps.Nodup ∧ ∃ vals ids ps, Forall2 (DraftValue m) comps vals ∧ Forall2 Ident comps ids ∧ Forall2 ListIdent comps ids ∧
    ParamsText params ps ∧ base = specBase ids ids vals ps

/-- The requests on which the library computes the value that the draft gives to a component. -/
inductive Regular (m : Message) : SignatureComponent → Prop
  /-- one line for the field, without white space at the ends -/
  | field {n : HeaderName} {v : HeaderValue} {s : Str} : m.fields.getAll n = [v] → v.toStr = some s → Trimmed isOws s s →
      Regular m (.header n)
  | method : Regular m (.derived (.new (str% "@method")))
  /-- no user information, no fragment -/
  | targetUri {a : Authority} : m.url.authority = some a → a.userinfo = none → m.url.fragment = none →
      Regular m (.derived (.new (str% "@target-uri")))
  /-- no port, and a host in lower case -/
  | authority {a : Authority} : m.url.authority = some a → a.host ≠ [] → a.port = none → NoUpper a.host →
      Regular m (.derived (.new (str% "@authority")))
  | scheme : Regular m (.derived (.new (str% "@scheme")))
  | path : m.url.path ≠ [] → Regular m (.derived (.new (str% "@path")))
  /-- there is a query -/
  | query {q : Str} : m.url.query = some q → Regular m (.derived (.new (str% "@query")))

/-- The parameters have the types that the draft gives them (2.3). -/
def ParamTypes (ps : Params) : Prop :=
  (∀ n ∈ [str% "created", str% "expires"], ∀ v, (n, v) ∈ ps → ∃ t, v = .integer t) ∧
  ∀ n ∈ [str% "nonce", str% "alg", str% "keyid", str% "tag"], ∀ v, (n, v) ∈ ps → ∃ s, v = .string s

/-- The cryptographic check of the signature named `label` (3.2), with `check message signature`: the fields `Signature-Input`
and `Signature` are dictionaries with a member of this name, an inner list of components with parameters and a byte sequence;
and the bytes are a signature of the signature base. -/
def DraftAccepts (m : Message) (label : Str) (check : Bytes → Bytes → Bool) : Prop :=
  ∃ inText sigText d e comps params tag base, FieldValue (m.fields.getAll hSignatureInput) inText ∧
    FieldValue (m.fields.getAll hSignature) sigText ∧ Grammar.Dict inText d ∧ Grammar.Dict sigText e ∧
    (label, .innerList ⟨comps.map itemOf, params⟩) ∈ d ∧ (∃ ps, (label, .item ⟨.byteSeq tag, ps⟩) ∈ e) ∧
    ParamTypes params ∧ DraftBase m comps params base ∧ check (utf8 base) tag = true

/-- The message of a request. -/
def ReqwestRequest.message (r : ReqwestRequest) : Message := ⟨r.method, r.url.toUrlParts, r.headers⟩
@[inherit_doc ReqwestRequest.message] def MockRequest.message (r : MockRequest) : Message := ⟨r.method, r.url.toUrlParts, r.headers⟩

end Httpsig
