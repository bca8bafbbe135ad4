import Verif.Spec.Verify
import Verif.Spec.Grammar
import Verif.Spec.Query
import Verif.Spec.UrlRequest
import Verif.Model.Mock
/-
Specification of what the validator's verification accepts, from the texts of a request alone: field lines, the grammar of structured
fields, the URL and the body. Nothing here refers to functions of the library.
-/
namespace Httpsig
open Sfv
variable [Deps]

/-- The first field line called `n`. -/
def FirstLine (r : MockRequest) (n : HeaderName) (v : HeaderValue) : Prop :=
  ∃ before after, r.headers = before ++ (n, v) :: after ∧ ∀ e ∈ before, e.1 ≠ n

/-- The text of the first field line called `n`. A value with other than visible characters counts as empty. -/
inductive FieldText (r : MockRequest) (n : HeaderName) : Str → Prop
  | visible {v : HeaderValue} {s : Str} : FirstLine r n v → v.bytes = utf8 s → (∀ c ∈ s, isVisibleChar c = true) → FieldText r n s
  | other {v : HeaderValue} : FirstLine r n v → (∀ s, v.bytes = utf8 s → ∃ c ∈ s, isVisibleChar c = false) → FieldText r n []

/-- The value of a component of the request. The validator knows no authority. -/
inductive ComponentValue (r : MockRequest) : SignatureComponent → Str → Prop
  | field {n : HeaderName} {s : Str} : FieldText r n s → ComponentValue r (.header n) s
  | derived {d : DerivedComponent} {n s : Str} : d.Called n → (n, some s) ∈ derivedTable none r.method r.url →
      ComponentValue r (.derived d) s
  | param {d : DerivedComponent} {name : Str} {ps : List (Str × Str)} {vs : List Str} : d.Called (str% "@query-params") →
      d.HasParam (str% "name") name → QueryIs (utf8 (r.url.query.getD [])) ps → Selected name ps vs →
      ComponentValue r (.derived d) (joinLines vs)

/-- The text `v` is a dictionary whose first member is called `label` and is the list `l` of the components `comps`. -/
def InputText (v label : Str) (l : InnerList) (comps : List SignatureComponent) : Prop :=
  ∃ d, Grammar.Dict v d ∧ d.head? = some (label, .innerList l) ∧ Forall2 Grammar.ComponentText l.items comps

/-- The request presents the signature text `sig` for the list `l` of components `comps`, with a key and an algorithm. -/
structure Presents (r : MockRequest) (l : InnerList) (comps : List SignatureComponent) (sig keyId : Str) : Prop where
  fields : ∃ label v w, FieldText r hSignatureInput v ∧ InputText v label l comps ∧ FieldText r hSignature w ∧ SignatureHeader w label sig
  keyid : (str% "keyid", BareItem.string keyId) ∈ l.params
  alg : ∃ a, (str% "alg", BareItem.string a) ∈ l.params

/-- And it is valid: in time, and a key accepts the signature for the text made of the components and their values. -/
structure ValidlySigned (r : MockRequest) (config : VerifyingConfig) (env : VerifyEnv) (l : InnerList) (comps : List SignatureComponent)
    (sig keyId : Str) : Prop extends Presents r l comps sig keyId where
  clock : 0 ≤ env.sysNow
  created : ∀ t, (str% "created", BareItem.integer t) ∈ l.params → t ≤ env.sysNow / 1000000000
  expires : ∀ t, (str% "expires", BareItem.integer t) ∈ l.params → env.sysNow / 1000000000 ≤ t
  key : ∃ vals ids lids ps, Forall2 (ComponentValue r) comps vals ∧ Forall2 Ident comps ids ∧ Forall2 ListIdent comps lids ∧
    ParamsText l.params ps ∧ ∃ k ∈ config.keyProvider keyId, k.verify (utf8 (specBase ids lids vals ps)) sig = true

/-- The text of a component: the name of a field, and a structured field for a derived component. -/
inductive Printed : SignatureComponent → Str → Prop
  | header {h : HeaderName} : Printed (.header h) h.str
  | derived {d : DerivedComponent} {s : Str} : WrittenItem d.item s → Printed (.derived d) s

/-- One of the components has a name that is the text of `q`. -/
def Demanded (comps : List SignatureComponent) (q : SignatureComponent) : Prop :=
  ∃ s, Printed q s ∧ ∃ k ∈ comps, (itemOf k).bare = .string s

/-- The date of the signature is within the leeway, if dates are looked at. -/
def DateNear (config : VerifyingConfig) (env : VerifyEnv) (l : InnerList) : Prop :=
  config.validateDate = true → ∃ t, (str% "date", BareItem.integer t) ∈ l.params ∧ Deps.timestampInRange t = true ∧
    t * 1000000000 - env.utcNow ≤ config.dateLeeway ∧ env.utcNow - t * 1000000000 ≤ config.dateLeeway

/-- The digest of the body is the one in the request, if there is one and digests are looked at; there is one or no body, if digests
are required. -/
def DigestMatches (r : MockRequest) (config : VerifyingConfig) : Prop :=
  (∃ t, FieldText r hDigest t ∧ (config.validateDigest = true → ∃ alg value body, FirstSupported config.digestProvider t alg value ∧
    r.body = some body ∧ alg.digest body = value)) ∨
  ((∀ t, ¬ FieldText r hDigest t) ∧ (config.requireDigest = true → r.body = none))

/-- What is accepted. -/
def Acceptable (r : MockRequest) (config : VerifyingConfig) (env : VerifyEnv) (keyId : Str) : Prop :=
  ∃ l comps sig, ValidlySigned r config env l comps sig keyId ∧ (∀ q ∈ config.requiredComponents, Demanded comps q) ∧
    DateNear config env l ∧ DigestMatches r config

/-- What makes verification panic: a `Signature-Input` field that is not such a dictionary; a clock before 1970; a component of the
configuration that has no text. -/
def Upsetting (r : MockRequest) (config : VerifyingConfig) (env : VerifyEnv) : Prop :=
  (∃ v, FieldText r hSignatureInput v ∧ ∀ label l comps, ¬ InputText v label l comps) ∨
  (env.sysNow < 0 ∧ ∃ l comps sig keyId, Presents r l comps sig keyId) ∨
  ∃ l comps sig keyId, ValidlySigned r config env l comps sig keyId ∧ ∃ before q after, config.requiredComponents = before ++ q :: after ∧
    (∀ s, ¬ Printed q s) ∧ ∀ p ∈ before, Demanded comps p

end Httpsig
