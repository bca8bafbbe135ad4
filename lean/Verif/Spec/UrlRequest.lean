import Verif.Spec.Base
import Verif.Spec.Query
/-
Requests whose derived components come from a URL.
-/
namespace Httpsig

/-- The documented values of derived components on a request with the given host, method and URL
(src/derived.rs module documentation; `@query-params` apart). -/
def derivedTable (host : Option Str) (m : Method) (u : Url) : List (Str × Option Str) :=
  [(str% "@method", some m.str), (str% "@target-uri", some u.asStr), (str% "@request-target", some u.asStr),
   (str% "@scheme", some u.scheme), (str% "@path", some u.path), (str% "@query", u.query.map ('?' :: ·)),
   (str% "@authority", host)]

variable [Deps]

/-- The header values of the request are single lines, and the values of its derived components are those of the URL `u`
(and of some method, and of some host that is a single line). -/
structure OfUrl {R : Type} [RequestLike R] (r : R) (u : Url) : Prop where
  header : ∀ n v, RequestLike.derive r (.header n) = .ok (some v) → '\n' ∉ v
  derived : ∃ (host : Option Str) (m : Method), (∀ h, host = some h → '\n' ∉ h) ∧
    ∀ d v, RequestLike.derive r (.derived d) = .ok (some v) → ∃ n, d.Called n ∧
      ((n, some v) ∈ derivedTable host m u ∨
        n = str% "@query-params" ∧ ∃ field ps vs, d.HasParam (str% "name") field ∧
          QueryIs (utf8 (u.query.getD [])) ps ∧ Selected field ps vs ∧ v = joinLines vs)

/-- Components that cover the whole query of a URL, when they are listed without parameters. -/
def coversQuery (k : SignatureComponent) : Prop :=
  k = .derived (.new (str% "@query")) ∨ k = .derived (.new (str% "@target-uri")) ∨ k = .derived (.new (str% "@request-target"))

end Httpsig
