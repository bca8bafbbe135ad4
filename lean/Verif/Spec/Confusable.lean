import Verif.Spec.Base
import Verif.Spec.Query
/-
When the text of a signature base can be read in two ways (C05, C36).
-/
namespace Httpsig
variable [Deps]

/-- `t` occurs in `v`. -/
def Occurs (t v : Str) : Prop := ∃ a b, v = a ++ t ++ b

/-- What a line with this identifier begins with, after the line before it. -/
def lineStart (id : Str) : Str := '\n' :: id ++ str% ": "

/-- Lines of identifiers and values in which a value contains the start of a line: of the line after it, or (unless it is
the first) of its own. -/
def ConfusableText (ids vals : List Str) : Prop :=
  ∃ (i j : Nat) (v id : Str), vals[i]? = some v ∧ ids[j]? = some id ∧ (j = i + 1 ∨ j = i ∧ 0 < i) ∧ Occurs (lineStart id) v

/-- A request on which the value of a covered component contains the start of a line of the signature base: of the line
of the next component, or (unless it is the first) of its own line. -/
def Confusable {R : Type} [RequestLike R] (r : R) (comps : List SignatureComponent) : Prop :=
  ∃ (i j : Nat) (k l : SignatureComponent) (v id : Str), comps[i]? = some k ∧ comps[j]? = some l ∧ (j = i + 1 ∨ j = i ∧ 0 < i) ∧
    RequestLike.derive r k = .ok (some v) ∧ Ident l id ∧ Occurs (lineStart id) v

/-- URLs whose decoded query values contain no double quote. -/
def Url.QuoteFree (u : Url) : Prop := ∃ ps, QueryIs (utf8 (u.query.getD [])) ps ∧ ∀ p ∈ ps, '"' ∉ p.2

/-- A request that is nothing but a table of component values. -/
structure Table where
  value : SignatureComponent → Option Str

instance : RequestLike Table where
  derive t k := .ok (t.value k)
  hasComponent t k := .ok (t.value k).isSome

end Httpsig
