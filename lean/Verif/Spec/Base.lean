import Verif.Model.Canonicalize
import Verif.Spec.Render
/-
Specification of the signature base, independent of `canonicalize`'s control flow.
-/
namespace Httpsig
variable [Deps]

/-- The item a component stands for in a list: a header name stands for its name without parameters. -/
def itemOf : SignatureComponent → Item
  | .header h => ⟨.string h.str, []⟩
  | .derived d => d.item

/-- The identifier text at the start of a line: the name in double quotes, followed by the parameters if the
component is derived. -/
inductive Ident : SignatureComponent → Str → Prop
  | header (h : HeaderName) : Ident (.header h) ('"' :: h.str ++ ['"'])
  | derived (d : DerivedComponent) (s : Str) : WrittenItem d.item s → Ident (.derived d) s

/-- The identifier text in the list of covered components: a structured-field item. It is the same text as `Ident`
except for header names containing a double quote (if the `http` crate admits them), which are escaped here. -/
inductive ListIdent : SignatureComponent → Str → Prop
  | header (h : HeaderName) : ListIdent (.header h) (quoted h.str)
  | derived (d : DerivedComponent) (s : Str) : WrittenItem d.item s → ListIdent (.derived d) s

/-- `"(" ids separated by spaces ")"`. -/
def specListText : List Str → Str
  | [] => str% "()"
  | i :: is => '(' :: i ++ (is.flatMap fun j => ' ' :: j) ++ [')']

/-- Lines `identifier: value`, each ended by a newline. -/
def specLines : List Str → List Str → Str
  | i :: is, v :: vs => i ++ ':' :: ' ' :: v ++ '\n' :: specLines is vs
  | _, _ => []

/-- The whole signature base as text, given the identifiers (as used in lines and in the list), the values and the
rendered parameters. -/
def specBase (ids lids vals : List Str) (ps : Str) : Str :=
  specLines ids vals ++ (str% "\"@signature-params\": ") ++ specListText lids ++ ps

/-- The value of every component on the request, in order. -/
def Values {R : Type} [RequestLike R] (req : R) (comps : List SignatureComponent) (vals : List Str) : Prop :=
  comps.map (fun k => RequestLike.derive req k) = vals.map fun v => .ok (some v)

/-- The component does not have a value with a newline on this request. -/
def OneLine {R : Type} [RequestLike R] (req : R) (k : SignatureComponent) : Prop :=
  ∀ v, RequestLike.derive req k = .ok (some v) → '\n' ∉ v

/-- Of two requests, each with a list of components: there is at most one position at which a component has a value with a
newline. -/
def AtMostOneLong {R S : Type} [RequestLike R] [RequestLike S] (r : R) (cs : List SignatureComponent) (s : S)
    (ds : List SignatureComponent) : Prop :=
  ∀ i j : Nat, i ≠ j → ((∀ k ∈ cs[i]?, OneLine r k) ∧ ∀ k ∈ ds[i]?, OneLine s k) ∨
    ((∀ k ∈ cs[j]?, OneLine r k) ∧ ∀ k ∈ ds[j]?, OneLine s k)

/-- Values of components on a request, with panics and absence mapped to `none`. -/
def valueOf {R : Type} [RequestLike R] (req : R) (k : SignatureComponent) : Option Str :=
  match RequestLike.derive req k with
  | .ok v => v
  | .error _ => none

/-- Visible ASCII, the characters of a readable header value. -/
def isVisibleChar (c : Char) : Bool := (32 ≤ c.toNat && c.toNat < 127) || c.toNat == 9

end Httpsig
