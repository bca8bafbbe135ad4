import Verif.Spec.Sfv
import Verif.Model.Canonicalize
/-
Specification vocabulary for component lists and configurations.
-/
namespace Httpsig
open Sfv

/-- Two lists of the same length, related position by position. -/
inductive Forall2 {α β : Type} (R : α → β → Prop) : List α → List β → Prop
  | nil : Forall2 R [] []
  | cons {a b as bs} : R a b → Forall2 R as bs → Forall2 R (a :: as) (b :: bs)

/-- A value whose rendering reads back as itself: not the empty token (sfv renders it as nothing), and a
decimal in the form readers produce. -/
def BareClean (b : BareItem) : Prop := b ≠ .token [] ∧ b.norm = b

/-- Parameters that read back as themselves: distinct non-empty names, clean values. -/
def ParamsClean (ps : Params) : Prop := IMap.NodupKeys ps ∧ ∀ e ∈ ps, e.1 ≠ [] ∧ BareClean e.2

/-- Parameters without the two kinds of values that sfv renders unfaithfully (an empty name, an empty token) and
without decimals that sfv rounds. -/
def ParamsTidy (ps : Params) : Prop := IMap.NodupKeys ps ∧ ∀ e ∈ ps, e.1 ≠ [] ∧ BareTidy e.2

/-- A value that a text can carry: not the empty token, and no decimal that needs more than three fractional digits. -/
def BareFaithful (b : BareItem) : Prop := b ≠ .token [] ∧ ∀ d, b = .decimal d → d.mant * 1000 % 10 ^ d.scale = 0

/-- Parameters that a text can carry: distinct non-empty names, values of that kind. -/
def ParamsFaithful (ps : Params) : Prop := IMap.NodupKeys ps ∧ ∀ e ∈ ps, e.1 ≠ [] ∧ BareFaithful e.2

/-- Derived components whose identifier is recognisable as derived: a string starting with `@`. -/
def DerivedComponent.Named (d : DerivedComponent) : Prop := ∃ cs, d.item.bare = .string ('@' :: cs)

/-- The ways user code can obtain a `DerivedComponent` (its field is private, src/derived.rs:53-56):
`new`, `with_param`, `FromStr`, `From<Item>` inside a `SignatureComponent`, and directly `From<Item>`. -/
inductive DerivedComponent.Reachable [Deps] : DerivedComponent → Prop
  | new (name : Str) : Reachable (.new name)
  | withParam {d : DerivedComponent} (k v : Str) : Reachable d → Reachable (d.withParam k v)
  | fromStr {s : Str} {d : DerivedComponent} : DerivedComponent.fromStr s = .ok d → Reachable d
  | component {i : Item} {d : DerivedComponent} : SignatureComponent.ofItem i = .ok (.derived d) → Reachable d
  | item (i : Item) : Reachable (.ofItem i)

/-- The same without the direct conversion from items that are not strings. -/
inductive DerivedComponent.ReachableNamed [Deps] : DerivedComponent → Prop
  | new (name : Str) : ReachableNamed (.new name)
  | withParam {d : DerivedComponent} (k v : Str) : ReachableNamed d → ReachableNamed (d.withParam k v)
  | fromStr {s : Str} {d : DerivedComponent} : DerivedComponent.fromStr s = .ok d → ReachableNamed d
  | component {i : Item} {d : DerivedComponent} : SignatureComponent.ofItem i = .ok (.derived d) → ReachableNamed d
  | item {i : Item} {s : Str} : i.bare = .string s → ReachableNamed (.ofItem i)

section
variable [Deps]

/-- Derived components whose name starts with `@` and whose parameters are tidy. -/
def ComponentTidy : SignatureComponent → Prop
  | .header _ => True
  | .derived d => d.Named ∧ ParamsTidy d.item.params

/-- Components that a text can carry. -/
def ComponentFaithful : SignatureComponent → Prop
  | .header _ => True
  | .derived d => d.Named ∧ ParamsFaithful d.item.params

/-- Components that read back as themselves. -/
def ComponentClean : SignatureComponent → Prop
  | .header _ => True
  | .derived d => d.Named ∧ ParamsClean d.item.params

/-- Decimals equal as numbers, everything else identical. -/
def BareItem.Same : BareItem → BareItem → Prop
  | .decimal a, .decimal b =>
    (if a.neg then -1 else 1 : Int) * (a.mant * 10 ^ b.scale : Nat) =
      (if b.neg then -1 else 1) * (b.mant * 10 ^ a.scale : Nat)
  | a, b => a = b

/-- Same names in the same order, same values. -/
def ParamsSame : Params → Params → Prop := Forall2 fun a b => a.1 = b.1 ∧ BareItem.Same a.2 b.2

/-- Same component. -/
def ComponentSame : SignatureComponent → SignatureComponent → Prop
  | .header a, .header b => a = b
  | .derived a, .derived b => BareItem.Same a.item.bare b.item.bare ∧ ParamsSame a.item.params b.item.params
  | _, _ => False

/-- Same label, same components in the same order, same parameters in the same order. -/
def CanonicalizeConfig.Same (a b : CanonicalizeConfig) : Prop :=
  a.getLabel = b.getLabel ∧ Forall2 ComponentSame a.components b.components ∧
  ParamsSame a.params.params b.params.params

/-- The component has this name: its bare item is this string. -/
def DerivedComponent.Called (d : DerivedComponent) (n : Str) : Prop := d.item.bare = .string n

/-- The component has a parameter with this key, and its value is this string. -/
def DerivedComponent.HasParam (d : DerivedComponent) (key value : Str) : Prop :=
  ∃ pre post, d.item.params = pre ++ (key, .string value) :: post ∧ ∀ e ∈ pre, e.1 ≠ key

/-- The setters of `CanonicalizeConfig` (src/canonicalize.rs:84-152). -/
inductive CanonicalizeConfig.Op where
  | label (l : Str)
  | components (l : List SignatureComponent)
  | created (t : Int)
  | expires (t : Int)
  | alg (a : Str)
  | nonce (n : Str)
  | keyid (k : Str)

/-- Effect of one setter call. -/
def CanonicalizeConfig.step (c : CanonicalizeConfig) : CanonicalizeConfig.Op → CanonicalizeConfig
  | .label l => c.setLabel l
  | .components l => c.setComponents l
  | .created t => c.setCreated t
  | .expires t => c.setExpires t
  | .alg a => c.setAlg a
  | .nonce n => c.setNonce n
  | .keyid k => c.setKeyid k

/-- The configuration after a history of setter calls. -/
def CanonicalizeConfig.run (ops : List CanonicalizeConfig.Op) : CanonicalizeConfig :=
  ops.foldl CanonicalizeConfig.step {}

end
end Httpsig
