import Verif.Sfv.Parse
/-
Specification vocabulary for structured fields: which values have a faithful textual form.
Written from RFC 8941, independently of the serialiser's control flow.
-/
namespace Httpsig.Sfv

/-- The decimal that a reader of the rendered text obtains: rounded to three places, `x` written as `x.0`. -/
def _root_.Httpsig.Decimal.norm (d : Decimal) : Decimal :=
  let r := Decimal.round3 d
  if r.mant % 10 ^ r.scale = 0 then { neg := r.neg, mant := r.mant / 10 ^ r.scale * 10, scale := 1 } else r

@[inherit_doc Decimal.norm]
def _root_.Httpsig.BareItem.norm : BareItem → BareItem
  | .decimal d => .decimal d.norm
  | b => b

@[inherit_doc Decimal.norm]
def normParams (ps : Params) : Params := ps.map fun (k, v) => (k, v.norm)

@[inherit_doc Decimal.norm]
def normItem (i : Item) : Item := { bare := i.bare.norm, params := normParams i.params }

@[inherit_doc Decimal.norm]
def normInner (l : InnerList) : InnerList := { items := l.items.map normItem, params := normParams l.params }

@[inherit_doc Decimal.norm]
def normEntry : ListEntry → ListEntry
  | .item i => .item (normItem i)
  | .innerList l => .innerList (normInner l)

@[inherit_doc Decimal.norm]
def normDict (d : Dictionary) : Dictionary := d.map fun (k, e) => (k, normEntry e)

/-- RFC 8941 key: non-empty, starts with a lower-case letter or `*`. -/
def KeyOk (k : Str) : Prop :=
  ∃ c cs, k = c :: cs ∧ isKeyStart c = true ∧ cs.all isKeyChar = true

/-- RFC 8941 bare items. -/
def BareOk : BareItem → Prop
  | .decimal d => d.scale ≤ 3 ∧ d.mant / 10 ^ d.scale ≤ 999999999999
  | .integer i => -maxInt ≤ i ∧ i ≤ maxInt
  | .string s => s.all isStringChar = true
  | .byteSeq _ => True
  | .boolean _ => True
  | .token t => ∃ c cs, t = c :: cs ∧ isTokenStart c = true ∧ cs.all isTokenChar = true

/-- The two things the serialiser accepts although RFC 8941 has no such values: an empty token and a decimal with
more than three fractional digits (which it rounds). -/
def BareTidy (b : BareItem) : Prop := b ≠ .token [] ∧ ∀ d, b = .decimal d → d.scale ≤ 3

/-- RFC 8941 parameters: distinct keys, well-formed keys and values. -/
def ParamsOk (ps : Params) : Prop := IMap.NodupKeys ps ∧ ∀ e ∈ ps, KeyOk e.1 ∧ BareOk e.2

@[inherit_doc ParamsOk]
def ItemOk (i : Item) : Prop := BareOk i.bare ∧ ParamsOk i.params

@[inherit_doc ParamsOk]
def InnerOk (l : InnerList) : Prop := (∀ i ∈ l.items, ItemOk i) ∧ ParamsOk l.params

@[inherit_doc ParamsOk]
def EntryOk : ListEntry → Prop
  | .item i => ItemOk i
  | .innerList l => InnerOk l

/-- RFC 8941 dictionary with at least one member. -/
def DictOk (d : Dictionary) : Prop := d ≠ [] ∧ IMap.NodupKeys d ∧ ∀ e ∈ d, KeyOk e.1 ∧ EntryOk e.2

end Httpsig.Sfv
