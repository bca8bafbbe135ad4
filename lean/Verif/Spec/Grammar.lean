import Verif.Spec.Base64
import Verif.Spec.Config
import Verif.Spec.Text
/-
The grammar of RFC 8941 dictionaries (sections 3.1–3.3) with the values the texts denote, written as relations
between texts and values. No function of the parser is used.
-/
namespace Httpsig.Grammar

/-- `lcalpha`. -/
def Lcalpha (c : Char) : Prop := 97 ≤ c.toNat ∧ c.toNat ≤ 122
/-- `ALPHA`. -/
def Alpha (c : Char) : Prop := Lcalpha c ∨ (65 ≤ c.toNat ∧ c.toNat ≤ 90)
/-- `DIGIT`. -/
def Digit (c : Char) : Prop := 48 ≤ c.toNat ∧ c.toNat ≤ 57

/-- `key = ( lcalpha / "*" ) *( lcalpha / DIGIT / "_" / "-" / "." / "*" )`. -/
inductive Key : Str → Prop
  | mk {c : Char} {cs : Str} : (Lcalpha c ∨ c = '*') →
      (∀ d ∈ cs, Lcalpha d ∨ Digit d ∨ d ∈ (str% "_-.*")) → Key (c :: cs)

/-- `sf-token = ( ALPHA / "*" ) *( tchar / ":" / "/" )`. -/
inductive Token : Str → Prop
  | mk {c : Char} {cs : Str} : (Alpha c ∨ c = '*') →
      (∀ d ∈ cs, Alpha d ∨ Digit d ∨ d ∈ (str% "!#$%&'*+-.^_`|~:/")) → Token (c :: cs)

/-- `*chr` with `chr = unescaped / escaped`, and the text it stands for. -/
inductive Chars : Str → Str → Prop
  | nil : Chars [] []
  | unescaped {c : Char} {s t : Str} : 32 ≤ c.toNat → c.toNat ≤ 126 → c ≠ '"' → c ≠ '\\' → Chars s t → Chars (c :: s) (c :: t)
  | escaped {c : Char} {s t : Str} : c = '"' ∨ c = '\\' → Chars s t → Chars ('\\' :: c :: s) (c :: t)

/-- `*DIGIT` and the number it stands for. -/
inductive Digits : Str → Nat → Prop
  | nil : Digits [] 0
  | snoc {s : Str} {n : Nat} {c : Char} : Digits s n → Digit c → Digits (s ++ [c]) (10 * n + (c.toNat - 48))

/-- Base 64 where padding may be missing or incomplete and leftover bits are ignored: the symbols give the bits of `b` and
fewer than six more; `pad` is at most what completes a group of four. -/
def Base64Text (text : Str) (b : Bytes) : Prop :=
  ∃ (syms : Str) (pad : Nat) (extra : List Nat), text = syms ++ List.replicate pad '=' ∧ pad ≤ (4 - syms.length % 4) % 4 ∧
    (∀ c ∈ syms, c ∈ base64Alphabet) ∧
    syms.flatMap (fun c => bits 6 (base64Alphabet.idxOf c)) = b.flatMap (fun x => bits 8 x.toNat) ++ extra ∧ extra.length < 6

/-- `["-"]`. -/
def sign (neg : Bool) : Str := if neg then ['-'] else []

/-- `bare-item = sf-integer / sf-decimal / sf-string / sf-token / sf-binary / sf-boolean`. -/
inductive Bare : Str → BareItem → Prop
  | integer {s : Str} {n : Nat} (neg : Bool) : Digits s n → 1 ≤ s.length → s.length ≤ 15 →
      Bare (sign neg ++ s) (.integer (if neg then -n else n))
  | decimal {ip fp : Str} {n : Nat} (neg : Bool) : Digits (ip ++ fp) n → 1 ≤ ip.length → ip.length ≤ 12 →
      1 ≤ fp.length → fp.length ≤ 3 → Bare (sign neg ++ ip ++ '.' :: fp) (.decimal ⟨neg, n, fp.length⟩)
  | string {s t : Str} : Chars s t → Bare ('"' :: s ++ ['"']) (.string t)
  | token {s : Str} : Token s → Bare s (.token s)
  | binary {s : Str} {b : Bytes} : Base64Text s b → Bare (':' :: s ++ [':']) (.byteSeq b)
  | true : Bare ['?', '1'] (.boolean true)
  | false : Bare ['?', '0'] (.boolean false)

/-- Spaces. -/
def Sp (s : Str) : Prop := ∀ c ∈ s, c = ' '
/-- Spaces and tabs. -/
def Ows (s : Str) : Prop := ∀ c ∈ s, c = ' ' ∨ c = '\t'

/-- `parameters = *( ";" *SP key [ "=" bare-item ] )`, with the parameters in the order written. -/
inductive Parameters : Str → List (Str × BareItem) → Prop
  | nil : Parameters [] []
  | flag {w k s : Str} {ps : List (Str × BareItem)} : Sp w → Key k → Parameters s ps →
      Parameters (';' :: w ++ k ++ s) ((k, .boolean Bool.true) :: ps)
  | value {w k v s : Str} {b : BareItem} {ps : List (Str × BareItem)} : Sp w → Key k → Bare v b → Parameters s ps →
      Parameters (';' :: w ++ k ++ '=' :: v ++ s) ((k, b) :: ps)

/-- The last value written for a name. -/
def lastValue {V : Type} (l : List (Str × V)) (k : Str) : Option V := (l.reverse.find? fun e => e.1 = k).map Prod.snd

/-- What a sequence of named values amounts to: every name once, in the order of first appearance, with its last value. -/
def collect {V : Type} (l : List (Str × V)) : List (Str × V) :=
  (l.map Prod.fst).eraseDups.filterMap fun k => (lastValue l k).map fun v => (k, v)

/-- `sf-item = bare-item parameters`. -/
inductive ItemText : Str → Item → Prop
  | mk {s p : Str} {b : BareItem} {ps : List (Str × BareItem)} : Bare s b → Parameters p ps → ItemText (s ++ p) ⟨b, collect ps⟩

/-- What follows an item of an inner list: `*( 1*SP sf-item ) *SP`. -/
inductive ItemsTail : Str → List Item → Prop
  | nil {w : Str} : Sp w → ItemsTail w []
  | cons {w s t : Str} {i : Item} {is : List Item} : Sp w → w ≠ [] → ItemText s i → ItemsTail t is →
      ItemsTail (w ++ s ++ t) (i :: is)

/-- `inner-list = "(" *SP [ sf-item *( 1*SP sf-item ) *SP ] ")" parameters`. -/
inductive InnerText : Str → InnerList → Prop
  | nil {w p : Str} {ps : List (Str × BareItem)} : Sp w → Parameters p ps →
      InnerText ('(' :: w ++ ')' :: p) ⟨[], collect ps⟩
  | cons {w s t p : Str} {i : Item} {is : List Item} {ps : List (Str × BareItem)} : Sp w → ItemText s i → ItemsTail t is →
      Parameters p ps → InnerText ('(' :: w ++ s ++ t ++ ')' :: p) ⟨i :: is, collect ps⟩

/-- `dict-member = member-key ( parameters / ( "=" member-value ))`. -/
inductive Member : Str → Str → ListEntry → Prop
  | flag {k p : Str} {ps : List (Str × BareItem)} : Key k → Parameters p ps →
      Member (k ++ p) k (.item ⟨.boolean Bool.true, collect ps⟩)
  | item {k s : Str} {i : Item} : Key k → ItemText s i → Member (k ++ '=' :: s) k (.item i)
  | inner {k s : Str} {l : InnerList} : Key k → InnerText s l → Member (k ++ '=' :: s) k (.innerList l)

/-- `dict-member *( OWS "," OWS dict-member ) OWS`. -/
inductive Members : Str → List (Str × ListEntry) → Prop
  | last {s k w : Str} {e : ListEntry} : Member s k e → Ows w → Members (s ++ w) [(k, e)]
  | more {s k w w' t : Str} {e : ListEntry} {ms : List (Str × ListEntry)} : Member s k e → Ows w → Ows w' → Members t ms →
      Members (s ++ w ++ ',' :: w' ++ t) ((k, e) :: ms)

/-- A dictionary: spaces, then nothing or members. -/
inductive Dict : Str → Dictionary → Prop
  | empty {w : Str} : Sp w → Dict w []
  | mk {w s : Str} {ms : List (Str × ListEntry)} : Sp w → Members s ms → Dict (w ++ s) (collect ms)

/-- `tchar` (RFC 9110, 5.6.2). -/
def Tchar (c : Char) : Prop := Alpha c ∨ Digit c ∨ c ∈ (str% "!#$%&'*+-.^_`|~")

/-- A header name that the `http` crate takes: a token of at most 65535 characters. Some versions of the crate also take `"`. -/
def FieldName [Deps] (s : Str) : Prop :=
  s ≠ [] ∧ s.length ≤ 65535 ∧ ∀ c ∈ s, Tchar c ∨ (c = '"' ∧ Deps.dquoteHeaderChar = Bool.true)

/-- The text `s` names the header `h`, whatever the case of its letters. -/
def Names [Deps] (s : Str) (h : HeaderName) : Prop := FieldName s ∧ h.str = lowered s

/-- Reading an item as a component: names starting with `@` are derived components with their parameters, other names are
header names, whose parameters are dropped. -/
inductive ComponentText [Deps] : Item → SignatureComponent → Prop
  | derived {n : Str} {ps : Params} : ComponentText ⟨.string ('@' :: n), ps⟩ (.derived ⟨⟨.string ('@' :: n), ps⟩⟩)
  | header {n : Str} {ps : Params} {h : HeaderName} : n.head? ≠ some '@' → Names n h →
      ComponentText ⟨.string n, ps⟩ (.header h)

/-- The three-place decimal nearest to `a`, the even one if two are equally near, with the same sign: `b`, which has at
most three places, is at most half a thousandth away, and if it is exactly that far away, its last digit is even. A decimal
with at most three places stays the number it is. -/
def Rounded (a b : Decimal) : Prop :=
  a.neg = b.neg ∧ ∃ t : Nat, b.mant * 1000 = t * 10 ^ b.scale ∧
    2 * (t * 10 ^ a.scale) ≤ 2 * (a.mant * 1000) + 10 ^ a.scale ∧ 2 * (a.mant * 1000) ≤ 2 * (t * 10 ^ a.scale) + 10 ^ a.scale ∧
    (2 * (t * 10 ^ a.scale) = 2 * (a.mant * 1000) + 10 ^ a.scale ∨ 2 * (a.mant * 1000) = 2 * (t * 10 ^ a.scale) + 10 ^ a.scale →
      t % 2 = 0)

/-- Values the same up to rounding of decimals. -/
def RoundedBare : BareItem → BareItem → Prop
  | .decimal a, .decimal b => Rounded a b
  | a, b => a = b

/-- The same names in the same order, values up to rounding of decimals. -/
def RoundedParams : Params → Params → Prop := Forall2 fun a b => a.1 = b.1 ∧ RoundedBare a.2 b.2

/-- The same component up to rounding of decimals in its parameters. -/
def RoundedComponent [Deps] : SignatureComponent → SignatureComponent → Prop
  | .header a, .header b => a = b
  | .derived a, .derived b => a.item.bare = b.item.bare ∧ RoundedParams a.item.params b.item.params
  | _, _ => False

end Httpsig.Grammar
