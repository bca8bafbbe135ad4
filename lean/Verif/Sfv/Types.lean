import Verif.IndexMap
/-
Data types of the `sfv` 0.9 crate (dependency; not in /repo), RFC 8941 structured fields.
-/
namespace Httpsig

/-- `rust_decimal::Decimal` as (sign, mantissa, scale): value = ±mant / 10^scale.
Simplification: the 96-bit mantissa and scale ≤ 28 limits of the crate are not imposed. -/
structure Decimal where
  neg : Bool
  mant : Nat
  scale : Nat
deriving DecidableEq, Repr

/-- `sfv::BareItem`. `Integer` holds an `i64`; modelled as `Int`. -/
inductive BareItem where
  | decimal (d : Decimal)
  | integer (i : Int)
  | string (s : Str)
  | byteSeq (b : Bytes)
  | boolean (b : Bool)
  | token (t : Str)
deriving DecidableEq, Repr

namespace BareItem
/-- `BareItem::as_str`: only the `String` variant. -/
def asStr : BareItem → Option Str
  | .string s => some s
  | _ => none
/-- `BareItem::as_int`: only the `Integer` variant. -/
def asInt : BareItem → Option Int
  | .integer i => some i
  | _ => none
/-- `BareItem::as_token`: only the `Token` variant. -/
def asToken : BareItem → Option Str
  | .token t => some t
  | _ => none
end BareItem

/-- `sfv::Parameters` = `IndexMap<String, BareItem>`. -/
abbrev Params := IMap BareItem

/-- `sfv::Item`. -/
structure Item where
  bare : BareItem
  params : Params
deriving DecidableEq, Repr

/-- `sfv::InnerList`. -/
structure InnerList where
  items : List Item
  params : Params
deriving DecidableEq, Repr

/-- `sfv::ListEntry`. -/
inductive ListEntry where
  | item (i : Item)
  | innerList (l : InnerList)
deriving DecidableEq, Repr

/-- `sfv::Dictionary` = `IndexMap<String, ListEntry>`. -/
abbrev Dictionary := IMap ListEntry

end Httpsig
