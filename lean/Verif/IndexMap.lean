import Verif.Basic
/-
`indexmap::IndexMap<String, V>` (the representation of `sfv::Parameters` and `sfv::Dictionary`):
an association list in insertion order.
-/
namespace Httpsig

/-- `IndexMap<String, V>`; key uniqueness is the separate predicate `NodupKeys`. -/
abbrev IMap (V : Type) := List (Str × V)

namespace IMap
variable {V : Type}

/-- `IndexMap::insert`: overwrite in place when the key exists, append otherwise.
Used at src/derived.rs:70, src/signature_params.rs:47-97, src/signature_input.rs:118. -/
def insert (m : IMap V) (k : Str) (v : V) : IMap V :=
  match m with
  | [] => [(k, v)]
  | (k', v') :: rest => if k' = k then (k', v) :: rest else (k', v') :: insert rest k v

/-- `IndexMap::get`. Used at src/derived.rs:81, src/signature_params.rs:54-103, src/signature_input.rs:110. -/
def get (m : IMap V) (k : Str) : Option V :=
  match m with
  | [] => none
  | (k', v') :: rest => if k' = k then some v' else get rest k

/-- Keys of an `IndexMap` are pairwise distinct. -/
def NodupKeys (m : IMap V) : Prop := (m.map Prod.fst).Nodup

end IMap
end Httpsig
