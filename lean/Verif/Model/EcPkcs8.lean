import Verif.Model.Ecdsa
/-
How `ring` 0.16 reads private keys on P-256 (`EcdsaKeyPair::from_pkcs8`, called at src/algorithm/ring.rs:154-157,166-169): its pkcs8.rs,
io/der.rs and ec/suite_b.rs, from recollection: they are not in /repo. For C139 only; elsewhere what it reads is the parameter `Deps.ringPkcs8`.
-/
namespace Httpsig.P256

/-- `der::expect_tag_and_get_value`: lengths have at most two bytes. -/
def ringValue (tag : UInt8) (b : Bytes) : Option (Bytes × Bytes) :=
  match Der.value tag b with
  | some (c, rest) => if c.length < 65536 then some (c, rest) else none
  | none => none

/-- `der::small_nonnegative_integer`, compared with a number below 128. -/
def version (n : UInt8) (b : Bytes) : Option Bytes :=
  match ringValue 0x02 b with
  | some (c, rest) => if c = [n] then some rest else none
  | none => none

/-- `template.curve_oid()`: prime256v1. -/
def curveOid : Bytes := [0x06, 0x08, 0x2a, 0x86, 0x48, 0xce, 0x3d, 0x03, 0x01, 0x07]

/-- `template.alg_id_value()`: id-ecPublicKey with prime256v1. -/
def algId : Bytes := [0x06, 0x07, 0x2a, 0x86, 0x48, 0xce, 0x3d, 0x02, 0x01] ++ curveOid

/-- Attributes are skipped. -/
def skipAttributes (b : Bytes) : Option Bytes := if b.head? = some 0xa0 then (ringValue 0xa0 b).map Prod.snd else some b

/-- The name of the curve may be given again. -/
def skipCurve (b : Bytes) : Option Bytes :=
  if b.head? = some 0xa0 then (ringValue 0xa0 b).bind fun x => if x.1 = curveOid then some x.2 else none else some b

/-- `pkcs8::unwrap_key_` with `Version::V1Only`, for an algorithm. -/
def unwrapFor (id b : Bytes) : Option Bytes := do
  let (body, rest) ← ringValue 0x30 b
  let r ← version 0 body
  let (alg, r) ← ringValue 0x30 r
  let (key, r) ← ringValue 0x04 r
  let r ← skipAttributes r
  if rest = [] ∧ r = [] ∧ alg = id then some key else none

/-- `pkcs8::unwrap_key` for a key on P-256. -/
def unwrapKey (b : Bytes) : Option Bytes := unwrapFor algId b

/-- `key_pair_from_pkcs8_`: the private and the public key in an `ECPrivateKey` (RFC 5915). -/
def ecPrivateKey (b : Bytes) : Option (Bytes × Bytes) := do
  let (body, rest) ← ringValue 0x30 b
  let r ← version 1 body
  let (d, r) ← ringValue 0x04 r
  let r ← skipCurve r
  let (part, r) ← ringValue 0xa1 r
  let (bits, r') ← ringValue 0x03 part
  if rest = [] ∧ r = [] ∧ r' = [] ∧ bits.head? = some 0 then some (d, bits.tail) else none

/-- `key_pair_from_pkcs8`, with `key_pair_from_bytes`: the number must be in range, and the public key must be the one that belongs to it. -/
def readPkcs8 (b : Bytes) : Option Nat := do
  let key ← unwrapKey b
  let (d, pk) ← ecPrivateKey key
  if d.length = 32 ∧ 0 < Der.ofBytes d ∧ Der.ofBytes d < q ∧ pk = keyOf (Der.ofBytes d) then some (Der.ofBytes d) else none

end Httpsig.P256
