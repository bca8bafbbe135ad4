import Verif.Lemmas.Rsa
/-
ECDSA on the curve P-256 with SHA-256 and DER signatures (FIPS 186-4, RFC 3279 2.2.3), which src/algorithm/ring.rs:137-222,227 uses
(`ECDSA_P256_SHA256_ASN1_SIGNING`, `ECDSA_P256_SHA256_ASN1`). Only C138 depends on it; everywhere else the primitives are parameters.
The points are affine, those of ring are projective; this does not change the result. Lengths in DER are those of the `der` crate
(`Der.value`); ring reads lengths up to 65535 only, but no signature as long as that is valid.
-/
namespace Httpsig.P256
open Rsa (force powMod toBytes)

/-- The prime of the field. -/
def p : Nat := 0xffffffff00000001000000000000000000000000ffffffffffffffffffffffff
/-- The order of the group. -/
def q : Nat := 0xffffffff00000000ffffffffffffffffbce6faada7179e84f3b9cac2fc632551
/-- The curve is `y² = x³ - 3x + b`. -/
def b : Nat := 0x5ac635d8aa3a93e7b3ebbd55769886bc651d06b0cc53b0f63bce3c3e27d2604b
def gx : Nat := 0x6b17d1f2e12c4247f8bce6e563a440f277037d812deb33a0f4a13945d898c296
def gy : Nat := 0x4fe342e2fe1a7f9b8ee7eb4a7c0f9e162bce33576b315ececbb6406837bf51f5

/-- A point: the coordinates, or `none` for the point at infinity. -/
abbrev Point := Option (Nat × Nat)

/-- The base point. -/
def g : Point := some (gx, gy)

/-- The inverse modulo a prime. -/
def inv (n x : Nat) : Nat := powMod n x (n - 2)

/-- The slope of the line through two points, or of the tangent. -/
def slope (x₁ y₁ x₂ y₂ : Nat) : Nat :=
  if x₁ = x₂ then (3 * x₁ * x₁ + p - 3) * inv p (2 * y₁) % p else (y₂ + p - y₁) * inv p (x₂ + p - x₁) % p

/-- Addition of points. -/
def add : Point → Point → Point
  | none, P => P
  | some P, none => some P
  | some (x₁, y₁), some (x₂, y₂) =>
    if x₁ = x₂ ∧ (y₁ + y₂) % p = 0 then none
    else
      force (slope x₁ y₁ x₂ y₂) fun l =>
      force ((l * l + 2 * p - x₁ - x₂) % p) fun x =>
      force ((l * (x₁ + p - x) + p - y₁) % p) fun y => some (x, y)

/-- Evaluate a point before continuing. -/
def forceP {α : Type} (P : Point) (f : Point → α) : α :=
  match P with
  | none => f none
  | some (x, y) => f (some (x, y))

/-- `acc + k * P`, with `bits` binary digits of `k`. -/
def mulAdd : (bits k : Nat) → (P acc : Point) → Point
  | 0, _, _, acc => acc
  | n + 1, k, P, acc =>
    forceP (if k % 2 = 1 then add acc P else acc) fun acc => forceP (add P P) fun P => force (k / 2) fun k => mulAdd n k P acc

/-- Multiple of a point. -/
def mul (k : Nat) (P : Point) : Point := mulAdd (k.log2 + 1) k P none

/-- The coordinates satisfy the equation of the curve. -/
def onCurve (x y : Nat) : Bool := decide (x < p) && decide (y < p) && y * y % p == (x * x * x + p * x - 3 * x + b) % p

/-- A public key: an uncompressed point (SEC 1, 2.3.4), `parse_uncompressed_point` of ring. -/
def readKey : Bytes → Option (Nat × Nat)
  | 4 :: r =>
    let x := Der.ofBytes (r.take 32)
    let y := Der.ofBytes (r.drop 32)
    if r.length = 64 ∧ onCurve x y = true then some (x, y) else none
  | _ => none

/-- The DER encoding of a number below `256 ^ 126`. -/
def derInt (x : Nat) : Bytes :=
  let c := toBytes ((x.log2 + 1) / 8 + 1) x
  0x02 :: UInt8.ofNat c.length :: c

/-- The DER encoding of a signature. -/
def derSig (r s : Nat) : Bytes := 0x30 :: UInt8.ofNat (derInt r ++ derInt s).length :: (derInt r ++ derInt s)

/-- The contents of a DER integer that is not negative and has no superfluous zeros: `der::nonnegative_integer` of ring. -/
def minimal : Bytes → Bool
  | [] => false
  | [x] => decide (x < 128)
  | x :: y :: _ => decide (x < 128) && !(x == 0 && decide (y < 128))

def readInt (b : Bytes) : Option (Nat × Bytes) := do
  let (c, rest) ← Der.value 0x02 b
  if minimal c then some (Der.ofBytes c, rest) else none

/-- `split_rs_asn1` of ring. -/
def readSig (t : Bytes) : Option (Nat × Nat) := do
  let (c, rest) ← Der.value 0x30 t
  let (r, c) ← readInt c
  let (s, c) ← readInt c
  if rest = [] ∧ c = [] then some (r, s) else none

/-- Verification of the signature `(r, s)` on the hash `h` with the public key `(x, y)` (FIPS 186-4, 6.4; ANSI X9.62). -/
def accepts (key : Nat × Nat) (h r s : Nat) : Bool :=
  decide (0 < r ∧ r < q ∧ 0 < s ∧ s < q) &&
  (force (inv q s) fun w =>
    match add (mul (h * w % q) g) (mul (r * w % q) (some key)) with
    | none => false
    | some (x, _) => x % q == r)

/-- `VerificationAlgorithm::verify` of `ECDSA_P256_SHA256_ASN1`, called at src/algorithm/ring.rs:206-213. -/
def verify (hash : Bytes → Bytes) (key m t : Bytes) : Bool :=
  match readKey key, readSig t with
  | some k, some (r, s) => accepts k (Der.ofBytes (hash m)) r s
  | _, _ => false

/-- The signature on the hash `h` with the private key `d` and the nonce `k`; `none` if another nonce must be taken. -/
def sign (d k h : Nat) : Option (Nat × Nat) :=
  match mul k g with
  | none => none
  | some (x, _) =>
    let r := x % q
    let s := inv q k * (h + r * d) % q
    if 0 < k ∧ k < q ∧ r ≠ 0 ∧ s ≠ 0 then some (r, s) else none

/-- The bytes of the public key for a private key. -/
def keyOf (d : Nat) : Bytes :=
  match mul d g with
  | none => []
  | some (x, y) => 4 :: (toBytes 32 x ++ toBytes 32 y)

end Httpsig.P256
