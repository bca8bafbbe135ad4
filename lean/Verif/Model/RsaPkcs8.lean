import Verif.Model.RsaPublic
import Verif.Model.Pss
/-
How `ring` 0.16 reads RSA private keys (`RsaKeyPair::from_pkcs8` and `from_der`, called at src/algorithm/ring.rs:25-49) and signs with them
(`RsaKeyPair::sign`, called at src/algorithm/ring.rs:84-98): its rsa/signing.rs and pkcs8.rs, from recollection: they are not in /repo. For
C143 only; elsewhere what is read is the parameters `Deps.ringPkcs8` and `Deps.ringPkcs1`, and signing is `Deps.asymSign`.
-/
namespace Httpsig.Rsa

/-- `RsaKeyPair`: the larger prime is `p`. The private exponent is not kept. -/
structure PrivateKey where
  n : Nat
  e : Nat
  p : Nat
  q : Nat
  dP : Nat
  dQ : Nat
  qInv : Nat
  deriving DecidableEq

/-- `bit_length` of a number that is not 0. -/
def bits (x : Nat) : Nat := x.log2 + 1

/-- `PrivatePrime::new`, `PrivateExponent::from_be_bytes_padded` and `verify_inverses_consttime`, for the primes in order. -/
def keyWith (n e p q dP dQ qInv : Nat) : Option PrivateKey :=
  if q < p ∧ p % 2 = 1 ∧ q % 2 = 1 ∧ bits p % 512 = 0 ∧ dP < p ∧ dP % 2 = 1 ∧ dQ < q ∧ dQ % 2 = 1 ∧ qInv < p ∧ qInv * q % p = 1 then
    some ⟨n, e, p, q, dP, dQ, qInv⟩
  else none

/-- The checks of `from_der_reader`. If the first prime is not the larger one they are swapped, and the inverse is computed as
`elem_inverse_consttime` does, instead of taken from the file. -/
def keyOf (n e d p q dP dQ qInv : Nat) : Option PrivateKey :=
  if n % 2 = 1 ∧ 2048 ≤ 8 * size n ∧ n < 2 ^ 4096 ∧ e % 2 = 1 ∧ 65537 ≤ e ∧ e < 2 ^ 33 ∧ 0 < p ∧ 0 < q ∧ 0 < d ∧ 0 < qInv ∧
      bits p = (bits n + 1) / 2 ∧ bits q = bits p ∧ p * q % n = 0 ∧ bits p < bits d ∧ d < n ∧ d % 2 = 1 then
    if q < p then keyWith n e p q dP dQ qInv
    else keyWith n e q p dQ dP (p ^ (q - 2) % q)
  else none

/-- `from_der`: an `RSAPrivateKey` of version 0. -/
def fromDer (b : Bytes) : Option PrivateKey := do
  let (body, rest) ← P256.ringValue 0x30 b
  let r ← P256.version 0 body
  let (n, r) ← P256.readInt r
  let (e, r) ← P256.readInt r
  let (d, r) ← P256.readInt r
  let (p, r) ← P256.readInt r
  let (q, r) ← P256.readInt r
  let (dP, r) ← P256.readInt r
  let (dQ, r) ← P256.readInt r
  let (qInv, r) ← P256.readInt r
  if rest = [] ∧ r = [] then keyOf n e d p q dP dQ qInv else none

/-- `template.alg_id_value()`: rsaEncryption with NULL. -/
def algId : Bytes := [0x06, 0x09, 0x2a, 0x86, 0x48, 0x86, 0xf7, 0x0d, 0x01, 0x01, 0x01, 0x05, 0x00]

/-- `from_pkcs8`. -/
def fromPkcs8 (b : Bytes) : Option PrivateKey := (P256.unwrapFor algId b).bind fromDer

/-- What the constructors for the two kinds of files read, src/algorithm/ring.rs:25-49. -/
def read (pkcs8 : Bool) (b : Bytes) : Option PrivateKey := if pkcs8 then fromPkcs8 b else fromDer b

/-- The private operation with the Chinese remainder theorem (RFC 8017, 5.1.2, step 2b). -/
def crt (K : PrivateKey) (c : Nat) : Nat :=
  let m1 := c ^ K.dP % K.p
  let m2 := c ^ K.dQ % K.q
  let h := K.qInv * (m1 + K.p - m2) % K.p
  (m2 + K.q * h) % K.n

/-- `RsaKeyPair::sign` for a padded hash: the result is checked with the public exponent before it is given out. -/
def signBlock (K : PrivateKey) (em : Bytes) : Option Bytes :=
  let c := Der.ofBytes em
  if c < K.n ∧ crt K c ^ K.e % K.n = c then some (toBytes (size K.n) (crt K c)) else none

/-- The padding for `RSA_PKCS1_SHA256`, `RSA_PKCS1_SHA512` and `RSA_PSS_SHA512` (src/algorithm/ring.rs:223-226). -/
def padded [Deps] (prim : Primitive) (n : Nat) (salt m : Bytes) : Bytes :=
  match prim with
  | .rsaPkcs1Sha256 => emsa info256 Deps.sha256 (size n) m
  | .rsaPkcs1Sha512 => emsa info512 Deps.sha512 (size n) m
  | _ => Pss.encode Deps.sha512 64 n.log2 salt m

/-- `http_sign` of the RSA types, src/algorithm/ring.rs:84-98. -/
def httpSign [Deps] (prim : Primitive) (K : PrivateKey) (salt : Nat → Bytes) (rnd : Nat) (m : Bytes) : P Str :=
  match signBlock K (padded prim K.n (salt rnd) m) with
  | some t => .ok (Base64.encode t)
  | none => .error .ringSign

end Httpsig.Rsa
