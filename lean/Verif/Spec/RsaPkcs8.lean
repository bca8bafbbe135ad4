import Verif.Model.RsaPkcs8
import Verif.Spec.RsaPublic
/-
Specification vocabulary for RSA private keys in files of the ring back end (C143).
-/
namespace Httpsig

/-- The numbers of an `RSAPrivateKey` (RFC 8017, A.1.2). -/
structure RsaNumbers where
  n : Nat
  e : Nat
  d : Nat
  p : Nat
  q : Nat
  dP : Nat
  dQ : Nat
  qInv : Nat

/-- An `RSAPrivateKey` in DER (RFC 8017, A.1.2) of this version. -/
def RsaPrivateDer (version : UInt8) (N : RsaNumbers) (der : Bytes) : Prop :=
  ∃ v n e d p q dP dQ qInv, DerValue 0x02 [version] v ∧ DerNat N.n n ∧ DerNat N.e e ∧ DerNat N.d d ∧ DerNat N.p p ∧ DerNat N.q q ∧
    DerNat N.dP dP ∧ DerNat N.dQ dQ ∧ DerNat N.qInv qInv ∧
    DerValue 0x30 (v ++ n ++ e ++ d ++ p ++ q ++ dP ++ dQ ++ qInv) der

/-- A `PrivateKeyInfo` (RFC 5208, section 5) of this version, for an RSA key, with the given contents; `attrs` is what follows. -/
def RsaPrivateInfo (version : UInt8) (key attrs der : Bytes) : Prop :=
  ∃ v o a k, DerValue 0x02 [version] v ∧ DerValue 0x06 oidRsa o ∧ DerValue 0x30 (o ++ [0x05, 0x00]) a ∧ DerValue 0x04 key k ∧
    DerValue 0x30 (v ++ a ++ k ++ attrs) der

/-- What ring demands of the numbers. The modulus has 2047, 2048, 3071, 3072, 4095 or 4096 bits, and the two primes have half as many. Whether
they are primes is not tested, except that the inverse is either in the file and right, or is computed by Fermat's theorem. That the exponents
fit together is not tested at all. -/
structure RsaNumbers.Taken (N : RsaNumbers) : Prop where
  sizes : ∃ k, (k = 1024 ∨ k = 1536 ∨ k = 2048) ∧ 2 ^ (k - 1) ≤ N.p ∧ N.p < 2 ^ k ∧ 2 ^ (k - 1) ≤ N.q ∧ N.q < 2 ^ k ∧
    2 ^ (2 * k - 2) ≤ N.n ∧ N.n < 2 ^ (2 * k) ∧ 2 ^ k ≤ N.d
  odd : ∀ x ∈ [N.n, N.e, N.d, N.p, N.q, N.dP, N.dQ], x % 2 = 1
  exponent : 65537 ≤ N.e ∧ N.e < 2 ^ 33
  below : N.d < N.n ∧ N.dP < N.p ∧ N.dQ < N.q
  product : N.n ∣ N.p * N.q
  inverse : (N.q < N.p ∧ N.qInv < N.p ∧ N.q * N.qInv % N.p = 1) ∨ (N.p < N.q ∧ 0 < N.qInv ∧ N.p ^ (N.q - 1) % N.q = 1)

/-- A file of one of the two kinds with these numbers. -/
def RsaKeyFile (pkcs8 : Bool) (N : RsaNumbers) (der : Bytes) : Prop :=
  if pkcs8 then ∃ key attrs, RsaPrivateDer 0 N key ∧ (attrs = [] ∨ ∃ c, DerValue 0xa0 c attrs) ∧ RsaPrivateInfo 0 key attrs der
  else RsaPrivateDer 0 N der

/-- The numbers are those of an RSA key (RFC 8017, 3.2) with the private exponent `d`, as far as they are used. The private exponent in the
file is not. -/
def RsaNumbers.Fit (N : RsaNumbers) (d : Nat) : Prop :=
  RsaKey N.n N.e d ∧ IsPrime N.p ∧ IsPrime N.q ∧ N.e * N.dP % (N.p - 1) = 1 ∧ N.e * N.dQ % (N.q - 1) = 1

/-- The RSA primitives are those of ring: `num` tells what numbers a private key has been read with. Signing gives what it gives if it does
not panic. -/
structure RingRsaFiles [Deps] (num : Bytes → Option Rsa.PrivateKey) (salt : Nat → Bytes) : Prop extends RingRsa (fun _ => none) salt where
  pkcs8 : ∀ b, (Deps.ringPkcs8 .rsa b).map num = (Rsa.fromPkcs8 b).map some
  pkcs1 : ∀ b, (Deps.ringPkcs1 b).map num = (Rsa.fromDer b).map some
  signs : ∀ p k K rnd m s, p ∈ [Primitive.rsaPkcs1Sha256, .rsaPkcs1Sha512, .rsaPssSha512] → num k = some K →
    Rsa.httpSign p K salt rnd m = .ok s → Base64.encode (Deps.asymSign p k rnd m) = s

/-- A type of the ring back end for RSA takes the file. -/
def RsaSigner [Deps] (e : AlgEntry) (pkcs8 : Bool) (der : Bytes) (s : HttpSignatureSign) : Prop :=
  (if pkcs8 then Ring.newPkcs8 e der else Ring.newPkcs1 e der) = some s ∨
  ∃ label file, PemFile label der file ∧ (if pkcs8 then Ring.newPkcs8Pem e file else Ring.newPkcs1Pem e file) = some s

end Httpsig
