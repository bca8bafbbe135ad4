import Verif.Model.RsaPublic
import Verif.Spec.Ecdsa
import Verif.Spec.Pss
/-
Specification vocabulary for the RSA public keys that the ring back end verifies with (C140).
-/
namespace Httpsig

/-- An `RSAPublicKey` in DER (RFC 8017, A.1.1): the modulus and the exponent. -/
def RsaPublicDer (n e : Nat) (der : Bytes) : Prop := ∃ a b, DerNat n a ∧ DerNat e b ∧ DerValue 0x30 (a ++ b) der

/-- The sizes that are supported: a modulus of 2041 to 8192 bits, an exponent between 3 and 2^33, both odd. -/
def RsaSizes (n e : Nat) : Prop := n % 2 = 1 ∧ 2 ^ 2040 ≤ n ∧ n < 2 ^ 8192 ∧ e % 2 = 1 ∧ 3 ≤ e ∧ e < 2 ^ 33

/-- A `DigestInfo` (RFC 8017, 9.2): the identifier of the hash function with NULL as parameters, and the hash. -/
def DigestInfo (oid hash der : Bytes) : Prop :=
  ∃ o alg h, DerValue 0x06 oid o ∧ DerValue 0x30 (o ++ [0x05, 0x00]) alg ∧ DerValue 0x04 hash h ∧ DerValue 0x30 (alg ++ h) der

/-- id-sha256, 2.16.840.1.101.3.4.2.1 -/
def oidSha256 : Bytes := [0x60, 0x86, 0x48, 0x01, 0x65, 0x03, 0x04, 0x02, 0x01]
/-- id-sha512, 2.16.840.1.101.3.4.2.3 -/
def oidSha512 : Bytes := [0x60, 0x86, 0x48, 0x01, 0x65, 0x03, 0x04, 0x02, 0x03]

/-- The hash of a text in a block of `len` bytes (RFC 8017, 9.2): the bytes 0 and 1, at least eight bytes FF, the byte 0, a `DigestInfo`. -/
def Pkcs1Block (oid hash : Bytes) (len : Nat) (em : Bytes) : Prop :=
  ∃ ff info, (∀ x ∈ ff, x = 0xff) ∧ 8 ≤ ff.length ∧ DigestInfo oid hash info ∧ em = 0 :: 1 :: (ff ++ 0 :: info) ∧ em.length = len

/-- The primitive is PKCS#1 v1.5 with this hash, which has this identifier. -/
inductive Pkcs1Oid [Deps] : Primitive → (Bytes → Bytes) → Bytes → Prop where
  | sha256 : Pkcs1Oid .rsaPkcs1Sha256 Deps.sha256 oidSha256
  | sha512 : Pkcs1Oid .rsaPkcs1Sha512 Deps.sha512 oidSha512

/-- The RSA primitives are those of RFC 8017, and they read public keys as ring does: what they cannot read accepts nothing. -/
structure RingRsa [Deps] (priv : Bytes → Option (Nat × Nat)) (salt : Nat → Bytes) : Prop extends
    RealRsa priv Rsa.readPublic, RealPss priv Rsa.readPublic salt where
  refuses : ∀ p k m t, p ∈ [Primitive.rsaPkcs1Sha256, .rsaPkcs1Sha512, .rsaPssSha512] → Rsa.readPublic k = none →
    Deps.asymVerify p k m t = false

end Httpsig
