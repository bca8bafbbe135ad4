import Verif.Model.OsslRsa
import Verif.Spec.RsaPublic
/-
Specification vocabulary for the RSA keys of the openssl back end (C144).
-/
namespace Httpsig

/-- The public keys that are of use: an odd modulus of at most 16384 bits, and an exponent below it, of at most 64 bits if the modulus has more
than 3072. -/
def OsslSizes (n e : Nat) : Prop := n % 2 = 1 ∧ n < 2 ^ 16384 ∧ e < n ∧ (2 ^ 3072 ≤ n → e < 2 ^ 64)

/-- The primitive is PKCS#1 v1.5 with this hash, which has this identifier, and blocks of at least so many bytes: the hash, 19 bytes of the
`DigestInfo` around it, and 11 bytes of padding. -/
inductive Pkcs1Min [Deps] : Primitive → (Bytes → Bytes) → Bytes → Nat → Prop where
  | sha256 : Pkcs1Min .rsaPkcs1Sha256 Deps.sha256 oidSha256 62
  | sha512 : Pkcs1Min .rsaPkcs1Sha512 Deps.sha512 oidSha512 94

/-- The two PKCS#1 v1.5 primitives are those of OpenSSL, with two hashes whose values have 32 and 64 bytes. `priv` and `pub` tell what numbers a
key has: `none` for private keys whose numbers do not belong together. -/
structure OsslRsa [Deps] (priv pub : Bytes → Option (Nat × Nat)) : Prop where
  sign256 : ∀ k n d rnd m t, priv k = some (n, d) → Openssl.sign Rsa.info256 Deps.sha256 n d m = some t →
    Deps.asymSign .rsaPkcs1Sha256 k rnd m = t
  sign512 : ∀ k n d rnd m t, priv k = some (n, d) → Openssl.sign Rsa.info512 Deps.sha512 n d m = some t →
    Deps.asymSign .rsaPkcs1Sha512 k rnd m = t
  short256 : ∀ k n d m, priv k = some (n, d) →
    (Deps.osslShort .rsaPkcs1Sha256 k = true ↔ Openssl.sign Rsa.info256 Deps.sha256 n d m = none)
  short512 : ∀ k n d m, priv k = some (n, d) →
    (Deps.osslShort .rsaPkcs1Sha512 k = true ↔ Openssl.sign Rsa.info512 Deps.sha512 n d m = none)
  verify256 : ∀ k n e m t, pub k = some (n, e) →
    Deps.asymVerify .rsaPkcs1Sha256 k m t = Openssl.accepts Rsa.info256 Deps.sha256 n e m t
  verify512 : ∀ k n e m t, pub k = some (n, e) →
    Deps.asymVerify .rsaPkcs1Sha512 k m t = Openssl.accepts Rsa.info512 Deps.sha512 n e m t
  size256 : ∀ m, (Deps.sha256 m).length = 32
  size512 : ∀ m, (Deps.sha512 m).length = 64

end Httpsig
