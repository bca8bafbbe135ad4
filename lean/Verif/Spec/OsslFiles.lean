import Verif.Spec.OsslRsa
import Verif.Spec.RsaPkcs8
/-
Specification vocabulary for the key files of the openssl back end (C145).
-/
namespace Httpsig

/-- A `SubjectPublicKeyInfo` for an RSA key. -/
def RsaSpki (n e : Nat) (der : Bytes) : Prop := ∃ key, RsaPublicDer n e key ∧ Spki oidRsa [0x05, 0x00] 0 key der

/-- The numbers are those of an RSA key (RFC 8017, 3.2), all eight of them. -/
def RsaNumbers.Sound (N : RsaNumbers) : Prop :=
  N.Fit N.d ∧ N.n = N.p * N.q ∧ N.n % 2 = 1 ∧ N.q * N.qInv % N.p = 1 ∧ 3 ≤ N.e ∧ N.e < N.n ∧ N.d < N.n ∧ N.dP < N.p ∧ N.dQ < N.q ∧ N.qInv < N.p

/-- A private key file of either kind; in PKCS #8, without attributes. (OpenSSL reads the attributes and refuses what is none, ring does not.) -/
def RsaPlainFile (pkcs8 : Bool) (N : RsaNumbers) (der : Bytes) : Prop :=
  if pkcs8 then ∃ key, RsaPrivateDer 0 N key ∧ RsaPrivateInfo 0 key [] der else RsaPrivateDer 0 N der

/-- How OpenSSL reads key files in DER: the files of the standards it reads, as what they are. Of other files it may read some; only that is assumed
which distinguishes the kinds: what comes first in an SPKI file (`d2i_RSA_PUBKEY`), and what follows the version in a PKCS #1 file
(`d2i_RSAPrivateKey`) and in a PKCS #8 file (`d2i_PKCS8_PRIV_KEY_INFO`). -/
structure OsslFiles [Deps] (priv pub : Bytes → Option (Nat × Nat)) : Prop extends OsslRsa priv pub where
  readsSpki : ∀ n e der, RsaSpki n e der → ∃ k, Deps.osslPubDer der = some k ∧ pub k = some (n, e)
  onlySpki : ∀ der k body, Deps.osslPubDer der = some k → DerValue 0x30 body der → body.head? = some 0x30
  readsPkcs1 : ∀ N der, RsaPlainFile false N der → N.Sound → ∃ k, Deps.osslRsaDer der = some k ∧ priv k = some (N.n, N.d)
  onlyPkcs1 : ∀ der k c v rest, Deps.osslRsaDer der = some k → DerValue 0x02 c v → DerValue 0x30 (v ++ rest) der → rest.head? = some 0x02
  readsPkcs8 : ∀ N der, RsaPlainFile true N der → N.Sound → ∃ k, Deps.osslPkcs8 der = some ⟨true, k⟩ ∧ priv k = some (N.n, N.d)
  onlyPkcs8 : ∀ der k c v rest, Deps.osslPkcs8 der = some k → DerValue 0x02 c v → DerValue 0x30 (v ++ rest) der → rest.head? = some 0x30

/-- The constructor of the openssl back end for one of the two kinds of private key files in DER. -/
def Openssl.newDer [Deps] (pkcs8 : Bool) (der : Bytes) : Option OsslKey :=
  if pkcs8 then Openssl.newPkcs8 der else Openssl.newPkcs1Der der

/-- Two verifying keys from one SPKI file, with the types for one name in the two back ends; the key has a size that ring supports. -/
def FromOneFile (D D' : Deps) (v v' : HttpSignatureVerify) : Prop :=
  ∃ a ∈ ringTable, ∃ b ∈ opensslTable, ∃ n x der, a.name = b.name ∧ a.name ≠ str% "rsa-pss-sha512" ∧ RsaSpki n x der ∧ RsaSizes n x ∧
    @Ring.verifySpkiDer D a der = some v ∧ @Openssl.verifyDer D' b der = some v'

end Httpsig
