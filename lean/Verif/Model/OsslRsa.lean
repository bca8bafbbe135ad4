import Verif.Model.RsaPublic
/-
What OpenSSL 3 checks when it signs and verifies with `Padding::PKCS1`, as src/algorithm/openssl.rs:79-86 and 92-107 ask it to. Only C144 depends on
it. From recollection of crypto/rsa/rsa_ossl.c, rsa_sign.c and rsa_pk1.c; the limits were tried with the `openssl` command (Vectors/OsslRsa).
-/
namespace Httpsig.Openssl

/-- The limits on a public key (`rsa_ossl_public_decrypt`): at most 16384 bits, an exponent below the modulus, which beyond 3072 bits has at most
64 bits. The arithmetic is Montgomery's, which needs an odd modulus. -/
def usable (n e : Nat) : Bool :=
  decide (n < 2 ^ 16384) && decide (e < n) && (decide (n < 2 ^ 3072) || decide (e < 2 ^ 64)) && n % 2 == 1

/-- Room for the `DigestInfo` and 11 bytes of padding (`RSA_padding_add_PKCS1_type_1`, `RSA_padding_check_PKCS1_type_1`). -/
def fits (info : Bytes) (hash : Bytes → Bytes) (n : Nat) (m : Bytes) : Bool :=
  decide (info.length + (hash m).length + 11 ≤ Rsa.size n)

/-- `Signer::sign_oneshot_to_vec` in src/algorithm/openssl.rs:82-84, `none` for the error on which `http_sign` panics. -/
def sign (info : Bytes) (hash : Bytes → Bytes) (n d : Nat) (m : Bytes) : Option Bytes :=
  if fits info hash n m then some (Rsa.signature info hash n d m) else none

/-- `Verifier::verify_oneshot` in src/algorithm/openssl.rs:99-106, where errors count as `false`. -/
def accepts (info : Bytes) (hash : Bytes → Bytes) (n e : Nat) (m tag : Bytes) : Bool :=
  usable n e && fits info hash n m && Rsa.accepts info hash n e m tag

end Httpsig.Openssl
