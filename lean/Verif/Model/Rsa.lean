import Verif.Model.Algorithm
import Verif.Model.KeyFiles
/-
RSASSA-PKCS1-v1_5 (RFC 8017), which src/algorithm/ring.rs:84-118 (`RSA_PKCS1_SHA256`, `RSA_PKCS1_SHA512` and the corresponding
`RSA_PKCS1_2048_8192_…`) and src/algorithm/openssl.rs:78-111 (`Padding::PKCS1`) use for their RSA types. Only C136 depends on it;
everywhere else the primitives are parameters. Blinding and the Chinese remainder theorem, which ring and OpenSSL use, do not
change the result. The checks of sizes that the libraries make when they read keys are not here.
-/
namespace Httpsig.Rsa

/-- I2OSP (RFC 8017, 4.1): the last `len` bytes of a number. -/
def toBytes : (len x : Nat) → Bytes
  | 0, _ => []
  | len + 1, x => toBytes len (x / 256) ++ [UInt8.ofNat (x % 256)]

/-- Number of bytes of the modulus. -/
def size (n : Nat) : Nat := n.log2 / 8 + 1

/-- The first bytes of the `DigestInfo` with SHA-256 (RFC 8017, 9.2). -/
def info256 : Bytes := [0x30, 0x31, 0x30, 0x0d, 0x06, 0x09, 0x60, 0x86, 0x48, 0x01, 0x65, 0x03, 0x04, 0x02, 0x01, 0x05, 0x00, 0x04, 0x20]

/-- Likewise with SHA-512. -/
def info512 : Bytes := [0x30, 0x51, 0x30, 0x0d, 0x06, 0x09, 0x60, 0x86, 0x48, 0x01, 0x65, 0x03, 0x04, 0x02, 0x03, 0x05, 0x00, 0x04, 0x40]

/-- EMSA-PKCS1-v1_5 (RFC 8017, 9.2). -/
def emsa (info : Bytes) (hash : Bytes → Bytes) (len : Nat) (m : Bytes) : Bytes :=
  let t := info ++ hash m
  [0, 1] ++ List.replicate (len - t.length - 3) 0xff ++ [0] ++ t

/-- RSASSA-PKCS1-V1_5-SIGN (RFC 8017, 8.2.1), with modulus `n` and private exponent `d`. -/
def signature (info : Bytes) (hash : Bytes → Bytes) (n d : Nat) (m : Bytes) : Bytes :=
  toBytes (size n) (Der.ofBytes (emsa info hash (size n) m) ^ d % n)

/-- RSASSA-PKCS1-V1_5-VERIFY (RFC 8017, 8.2.2), with modulus `n` and public exponent `e`. -/
def accepts (info : Bytes) (hash : Bytes → Bytes) (n e : Nat) (m tag : Bytes) : Bool :=
  tag.length == size n && decide (Der.ofBytes tag < n) &&
    toBytes (size n) (Der.ofBytes tag ^ e % n) == emsa info hash (size n) m

end Httpsig.Rsa
