import Verif.Model.EcPkcs8
/-
How `ring` 0.16 reads RSA public keys when it verifies (`UnparsedPublicKey::verify` with `RSA_PKCS1_2048_8192_SHA256`,
`RSA_PKCS1_2048_8192_SHA512` and `RSA_PSS_2048_8192_SHA512`, called at src/algorithm/ring.rs:99-118): its rsa/verification.rs and rsa.rs,
from recollection: they are not in /repo. For C140 only; elsewhere what it accepts is the parameter `Deps.asymVerify`.
-/
namespace Httpsig.Rsa

/-- `parse_public_key` and `check_public_modulus_and_exponent`. The number of bits of the modulus is rounded up to bytes before it is
compared with 2048. -/
def readPublic (b : Bytes) : Option (Nat × Nat) := do
  let (body, rest) ← P256.ringValue 0x30 b
  let (n, r) ← P256.readInt body
  let (e, r) ← P256.readInt r
  if rest = [] ∧ r = [] ∧ n % 2 = 1 ∧ 2048 ≤ 8 * size n ∧ n < 2 ^ 8192 ∧ e % 2 = 1 ∧ 3 ≤ e ∧ e < 2 ^ 33 then some (n, e) else none

end Httpsig.Rsa
