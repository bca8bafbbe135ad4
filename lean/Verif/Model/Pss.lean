import Verif.Model.Rsa
/-
RSASSA-PSS with SHA-512 (RFC 8017), which src/algorithm/ring.rs:84-118,225-226 uses for both of its PSS types (`RSA_PSS_SHA512`
and `RSA_PSS_2048_8192_SHA512`: the mask generation function has the same hash, and the salt its length). Only C137 depends on it.
-/
namespace Httpsig.Pss
open Rsa (toBytes size)

/-- MGF1 (RFC 8017, B.2.1). -/
def mgf (hash : Bytes → Bytes) (hLen : Nat) (seed : Bytes) (len : Nat) : Bytes :=
  ((List.range ((len + hLen - 1) / hLen)).flatMap fun c => hash (seed ++ toBytes 4 c)).take len

def xorBytes (a b : Bytes) : Bytes := List.zipWith (· ^^^ ·) a b

/-- Set the first `k` bits to zero. -/
def clearTop (k : Nat) : Bytes → Bytes
  | [] => []
  | b :: bs => (b &&& UInt8.ofNat (255 >>> k)) :: bs

/-- EMSA-PSS-ENCODE (RFC 8017, 9.1.1). -/
def encode (hash : Bytes → Bytes) (hLen emBits : Nat) (salt m : Bytes) : Bytes :=
  let emLen := (emBits + 7) / 8
  let h := hash (List.replicate 8 0 ++ hash m ++ salt)
  let db := List.replicate (emLen - hLen - salt.length - 2) 0 ++ [1] ++ salt
  clearTop (8 * emLen - emBits) (xorBytes db (mgf hash hLen h (emLen - hLen - 1))) ++ h ++ [0xbc]

/-- EMSA-PSS-VERIFY (RFC 8017, 9.1.2). -/
def check (hash : Bytes → Bytes) (hLen sLen emBits : Nat) (m em : Bytes) : Bool :=
  let emLen := (emBits + 7) / 8
  if emLen < hLen + sLen + 2 then false
  else if em.getLast? ≠ some 0xbc then false
  else
    let masked := em.take (emLen - hLen - 1)
    let h := (em.drop (emLen - hLen - 1)).take hLen
    if clearTop (8 * emLen - emBits) masked ≠ masked then false
    else
      let db := clearTop (8 * emLen - emBits) (xorBytes masked (mgf hash hLen h (emLen - hLen - 1)))
      if db.take (emLen - hLen - sLen - 1) ≠ List.replicate (emLen - hLen - sLen - 2) 0 ++ [1] then false
      else hash (List.replicate 8 0 ++ hash m ++ db.drop (emLen - hLen - sLen - 1)) == h

/-- RSASSA-PSS-SIGN (RFC 8017, 8.1.1), with modulus `n`, private exponent `d` and the salt that was drawn. -/
def signature (hash : Bytes → Bytes) (hLen n d : Nat) (salt m : Bytes) : Bytes :=
  toBytes (size n) (Der.ofBytes (encode hash hLen n.log2 salt m) ^ d % n)

/-- RSASSA-PSS-VERIFY (RFC 8017, 8.1.2), with modulus `n` and public exponent `e`. -/
def accepts (hash : Bytes → Bytes) (hLen sLen n e : Nat) (m tag : Bytes) : Bool :=
  if tag.length ≠ size n then false
  else if Der.ofBytes tag ≥ n then false
  else
    let x := Der.ofBytes tag ^ e % n
    if x ≥ 256 ^ ((n.log2 + 7) / 8) then false
    else check hash hLen sLen n.log2 m (toBytes ((n.log2 + 7) / 8) x)

end Httpsig.Pss
