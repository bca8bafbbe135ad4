import Verif.Vectors.Sha2
import Verif.Lemmas.Pss
/-
The DER that RSA key files use, so that the test vectors of the repository can be evaluated in the kernel. No theorem about the
model depends on it.
-/
namespace Httpsig.Rsa
open Sha2 (ofBytes)

/-- One DER value: its tag, its contents, and what follows. -/
def tlv : Bytes → Option (UInt8 × Bytes × Bytes)
  | t :: l :: rest =>
    if l < 128 then some (t, rest.take l.toNat, rest.drop l.toNat)
    else
      let n := l.toNat - 128
      let len := ofBytes (rest.take n)
      some (t, (rest.drop n).take len, (rest.drop n).drop len)
  | _ => none

/-- Contents of a DER value with the given tag, and what follows. -/
def expect (tag : UInt8) (b : Bytes) : Option (Bytes × Bytes) :=
  match tlv b with
  | some (t, c, rest) => if t = tag then some (c, rest) else none
  | none => none

/-- `RSAPublicKey`: modulus and exponent. -/
def publicKey (der : Bytes) : Option (Nat × Nat) := do
  let (seq, _) ← expect 0x30 der
  let (n, r) ← expect 0x02 seq
  let (e, _) ← expect 0x02 r
  return (ofBytes n, ofBytes e)

/-- PKCS #8 `PrivateKeyInfo` with an `RSAPrivateKey`: modulus and private exponent. -/
def privateKey (der : Bytes) : Option (Nat × Nat) := do
  let (seq, _) ← expect 0x30 der
  let (_, r) ← expect 0x02 seq
  let (_, r) ← expect 0x30 r
  let (oct, _) ← expect 0x04 r
  let (key, _) ← expect 0x30 oct
  let (_, r) ← expect 0x02 key
  let (n, r) ← expect 0x02 r
  let (_, r) ← expect 0x02 r
  let (d, _) ← expect 0x02 r
  return (ofBytes n, ofBytes d)

def sign (info : Bytes) (hash : Bytes → Bytes) (der m : Bytes) : Bytes :=
  match privateKey der with
  | some (n, d) => signatureFast info hash n d m
  | none => []

def verify (info : Bytes) (hash : Bytes → Bytes) (der m tag : Bytes) : Bool :=
  match publicKey der with
  | some (n, e) => acceptsFast info hash n e m tag
  | none => false

def signPss (der salt m : Bytes) : Bytes :=
  match privateKey der with
  | some (n, d) => Pss.signatureFast Sha2.sha512Family.hash 64 n d salt m
  | none => []

def verifyPss (der m tag : Bytes) : Bool :=
  match publicKey der with
  | some (n, e) => Pss.acceptsFast Sha2.sha512Family.hash 64 64 n e m tag
  | none => false

end Httpsig.Rsa
