import Verif.Model.Mock
/-
Key files: the constructors of the signature types (src/algorithm/ring.rs:22-82,131-134,150-187, src/algorithm/openssl.rs:36-76),
and the parts of the `pem`, `der` and `spki` crates that decide what they accept.
-/
namespace Httpsig

namespace Pem

/-- `read_until` of the `pem` crate: bytes consumed until the marker is complete. `found` counts the bytes of the marker
matched so far; after a mismatch the count restarts with the next byte. -/
def scan (marker : Bytes) : (found : Nat) → Bytes → Option Nat
  | _, [] => none
  | found, b :: rest =>
    let found' := if marker[found]? = some b then found + 1 else 0
    if found' = marker.length then some 1 else (scan marker found' rest).map (· + 1)

/-- `read_until` of the `pem` crate: what precedes the marker, and what follows it. -/
def readUntil (marker input : Bytes) : Option (Bytes × Bytes) :=
  (scan marker 0 input).map fun n => (input.take (n - marker.length), input.drop n)

/-- `skip_whitespace` of the `pem` crate. -/
def skipWs (b : Bytes) : Bytes := b.dropWhile fun c => c == 32 || c == 9 || c == 10 || c == 13

/-- `str::trim_end`. -/
def trimEnd (s : Str) : Str := (s.reverse.dropWhile isRustWhitespace).reverse

/-- `base64::decode` of base64 0.13, which the `pem` crate uses: padding may be missing, trailing bits must be zero. -/
def decode64 (s : Str) : Option Bytes := Base64.strictDecode (s ++ List.replicate ((4 - s.length % 4) % 4) '=')

/-- `-----BEGIN ` -/
def beginMark : Bytes := utf8 (str% "-----BEGIN ")
/-- `-----END ` -/
def endMark : Bytes := utf8 (str% "-----END ")
/-- `-----` -/
def dashes : Bytes := utf8 (str% "-----")

/-- `pem::parse` (called at src/algorithm/ring.rs:34,47,64,78,165,183): the contents of the first PEM document in the file,
whatever its label. -/
def parse (file : Bytes) : Option Bytes := do
  let (_, r) ← readUntil beginMark file
  let (b, r) ← readUntil dashes r
  let (d, r) ← readUntil endMark (skipWs r)
  let (e, _) ← readUntil dashes r
  let tag ← utf8Decode b
  let tag' ← utf8Decode e
  let text ← utf8Decode d
  if tag = [] ∨ tag' = [] ∨ tag ≠ tag' then none
  else decode64 ((splitOn '\n' text).flatMap trimEnd)

end Pem

namespace Der

/-- Big-endian value. -/
def ofBytes (b : Bytes) : Nat := b.foldl (fun n x => n * 256 + x.toNat) 0

/-- `Length` of the `der` crate: definite, minimal, at most `0xfff_ffff`. -/
def length : Bytes → Option (Nat × Bytes)
  | [] => none
  | l :: rest =>
    if l.toNat < 128 then some (l.toNat, rest)
    else
      let n := l.toNat - 128
      let v := ofBytes (rest.take n)
      if 1 ≤ n ∧ n ≤ 4 ∧ n ≤ rest.length ∧ 128 ≤ v ∧ 256 ^ (n - 1) ≤ v ∧ v ≤ 0xfffffff then some (v, rest.drop n) else none

/-- A value with the given tag: its contents, and what follows. -/
def value (tag : UInt8) : Bytes → Option (Bytes × Bytes)
  | [] => none
  | t :: r =>
    if t = tag then
      match length r with
      | some (n, r) => if n ≤ r.length then some (r.take n, r.drop n) else none
      | none => none
    else none

end Der

section
variable [Deps]

/-- `SubjectPublicKeyInfoRef::try_from` followed by `subject_public_key.raw_bytes()`: `spki_to_unparsed_public_key`,
src/algorithm/ring.rs:131-134. Which object identifiers and parameters are well formed is left to `Deps`. -/
def spkiKey (der : Bytes) : Option Bytes :=
  match Der.value 0x30 der with
  | some (body, []) =>
    match Der.value 0x30 body with
    | some (alg, r) =>
      match Der.value 0x06 alg, Der.value 0x03 r with
      | some (oid, params), some (u :: key, []) =>
        if Deps.oidOk oid ∧ (params = [] ∨ Deps.anyOk params) ∧ u.toNat ≤ 7 ∧ (u = 0 ∨ key ≠ []) then some key else none
      | _, _ => none
    | none => none
  | _ => none

/-- `RsaKeyPair::from_pkcs8(pem::parse(file)?.contents)`, src/algorithm/ring.rs:33-36. -/
def privatePkcs8Pem (file : Bytes) : Option Bytes := (Pem.parse file).bind (Deps.ringPkcs8 .rsa)
/-- The key bits of an SPKI file, src/algorithm/ring.rs:77-81,182-186. -/
def publicSpkiPem (file : Bytes) : Option Bytes := (Pem.parse file).bind spkiKey
/-- The key bits of a PKCS #1 file, src/algorithm/ring.rs:63-66: not looked at. -/
def publicPkcs1Pem (file : Bytes) : Option Bytes := Pem.parse file

/-- Key types of the ring back end: `rsa_signature!` and `ecdsa_signature!`, src/algorithm/ring.rs:223-227. -/
def AlgEntry.keyType (e : AlgEntry) : KeyType := if e.signWith = .ecdsaP256Sha256Asn1 then .ecP256 else .rsa

namespace Ring

/-- `new_pkcs8` of a signing type, src/algorithm/ring.rs:25-27,153-158. -/
def newPkcs8 (e : AlgEntry) (der : Bytes) : Option HttpSignatureSign := (Deps.ringPkcs8 e.keyType der).map e.signer
/-- `new_pkcs8_pem` of a signing type, src/algorithm/ring.rs:33-36,164-170. -/
def newPkcs8Pem (e : AlgEntry) (file : Bytes) : Option HttpSignatureSign :=
  (Pem.parse file).bind fun c => (Deps.ringPkcs8 e.keyType c).map e.signer
/-- `new_pkcs1` of an RSA signing type, src/algorithm/ring.rs:39-41. -/
def newPkcs1 (e : AlgEntry) (der : Bytes) : Option HttpSignatureSign := (Deps.ringPkcs1 der).map e.signer
/-- `new_pkcs1_pem` of an RSA signing type, src/algorithm/ring.rs:46-49. -/
def newPkcs1Pem (e : AlgEntry) (file : Bytes) : Option HttpSignatureSign :=
  (Pem.parse file).bind fun c => (Deps.ringPkcs1 c).map e.signer
/-- `new_pkcs1_der` of an RSA verifying type, src/algorithm/ring.rs:55-57. -/
def verifyPkcs1Der (e : AlgEntry) (der : Bytes) : Option HttpSignatureVerify := some (e.verifier der)
/-- `new_pkcs1_pem` of an RSA verifying type, src/algorithm/ring.rs:63-66. -/
def verifyPkcs1Pem (e : AlgEntry) (file : Bytes) : Option HttpSignatureVerify := (publicPkcs1Pem file).map e.verifier
/-- `new_spki_der` of a verifying type, src/algorithm/ring.rs:70-73,176-179. -/
def verifySpkiDer (e : AlgEntry) (der : Bytes) : Option HttpSignatureVerify := (spkiKey der).map e.verifier
/-- `new_spki_pem` of a verifying type, src/algorithm/ring.rs:77-81,182-186. -/
def verifySpkiPem (e : AlgEntry) (file : Bytes) : Option HttpSignatureVerify := (publicSpkiPem file).map e.verifier

end Ring

namespace Openssl

/-- `new_pkcs8`, src/algorithm/openssl.rs:39-41: any kind of private key. -/
def newPkcs8 (der : Bytes) : Option OsslKey := Deps.osslPkcs8 der
/-- `new_pkcs8_pem`, src/algorithm/openssl.rs:45-47: the same call on the same bytes. -/
def newPkcs8Pem (file : Bytes) : Option OsslKey := Deps.osslPkcs8 file
/-- `new_pkcs1_der`, src/algorithm/openssl.rs:51-55. -/
def newPkcs1Der (der : Bytes) : Option OsslKey := (Deps.osslRsaDer der).map fun k => ⟨true, k⟩
/-- `new_pkcs1_pem`, src/algorithm/openssl.rs:58-62. -/
def newPkcs1Pem (file : Bytes) : Option OsslKey := (Deps.osslRsaPem file).map fun k => ⟨true, k⟩

/-- `new_der` of a verifying type, src/algorithm/openssl.rs:68-70. -/
def verifyDer (e : AlgEntry) (der : Bytes) : Option HttpSignatureVerify := (Deps.osslPubDer der).map e.verifier
/-- `new_pem` of a verifying type, src/algorithm/openssl.rs:73-75. -/
def verifyPem (e : AlgEntry) (file : Bytes) : Option HttpSignatureVerify := (Deps.osslPubPem file).map e.verifier

/-- `http_sign`, src/algorithm/openssl.rs:79-86. For a key that is not a plain RSA key, the signer cannot be made
(80, kinds of keys that take no digest) or its padding not be set (81); one constructor stands for both panics;
the signature fails for an RSA key that is too short for the digest (84). -/
def httpSign (e : AlgEntry) (k : OsslKey) (rnd : Nat) (msg : Bytes) : P Str :=
  if !k.rsa then throw .opensslPadding
  else if Deps.osslShort e.signWith k.key then throw .opensslSign
  else pure ((e.signer k.key).sign rnd msg)

end Openssl

end

end Httpsig
