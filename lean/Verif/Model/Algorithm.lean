import Verif.Model.Canonicalize
/-
Signature and digest algorithms (src/algorithm.rs, src/algorithm/ring.rs, src/algorithm/openssl.rs).
-/
namespace Httpsig

/-- `HttpSignatureSign`, src/algorithm.rs:18-25. The first argument of `sign` is the randomness drawn
by the algorithm (RSA-PSS and ECDSA use it; deterministic algorithms ignore it). -/
structure HttpSignatureSign where
  name : Str
  sign : Nat → Bytes → Str

/-- `HttpSignatureVerify`, src/algorithm.rs:29-36. -/
structure HttpSignatureVerify where
  name : Str
  verify : Bytes → Str → Bool

/-- `HttpDigest`, src/algorithm.rs:41-49. -/
structure HttpDigest where
  name : Str
  digest : Bytes → Str

/-- Wrapper shared by all verifiers: base64-decode strictly, then compare/verify
(src/algorithm.rs:79-87, src/algorithm/ring.rs:102-114,203-215, src/algorithm/openssl.rs:92-107). -/
def b64Verify (check : Bytes → Bytes → Bool) (msg : Bytes) (signature : Str) : Bool :=
  match Base64.strictDecode signature with
  | none => false
  | some tag => check msg tag

/-- Signing half of an HMAC scheme, src/algorithm.rs:67-77. -/
def hmacSign (name : Str) (mac : Bytes → Bytes) : HttpSignatureSign :=
  { name := name, sign := fun _ msg => Base64.encode (mac msg) }

/-- Verifying half of an HMAC scheme, src/algorithm.rs:78-91 (`verify_slice` is modelled as equality; C128). -/
def hmacVerify (name : Str) (mac : Bytes → Bytes) : HttpSignatureVerify :=
  { name := name, verify := b64Verify fun msg tag => decide (tag = mac msg) }

section
variable [Deps]

/-- `HmacSha256::new(key)`, src/algorithm.rs:95. -/
def hmacSha256Sign (key : Bytes) : HttpSignatureSign := hmacSign (str% "hmac-sha256") (Deps.hmac256 key)
@[inherit_doc hmacSha256Sign]
def hmacSha256Verify (key : Bytes) : HttpSignatureVerify := hmacVerify (str% "hmac-sha256") (Deps.hmac256 key)
/-- `HmacSha512::new(key)`, src/algorithm.rs:96. -/
def hmacSha512Sign (key : Bytes) : HttpSignatureSign := hmacSign (str% "hmac-sha512") (Deps.hmac512 key)
@[inherit_doc hmacSha512Sign]
def hmacSha512Verify (key : Bytes) : HttpSignatureVerify := hmacVerify (str% "hmac-sha512") (Deps.hmac512 key)

/-- Signing half of an asymmetric scheme (`rsa_signature!`, `ecdsa_signature!`:
src/algorithm/ring.rs:84-100,189-200, src/algorithm/openssl.rs:78-90). -/
def asymSigner (name : Str) (p : Primitive) (key : Bytes) : HttpSignatureSign :=
  { name := name, sign := fun rnd msg => Base64.encode (Deps.asymSign p key rnd msg) }

/-- Verifying half of an asymmetric scheme (src/algorithm/ring.rs:101-118,202-219,
src/algorithm/openssl.rs:91-111). -/
def asymVerifier (name : Str) (p : Primitive) (key : Bytes) : HttpSignatureVerify :=
  { name := name, verify := b64Verify fun msg tag => Deps.asymVerify p key msg tag }

/-- `HttpDigest for Sha256`, src/algorithm.rs:98-105. -/
def sha256Digest : HttpDigest := { name := str% "SHA-256", digest := fun b => Base64.encode (Deps.sha256 b) }
/-- `HttpDigest for Sha512`, src/algorithm.rs:107-114. -/
def sha512Digest : HttpDigest := { name := str% "SHA-512", digest := fun b => Base64.encode (Deps.sha512 b) }

/-- `DefaultDigestAlgorithm`, src/lib.rs:12. -/
def defaultDigest : HttpDigest := sha256Digest

end

/-- One instantiation of a signature macro: type name, reported name, primitives of the two halves. -/
structure AlgEntry where
  type : Str
  name : Str
  signWith : Primitive
  verifyWith : Primitive
deriving DecidableEq, Repr

/-- `hmac_signature!` instantiations, src/algorithm.rs:95-96. -/
def hmacTable : List AlgEntry :=
  [⟨str% "HmacSha256", str% "hmac-sha256", .hmacSha256, .hmacSha256⟩,
   ⟨str% "HmacSha512", str% "hmac-sha512", .hmacSha512, .hmacSha512⟩]

/-- Macro instantiations of the ring back end, src/algorithm/ring.rs:223-227. -/
def ringTable : List AlgEntry :=
  [⟨str% "RsaSha256", str% "rsa-v1_5-sha256", .rsaPkcs1Sha256, .rsaPkcs1Sha256⟩,
   ⟨str% "RsaSha512", str% "rsa-v1_5-sha512", .rsaPkcs1Sha512, .rsaPkcs1Sha512⟩,
   ⟨str% "RsaPssSha256", str% "rsa-pss-sha512", .rsaPssSha512, .rsaPssSha512⟩,
   ⟨str% "RsaPssSha512", str% "rsa-pss-sha512", .rsaPssSha512, .rsaPssSha512⟩,
   ⟨str% "EcdsaP256Sha256", str% "ecdsa-p256-sha256", .ecdsaP256Sha256Asn1, .ecdsaP256Sha256Asn1⟩]

/-- Macro instantiations of the openssl back end, src/algorithm/openssl.rs:115-118; the padding is
always PKCS#1 v1.5 (81, 98). -/
def opensslTable : List AlgEntry :=
  [⟨str% "RsaPssSha256", str% "rsa-pss-sha256", .rsaPkcs1Sha256, .rsaPkcs1Sha256⟩,
   ⟨str% "RsaPssSha512", str% "rsa-pss-sha512", .rsaPkcs1Sha512, .rsaPkcs1Sha512⟩,
   ⟨str% "RsaSha256", str% "rsa-v1_5-sha256", .rsaPkcs1Sha256, .rsaPkcs1Sha256⟩,
   ⟨str% "RsaSha512", str% "rsa-v1_5-sha512", .rsaPkcs1Sha512, .rsaPkcs1Sha512⟩]

/-- The signing half of an asymmetric instantiation with a private key, src/algorithm/ring.rs:223-227,
src/algorithm/openssl.rs:115-118. -/
def AlgEntry.signer [Deps] (e : AlgEntry) (key : Bytes) : HttpSignatureSign := asymSigner e.name e.signWith key
/-- The verifying half of an asymmetric instantiation with a public key, src/algorithm/ring.rs:223-227,
src/algorithm/openssl.rs:115-118. -/
def AlgEntry.verifier [Deps] (e : AlgEntry) (key : Bytes) : HttpSignatureVerify := asymVerifier e.name e.verifyWith key

end Httpsig
