import Verif.Spec.Url
import Verif.Vectors.Rsa
import Verif.Vectors.Files
import Verif.Model.Reqwest
import Verif.Model.Mock
import Verif.Model.Cli
import Verif.Spec.Hmac
import Verif.Spec.Pss
import Verif.Model.Ecdsa
/-
The unit tests of the repository, evaluated on the model, with real hash functions and RSA in place of the parameters. They
are tests of the model, not proofs: they compare it with outputs of the program that are recorded in /repo.
-/
namespace Httpsig

/-- SHA-2, HMAC and RSASSA-PKCS1-v1_5, RSASSA-PSS with SHA-512, and the verification of ECDSA signatures; the other primitives, which the vectors do not use, do nothing. -/
@[reducible] def realDeps : Deps where
  dquoteHeaderChar := true
  timestampInRange t := decide (-8334632851200 ≤ t ∧ t ≤ 8210298412799)
  sha256 := Sha2.sha256Family.hash
  sha512 := Sha2.sha512Family.hash
  hmac256 := Sha2.sha256Family.hmac
  hmac512 := Sha2.sha512Family.hmac
  parseUrl := plainParseUrl
  asymSign p k rnd m := match p with
    | .rsaPssSha512 => Rsa.signPss k (Rsa.toBytes 64 rnd) m
    | .rsaPkcs1Sha256 => Rsa.sign Rsa.info256 Sha2.sha256Family.hash k m
    | .rsaPkcs1Sha512 => Rsa.sign Rsa.info512 Sha2.sha512Family.hash k m
    | _ => []
  asymVerify p k m t := match p with
    | .rsaPssSha512 => Rsa.verifyPss k m t
    | .rsaPkcs1Sha256 => Rsa.verify Rsa.info256 Sha2.sha256Family.hash k m t
    | .rsaPkcs1Sha512 => Rsa.verify Rsa.info512 Sha2.sha512Family.hash k m t
    | .ecdsaP256Sha256Asn1 => P256.verify Sha2.sha256Family.hash k m t
    | _ => false
  ringPkcs8 _ b := some b
  ringPkcs1 b := some b
  oidOk o := !o.isEmpty
  anyOk _ := true
  osslPkcs8 b := if b.head? = some 0x30 then some ⟨b.length % 2 == 0, b⟩ else none
  osslRsaDer b := some b
  osslRsaPem b := some b
  osslPubDer b := some b
  osslPubPem b := some b
  osslShort _ k := k.length < 4

/-- The hypothesis of C135 holds for the actual functions. -/
theorem realHmac : @RealHmac realDeps :=
  @RealHmac.mk realDeps rfl rfl (fun m => Sha2.sha256Family.hash_length m) (fun m => Sha2.sha512Family.hash_length m)

/-- The hypothesis of C136 holds for the actual functions. -/
theorem realRsa : @RealRsa realDeps Rsa.privateKey Rsa.publicKey := by
  refine @RealRsa.mk realDeps _ _ ?_ ?_ ?_ ?_ (fun m => Sha2.sha256Family.hash_length m) (fun m => Sha2.sha512Family.hash_length m)
  · intro k n d rnd m h
    change Rsa.sign _ _ k m = _
    simp only [Rsa.sign, h, Rsa.signatureFast_eq]
    rfl
  · intro k n d rnd m h
    change Rsa.sign _ _ k m = _
    simp only [Rsa.sign, h, Rsa.signatureFast_eq]
    rfl
  · intro k n e m t h
    change Rsa.verify _ _ k m t = _
    simp only [Rsa.verify, h, Rsa.acceptsFast_eq]
    rfl
  · intro k n e m t h
    change Rsa.verify _ _ k m t = _
    simp only [Rsa.verify, h, Rsa.acceptsFast_eq]
    rfl

/-- The hypothesis of C137 holds for the actual functions. -/
theorem realPss : @RealPss realDeps Rsa.privateKey Rsa.publicKey (Rsa.toBytes 64) := by
  refine @RealPss.mk realDeps _ _ _ ?_ ?_ (fun m => Sha2.sha512Family.hash_length m) (fun rnd => Rsa.toBytes_length _ _) ?_
  · intro k n d rnd m h
    change Rsa.signPss k _ m = _
    simp only [Rsa.signPss, h, Pss.signatureFast_eq]
    rfl
  · intro k n e m t h
    change Rsa.verifyPss k m t = _
    simp only [Rsa.verifyPss, h, Pss.acceptsFast_eq]
    rfl
  · intro s hs
    exact ⟨Der.ofBytes s, by have := Rsa.toBytes_ofBytes s; rwa [hs] at this⟩

section
attribute [local instance] realDeps

/-- A header by name and value. -/
def hdr (n v : Str) : HeaderMap :=
  match HeaderName.fromStr n, HeaderValue.fromStr v with
  | some n, some v => [(n, v)]
  | _, _ => []

/-- The value of a header after signing. -/
def signedHeader {R : Type} (headers : R → HeaderMap) (n : HeaderName) : P (R × Except Error Unit) → Option Str
  | .ok (r, .ok ()) => ((headers r).get n).bind HeaderValue.toStr
  | _ => none

/-- The request after signing. -/
def signedRequest {R : Type} : P (R × Except Error Unit) → Option R
  | .ok (r, .ok ()) => some r
  | _ => none

/-- Verification succeeded. -/
def accepted {Rem : Type} : P (Except Unit (Rem × Str)) → Bool
  | .ok (.ok _) => true
  | _ => false

/-! ### src/reqwest_impls.rs -/

def postUrl (s : Str) : Url :=
  match plainParseUrl s with
  | .ok u => u
  | _ => { scheme := str% "x", authority := none, path := [], ok := rfl }

def post : Method := ⟨str% "POST", rfl⟩

/-- The `request` function of the tests, src/reqwest_impls.rs:90-92. -/
def vReqwest (url : Str) : ReqwestRequest := { method := post, url := postUrl url, headers := [], body := .absent }

/-- A component of the request. -/
def vDerive (r : ReqwestRequest) (d : DerivedComponent) : Option Str :=
  match RequestLike.derive r (.derived d) with
  | .ok v => v
  | .error _ => none

def vUrl : Str := str% "https://www.example.com/path?param=value"
def vUrl2 : Str := str% "https://www.example.com//path?param=value&foo=bar&baz=batman"

example : vDerive (vReqwest vUrl) (.new atMethod) = some (str% "POST") := by decide +kernel
example : vDerive (vReqwest vUrl) (.new atTargetUri) = some vUrl := by decide +kernel
example : vDerive (vReqwest vUrl) (.new atAuthority) = some (str% "www.example.com") := by decide +kernel
example : vDerive (vReqwest vUrl) (.new atScheme) = some (str% "https") := by decide +kernel
example : vDerive (vReqwest vUrl) (.new atRequestTarget) = some vUrl := by decide +kernel
example : vDerive (vReqwest vUrl) (.new atPath) = some (str% "/path") := by decide +kernel
example : vDerive (vReqwest vUrl2) (.new atQuery) = some (str% "?param=value&foo=bar&baz=batman") := by decide +kernel
example : vDerive (vReqwest vUrl2) ((DerivedComponent.new atQueryParams).withParam (str% "name") (str% "param")) =
    some (str% "value") := by decide +kernel

/-- The request of `it_works`, src/reqwest_impls.rs:207-228. -/
def worksRequest : ReqwestRequest where
  method := post
  url := postUrl (str% "https://example.com/foo?param=value&pet=dog")
  headers := hdr (str% "host") (str% "example.com") ++ hdr (str% "content-type") (str% "application/json") ++
    hdr (str% "date") (formatDate 1618884475) ++
    hdr (str% "DIGEST") (str% "sha-256=X48E9qOokqqrvdts8nOJRJN3OWDUoyWxBf7kbu9DBPE=") ++
    hdr (str% "Example-Dict") (str% "a=(1 2), b=3, c=4;aa=bb, d=(5 6);valid")
  body := .bytes (utf8 (str% "{\"hello\": \"world\"}"))

/-- The configuration of `it_works`, src/reqwest_impls.rs:189-203. -/
def worksConfig : SigningConfig :=
  (SigningConfig.new (str% "sig") (str% "hmac") (hmacSha256Sign (utf8 (str% "password")))).setComponents
    [.derived (.new atRequestTarget), .header hDate, .header hDigest, .header hHost]

/-- `it_works`, src/reqwest_impls.rs:187-236: both headers, bit for bit. -/
example : signedHeader ReqwestRequest.headers hSignatureInput (sign worksRequest worksConfig ⟨0, 0, 0⟩) =
    some (str% "sig=(\"@request-target\" \"date\" \"digest\" \"host\");alg=\"hmac-sha256\";keyid=\"hmac\"") := by decide +kernel
example : signedHeader ReqwestRequest.headers hSignature (sign worksRequest worksConfig ⟨0, 0, 0⟩) =
    some (str% "sig=:3YquZWmc8X0QnicPjncUr9vjS1FXEkFGY7+QtWNJtVc=:") := by decide +kernel

/-! ### src/derived.rs, src/signature_params.rs, src/canonicalize.rs -/

example : (DerivedComponent.new atPath).display.toOption = some (str% "\"@path\"") := by decide +kernel
example : ((DerivedComponent.new atQueryParams).withParam (str% "name") (str% "param1")).display.toOption =
    some (str% "\"@query-params\";name=\"param1\"") := by decide +kernel
example : (DerivedComponent.fromStr (str% "\"@query-params\";name=\"param1\"")).toOption =
    some ((DerivedComponent.new atQueryParams).withParam (str% "name") (str% "param1")) := by decide +kernel
example : (DerivedComponent.fromStr (str% "\"@request-target\"")).toOption = some (.new atRequestTarget) := by decide +kernel
example : (((⟨[]⟩ : SignatureParams).setNonce (str% "nonce")).setAlg (str% "alg")).getNonce = some (str% "nonce") ∧
    (((⟨[]⟩ : SignatureParams).setNonce (str% "nonce")).setAlg (str% "alg")).getAlg = some (str% "alg") := by decide +kernel
example : ((CanonicalizeConfig.fromSignatureInput
      (str% "sig=(\"host\" \"date\" \"digest\");alg=\"rsa-v1_5-sha256\";keyid=\"test-key-rsa\"")).toOption.bind (·.toOption)).bind
      (·.toSignatureInput.display.toOption) =
    some (str% "sig=(\"host\" \"date\" \"digest\");alg=\"rsa-v1_5-sha256\";keyid=\"test-key-rsa\"") := by decide +kernel

/-! ### httpsig-validator/src/mock_request.rs -/

/-- The request in a file. -/
def readRequest (file : Bytes) : Option MockRequest := (MockRequest.fromReader file).toOption.bind id

/-- The RSA half of `test_key_provider`, mock_request.rs:413-436. -/
def rsaVerifying : VerifyingConfig :=
  (VerifyingConfig.new fun id => if id = str% "test-key-rsa" then
    ((publicPkcs1Pem rsaPublicPem).map (asymVerifier (str% "rsa-v1_5-sha256") .rsaPkcs1Sha256)).toList else []).setValidateDate false

/-- The signing key of the tests. -/
def rsaSigner : HttpSignatureSign :=
  asymSigner (str% "rsa-v1_5-sha256") .rsaPkcs1Sha256 ((privatePkcs8Pem rsaPrivatePem).getD [])

/-- The key files of test_data: rsa-public-justin.pem is an SPKI file with an RSA key of 2048 bits, ecc-public.pem an SPKI file
with an uncompressed point, rsa-public.pem is not an SPKI file. -/
example : (publicSpkiPem rsaPublicJustinPem).bind (fun k => (Rsa.publicKey k).map fun (n, e) => (n.log2 + 1, e)) = some (2048, 65537) ∧
    (publicSpkiPem eccPublicPem).map (fun k => (k.length, k.head?)) = some (65, some 4) ∧ publicSpkiPem rsaPublicPem = none ∧
    (publicPkcs1Pem rsaPublicPem).bind (fun k => (Rsa.publicKey k).map fun (n, e) => (n.log2 + 1, e)) = some (2048, 65537) := by
  decide +kernel

/-- The signature in test_data/signed_request.txt, which the program wrote, is accepted with the public key in test_data. The
file ends with a newline that is not part of the digested body, so the digest is accepted only without it. -/
example : (readRequest signedRequestTxt).map (fun r =>
      (accepted (verify r (rsaVerifying.setValidateDigest false) ⟨1618884475000000000, 0⟩),
       accepted (verify r rsaVerifying ⟨1618884475000000000, 0⟩))) = some (true, false) := by decide +kernel
example : (readRequest signedRequestTxt.dropLast).map (fun r => accepted (verify r rsaVerifying ⟨1618884475000000000, 0⟩)) =
    some true := by decide +kernel
/-- Options of verify mode: key id `test-key-rsa`, public key rsa-public.pem, algorithm `rsa-v1_5-sha256`. -/
def rsaOpt : Opt where
  keyId := some (str% "test-key-rsa")
  publicKey := some (some rsaPublicPem)
  algorithm := some (str% "rsa-v1_5-sha256")

/-- The same through the validator. -/
example : (readRequest signedRequestTxt.dropLast).map (fun r =>
      (runVerify r rsaOpt ⟨1618884475000000000, 0⟩).toOption.map (·.toOption)) = some (some (some ())) := by decide +kernel

/-- The signing configuration of `rsa_test`, mock_request.rs:447-464. -/
def rsaConfig : SigningConfig :=
  ((SigningConfig.new (str% "sig") (str% "test-key-rsa") rsaSigner).setComponents
    [.header hHost, .header hDate, .header hDigest, .derived (.new atRequestTarget),
     .derived ((DerivedComponent.new atQueryParams).withParam (str% "name") (str% "param"))]).setAddDate true

/-- `rsa_test`, mock_request.rs:440-481: accepted, and rejected with another date. -/
example : ((readRequest basicRequestTxt).bind fun r => signedRequest (sign r rsaConfig ⟨1618884475, 1618884475000000000, 0⟩)).map
      (fun r => (accepted (verify r rsaVerifying ⟨1618884475000000000, 0⟩),
        (r.withHeader (str% "Date") (str% "Sun, 05 Jan 2014 21:31:41 GMT")).toOption.map
          fun r => accepted (verify r rsaVerifying ⟨1618884475000000000, 0⟩))) =
    some (true, some false) := by decide +kernel

/-- `no_headers`, mock_request.rs:522-549. -/
example : (readRequest basicRequestTxt).map (fun r => signedHeader MockRequest.headers hSignatureInput
      (sign r ((SigningConfig.new (str% "sig") (str% "test-key-rsa") rsaSigner).setComputeDigest false) ⟨0, 0, 0⟩)) =
    some (some (str% "sig=();alg=\"rsa-v1_5-sha256\";keyid=\"test-key-rsa\"")) := by decide +kernel

/-- The derive tests of `MockRequest`, mock_request.rs:305-400. -/
def vMock (url : Str) (d : DerivedComponent) : Option Str :=
  ((MockRequest.new .http11 post url []).toOption.bind fun r => (r.derive (.derived d)).toOption).bind id

example : vMock vUrl (.new atMethod) = some (str% "POST") := by decide +kernel
example : vMock vUrl (.new atTargetUri) = some vUrl := by decide +kernel
/-- `test_derive_authority`, mock_request.rs:333-343, expects `www.example.com`. The model says that this test fails: nothing
implements `host` for `MockRequest`, so the default `None` of src/signing.rs:22-24 is used. -/
example : vMock vUrl (.new atAuthority) = none := by decide +kernel
example : vMock vUrl (.new atScheme) = some (str% "https") := by decide +kernel
example : vMock vUrl (.new atRequestTarget) = some vUrl := by decide +kernel
example : vMock vUrl (.new atPath) = some (str% "/path") := by decide +kernel
example : vMock vUrl2 (.new atQuery) = some (str% "?param=value&foo=bar&baz=batman") := by decide +kernel
example : vMock vUrl2 ((DerivedComponent.new atQueryParams).withParam (str% "name") (str% "param")) = some (str% "value") := by
  decide +kernel

end
end Httpsig
