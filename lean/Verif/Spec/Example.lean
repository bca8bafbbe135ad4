import Verif.Model.Reqwest
import Verif.Model.Mock
/-
Concrete requests used by the `example`s that show theorem hypotheses to be satisfiable.
-/
namespace Httpsig
variable [Deps]

/-- `POST https://example.com/foo?param=value&pet=dog`. -/
def exUrl : Url where
  scheme := str% "https"
  authority := some { host := str% "example.com" }
  path := str% "/foo"
  query := some (str% "param=value&pet=dog")
  ok := rfl

def exPost : Method := ⟨str% "POST", rfl⟩

/-- A `reqwest` request with a host, a content type and a body. -/
def exReqwest : ReqwestRequest where
  method := exPost
  url := exUrl
  headers := [(hHost, ⟨utf8 (str% "example.com"), rfl⟩), (⟨str% "content-type", rfl⟩, ⟨utf8 (str% "text/plain"), rfl⟩)]
  body := .bytes (utf8 (str% "hello"))

/-- A `MockRequest` (the validator's request type) with the given headers and body. -/
def exMock (headers : HeaderMap) (body : Option Bytes) : MockRequest where
  version := .http11
  method := exPost
  url := exUrl
  path := str% "/foo?param=value&pet=dog"
  headers := headers
  body := body

/-- A toy key: its tag is the first three bytes of the message. -/
def exKey : HttpSignatureVerify := hmacVerify (str% "toy") fun m => m.take 3

/-- A toy digest: the body itself in base64. -/
def exDigest : HttpDigest := { name := str% "TOY", digest := fun b => Base64.encode b }

/-- Verification with the toy key for the key id `k1` and the toy digest, without date validation. -/
def exVerifying : VerifyingConfig :=
  ((VerifyingConfig.new fun id => if id = str% "k1" then [exKey] else []).setDigestProvider
    fun n => if n = str% "TOY" then some exDigest else none).setValidateDate false

/-- Headers of a request whose signature covers `@method`, `host` and `digest`. -/
def exSignedHeaders : HeaderMap :=
  [(hHost, ⟨utf8 (str% "example.com"), rfl⟩),
   (hDigest, ⟨utf8 (str% "MD5=abc, TOY = aGVsbG8= "), rfl⟩),
   (hSignatureInput, ⟨utf8 (str% "sig=(\"@method\" \"host\" \"digest\");alg=\"toy\";created=100;expires=200;keyid=\"k1\";date=150"), rfl⟩),
   (hSignature, ⟨utf8 (str% "sig=:IkBt:"), rfl⟩)]

/-- A signed request. -/
def exSigned : MockRequest := exMock exSignedHeaders (some (utf8 (str% "hello")))

/-- 150 seconds after the epoch. -/
def exEnv : VerifyEnv := { sysNow := 150000000000, utcNow := 150000000000 }

/-- The signing half of the toy key. -/
def exSigner : HttpSignatureSign := hmacSign (str% "toy") fun m => m.take 3

/-- Signing with the toy key: method, host and digest are covered, made now, valid for a minute. -/
def exSigning : SigningConfig :=
  (((((SigningConfig.new (str% "sig") (str% "k1") exSigner).setDigest exDigest).setComponents
    [.derived (.new atMethod), .header hHost, .header hDigest, .header hDate]).setCreatedAuto).setExpiresRelative 60).setNonce (str% "n1")

/-- 150 seconds after the epoch. -/
def exSignEnv : SignEnv := { utcNow := 150, sysNow := 150000000000, rnd := 0 }

/-- What signing makes of `exReqwest`. -/
def exReqwestSigned : ReqwestRequest :=
  { exReqwest with headers :=
    [(hHost, ⟨utf8 (str% "example.com"), rfl⟩), (⟨str% "content-type", rfl⟩, ⟨utf8 (str% "text/plain"), rfl⟩),
     (hDate, ⟨utf8 (str% "Thu, 01 Jan 1970 00:02:30 GMT"), rfl⟩),
     (hDigest, ⟨utf8 (str% "TOY=aGVsbG8="), rfl⟩),
     (hSignatureInput, ⟨utf8 (str% "sig=(\"@method\" \"host\" \"digest\" \"date\");alg=\"toy\";created=150;expires=210;keyid=\"k1\";nonce=n1"), rfl⟩),
     (hSignature, ⟨utf8 (str% "sig=:IkBt:"), rfl⟩)] }

end Httpsig
