import Verif.Spec.Main
import Verif.Spec.Accept
/-
Specification vocabulary for the commands in httpsig-validator/README.md (C133).
-/
namespace Httpsig
variable [Deps]

/-- The command of README.md, "Canonicalization". -/
def readmeCanonicalize : Args where
  mode := .canonicalize
  label := some (str% "sig")
  algorithm := some (str% "rsa-v1_5-sha256")
  keyId := some (str% "test-key-rsa")
  headers := some (some (str% "host date content-digest"))

/-- The command of README.md, "Signing", and the first half of "All together now!". -/
def readmeSign : Args where
  mode := .sign
  label := some (str% "sig")
  headers := some (some (str% "host date digest"))
  algorithm := some (str% "rsa-v1_5-sha256")
  keyId := some (str% "test-key-rsa")
  privateKey := some (str% "../test_data/rsa-private.pem")

/-- The command of README.md, "Verification", and the second half of "All together now!". -/
def readmeVerify : Args where
  mode := .verify
  algorithm := some (str% "rsa-v1_5-sha256")
  keyId := some (str% "test-key-rsa")
  publicKey := some (str% "../test_data/rsa-public.pem")

/-- The text of the field called `name`, if the request has it. -/
def Field (r : MockRequest) (name s : Str) : Prop := ∃ n : HeaderName, n.str = name ∧ FieldText r n s

/-- The request has no field called `name`. -/
def NoField (r : MockRequest) (name : Str) : Prop := ∀ e ∈ r.headers, e.1.str ≠ name

/-- The last line of what the canonicalize command prints. -/
def readmeLastLine : Str :=
  str% "\"@signature-params\": (\"host\" \"date\" \"content-digest\");keyid=\"test-key-rsa\";alg=\"rsa-v1_5-sha256\""

/-- What the sign command puts into the `Signature-Input` header, after `sig=`. -/
def readmeInput : Str := str% "(\"host\" \"date\" \"digest\");alg=\"rsa-v1_5-sha256\";keyid=\"test-key-rsa\""

/-- What the sign command signs. -/
def readmeBase (host date digest : Str) : Str :=
  str% "\"host\": " ++ host ++ str% "\n\"date\": " ++ date ++ str% "\n\"digest\": " ++ digest ++
    str% "\n\"@signature-params\": " ++ readmeInput

end Httpsig
