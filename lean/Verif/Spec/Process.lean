import Verif.Spec.Accept
import Verif.Spec.Main
import Verif.Spec.Base64
/-
Specification of verify mode as a program: from the bytes of the input, the options and the key file to the exit status (C121).
-/
namespace Httpsig
open Sfv
variable [Deps]

/-- An entry of a digest header for the body `b`: `name=value`, blanks aside, where the name is SHA-256 or SHA-512 in any case. `good`
says that the value is the base64 of that digest of the body. -/
def DigestEntry (entry : Str) (b : Bytes) (good : Prop) : Prop :=
  ∃ k v name value, entry = k ++ '=' :: v ∧ '=' ∉ k ∧ Trimmed whiteSpace k name ∧ Trimmed whiteSpace v value ∧
    ((name.map Char.toLower = str% "sha-256" ∧ (good ↔ IsBase64 value (Deps.sha256 b))) ∨
     (name.map Char.toLower = str% "sha-512" ∧ (good ↔ IsBase64 value (Deps.sha512 b))))

/-- In a comma-separated digest header, the first entry that is such an entry is good. -/
def DigestHeader (header : Str) (b : Bytes) : Prop :=
  ∃ before entry after, header = joinWith (str% ",") (before ++ entry :: after) ∧ (∀ e ∈ before ++ entry :: after, ',' ∉ e) ∧
    DigestEntry entry b True ∧ ∀ e ∈ before, ∀ good, ¬ DigestEntry e b good

/-- The request has no digest header, or a body that its digest header is right about. -/
def BodyAgrees (r : MockRequest) : Prop :=
  (∀ t, ¬ FieldText r hDigest t) ∨ ∃ t b, FieldText r hDigest t ∧ r.body = some b ∧ DigestHeader t b

/-- The request carries a signature under the key id `kid` that is valid at time `now` (nanoseconds since 1970) for the public key. -/
def Genuine (r : MockRequest) (now : Int) (kid : Str) (prim : Primitive) (key : Bytes) : Prop :=
  ∃ l comps sig vals ids lids ps tag, Presents r l comps sig kid ∧ 0 ≤ now ∧
    (∀ t, (str% "created", BareItem.integer t) ∈ l.params → t ≤ now / 1000000000) ∧
    (∀ t, (str% "expires", BareItem.integer t) ∈ l.params → now / 1000000000 ≤ t) ∧
    Forall2 (ComponentValue r) comps vals ∧ Forall2 Ident comps ids ∧ Forall2 ListIdent comps lids ∧ ParamsText l.params ps ∧
    IsBase64 sig tag ∧ Deps.asymVerify prim key (utf8 (specBase ids lids vals ps)) tag = true

/-- What verify mode accepts. -/
def Verifies (a : Args) (h : Host) (r : MockRequest) : Prop :=
  ∃ name prim key, VerifyOptions a h name prim key ∧ Genuine r h.verifyEnv.sysNow (a.keyId.getD []) prim key ∧ BodyAgrees r

/-- What verify mode panics about, once its options are in order. -/
def Crashes (r : MockRequest) (now : Int) : Prop :=
  (∃ v, FieldText r hSignatureInput v ∧ ∀ label l comps, ¬ InputText v label l comps) ∨
  now < 0 ∧ ∃ l comps sig kid, Presents r l comps sig kid

end Httpsig
