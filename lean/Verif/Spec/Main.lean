import Verif.Spec.RequestFile
import Verif.Spec.Verify
import Verif.Spec.Sign
import Verif.Model.Main
/-
Specification vocabulary for the validator as a program: what it reads and what it writes (C61 to C64).
-/
namespace Httpsig
open Sfv
variable [Deps]

/-- The bytes the program takes its request from: the input file if one is named, otherwise standard input. -/
def Source (a : Args) (h : Host) (input : Bytes) : Prop :=
  match a.inFile with
  | some p => h.files p = .contents input
  | none => h.stdin = some input

/-- The request in the input. With trace logging a body must be UTF-8. -/
def ReadsRequest (a : Args) (h : Host) (req : MockRequest) : Prop :=
  ∃ input, Source a h input ∧ RequestFile input req ∧ (h.trace = true → ∀ b, req.body = some b → ∃ s, utf8 s = b)

/-- Header lines `name: value`, in order. -/
inductive HeaderLines : HeaderMap → Str → Prop
  | nil : HeaderLines [] []
  | cons {n : HeaderName} {v : HeaderValue} {s t : Str} {m : HeaderMap} : v.toStr = some s → HeaderLines m t →
      HeaderLines ((n, v) :: m) (n.str ++ ':' :: ' ' :: s ++ '\n' :: t)

/-- The file for a request: request line, header lines, and for a body an empty line and the body. -/
def FileOf (r : MockRequest) (out : Bytes) : Prop :=
  ∃ t, HeaderLines r.headers t ∧
    out = utf8 (r.method.str ++ ' ' :: r.path ++ str% " HTTP/1.1\n" ++ t) ++
      (match r.body with | some b => 10 :: b | none => [])

/-- Options whose values can be written as parameters in canonicalize mode. -/
structure WritableOptions (a : Args) : Prop where
  created : ∀ t, a.created = some t → -999999999999999 ≤ t ∧ t ≤ 999999999999999
  expires : ∀ t, a.expires = some t → -999999999999999 ≤ t ∧ t ≤ 999999999999999
  nonce : ∀ n, a.nonce = some n → TokenText n
  keyid : ∀ k, a.keyId = some k → ∀ c ∈ k, 32 ≤ c.toNat ∧ c.toNat < 127

/-- The parameters canonicalize mode writes. -/
def canonParamsText (a : Args) (alg : Str) : Str :=
  (match a.created with | some t => str% ";created=" ++ timeText t | none => []) ++
  (match a.expires with | some t => str% ";expires=" ++ timeText t | none => []) ++
  (match a.nonce with | some n => str% ";nonce=" ++ n | none => []) ++
  (match a.keyId with | some k => str% ";keyid=" ++ quoted k | none => []) ++
  str% ";alg=" ++ quoted alg

/-- The parameters sign mode writes. -/
def signParamsText (a : Args) (name : Str) : Str :=
  str% ";alg=" ++ quoted name ++
  (match a.created with | some t => str% ";created=" ++ timeText t | none => []) ++
  (match a.expires with | some t => str% ";expires=" ++ timeText t | none => []) ++
  str% ";keyid=" ++ quoted (a.keyId.getD [])

/-- The times given on the command line are admissible at second `now`. -/
def OptionTimesOk (a : Args) (now : Int) : Prop :=
  (∀ t, a.created = some t → t ≤ now) ∧ (∀ t, a.expires = some t → now ≤ t)

/-- Options whose values can be written as parameters in sign mode. -/
structure WritableSignOptions (a : Args) : Prop where
  created : ∀ t, a.created = some t → -999999999999999 ≤ t ∧ t ≤ 999999999999999
  expires : ∀ t, a.expires = some t → -999999999999999 ≤ t ∧ t ≤ 999999999999999
  keyid : ∀ c ∈ a.keyId.getD [], 32 ≤ c.toNat ∧ c.toNat < 127

/-- The key file an option names has these contents. -/
def KeyFile (h : Host) (option : Option Str) (pem : Bytes) : Prop := ∃ path, option = some path ∧ h.files path = .contents pem

/-- What sign mode finds in its options and in the key file: the name of the algorithm, the primitive, the key, the components. -/
def SignOptions (a : Args) (h : Host) (name : Str) (prim : Primitive) (key : Bytes) (comps : List SignatureComponent) : Prop :=
  ∃ alg pem, a.algorithm = some alg ∧ Supports alg name prim ∧ KeyFile h a.privateKey pem ∧ privatePkcs8Pem pem = some key ∧
    HeaderOption (a.opt h) comps

/-- What sign mode signs, and the request it then writes. -/
def Signs (a : Args) (h : Host) (req r' : MockRequest) : Prop :=
  ∃ name prim key comps ids lids vals vi vs, SignOptions a h name prim key comps ∧ 0 ≤ h.signEnv.sysNow ∧
    OptionTimesOk a (h.signEnv.sysNow / 1000000000) ∧ WritableSignOptions a ∧
    Values req comps vals ∧ Forall2 Ident comps ids ∧ Forall2 ListIdent comps lids ∧
    vi.bytes = utf8 (str% "sig=" ++ (specListText lids ++ signParamsText a name)) ∧
    vs.bytes = utf8 (a.label.getD (str% "sig") ++ str% "=:" ++ Base64.encode (Deps.asymSign prim key h.signEnv.rnd
      (utf8 (specBase ids lids vals (signParamsText a name)))) ++ str% ":") ∧
    r' = (req.setHeader hSignatureInput vi).setHeader hSignature vs

/-- What verify mode finds: the algorithm's name, the primitive, the key. -/
def VerifyOptions (a : Args) (h : Host) (name : Str) (prim : Primitive) (key : Bytes) : Prop :=
  ∃ alg pem, a.algorithm = some alg ∧ Supports alg name prim ∧ KeyFile h a.publicKey pem ∧ PublicKey alg pem key

/-- Verify mode gets past its options: no algorithm is named (then no key is used, but a key file that is named must be
readable), or everything it needs is there. -/
def VerifyStarts (a : Args) (h : Host) : Prop :=
  (a.algorithm = none ∧ ∀ path, a.publicKey = some path → ∃ b, h.files path = .contents b) ∨
  ∃ name prim key, VerifyOptions a h name prim key

/-- The two runs find the same input. -/
def SameInput (a b : Args) (h h' : Host) : Prop :=
  a.inFile = b.inFile ∧ h.trace = h'.trace ∧
  match a.inFile with
  | some p => h.files p = h'.files p
  | none => h.stdin = h'.stdin

/-- The file named by an option, if any, is the same in two runs. -/
def SameFile (o o' : Option Str) (h h' : Host) : Prop := o = o' ∧ ∀ p, o = some p → h.files p = h'.files p

/-- The mode refuses its options. -/
def Refused (a : Args) (h : Host) (e : AppError) : Prop :=
  match a.mode with
  | .canonicalize => CanonicalizeRefused (a.opt h) e
  | .sign => SignRefused (a.opt h) e
  | .verify => VerifyRefused (a.opt h) e

end Httpsig
