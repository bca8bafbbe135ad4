import Verif.Model.Argv
import Verif.Spec.Config
import Verif.Spec.Readme
import Verif.Spec.Grammar
/-
Specification vocabulary for command lines (C134).
-/
namespace Httpsig

/-- The letter of an option. -/
def OptName.letter : OptName → Char
  | .inFile => 'i' | .headers => 'd' | .keyId => 'k' | .privateKey => 'p' | .publicKey => 'u'
  | .label => 'l' | .algorithm => 'a' | .created => 'c' | .expires => 'e' | .nonce => 'n'

/-- The long name of an option. -/
def OptName.word : OptName → Str
  | .inFile => str% "in" | .headers => str% "headers" | .keyId => str% "keyId" | .privateKey => str% "private-key"
  | .publicKey => str% "public-key" | .label => str% "label" | .algorithm => str% "algorithm" | .created => str% "created"
  | .expires => str% "expires" | .nonce => str% "nonce"

/-- The word for a mode. -/
def Mode.word : Mode → Str
  | .canonicalize => str% "canonicalize" | .sign => str% "sign" | .verify => str% "verify"

/-- The words that give an option, and its value. -/
inductive Spelled : OptName × Option Str → List Str → Prop where
  | letter {o c v} : c ≠ '-' → Spelled (o, some (c :: v)) [['-', o.letter], c :: v]
  | word {o c v} : c ≠ '-' → Spelled (o, some (c :: v)) ['-' :: '-' :: o.word, c :: v]
  | equals {o c v} : c ≠ '=' → Spelled (o, some (c :: v)) ['-' :: '-' :: o.word ++ '=' :: c :: v]
  | bareLetter : Spelled (.headers, none) [['-', 'd']]
  | bareWord : Spelled (.headers, none) [str% "--headers"]

/-- A plain command line for a mode and options. -/
def CommandLine (argv : List Str) (m : Mode) (us : List (OptName × Option Str)) : Prop :=
  ∃ groups, Forall2 Spelled us groups ∧ argv = m.word :: groups.flatten

/-- The text of a 64-bit number: digits, perhaps after a sign. -/
def NumberText (s : Str) (i : Int) : Prop :=
  -2 ^ 63 ≤ i ∧ i < 2 ^ 63 ∧ ∃ ds n, ds ≠ [] ∧ Grammar.Digits ds n ∧
    ((s = ds ∨ s = '+' :: ds) ∧ i = n ∨ s = '-' :: ds ∧ i = -n)

/-- The options do what they say: no option twice, numbers where numbers belong, and each field of `a` has the value of its
option. -/
structure Means (m : Mode) (us : List (OptName × Option Str)) (a : Args) : Prop where
  once : us.Pairwise fun u w => u.1 ≠ w.1
  mode : a.mode = m
  inFile : ∀ v, a.inFile = some v ↔ (.inFile, some v) ∈ us
  headers : ∀ v, a.headers = some v ↔ (.headers, v) ∈ us
  keyId : ∀ v, a.keyId = some v ↔ (.keyId, some v) ∈ us
  privateKey : ∀ v, a.privateKey = some v ↔ (.privateKey, some v) ∈ us
  publicKey : ∀ v, a.publicKey = some v ↔ (.publicKey, some v) ∈ us
  label : ∀ v, a.label = some v ↔ (.label, some v) ∈ us
  algorithm : ∀ v, a.algorithm = some v ↔ (.algorithm, some v) ∈ us
  nonce : ∀ v, a.nonce = some v ↔ (.nonce, some v) ∈ us
  created : (∀ i, a.created = some i ↔ ∃ v, (.created, some v) ∈ us ∧ NumberText v i) ∧
    ∀ v, (.created, some v) ∈ us → ∃ i, NumberText v i
  expires : (∀ i, a.expires = some i ↔ ∃ v, (.expires, some v) ∈ us ∧ NumberText v i) ∧
    ∀ v, (.expires, some v) ∈ us → ∃ i, NumberText v i

/-- Values that a plain command line can give: texts that are not empty, and 64-bit numbers. -/
structure Sayable (a : Args) : Prop where
  texts : ∀ v ∈ [a.inFile, a.keyId, a.privateKey, a.publicKey, a.label, a.algorithm, a.nonce], v ≠ some []
  headers : a.headers ≠ some (some [])
  numbers : ∀ v ∈ [a.created, a.expires], ∀ i, v = some i → -2 ^ 63 ≤ i ∧ i < 2 ^ 63

/-- The command lines of httpsig-validator/README.md after `cargo run --`, as the shell gives them to the program:
"Canonicalization", "Signing" and "Verification". "All together now!" has the last two. -/
def readmeArgv : Mode → List Str
  | .canonicalize => [str% "canonicalize", str% "-l", str% "sig", str% "-a", str% "rsa-v1_5-sha256", str% "-k", str% "test-key-rsa",
      str% "-d", str% "host date content-digest"]
  | .sign => [str% "sign", str% "-l", str% "sig", str% "-d", str% "host date digest", str% "-a", str% "rsa-v1_5-sha256",
      str% "-k", str% "test-key-rsa", str% "-p", str% "../test_data/rsa-private.pem"]
  | .verify => [str% "verify", str% "-a", str% "rsa-v1_5-sha256", str% "-k", str% "test-key-rsa",
      str% "-u", str% "../test_data/rsa-public.pem"]

end Httpsig
