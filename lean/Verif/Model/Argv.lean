import Verif.Model.Main
/-
httpsig-validator/src/main.rs:22-77: the words of a command line and the options they give. The reading is done by structopt
0.3 and clap 2, which are not in /repo. Modelled are plain command lines: the word for the mode, then the options in any
order, each at most once, as `-x value`, `--long value` or `--long=value`. What is refused here may be a form of clap's that is
not modelled: options before the mode, `-xvalue`, `-x=value`, empty values, values after further `=`, `--`, help and version.
-/
namespace Httpsig

/-- The options, main.rs:36-76. -/
inductive OptName where
  | inFile | headers | keyId | privateKey | publicKey | label | algorithm | created | expires | nonce
deriving DecidableEq

/-- `short`: as given, or the first letter of the field; main.rs:36, 41, 45, 49, 53, 57, 61, 65, 69, 73. -/
def OptName.ofShort : Char → Option OptName
  | 'i' => some .inFile
  | 'd' => some .headers
  | 'k' => some .keyId
  | 'p' => some .privateKey
  | 'u' => some .publicKey
  | 'l' => some .label
  | 'a' => some .algorithm
  | 'c' => some .created
  | 'e' => some .expires
  | 'n' => some .nonce
  | _ => none

/-- `long`: as given, or the name of the field with `-` for `_`; same lines. -/
def OptName.ofLong (w : Str) : Option OptName :=
  if w = str% "in" then some .inFile
  else if w = str% "headers" then some .headers
  else if w = str% "keyId" then some .keyId
  else if w = str% "private-key" then some .privateKey
  else if w = str% "public-key" then some .publicKey
  else if w = str% "label" then some .label
  else if w = str% "algorithm" then some .algorithm
  else if w = str% "created" then some .created
  else if w = str% "expires" then some .expires
  else if w = str% "nonce" then some .nonce
  else none

/-- The subcommands, main.rs:23-28. -/
def Mode.ofWord (w : Str) : Option Mode :=
  if w = str% "canonicalize" then some .canonicalize
  else if w = str% "sign" then some .sign
  else if w = str% "verify" then some .verify
  else none

/-- A word that names an option, with its value if that is in the same word. -/
def optWord : Str → Option (OptName × Option Str)
  | '-' :: '-' :: w =>
    match w.dropWhile (· ≠ '=') with
    | [] => (OptName.ofLong w).map (·, none)
    | _ :: v =>
      if v = [] ∨ v.head? = some '=' then none
      else (OptName.ofLong (w.takeWhile (· ≠ '='))).map (·, some v)
  | ['-', c] => (OptName.ofShort c).map (·, none)
  | _ => none

/-- A word that is a value of the option before it. -/
def isValueWord (w : Str) : Bool := w ≠ [] && w.head? ≠ some '-'

/-- The options given, with their values. Only `headers` has `min_values = 0`, main.rs:41. -/
def readOptions : List Str → Option (List (OptName × Option Str))
  | [] => some []
  | [w] =>
    match optWord w with
    | some (o, some v) => some [(o, some v)]
    | some (.headers, none) => some [(.headers, none)]
    | _ => none
  | w :: v :: ws =>
    match optWord w with
    | some (o, some x) => (readOptions (v :: ws)).map ((o, some x) :: ·)
    | some (o, none) =>
      if isValueWord v then (readOptions ws).map ((o, some v) :: ·)
      else if o = .headers then (readOptions (v :: ws)).map ((o, none) :: ·)
      else none
    | none => none

/-- `i64::from_str`, for main.rs:66,70. -/
def parseI64 (s : Str) : Option Int :=
  let (neg, ds) := match s with
    | '-' :: ds => (true, ds)
    | '+' :: ds => (false, ds)
    | ds => (false, ds)
  if ds = [] ∨ ds.any (!·.isDigit) then none
  else
    let n : Int := Sfv.digitsVal ds
    let i := if neg then -n else n
    if i < i64Min ∨ i64Max < i then none else some i

/-- The value of an option with a text. -/
def givenText (us : List (OptName × Option Str)) (o : OptName) : Option Str :=
  match us.lookup o with
  | some v => v
  | none => none

/-- The value of an option with a number; fails if it is no number. -/
def givenNumber (us : List (OptName × Option Str)) (o : OptName) : Option (Option Int) :=
  match givenText us o with
  | none => some none
  | some v => (parseI64 v).map some

/-- `Opt::from_args`, main.rs:313, for plain command lines. The first word is not the name of the program. -/
def Args.ofArgv : List Str → Option Args
  | [] => none
  | m :: ws => do
    let mode ← Mode.ofWord m
    let us ← readOptions ws
    if (us.map (·.1)).Nodup then
      let created ← givenNumber us .created
      let expires ← givenNumber us .expires
      some { mode := mode, inFile := givenText us .inFile, headers := us.lookup .headers, keyId := givenText us .keyId,
             privateKey := givenText us .privateKey, publicKey := givenText us .publicKey, label := givenText us .label,
             algorithm := givenText us .algorithm, created := created, expires := expires, nonce := givenText us .nonce }
    else none

end Httpsig
