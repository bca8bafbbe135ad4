import Verif.Model.Signing
/-
src/verifying.rs
-/
namespace Httpsig

/-! ### `SimpleKeyProvider` -/

/-- `SimpleKeyProvider`, src/verifying.rs:62-64. The `HashMap` is an association list (only
`entry`, `get`, `remove` and `clear` are used, never iteration). -/
structure SimpleKeyProvider where
  keys : IMap (List HttpSignatureVerify) := []

namespace SimpleKeyProvider

/-- `add`, src/verifying.rs:83-85. -/
def add (p : SimpleKeyProvider) (id : Str) (k : HttpSignatureVerify) : SimpleKeyProvider :=
  ⟨IMap.insert p.keys id ((IMap.get p.keys id).getD [] ++ [k])⟩

/-- `new`, src/verifying.rs:69-80. -/
def new (l : List (Str × HttpSignatureVerify)) : SimpleKeyProvider :=
  l.foldl (fun p (id, k) => p.add id k) {}

/-- `clear`, src/verifying.rs:88-90. -/
def clear (_ : SimpleKeyProvider) : SimpleKeyProvider := ⟨[]⟩

/-- `remove_all`, src/verifying.rs:93-95. -/
def removeAll (p : SimpleKeyProvider) (id : Str) : SimpleKeyProvider := ⟨p.keys.filter fun e => e.1 ≠ id⟩

/-- `provide_keys`, src/verifying.rs:98-102. -/
def provideKeys (p : SimpleKeyProvider) (id : Str) : List HttpSignatureVerify := (IMap.get p.keys id).getD []

end SimpleKeyProvider

section
variable [Deps]

/-- `DefaultDigestProvider::provide_digest`, src/verifying.rs:118-127. -/
def defaultDigestProvider (name : Str) : Option HttpDigest :=
  let name := name.map asciiUpper
  if name = str% "SHA-256" then some sha256Digest
  else if name = str% "SHA-512" then some sha512Digest
  else none

/-- `VerifyingConfig`, src/verifying.rs:131-139. `KeyProvider` and `DigestProvider` are their only methods;
`date_leeway` is in nanoseconds. -/
structure VerifyingConfig where
  keyProvider : Str → List HttpSignatureVerify
  digestProvider : Str → Option HttpDigest
  requiredComponents : List SignatureComponent
  requireDigest : Bool
  validateDigest : Bool
  validateDate : Bool
  dateLeeway : Nat

/-- Stable insertion by an (already computed) display string. -/
def insertByKey (e : Str × SignatureComponent) : List (Str × SignatureComponent) → List (Str × SignatureComponent)
  | [] => [e]
  | x :: xs => if strCmp e.1 x.1 = .lt then e :: x :: xs else x :: insertByKey e xs

/-- Remove adjacent equal elements, keeping the last (`DedupSortedIter` of `BTreeSet::from_iter`). -/
def dedupAdjacent : List (Str × SignatureComponent) → List (Str × SignatureComponent)
  | [] => []
  | [x] => [x]
  | x :: y :: xs => if x.2.rustEq y.2 then dedupAdjacent (y :: xs) else x :: dedupAdjacent (y :: xs)

/-- Pair every component with its display string; panics if one cannot be printed. -/
def displayAll : List SignatureComponent → P (List (Str × SignatureComponent))
  | [] => .ok []
  | c :: cs => do
    let s ← c.display
    let rest ← displayAll cs
    return (s, c) :: rest

/-- `collect::<BTreeSet<_>>()`, src/verifying.rs:299: stable sort by `Ord` (which prints both operands and so
panics on unprintable components, but only if there is something to compare), then removal of adjacent
equal elements. -/
def collectBTreeSet (l : List SignatureComponent) : P (List SignatureComponent) :=
  match l with
  | [] => .ok []
  | [c] => .ok [c]
  | l => do
    let keyed ← displayAll l
    return (dedupAdjacent (keyed.foldl (fun acc e => insertByKey e acc) [])).map Prod.snd

namespace VerifyingConfig

/-- `VerifyingConfig::new`, src/verifying.rs:143-153. -/
def new (kp : Str → List HttpSignatureVerify) : VerifyingConfig where
  keyProvider := kp
  digestProvider := defaultDigestProvider
  requiredComponents := []
  requireDigest := true
  validateDigest := true
  validateDate := true
  dateLeeway := 30 * 1000000000

/-- `with_digest`, src/verifying.rs:166-175. -/
def setDigestProvider (c : VerifyingConfig) (p : Str → Option HttpDigest) : VerifyingConfig := { c with digestProvider := p }
/-- `set_require_digest` / `with_require_digest`, src/verifying.rs:189-201. -/
def setRequireDigest (c : VerifyingConfig) (b : Bool) : VerifyingConfig := { c with requireDigest := b }
/-- `set_validate_digest` / `with_validate_digest`, src/verifying.rs:215-227. -/
def setValidateDigest (c : VerifyingConfig) (b : Bool) : VerifyingConfig := { c with validateDigest := b }
/-- `set_validate_date` / `with_validate_date`, src/verifying.rs:241-253. -/
def setValidateDate (c : VerifyingConfig) (b : Bool) : VerifyingConfig := { c with validateDate := b }
/-- `set_date_leeway` / `with_date_leeway`, src/verifying.rs:267-279. -/
def setDateLeeway (c : VerifyingConfig) (n : Nat) : VerifyingConfig := { c with dateLeeway := n }
/-- `set_required_components` / `with_required_components`, src/verifying.rs:295-311. -/
def setRequiredComponents (c : VerifyingConfig) (l : List SignatureComponent) : P VerifyingConfig := do
  let s ← collectBTreeSet l
  return { c with requiredComponents := s }

end VerifyingConfig

/-- `ServerRequestLike`, src/verifying.rs:320-337. -/
class ServerRequestLike (R : Type) (Remnant : outParam Type) extends RequestLike R where
  completeWithDigest : R → HttpDigest → Option Str × Remnant
  complete : R → Remnant

/-- What `verify` reads from its surroundings: `SystemTime::now()` (src/verifying.rs:378) and
`Utc::now()` (src/verifying.rs:535), both in nanoseconds since the epoch. -/
structure VerifyEnv where
  sysNow : Int
  utcNow : Int

/-- `parse_signature_header`, src/verifying.rs:368-375. -/
def parseSignatureHeader (s : Str) : Option (Str × Str) :=
  (splitOnce '=' s).map fun (label, sig) => (label, trimMatches (· == ':') sig)

variable {R Rem : Type} [ServerRequestLike R Rem]

/-- The `created` test of `verify_signature_only`: is an integer `created` later than `ts`? (src/verifying.rs:438-443) -/
def createdInFuture (c : CanonicalizeConfig) (ts : Int) : Bool :=
  match c.created with
  | some created => decide (created > ts)
  | none => false

/-- The `expires` test of `verify_signature_only`: is an integer `expires` earlier than `ts`? (src/verifying.rs:445-450) -/
def alreadyExpired (c : CanonicalizeConfig) (ts : Int) : Bool :=
  match c.expires with
  | some expires => decide (expires < ts)
  | none => false

/-- `verify_signature_only`, src/verifying.rs:385-490. `none` = rejected. -/
def verifySignatureOnly (req : R) (config : VerifyingConfig) (env : VerifyEnv) :
    P (Option (SignatureInput × Str)) := do
  match ← RequestLike.derive req (.header hSignatureInput) with
  | none => return none
  | some inputValue =>
  match ← CanonicalizeConfig.fromSignatureInput inputValue with
  | .error _ => .error .badSignatureInput
  | .ok cc =>
  match ← RequestLike.derive req (.header hSignature) with
  | none => return none
  | some sigValue =>
  match parseSignatureHeader sigValue with
  | none => return none
  | some (sigLabel, provided) =>
  if cc.getLabel ≠ sigLabel then return none else
  match cc.keyid with
  | none => return none
  | some keyId =>
  match cc.alg with
  | none => return none
  | some _ =>
  let ts ← unixTimestamp env.sysNow
  if createdInFuture cc ts then return none else
  if alreadyExpired cc ts then return none else
  let algorithms := config.keyProvider keyId
  if algorithms.isEmpty then return none else
  match ← canonicalize req cc with
  | .error _ => return none
  | .ok (base, input) =>
    if algorithms.any fun a => a.verify base provided then return some (input, keyId) else return none

/-- The required-components loop, src/verifying.rs:499-511. -/
def checkRequired (input : SignatureInput) : List SignatureComponent → P Bool
  | [] => .ok true
  | c :: cs => do
    let s ← c.display
    if (input.list.getItem s).isNone then return false else checkRequired input cs

/-- `TimeDelta::to_std`: `Err` on negative values. -/
def toStd (d : Int) : Option Nat := if d < 0 then none else some d.toNat

/-- The date check, src/verifying.rs:514-548 (nanoseconds). -/
def checkDate (input : SignatureInput) (config : VerifyingConfig) (env : VerifyEnv) : P Bool :=
  if config.validateDate then
    match (input.getParam (str% "date")).bind BareItem.asInt with
    | none => .ok false
    | some v =>
      if Deps.timestampInRange v then
        let delta := v * 1000000000 - env.utcNow
        match (toStd delta).or (toStd (-delta)) with
        | none => .error .dateDelta
        | some d => .ok (decide (d ≤ config.dateLeeway))
      else .ok false
  else .ok true

/-- `verify_except_digest`, src/verifying.rs:492-551. -/
def verifyExceptDigest (req : R) (config : VerifyingConfig) (env : VerifyEnv) : P (Option Str) := do
  match ← verifySignatureOnly req config env with
  | none => return none
  | some (input, keyId) =>
    if !(← checkRequired input config.requiredComponents) then return none else
    if !(← checkDate input config env) then return none else
    return some keyId

/-- Selection of the digest entry, src/verifying.rs:575-585. -/
def selectDigest (provider : Str → Option HttpDigest) (value : Str) : Option (HttpDigest × Str) :=
  ((splitOn ',' value).filterMap fun part =>
    match splitOnce '=' part with
    | none => none
    | some (k, v) => (provider (trim k)).map fun d => (d, trim v)).head?

/-- `verify`, src/verifying.rs:556-638. `.error r` is `VerifyingError { remnant: r }`. -/
def verify (req : R) (config : VerifyingConfig) (env : VerifyEnv) : P (Except Rem (Rem × Str)) := do
  match ← verifyExceptDigest req config env with
  | none => return .error (ServerRequestLike.complete req)
  | some keyId =>
    match ← RequestLike.derive req (.header hDigest) with
    | some digestValue =>
      if config.validateDigest then
        match selectDigest config.digestProvider digestValue with
        | some (alg, provided) =>
          let (maybe, rem) := ServerRequestLike.completeWithDigest req alg
          match maybe with
          | some expected => if utf8 provided = utf8 expected then return .ok (rem, keyId) else return .error rem
          | none => return .error rem
        | none => return .error (ServerRequestLike.complete req)
      else return .ok (ServerRequestLike.complete req, keyId)
    | none =>
      if config.requireDigest then
        let (maybe, rem) := ServerRequestLike.completeWithDigest req defaultDigest
        if maybe.isSome then return .error rem else return .ok (rem, keyId)
      else return .ok (ServerRequestLike.complete req, keyId)

end
end Httpsig
