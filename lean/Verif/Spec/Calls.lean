import Verif.Spec.Logging
import Verif.Spec.EndToEnd
import Verif.Model.Calls
/-
Specification of the calls: which are made, in which order, and how far lists are gone through.
-/
namespace Httpsig
open Sfv

/-- `l` is the first part of `all`, up to and including the first element with `p`; everything if there is none. -/
def UpTo {α : Type} (p : α → Bool) (all l : List α) : Prop :=
  l <+: all ∧ (∀ a ∈ l.dropLast, p a = false) ∧ (l ≠ all → ∃ a, l.getLast? = some a ∧ p a = true)

/-- The names before the equals signs in the entries of a digest header; entries without one are passed over. -/
inductive EntryNames : List Str → List Str → Prop
  | nil : EntryNames [] []
  | skip {e : Str} {es ns : List Str} : '=' ∉ e → EntryNames es ns → EntryNames (e :: es) ns
  | name {k v n : Str} {es ns : List Str} : '=' ∉ k → Trimmed whiteSpace k n → EntryNames es ns →
      EntryNames ((k ++ '=' :: v) :: es) (n :: ns)

/-- The algorithm names in a comma-separated digest header. -/
def DigestNames (header : Str) (names : List Str) : Prop :=
  ∃ entries, header = joinWith (str% ",") entries ∧ (∀ e ∈ entries, ',' ∉ e) ∧ EntryNames entries names

variable [Deps]

/-- A word for each call, for the examples. -/
def Call.shown : Call → Str
  | .provideKeys id => str% "keys " ++ id
  | .httpVerify k _ sig => str% "verify " ++ k.name ++ str% " " ++ sig
  | .provideDigest n => str% "digest " ++ n
  | .completeWithDigest alg => str% "complete " ++ alg.name
  | .complete => str% "complete"
  | .host => str% "host"
  | .computeDigest alg => str% "compute " ++ alg.name
  | .setHeader h _ => str% "set " ++ h.str
  | .httpSign _ => str% "sign"

section
variable {R Rem : Type} [ServerRequestLike R Rem]

/-- The keys are asked for once, under the presented id, if labels, parameters and times are in order; else not at all. -/
def LookupCalls (req : R) (env : VerifyEnv) (l : List Call) : Prop :=
  (∃ c sig keyId alg, Timely req env c sig keyId alg ∧ l = [.provideKeys keyId]) ∨
  ((∀ c sig keyId alg, ¬ Timely req env c sig keyId alg) ∧ l = [])

/-- The keys are tried in turn up to the first that accepts, all on the signature base and the presented signature; none if there is no
signature base. -/
def KeyCalls (req : R) (config : VerifyingConfig) (env : VerifyEnv) (l : List Call) : Prop :=
  (∃ c sig keyId alg base si ks, Timely req env c sig keyId alg ∧ canonicalize req c = .ok (.ok (base, si)) ∧
    UpTo (fun k => k.verify base sig) (config.keyProvider keyId) ks ∧ l = ks.map fun k => .httpVerify k base sig) ∨
  ((∀ c sig keyId alg base si, Timely req env c sig keyId alg → canonicalize req c ≠ .ok (.ok (base, si))) ∧ l = [])

end

section
variable {R : Type} [ClientRequestLike R]

/-- What a call does to the request that is being signed. -/
def Call.change (r : R) : Call → R
  | .setHeader h v => ClientRequestLike.setHeader r h v
  | .computeDigest d => (ClientRequestLike.computeDigest r d).1
  | _ => r

/-- The date is set if it is to be added and none can be read. -/
def DateCalls (r : R) (config : SigningConfig) (env : SignEnv) (l : List Call) : Prop :=
  (AutoWrite r config hDate ∧ ∃ v, HeaderValue.fromStr (formatDate env.utcNow) = some v ∧ l = [.setHeader hDate v]) ∨
  (¬ AutoWrite r config hDate ∧ l = [])

/-- The request is asked for its host if that is to be added and none can be read; the answer is set. -/
def HostCalls (r : R) (config : SigningConfig) (l : List Call) : Prop :=
  (AutoWrite r config hHost ∧ ((ClientRequestLike.host r = none ∧ l = [.host]) ∨
    ∃ s v, ClientRequestLike.host r = some s ∧ HeaderValue.fromStr s = some v ∧ l = [.host, .setHeader hHost v])) ∨
  (¬ AutoWrite r config hHost ∧ l = [])

/-- The request is asked for the digest of its body if that is to be added and none can be read; the answer is set. -/
def DigestCalls (r : R) (config : SigningConfig) (l : List Call) : Prop :=
  (AutoWrite r config hDigest ∧ (((ClientRequestLike.computeDigest r config.digest).2 = none ∧ l = [.computeDigest config.digest]) ∨
    ∃ s v, (ClientRequestLike.computeDigest r config.digest).2 = some s ∧
      HeaderValue.fromStr (config.digest.name ++ str% "=" ++ s) = some v ∧ l = [.computeDigest config.digest, .setHeader hDigest v])) ∨
  (¬ AutoWrite r config hDigest ∧ l = [])

/-- The signature is made: `Signature-Input` is set, the key used on the signature base, and `Signature` set if what the key gave can be
written. Nothing of this if the signature is refused for another reason. -/
def SigningCalls (r r' : R) (config : SigningConfig) (env : SignEnv) (l : List Call) : Except Error Unit → Prop
  | .ok () => ∃ vi vs base, SignedBase r r' config (env.sysNow / 1000000000) base ∧
      HeaderValue.fromStr (config.label ++ str% "=:" ++ config.signature.sign env.rnd base ++ str% ":") = some vs ∧
      l = [.setHeader hSignatureInput vi, .httpSign base, .setHeader hSignature vs]
  | .error .convertHeader => ∃ vi base, SignedBase r r' config (env.sysNow / 1000000000) base ∧
      HeaderValue.fromStr (config.label ++ str% "=:" ++ config.signature.sign env.rnd base ++ str% ":") = none ∧
      l = [.setHeader hSignatureInput vi, .httpSign base]
  | .error _ => l = []

end
end Httpsig
