import Verif.Spec.Config
import Verif.Spec.Sign
import Verif.Spec.Verify
/-
Specification vocabulary for a signed request that arrives at a verifier.
-/
namespace Httpsig
open Sfv
variable [Deps]

/-- `req`, at the verifier, is a faithful copy of what signing made of `r` (namely `r'`), as far as the signature goes: it
carries the two signature headers of `r'`, and every covered component, however decimal parameters are written in it
(`1.50` or `1.5`), has the value it had when it was signed. -/
structure Received {R S Rem : Type} [ClientRequestLike R] [ServerRequestLike S Rem] (r r' : R) (config : SigningConfig)
    (req : S) : Prop where
  input : RequestLike.derive req (.header hSignatureInput) = RequestLike.derive r' (.header hSignatureInput)
  signature : RequestLike.derive req (.header hSignature) = RequestLike.derive r' (.header hSignature)
  covered : ∀ k ∈ coveredComponents r r' config, ∀ k', ComponentSame k k' →
    RequestLike.derive req k' = .ok (signedValue r r' k)

/-- The request as seen by the verifier has the signature headers of the signed request, and has some value for each covered
component. -/
structure Arrived {R S Rem : Type} [ClientRequestLike R] [ServerRequestLike S Rem] (r r' : R) (config : SigningConfig)
    (req : S) : Prop where
  input : RequestLike.derive req (.header hSignatureInput) = RequestLike.derive r' (.header hSignatureInput)
  signature : RequestLike.derive req (.header hSignature) = RequestLike.derive r' (.header hSignature)
  values : ∀ k ∈ coveredComponents r r' config, ∃ v, ∀ k', ComponentSame k k' → RequestLike.derive req k' = .ok (some v)

/-- The text a verifier checks the signature of this request against: what `Signature-Input` says, with the values of the request. -/
def CheckedBase {S : Type} [RequestLike S] (req : S) (base : Bytes) : Prop :=
  ∃ v c si, RequestLike.derive req (.header hSignatureInput) = .ok (some v) ∧
    CanonicalizeConfig.fromSignatureInput v = .ok (.ok c) ∧ canonicalize req c = .ok (.ok (base, si))

/-- The signature base of a signature made at second `now`. -/
def SignedBase {R : Type} [ClientRequestLike R] (r r' : R) (config : SigningConfig) (now : Int) (base : Bytes) : Prop :=
  ∃ ids lids vals, Forall2 Ident (coveredComponents r r' config) ids ∧
    Forall2 ListIdent (coveredComponents r r' config) lids ∧
    (coveredComponents r r' config).map (signedValue r r') = vals.map some ∧
    base = utf8 (specBase ids lids vals (signedParamsText config now))

/-- A character that a header value can carry and `to_str` can read. -/
def VisibleChar (c : Char) : Prop := (32 ≤ c.toNat ∧ c.toNat < 127) ∨ c.toNat = 9

/-- Configurations of signatures that survive the trip: components that read back as the same components (up to trailing
zeros of decimal parameters), no empty nonce, a readable label without `=`, and an algorithm whose signatures are readable texts without `:`. -/
structure Portable (config : SigningConfig) (rnd : Nat) : Prop where
  components : ∀ k ∈ config.components, ComponentTidy k
  nonce : config.nonce ≠ some []
  label : ∀ c ∈ config.label, VisibleChar c ∧ c ≠ '='
  signature : ∀ m, ∀ c ∈ config.signature.sign rnd m, VisibleChar c ∧ c ≠ ':'

/-- What the verifier reads from the `Signature-Input` header of a request signed at second `now`, up to trailing zeros of
decimal component parameters. -/
def signedInput {R : Type} [ClientRequestLike R] (r r' : R) (config : SigningConfig) (now : Int) : CanonicalizeConfig where
  label := some (str% "sig")
  components := coveredComponents r r' config
  params := ⟨SignedParams config now⟩

end Httpsig
