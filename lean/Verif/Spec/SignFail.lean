import Verif.Spec.Calls
import Verif.Model.SignFail
/-
Specification of signing with a key whose operation may panic.
-/
namespace Httpsig

/-- The configuration with a key of the same name that gives `s` for every text. -/
def SigningConfig.giving [Deps] (config : SigningConfig) (s : Str) : SigningConfig :=
  { config with signature := { name := config.signature.name, sign := fun _ _ => s } }

/-- The signature base on which signing uses the key; there is none if signing ends before that. -/
def UsesKey [Deps] {R : Type} [ClientRequestLike R] (r : R) (config : SigningConfig) (env : SignEnv) (base : Bytes) : Prop :=
  ∃ r' res, sign r config env = .ok (r', res) ∧ (res = .ok () ∨ res = .error .convertHeader) ∧
    SignedBase r r' config (env.sysNow / 1000000000) base

/-- What a panic in the middle of the calls leaves of the request. -/
def leftBy [Deps] {R α : Type} [ClientRequestLike R] (r : R) (run : Called α) : R := run.calls.foldl Call.change r

end Httpsig
