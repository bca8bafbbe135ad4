import Verif.Spec.EndToEnd
import Verif.Spec.Confusable
/-
Vocabulary for what an acceptance proves about the requests that were signed (C75).
-/
namespace Httpsig
open Sfv
variable [Deps]

/-- A successful call of `sign`: the request before and after it, the configuration and the surroundings. -/
structure SigningEvent (R : Type) [ClientRequestLike R] where
  before : R
  after : R
  config : SigningConfig
  env : SignEnv
  ok : sign before config env = .ok (after, .ok ())

namespace SigningEvent
variable {R : Type} [ClientRequestLike R]

/-- The second at which it happened. -/
def second (e : SigningEvent R) : Int := e.env.sysNow / 1000000000

/-- The components it covered. -/
def covered (e : SigningEvent R) : List SignatureComponent := coveredComponents e.before e.after e.config

/-- The values that were signed. -/
def value (e : SigningEvent R) (k : SignatureComponent) : Option Str := signedValue e.before e.after k

/-- The text that was signed. -/
def Base (e : SigningEvent R) (base : Bytes) : Prop := SignedBase e.before e.after e.config e.second base

/-- The configuration reads back, and no signed value contains the start of a line of the signature base. -/
structure Careful (e : SigningEvent R) : Prop where
  components : ∀ k ∈ e.config.components, ComponentTidy k
  nonce : e.config.nonce ≠ some []
  values : ¬ Confusable (Table.mk e.value) e.covered

end SigningEvent

/-- `req`, read under the components `comps` and parameters `ps`, says what was signed in the event `e`: the same components
in the same order with the same values, and the parameters that `e` wrote. -/
structure Authentic {R S : Type} [ClientRequestLike R] [RequestLike S] (e : SigningEvent R) (req : S)
    (comps : List SignatureComponent) (ps : Params) : Prop where
  components : Forall2 (fun k k' => ComponentSame k k' ∧ ∃ v, e.value k = some v ∧ RequestLike.derive req k' = .ok (some v)) e.covered comps
  params : ParamsSame (SignedParams e.config e.second) ps

end Httpsig
