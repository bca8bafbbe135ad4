import Verif.Spec.Config
import Verif.Spec.Setters
import Verif.Spec.Sign
/-
What a history of `CanonicalizeConfig` setter calls should lead to.
-/
namespace Httpsig
open Sfv
namespace CanonicalizeConfig.Op
variable [Deps]

/-- The name of the signature parameter a call sets, if it sets one. -/
def name : Op → Option Str
  | .created _ => some (str% "created")
  | .expires _ => some (str% "expires")
  | .alg _ => some (str% "alg")
  | .nonce _ => some (str% "nonce")
  | .keyid _ => some (str% "keyid")
  | .label _ => none
  | .components _ => none

/-- The text after `name=`: strings in quotes, numbers and tokens as they are. -/
def text : Op → Str
  | .created t => timeText t
  | .expires t => timeText t
  | .alg a => quoted a
  | .nonce n => n
  | .keyid k => quoted k
  | .label _ => []
  | .components _ => []

/-- The value can be written: times of at most 15 digits, printable strings, and nonces that are tokens or empty. -/
def Writable : Op → Prop
  | .created t => -999999999999999 ≤ t ∧ t ≤ 999999999999999
  | .expires t => -999999999999999 ≤ t ∧ t ≤ 999999999999999
  | .alg a => ∀ c ∈ a, 32 ≤ c.toNat ∧ c.toNat < 127
  | .nonce n => TokenText n
  | .keyid k => ∀ c ∈ k, 32 ≤ c.toNat ∧ c.toNat < 127
  | .label _ => True
  | .components _ => True

end CanonicalizeConfig.Op

section
variable [Deps]

/-- The calls that count: for each parameter, in the order in which the parameters were first set, the last call. -/
def effectiveCalls (ops : List CanonicalizeConfig.Op) : List CanonicalizeConfig.Op :=
  (ops.filterMap CanonicalizeConfig.Op.name).eraseDups.filterMap fun k =>
    lastCall (fun o => if o.name = some k then some o else none) ops

/-- `;name=text` for each of them. -/
def setParamsText (ops : List CanonicalizeConfig.Op) : Str :=
  (effectiveCalls ops).flatMap fun o => ';' :: o.name.getD [] ++ '=' :: o.text

end
end Httpsig
