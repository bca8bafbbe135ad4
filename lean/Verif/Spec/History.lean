import Verif.Spec.Forgery
import Verif.Spec.Keys
import Verif.Spec.Verify
/-
Histories of a whole system: clients sign requests, anybody sends requests to a server, and the server's key store is changed, in any
order. Nothing is assumed about who sends what: the requests that are delivered and the clocks are arbitrary.
-/
namespace Httpsig
open Sfv
variable [Deps]

/-- One action: the server's key store is changed, a client signs a request, or a request arrives at the server. -/
inductive Action (R S : Type) where
  | keys (op : KeyOp)
  | sign (before : R) (config : SigningConfig) (env : SignEnv)
  | deliver (req : S) (env : VerifyEnv)

/-- What comes of it. -/
inductive Outcome (R Rem : Type) where
  | done
  | signed (result : P (R × Except Error Unit))
  | verdict (result : P (Except Rem (Rem × Str)))

section
variable {R S Rem : Type} [ClientRequestLike R] [ServerRequestLike S Rem]

/-- An action in the state given by the server's key store. The server verifies with the configuration `vc` and the keys of the
store. -/
def step (vc : VerifyingConfig) (store : SimpleKeyProvider) : Action R S → SimpleKeyProvider × Outcome R Rem
  | .keys op => (op.apply store, .done)
  | .sign before config env => (store, .signed (sign before config env))
  | .deliver req env => (store, .verdict (verify req { vc with keyProvider := store.provideKeys } env))

/-- A history: the actions with what comes of them. -/
def history (vc : VerifyingConfig) : SimpleKeyProvider → List (Action R S) → List (Action R S × Outcome R Rem)
  | _, [] => []
  | store, a :: as => (a, (step vc store a).2) :: history vc (step vc store a).1 as

/-- The signing event is part of the history. -/
def SigningEvent.Happened (e : SigningEvent R) (h : List (Action R S × Outcome R Rem)) : Prop :=
  (.sign e.before e.config e.env, .signed (.ok (e.after, .ok ()))) ∈ h

/-- At the end of the history the key is registered under `id`: it was there from the start or was added, and was not removed since. -/
def Registered (init : List (Str × HttpSignatureVerify)) (h : List (Action R S × Outcome R Rem)) (id : Str) (k : HttpSignatureVerify) :
    Prop :=
  ((id, k) ∈ init ∧ ∀ op o, (.keys op, o) ∈ h → ¬ op.Forgets id) ∨
  ∃ p o q, h = p ++ (.keys (.add id k), o) :: q ∧ ∀ op o, (.keys op, o) ∈ q → ¬ op.Forgets id

/-- The signature was made to be valid at that second. -/
def SigningEvent.ValidAt (e : SigningEvent R) (second : Int) : Prop :=
  (∀ t, createdTime e.config e.second = some t → t ≤ second) ∧ (∀ t, expiresTime e.config e.second = some t → second ≤ t)

/-- The body of the request is the one the signed `Digest` header speaks of, if there is one and the server looks at it. -/
def SigningEvent.BodyMatches (e : SigningEvent R) (vc : VerifyingConfig) (req : S) : Prop :=
  vc.validateDigest = true → .header hDigest ∈ e.covered →
    ∃ v alg value, e.value (.header hDigest) = some v ∧ FirstSupported vc.digestProvider v alg value ∧
      (ServerRequestLike.completeWithDigest (Remnant := Rem) req alg).1 = some value

end
end Httpsig
