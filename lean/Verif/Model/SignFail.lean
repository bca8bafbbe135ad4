import Verif.Model.Calls
/-
`sign` with a key whose signing operation may panic. The key types of the crate end their signing operation in `expect`
(src/algorithm/ring.rs:94,194 and src/algorithm/openssl.rs:81,84), and the operation of a key type of the user may panic as well.
The model of the rest of the library takes signing operations to return.
-/
namespace Httpsig
open Sfv

section
variable [Deps] {R : Type} [ClientRequestLike R]

/-- `sign`, src/signing.rs:433-486, with the calls it makes, for the signing operation `key`; of the key in the configuration only the
name is used. The operation is called at 476, after `Signature-Input` is set at 473. -/
def signMay (key : Nat → Bytes → P Str) (req : R) (config : SigningConfig) (env : SignEnv) : Called (R × Except Error Unit) := do
  let (req, components) ← addAutoHeadersCalled req config env
  let ts ← unixTimestamp env.sysNow
  match buildCanonicalizeConfig config components ts with
  | .error e => return (req, .error e)
  | .ok cc =>
    match ← canonicalize req cc with
    | .error _ => return (req, .error .canonicalize)
    | .ok (base, input) =>
      let inputStr ← input.display
      match HeaderValue.fromStr inputStr with
      | none => return (req, .error .signatureInputError)
      | some v =>
        let req ← setHeaderCalled req hSignatureInput v
        call (.httpSign base)
        let signature ← key env.rnd base
        match HeaderValue.fromStr (config.label ++ str% "=:" ++ signature ++ str% ":") with
        | none => return (req, .error .convertHeader)
        | some w =>
          let req ← setHeaderCalled req hSignature w
          return (req, .ok ())

end
end Httpsig
