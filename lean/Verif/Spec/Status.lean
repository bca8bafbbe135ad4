import Verif.Model.Status
import Verif.Spec.Debug
import Verif.Spec.Process
/-
Specification vocabulary for the errors of the validator (C125).
-/
namespace Httpsig
open Sfv
variable [Deps]

/-- The component has no value. -/
def Absent (r : MockRequest) (k : SignatureComponent) : Prop := ∀ v, ¬ ComponentValue r k v

/-- The components without value, in order. -/
inductive AbsentAmong (r : MockRequest) : List SignatureComponent → List SignatureComponent → Prop
  | nil : AbsentAmong r [] []
  | absent {k : SignatureComponent} {ks l : List SignatureComponent} : Absent r k → AbsentAmong r ks l → AbsentAmong r (k :: ks) (k :: l)
  | present {k : SignatureComponent} {ks l : List SignatureComponent} {v : Str} : ComponentValue r k v → AbsentAmong r ks l →
      AbsentAmong r (k :: ks) l

/-- With this request the program ends with this error. -/
inductive Fails (a : Args) (h : Host) (req : MockRequest) : AppError → Prop
  /-- the options are not in order -/
  | options {e : AppError} : Refused a h e → Fails a h req e
  /-- canonicalize mode: these components, among those asked for, have no value -/
  | missing {alg : Str} {comps l : List SignatureComponent} : a.mode = .canonicalize → a.algorithm = some alg → alg ∈ algorithmNames →
      HeaderOption (a.opt h) comps → AbsentAmong req comps l → l ≠ [] → Fails a h req (.lib (.missingComponents l))
  /-- sign mode: created in the future -/
  | created {name : Str} {prim : Primitive} {key : Bytes} {comps : List SignatureComponent} {t : Int} : a.mode = .sign →
      SignOptions a h name prim key comps → 0 ≤ h.signEnv.sysNow → a.created = some t → h.signEnv.sysNow / 1000000000 < t →
      Fails a h req (.lib .invalidSignatureCreationDate)
  /-- sign mode: expired -/
  | expires {name : Str} {prim : Primitive} {key : Bytes} {comps : List SignatureComponent} {t : Int} : a.mode = .sign →
      SignOptions a h name prim key comps → 0 ≤ h.signEnv.sysNow →
      (∀ t, a.created = some t → t ≤ h.signEnv.sysNow / 1000000000) → a.expires = some t → t < h.signEnv.sysNow / 1000000000 →
      Fails a h req (.lib .invalidSignatureExpiresDate)
  /-- sign mode: a component without value; which is not told -/
  | components {name : Str} {prim : Primitive} {key : Bytes} {comps : List SignatureComponent} : a.mode = .sign →
      SignOptions a h name prim key comps → 0 ≤ h.signEnv.sysNow → OptionTimesOk a (h.signEnv.sysNow / 1000000000) →
      (∃ k ∈ comps, Absent req k) → Fails a h req (.lib .canonicalize)
  /-- sign mode: a label that cannot be in a header -/
  | label {name : Str} {prim : Primitive} {key : Bytes} {comps : List SignatureComponent} : a.mode = .sign →
      SignOptions a h name prim key comps → 0 ≤ h.signEnv.sysNow → OptionTimesOk a (h.signEnv.sysNow / 1000000000) →
      (∀ k ∈ comps, ¬ Absent req k) → WritableSignOptions a → (∃ c ∈ a.label.getD (str% "sig"), Control c) →
      Fails a h req (.lib .convertHeader)
  /-- sign mode: the signed request has a header that is not readable text -/
  | write {r' : MockRequest} : a.mode = .sign → Signs a h req r' → (∃ e ∈ r'.headers, e.2.toStr = none) → Fails a h req .write
  /-- verify mode: the request is not in order, yet nothing about it makes the program panic -/
  | verification : a.mode = .verify → VerifyStarts a h → ¬ Crashes req h.verifyEnv.sysNow → ¬ Verifies a h req →
      Fails a h req .verification

/-- The line about an error. -/
inductive ReportText (f : ErrFmt) : AppError → Str → Prop
  | badArg {m t : Str} : Shown.Quoted f.toFmt m t → ReportText f (.badArg m) (str% "Error: BadArg(" ++ t ++ str% ")")
  | io : ReportText f .io (str% "Error: " ++ f.io)
  | key : ReportText f .badKey (str% "Error: " ++ f.key)
  | lib {e : Error} {t : Str} : Shown.ErrorDebug f.toFmt e t → ReportText f (.lib e) (str% "Error: " ++ t)
  | verification : ReportText f .verification (str% "Error: VerifyingError { remnant: () }")
  | write : ReportText f .write (str% "Error: " ++ f.write)

/-- Two states of a file that tell the same about it: it cannot be read; it has contents that are no private key; it has contents that
are a private key. -/
inductive SameSort : FileState → FileState → Prop
  | unreadable {s s' : FileState} : (∀ b, s ≠ .contents b) → (∀ b, s' ≠ .contents b) → SameSort s s'
  | noKey {b b' : Bytes} : privatePkcs8Pem b = none → privatePkcs8Pem b' = none → SameSort (.contents b) (.contents b')
  | key {b b' k k' : Bytes} : privatePkcs8Pem b = some k → privatePkcs8Pem b' = some k' → SameSort (.contents b) (.contents b')

/-- An error whose text is made by the library or by the validator. -/
def OwnText (e : AppError) : Prop := e ≠ .io ∧ e ≠ .badKey ∧ e ≠ .write

end Httpsig
