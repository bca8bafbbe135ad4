import Verif.Model.Verifying
/-
Specification vocabulary for C40: histories of setter calls.
-/
namespace Httpsig
variable [Deps]

/-- A call of a `SigningConfig` setter (both the in-place `set_…` and the chaining `with_…` form). -/
inductive SigningCall where
  | nonce (n : Str)
  | digest (d : HttpDigest)
  | computeDigest (b : Bool)
  | addDate (b : Bool)
  | addHost (b : Bool)
  | components (l : List SignatureComponent)
  | skipMissing (b : Bool)
  | createdAuto
  | createdAt (t : Int)
  | expiresRelative (off : Int)
  | expiresAt (t : Int)

/-- Performing a call. -/
def SigningCall.run (c : SigningConfig) : SigningCall → SigningConfig
  | .nonce n => c.setNonce n
  | .digest d => c.setDigest d
  | .computeDigest b => c.setComputeDigest b
  | .addDate b => c.setAddDate b
  | .addHost b => c.setAddHost b
  | .components l => c.setComponents l
  | .skipMissing b => c.setSkipMissing b
  | .createdAuto => c.setCreatedAuto
  | .createdAt t => c.setCreatedAt t
  | .expiresRelative off => c.setExpiresRelative off
  | .expiresAt t => c.setExpiresAt t

/-- A configuration built by `new` and a history of calls, first call first. -/
def signingAfter (label keyId : Str) (alg : HttpSignatureSign) (calls : List SigningCall) : SigningConfig :=
  calls.foldl SigningCall.run (.new label keyId alg)

/-- The value given by the last call that `pick` recognises. -/
def lastCall {α β : Type} (pick : α → Option β) (calls : List α) : Option β := (calls.filterMap pick).getLast?

/-- A call of a `VerifyingConfig` setter. -/
inductive VerifyingCall where
  | digestProvider (p : Str → Option HttpDigest)
  | requireDigest (b : Bool)
  | validateDigest (b : Bool)
  | validateDate (b : Bool)
  | dateLeeway (nanos : Nat)
  | requiredComponents (l : List SignatureComponent)

/-- Performing a call (collecting required components may panic). -/
def VerifyingCall.run (c : VerifyingConfig) : VerifyingCall → P VerifyingConfig
  | .digestProvider p => .ok (c.setDigestProvider p)
  | .requireDigest b => .ok (c.setRequireDigest b)
  | .validateDigest b => .ok (c.setValidateDigest b)
  | .validateDate b => .ok (c.setValidateDate b)
  | .dateLeeway n => .ok (c.setDateLeeway n)
  | .requiredComponents l => c.setRequiredComponents l

/-- A configuration built by `new` and a history of calls. -/
def verifyingAfter (kp : Str → List HttpSignatureVerify) (calls : List VerifyingCall) : P VerifyingConfig :=
  calls.foldlM VerifyingCall.run (.new kp)

end Httpsig
