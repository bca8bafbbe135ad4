import Verif.Model.Trace
/-
Specification of the trace records: from the result of canonicalization.
-/
namespace Httpsig
open Sfv
variable [Deps]

/-- The records of `canonicalize`, from its result. -/
inductive CanonTrace (f : Fmt) : P (Except Error (Bytes × SignatureInput)) → List Str → Prop
  | panic {p : Panic} : CanonTrace f (.error p) []
  | missing {l : List SignatureComponent} : CanonTrace f (.ok (.error (.missingComponents l)))
      [str% "CanonicalizeConfig is missing required components: [" ++ joinWith (str% ", ") (l.map f.debugComponent) ++ str% "]"]
  | base {s : Str} {si : SignatureInput} : CanonTrace f (.ok (.ok (utf8 s, si)))
      [str% "Signature Base [u8]: " ++ debugBytes (utf8 s), str% "Signature Base String: " ++ s, str% "SignatureInut: " ++ f.debugInput si]

/-- With the record of `verify_signature_only`. -/
inductive VerifyTrace (f : Fmt) : P (Except Error (Bytes × SignatureInput)) → List Str → Prop
  | panic {p : Panic} : VerifyTrace f (.error p) []
  | missing {l : List SignatureComponent} : VerifyTrace f (.ok (.error (.missingComponents l)))
      [str% "CanonicalizeConfig is missing required components: [" ++ joinWith (str% ", ") (l.map f.debugComponent) ++ str% "]"]
  | base {s : Str} {si : SignatureInput} : VerifyTrace f (.ok (.ok (utf8 s, si)))
      [str% "Signature Base [u8]: " ++ debugBytes (utf8 s), str% "Signature Base String: " ++ s,
       str% "SignatureInut: " ++ f.debugInput si, str% "Verifying SignatureString: " ++ s]

end Httpsig
