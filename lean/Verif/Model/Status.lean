import Verif.Model.Main
import Verif.Model.Debug
/-
What the process reports when it ends: `main` of httpsig-validator/src/main.rs returns `Result<(), Box<dyn Error>>` (main.rs:310), and
the standard library's `Termination` for it writes `Error: ` and the debug text to standard error and exits with status 1; after success
the status is 0, after a panic 101. The message of a panic is not modelled.
-/
namespace Httpsig
variable [Deps]

/-- The texts of errors that other code makes: of the file system, of the key parsers, of a header value that is not text. -/
structure ErrFmt extends Fmt where
  io : Str
  key : Str
  write : Str

/-- `Debug` of the boxed error: `AppError` (httpsig-validator/src/error.rs:3-10), `Error` (src/errors.rs:10), `VerifyingError`
(src/verifying.rs:21-25, with the remnant `()` of `MockRequest`, httpsig-validator/src/mock_request.rs:275). -/
def ErrFmt.debugApp (f : ErrFmt) : AppError → Str
  | .badArg m => str% "BadArg(" ++ f.debugStr m ++ str% ")"
  | .io => f.io
  | .badKey => f.key
  | .lib e => f.debugError e
  | .verification => str% "VerifyingError { remnant: () }"
  | .write => f.write

/-- The exit status of the process. -/
def Exit.code (e : Exit) : Nat :=
  match e.status with
  | .ok (.ok ()) => 0
  | .ok (.error _) => 1
  | .error _ => 101

/-- The line about an error on standard error. -/
def Exit.report (f : ErrFmt) (e : Exit) : Option Str :=
  match e.status with
  | .ok (.error e) => some (str% "Error: " ++ f.debugApp e)
  | _ => none

end Httpsig
