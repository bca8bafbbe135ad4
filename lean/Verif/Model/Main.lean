import Verif.Model.Cli
/-
httpsig-validator/src/main.rs: the program as a whole, from its arguments, files and standard input to its standard output
and exit status. It starts from the options; `Model/Argv` has the words that give them. Failures of standard output are not modelled.
-/
namespace Httpsig
variable [Deps]

/-- `Mode`, main.rs:23-28. -/
inductive Mode where
  | canonicalize | sign | verify
deriving DecidableEq

/-- A path in the file system: cannot be opened, can be opened but not read, or has contents. -/
inductive FileState where
  | missing | broken | contents (b : Bytes)

/-- `fs::read`, main.rs:154,229. -/
def FileState.read : FileState → Option Bytes
  | .contents b => some b
  | _ => none

/-- The command line, main.rs:30-77. -/
structure Args where
  mode : Mode
  inFile : Option Str := none
  headers : Option (Option Str) := none
  keyId : Option Str := none
  privateKey : Option Str := none
  publicKey : Option Str := none
  label : Option Str := none
  algorithm : Option Str := none
  created : Option Int := none
  expires : Option Int := none
  nonce : Option Str := none

/-- What the process finds: files, standard input (`none` = reading it fails), the log level, clocks and coins. -/
structure Host where
  files : Str → FileState
  stdin : Option Bytes
  trace : Bool
  signEnv : SignEnv
  verifyEnv : VerifyEnv

/-- The options with the key files they name. -/
def Args.opt (a : Args) (h : Host) : Opt where
  headers := a.headers
  keyId := a.keyId
  privateKey := a.privateKey.map fun p => (h.files p).read
  publicKey := a.publicKey.map fun p => (h.files p).read
  label := a.label
  algorithm := a.algorithm
  created := a.created
  expires := a.expires
  nonce := a.nonce

/-- The bytes of the request, main.rs:315-323. A read error makes `from_reader` fail at the latest when it would reach
the end of the input, so it is the same panic as for a malformed request. -/
def Args.input (a : Args) (h : Host) : P Bytes :=
  match a.inFile with
  | some p =>
    match h.files p with
    | .missing => .error .openInput
    | .broken => .error .readInput
    | .contents b => .ok b
  | none =>
    match h.stdin with
    | none => .error .readInput
    | some b => .ok b

namespace MockRequest

/-- The header lines `write` writes, and whether it gets through them, mock_request.rs:221-228: a value that is not
readable text ends the function before its line is written. -/
def writeHeadersTo : HeaderMap → Str × Bool
  | [] => ([], true)
  | (n, v) :: rest =>
    match v.toStr with
    | none => ([], false)
    | some s => (n.str ++ str% ": " ++ s ++ str% "\n" ++ (writeHeadersTo rest).1, (writeHeadersTo rest).2)

/-- `write`, mock_request.rs:219-236: the bytes that reach the writer, and whether it succeeds. -/
def writeTo (r : MockRequest) : Bytes × Bool :=
  let (hs, ok) := writeHeadersTo r.headers
  let head := utf8 (r.method.str ++ str% " " ++ r.path ++ str% " HTTP/1.1\n" ++ hs)
  if ok then
    match r.body with
    | some b => (head ++ 10 :: b, true)
    | none => (head, true)
  else (head, false)

end MockRequest

/-- What is left of the process: standard output, and a panic, an error or success. -/
structure Exit where
  stdout : Bytes
  status : P (Except AppError Unit)

/-- The three modes, main.rs:326-339. -/
def Args.run (a : Args) (h : Host) (req : MockRequest) : Exit :=
  match a.mode with
  | .canonicalize =>
    match runCanonicalize req (a.opt h) with
    | .error p => ⟨[], .error p⟩
    | .ok (.error e) => ⟨[], .ok (.error e)⟩
    | .ok (.ok base) => ⟨base, .ok (.ok ())⟩
  | .sign =>
    match (a.opt h).signingConfig with
    | .error e => ⟨[], .ok (.error e)⟩
    | .ok c =>
      match sign req c h.signEnv with
      | .error p => ⟨[], .error p⟩
      | .ok (_, .error e) => ⟨[], .ok (.error (.lib e))⟩
      | .ok (req', .ok ()) => ⟨req'.writeTo.1, .ok (if req'.writeTo.2 then .ok () else .error .write)⟩
  | .verify => ⟨[], runVerify req (a.opt h) h.verifyEnv⟩

/-- `main`, main.rs:310-342. -/
def Args.main (a : Args) (h : Host) : Exit :=
  match a.input h with
  | .error p => ⟨[], .error p⟩
  | .ok input =>
    match MockRequest.fromReader input h.trace with
    | .error p => ⟨[], .error p⟩
    | .ok none => ⟨[], .error .readInput⟩
    | .ok (some req) => a.run h req

end Httpsig
