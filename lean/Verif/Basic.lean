/-
Basic vocabulary of the model: strings, bytes, panics.
-/
namespace Httpsig

/-- Rust `String` / `&str`: a sequence of Unicode scalar values. -/
abbrev Str := List Char

/-- Rust `Vec<u8>` / `&[u8]`. -/
abbrev Bytes := List UInt8

open Lean in
/-- `str% "abc"` is the `Str` literal `['a', 'b', 'c']`. -/
macro "str% " s:str : term => do
  let cs : List Term := s.getString.toList.map (fun c => ⟨(Syntax.mkCharLit c).raw⟩)
  let body ← cs.foldrM (fun c acc => `(List.cons $c $acc)) (← `(List.nil))
  `(($body : Str))

/-- `str::as_bytes`: UTF-8 encoding (Lean core's encoder, one scalar value at a time). -/
def utf8 (s : Str) : Bytes := s.flatMap String.utf8EncodeChar

/-- The call sites in the modelled code that can panic. A panic is an explicit value of the model. -/
inductive Panic where
  /-- `DerivedComponent::name`: `as_str().unwrap()`, src/derived.rs:76 -/
  | derivedNameNotString
  /-- `Display for DerivedComponent`: `serialize_value().unwrap()`, src/derived.rs:203 -/
  | displayDerived
  /-- `ComponentList::to_string` when its `Display` fails, src/signature_input.rs:45-53 via src/canonicalize.rs:224 -/
  | displayComponentList
  /-- `SignatureInput::to_string` when its `Display` fails, src/signature_input.rs:114-125 via src/signing.rs:470 -/
  | displaySignatureInput
  /-- `expect("Dates should always be valid header values")`, src/signing.rs:385-386 -/
  | dateHeader
  /-- `expect("Host should be valid in a HTTP header")`, src/signing.rs:394-395 -/
  | hostHeader
  /-- `expect("Digest should be valid in a HTTP header")`, src/signing.rs:405-407 -/
  | digestHeader
  /-- `expect("Unix time to be positive")`, src/signing.rs:428 and src/verifying.rs:380 -/
  | clockBeforeEpoch
  /-- `from_signature_input(..).ok().unwrap()`, src/verifying.rs:396-403 -/
  | badSignatureInput
  /-- `From<Item> for SignatureComponent`: `as_str().unwrap()`, src/signature_component.rs:93 -/
  | itemNotString
  /-- `From<Item> for SignatureComponent`: `HeaderName::from_str(name).unwrap()`, src/signature_component.rs:97 -/
  | itemBadHeaderName
  /-- `expect("Should only fail on negative values")`, src/verifying.rs:539 -/
  | dateDelta
  /-- `MockRequest::new` / `with_header` / `derive_url` unwraps, httpsig-validator/src/mock_request.rs:82,103,104,204 -/
  | mockRequest
  /-- `String::from_utf8(body).expect(..)` inside a trace message, httpsig-validator/src/mock_request.rs:159-162 -/
  | traceBody
  /-- `String::from_utf8(signature_base).expect(..)` and `.unwrap()` inside trace messages, src/canonicalize.rs:240 and src/verifying.rs:475 -/
  | traceBase
  /-- `set_rsa_padding(..).unwrap()`, src/algorithm/openssl.rs:81 -/
  | opensslPadding
  /-- `expect("Signing to be infallible")`, src/algorithm/openssl.rs:84 -/
  | opensslSign
  /-- `expect("Signing should be infallible")`, src/algorithm/ring.rs:94,194 -/
  | ringSign
  /-- `File::open(..).expect("Failed to open file")`, httpsig-validator/src/main.rs:317 -/
  | openInput
  /-- `from_reader(..).expect("Failed to read request ..")`, httpsig-validator/src/main.rs:319,321-322 -/
  | readInput
deriving DecidableEq, Repr

/-- A computation that may panic. -/
abbrev P (α : Type) := Except Panic α

/-- Rust `char::is_whitespace` (Unicode `White_Space`), used by `str::trim` in src/verifying.rs:579-580. -/
def isRustWhitespace (c : Char) : Bool :=
  let n := c.toNat
  (9 ≤ n && n ≤ 13) || n == 0x20 || n == 0x85 || n == 0xA0 || n == 0x1680 ||
  (0x2000 ≤ n && n ≤ 0x200A) || n == 0x2028 || n == 0x2029 || n == 0x202F || n == 0x205F || n == 0x3000

/-- Strip a prefix and a suffix of characters satisfying `p` (`str::trim_matches`). -/
def trimMatches (p : Char → Bool) (s : Str) : Str :=
  ((s.dropWhile p).reverse.dropWhile p).reverse

/-- `str::trim`. -/
def trim (s : Str) : Str := trimMatches isRustWhitespace s

/-- `str::split_once(c)`: split at the first occurrence of `c`. -/
def splitOnce (c : Char) : Str → Option (Str × Str)
  | [] => none
  | x :: xs => if x = c then some ([], xs) else (splitOnce c xs).map fun (a, b) => (x :: a, b)

/-- `str::split(c)`: the (never empty) list of pieces between occurrences of `c`. -/
def splitOn (c : Char) : Str → List Str
  | [] => [[]]
  | x :: xs =>
    if x = c then [] :: splitOn c xs
    else match splitOn c xs with
      | [] => [[x]]            -- unreachable: `splitOn` is never empty
      | p :: ps => (x :: p) :: ps

/-- `[String]::join(sep)`. -/
def joinWith (sep : Str) : List Str → Str
  | [] => []
  | [x] => x
  | x :: y :: xs => x ++ sep ++ joinWith sep (y :: xs)

/-- `char::to_ascii_lowercase`. -/
def asciiLower (c : Char) : Char := if c.isUpper then Char.ofNat (c.toNat + 32) else c

/-- `char::to_ascii_uppercase`. -/
def asciiUpper (c : Char) : Char := if c.isLower then Char.ofNat (c.toNat - 32) else c

/-- Lexicographic comparison of byte strings, as Rust's `Ord for str` (src/signature_component.rs:69). -/
def bytesCmp : Bytes → Bytes → Ordering
  | [], [] => .eq
  | [], _ :: _ => .lt
  | _ :: _, [] => .gt
  | a :: as, b :: bs => if a < b then .lt else if b < a then .gt else bytesCmp as bs

/-- `str::cmp`. -/
def strCmp (a b : Str) : Ordering := bytesCmp (utf8 a) (utf8 b)

end Httpsig
