import Verif.Sfv.Parse
import Verif.Url
/-
The parts of the `http` 0.2, `chrono`, `sha2` and `hmac` crates (dependencies; not in /repo)
that httpsig's behaviour depends on.
-/
namespace Httpsig

/-- Signature primitives offered by `hmac`, `ring` and `openssl`. -/
inductive Primitive where
  | hmacSha256 | hmacSha512
  | rsaPkcs1Sha256 | rsaPkcs1Sha512 | rsaPssSha256 | rsaPssSha512
  | ecdsaP256Sha256Asn1
deriving DecidableEq, Repr

/-- Key types of the ring back end. -/
inductive KeyType where
  | rsa | ecP256
deriving DecidableEq, Repr

/-- `PKey<Private>` of the `openssl` crate: is it a plain RSA key, and the key itself. -/
structure OsslKey where
  rsa : Bool
  key : Bytes
deriving DecidableEq, Repr

/-- Behaviour of dependency crates that /repo does not determine. Every theorem quantifies over it. -/
class Deps where
  /-- Is `"` accepted in header names by the `http` crate (yes in the 0.2 table, no in RFC 7230)? -/
  dquoteHeaderChar : Bool
  /-- `NaiveDateTime::from_timestamp_opt(ts, 0).is_some()` (src/verifying.rs:526). -/
  timestampInRange : Int → Bool
  /-- `Sha256::digest`, `Sha512::digest` (src/algorithm.rs:103,112). -/
  sha256 : Bytes → Bytes
  sha512 : Bytes → Bytes
  /-- HMAC tag of a message under a key (src/algorithm.rs:69-71,84-86). -/
  hmac256 : Bytes → Bytes → Bytes
  hmac512 : Bytes → Bytes → Bytes
  /-- `str::parse::<Url>()`. -/
  parseUrl : Str → UrlParse
  /-- Asymmetric signing: primitive, private key, random coins, message
  (src/algorithm/ring.rs:86-94,191-194, src/algorithm/openssl.rs:80-84). -/
  asymSign : Primitive → Bytes → Nat → Bytes → Bytes
  /-- Asymmetric verification: primitive, public key, message, tag
  (src/algorithm/ring.rs:107-113,208-214, src/algorithm/openssl.rs:97-106). -/
  asymVerify : Primitive → Bytes → Bytes → Bytes → Bool
  /-- `RsaKeyPair::from_pkcs8` and `EcdsaKeyPair::from_pkcs8` of `ring` (src/algorithm/ring.rs:26,35,154,166). -/
  ringPkcs8 : KeyType → Bytes → Option Bytes
  /-- `RsaKeyPair::from_der` of `ring` (src/algorithm/ring.rs:40,48). -/
  ringPkcs1 : Bytes → Option Bytes
  /-- Contents of an object identifier, and algorithm parameters, that the `der` crate accepts (src/algorithm/ring.rs:132). -/
  oidOk : Bytes → Bool
  anyOk : Bytes → Bool
  /-- `PKey::private_key_from_pkcs8` of `openssl` (src/algorithm/openssl.rs:40,46). -/
  osslPkcs8 : Bytes → Option OsslKey
  /-- `Rsa::private_key_from_der`, `Rsa::private_key_from_pem` of `openssl` (src/algorithm/openssl.rs:52,59). -/
  osslRsaDer : Bytes → Option Bytes
  osslRsaPem : Bytes → Option Bytes
  /-- `Rsa::public_key_from_der`, `Rsa::public_key_from_pem` of `openssl` (src/algorithm/openssl.rs:69,74). -/
  osslPubDer : Bytes → Option Bytes
  osslPubPem : Bytes → Option Bytes
  /-- Is the RSA key too short for a signature with the primitive (src/algorithm/openssl.rs:82-84)? -/
  osslShort : Primitive → Bytes → Bool

section
variable [Deps]

/-- Characters of a (lower-cased) `http::HeaderName`: RFC 7230 tchar minus upper case,
plus possibly `"` (see `Deps.dquoteHeaderChar`). -/
def isHeaderNameChar (c : Char) : Bool :=
  (Sfv.isTchar c && !c.isUpper) || (c == '"' && Deps.dquoteHeaderChar)

/-- Invariant of `http::HeaderName`: non-empty, at most 65535 bytes, header characters only. -/
def validHeaderName (s : Str) : Bool :=
  !s.isEmpty && s.length ≤ 65535 && s.all isHeaderNameChar

/-- `http::HeaderName`. The crate's type invariant is carried in the type. -/
structure HeaderName where
  str : Str
  ok : validHeaderName str = true

instance : DecidableEq HeaderName := fun a b =>
  if h : a.str = b.str then isTrue (by cases a; cases b; simp at h; subst h; rfl)
  else isFalse (fun e => h (by rw [e]))

/-- `HeaderName::from_str` / `from_bytes`: lower-cases, rejects illegal characters and lengths. -/
def HeaderName.fromStr (s : Str) : Option HeaderName :=
  if h : validHeaderName (s.map asciiLower) = true then some ⟨s.map asciiLower, h⟩ else none

/-- `is_visible_ascii` of the `http` crate. -/
def isVisibleByte (b : UInt8) : Bool := (32 ≤ b.toNat && b.toNat < 127) || b.toNat == 9

/-- `is_valid` of the `http` crate. -/
def isHeaderValueByte (b : UInt8) : Bool := (32 ≤ b.toNat && b.toNat != 127) || b.toNat == 9

/-- `http::HeaderValue`. The crate's type invariant is carried in the type. -/
structure HeaderValue where
  bytes : Bytes
  ok : bytes.all isHeaderValueByte = true

instance : DecidableEq HeaderValue := fun a b =>
  if h : a.bytes = b.bytes then isTrue (by cases a; cases b; simp at h; subst h; rfl)
  else isFalse (fun e => h (by rw [e]))

/-- `HeaderValue::from_bytes`. -/
def HeaderValue.fromBytes (b : Bytes) : Option HeaderValue :=
  if h : b.all isHeaderValueByte = true then some ⟨b, h⟩ else none

/-- `HeaderValue::from_str` and `TryFrom<String>` (src/signing.rs:385,394,406,470,482). -/
def HeaderValue.fromStr (s : Str) : Option HeaderValue := HeaderValue.fromBytes (utf8 s)

/-- `HeaderValue::to_str().ok()`. -/
def HeaderValue.toStr (v : HeaderValue) : Option Str :=
  if v.bytes.all isVisibleByte then some (v.bytes.map fun b => Char.ofNat b.toNat) else none

/-- `http::HeaderMap`: a multimap. Simplification: iteration order (which the crate documents as
arbitrary) is the order of this list. -/
abbrev HeaderMap := List (HeaderName × HeaderValue)

/-- `HeaderMap::get`: the first value under a name. -/
def HeaderMap.get (m : HeaderMap) (n : HeaderName) : Option HeaderValue :=
  (m.find? fun e => e.1 = n).map Prod.snd

/-- All values under a name (`HeaderMap::get_all`). Only used to state properties. -/
def HeaderMap.getAll (m : HeaderMap) (n : HeaderName) : List HeaderValue :=
  (m.filter fun e => e.1 = n).map Prod.snd

/-- `HeaderMap::insert`: replaces all values under the name. A name that is present keeps its place in the iteration
order, a new one goes to the end. -/
def HeaderMap.insert : HeaderMap → HeaderName → HeaderValue → HeaderMap
  | [], n, v => [(n, v)]
  | e :: m, n, v => if e.1 = n then (n, v) :: m.filter (fun e => e.1 ≠ n) else e :: HeaderMap.insert m n v

/-- The header names used by httpsig (src/signature_component.rs:112-138, `http::header::{DATE, HOST}`). -/
def hDate : HeaderName := ⟨str% "date", rfl⟩
@[inherit_doc hDate] def hHost : HeaderName := ⟨str% "host", rfl⟩
@[inherit_doc hDate] def hDigest : HeaderName := ⟨str% "digest", rfl⟩
@[inherit_doc hDate] def hSignature : HeaderName := ⟨str% "signature", rfl⟩
@[inherit_doc hDate] def hSignatureInput : HeaderName := ⟨str% "signature-input", rfl⟩

end

/-- `http::Method`: a non-empty RFC 7230 token (case sensitive). -/
structure Method where
  str : Str
  ok : (!str.isEmpty && str.all Sfv.isTchar) = true

instance : DecidableEq Method := fun a b =>
  if h : a.str = b.str then isTrue (by cases a; cases b; simp at h; subst h; rfl)
  else isFalse (fun e => h (by rw [e]))

/-! ### `form_urlencoded::parse` (`Url::query_pairs`, src/derived.rs:117) -/

/-- Value of an ASCII hex digit. -/
def hexVal (b : UInt8) : Option Nat :=
  let n := b.toNat
  if 48 ≤ n ∧ n ≤ 57 then some (n - 48)
  else if 65 ≤ n ∧ n ≤ 70 then some (n - 55)
  else if 97 ≤ n ∧ n ≤ 102 then some (n - 87)
  else none

/-- `percent_decode`: `%XX` becomes a byte, everything else is literal. -/
def percentDecode : Bytes → Bytes
  | [] => []
  | c :: rest =>
    if c = 37 then
      match rest with
      | h :: l :: rest' =>
        match hexVal h, hexVal l with
        | some x, some y => UInt8.ofNat (x * 16 + y) :: percentDecode rest'
        | _, _ => c :: percentDecode (h :: l :: rest')
      | r => c :: percentDecode r
    else c :: percentDecode rest
termination_by l => l.length

/-- Is `b` a UTF-8 continuation byte. -/
def isCont (b : UInt8) : Bool := 0x80 ≤ b.toNat && b.toNat ≤ 0xBF

/-- `String::from_utf8_lossy`: invalid maximal subparts become U+FFFD. -/
def utf8Lossy : Bytes → Str
  | [] => []
  | a :: rest =>
    let n := a.toNat
    let bad := '�'
    if n < 0x80 then Char.ofNat n :: utf8Lossy rest
    else if 0xC2 ≤ n ∧ n ≤ 0xDF then
      match rest with
      | b :: rest' =>
        if isCont b then Char.ofNat ((n - 0xC0) * 64 + (b.toNat - 0x80)) :: utf8Lossy rest'
        else bad :: utf8Lossy (b :: rest')
      | [] => [bad]
    else if 0xE0 ≤ n ∧ n ≤ 0xEF then
      match rest with
      | b :: rest' =>
        let ok2 := if n = 0xE0 then 0xA0 ≤ b.toNat ∧ b.toNat ≤ 0xBF
                   else if n = 0xED then 0x80 ≤ b.toNat ∧ b.toNat ≤ 0x9F
                   else 0x80 ≤ b.toNat ∧ b.toNat ≤ 0xBF
        if ok2 then
          match rest' with
          | c :: rest'' =>
            if isCont c then
              Char.ofNat ((n - 0xE0) * 4096 + (b.toNat - 0x80) * 64 + (c.toNat - 0x80)) :: utf8Lossy rest''
            else bad :: utf8Lossy (c :: rest'')
          | [] => [bad]
        else bad :: utf8Lossy (b :: rest')
      | [] => [bad]
    else if 0xF0 ≤ n ∧ n ≤ 0xF4 then
      match rest with
      | b :: rest' =>
        let ok2 := if n = 0xF0 then 0x90 ≤ b.toNat ∧ b.toNat ≤ 0xBF
                   else if n = 0xF4 then 0x80 ≤ b.toNat ∧ b.toNat ≤ 0x8F
                   else 0x80 ≤ b.toNat ∧ b.toNat ≤ 0xBF
        if ok2 then
          match rest' with
          | c :: rest'' =>
            if isCont c then
              match rest'' with
              | d :: rest3 =>
                if isCont d then
                  Char.ofNat ((n - 0xF0) * 262144 + (b.toNat - 0x80) * 4096 + (c.toNat - 0x80) * 64 + (d.toNat - 0x80))
                    :: utf8Lossy rest3
                else bad :: utf8Lossy (d :: rest3)
              | [] => [bad]
            else bad :: utf8Lossy (c :: rest'')
          | [] => [bad]
        else bad :: utf8Lossy (b :: rest')
      | [] => [bad]
    else bad :: utf8Lossy rest
termination_by l => l.length

/-- `form_urlencoded::decode`: `+` is a space, then percent-decoding, then lossy UTF-8. -/
def formDecode (b : Bytes) : Str :=
  utf8Lossy (percentDecode (b.map fun c => if c = 43 then 32 else c))

/-- Split a byte string at every `sep`. -/
def splitBytes (sep : UInt8) : Bytes → List Bytes
  | [] => [[]]
  | x :: xs =>
    if x = sep then [] :: splitBytes sep xs
    else match splitBytes sep xs with
      | [] => [[x]]
      | p :: ps => (x :: p) :: ps

/-- One `name=value` segment (value empty when there is no `=`). -/
def formPair (seg : Bytes) : Str × Str :=
  (formDecode (seg.takeWhile (· != 61)), formDecode ((seg.dropWhile (· != 61)).drop 1))

/-- `form_urlencoded::parse`: segments between `&`, empty segments skipped. -/
def formParse (q : Bytes) : List (Str × Str) :=
  ((splitBytes 38 q).filter (fun s => !s.isEmpty)).map formPair

/-- `Url::query_pairs`. -/
def Url.queryPairs (u : Url) : List (Str × Str) := formParse (utf8 (u.query.getD []))

/-! ### `chrono` formatting of `%a, %d %b %Y %T GMT` (src/lib.rs:10, src/signing.rs:382) -/

/-- Proleptic Gregorian date of a day number counted from 1970-01-01. Returns (year, month 1..12, day 1..31). -/
def civilFromDays (days : Int) : Int × Int × Int :=
  let z := days + 719468
  let era := z / 146097
  let doe := z % 146097
  let yoe := (doe - doe / 1460 + doe / 36524 - doe / 146096) / 365
  let doy := doe - (365 * yoe + yoe / 4 - yoe / 100)
  let mp := (5 * doy + 2) / 153
  let d := doy - (153 * mp + 2) / 5 + 1
  let m := if mp < 10 then mp + 3 else mp - 9
  (yoe + era * 400 + (if m ≤ 2 then 1 else 0), m, d)

/-- `%a`, index 0 = Sunday. -/
def weekdayName (i : Int) : Str :=
  match i with
  | 0 => str% "Sun" | 1 => str% "Mon" | 2 => str% "Tue" | 3 => str% "Wed"
  | 4 => str% "Thu" | 5 => str% "Fri" | _ => str% "Sat"

/-- `%b`, index 1 = January. -/
def monthName (i : Int) : Str :=
  match i with
  | 1 => str% "Jan" | 2 => str% "Feb" | 3 => str% "Mar" | 4 => str% "Apr" | 5 => str% "May"
  | 6 => str% "Jun" | 7 => str% "Jul" | 8 => str% "Aug" | 9 => str% "Sep" | 10 => str% "Oct"
  | 11 => str% "Nov" | _ => str% "Dec"

/-- Two-digit, zero-padded field. -/
def two (n : Int) : Str := Sfv.padZero 2 (Sfv.natStr n.toNat)

/-- `%Y`: four digits for years 0..9999, otherwise an explicit sign. -/
def yearStr (y : Int) : Str :=
  if 0 ≤ y ∧ y ≤ 9999 then Sfv.padZero 4 (Sfv.natStr y.toNat)
  else (if y < 0 then ['-'] else ['+']) ++ Sfv.padZero 4 (Sfv.natStr y.natAbs)

/-- `Utc::now().format(DATE_FORMAT)` for a clock reading in whole seconds since the epoch. -/
def formatDate (secs : Int) : Str :=
  let days := secs / 86400
  let sod := secs % 86400
  let (y, m, d) := civilFromDays days
  weekdayName ((days + 4) % 7) ++ str% ", " ++ two d ++ str% " " ++ monthName m ++ str% " " ++ yearStr y ++
  str% " " ++ two (sod / 3600) ++ str% ":" ++ two (sod / 60 % 60) ++ str% ":" ++ two (sod % 60) ++ str% " GMT"

end Httpsig
