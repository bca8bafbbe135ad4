import Verif.Http
import Verif.UrlParse
/-
`Host::parse` of the `url` 2.4 crate (dependency; not in /repo) and the printing of hosts, as reached by `str::parse::<Url>()` at
httpsig-validator/src/mock_request.rs:82,85,194,202. International domain names (the `idna` crate) are a parameter: domains of ASCII
characters without a label that begins with `xn--` do not need it.
-/
namespace Httpsig
namespace UrlHost

/-- `url::Host`. An IPv4 address is a number, an IPv6 address a list of eight numbers. -/
inductive Host where
  | domain (name : Str)
  | ipv4 (address : Nat)
  | ipv6 (pieces : List Nat)
deriving DecidableEq, Repr

/-- `char::to_digit(16)`. -/
def digit (c : Char) : Option Nat :=
  if c.isDigit then some (c.toNat - 48)
  else if 'a' ≤ c ∧ c ≤ 'f' then some (c.toNat - 87)
  else if 'A' ≤ c ∧ c ≤ 'F' then some (c.toNat - 55)
  else none

/-- A digit of the base. -/
def isDigit (radix : Nat) (c : Char) : Bool :=
  match digit c with
  | some d => decide (d < radix)
  | none => false

/-- The number that digits stand for. -/
def value (radix : Nat) (s : Str) : Nat := s.foldl (fun n c => n * radix + (digit c).getD 0) 0

/-- The end of `parse_ipv4number`, and `u32::from_str_radix`. -/
def radixNumber (radix : Nat) (s : Str) : Option (Option Nat) :=
  if s = [] then some (some 0)
  else if s.all (isDigit radix) then some (if value radix s < 2 ^ 32 then some (value radix s) else none)
  else none

/-- `parse_ipv4number`: `none` = `Err`, `some none` = a number that does not fit. -/
def ipv4Number : Str → Option (Option Nat)
  | [] => none
  | [c] => radixNumber 10 [c]
  | c :: x :: s =>
    if c = '0' ∧ (x = 'x' ∨ x = 'X') then radixNumber 16 s
    else if c = '0' then radixNumber 8 (x :: s)
    else radixNumber 10 (c :: x :: s)

/-- `ends_in_a_number`: the last part, or the one before it if the last one is empty. -/
def endsInNumber (s : Str) : Bool :=
  let isNumber (p : Str) : Bool := (p ≠ [] ∧ p.all Char.isDigit) || (ipv4Number p).isSome
  match (splitOn '.' s).reverse with
  | [] :: p :: _ => isNumber p
  | [] :: [] => false
  | p :: _ => isNumber p
  | [] => false

/-- The sum of `parse_ipv4addr`: all numbers but the last are bytes. -/
def ipv4Bytes : Nat → List Nat → Nat
  | _, [] => 0
  | counter, n :: ns => n * 2 ^ (8 * (3 - counter)) + ipv4Bytes (counter + 1) ns

/-- `parse_ipv4addr`. (The `expect` on an empty list of numbers cannot fail: the text is not empty.) -/
def ipv4Addr (s : Str) : Option Nat :=
  let parts := splitOn '.' s
  let parts := if parts.getLast? = some [] then parts.dropLast else parts
  if 4 < parts.length then none
  else
    match parts.mapM fun p => (ipv4Number p).join with
    | none => none
    | some numbers =>
      match numbers.getLast? with
      | none => none
      | some last =>
        let bytes := numbers.dropLast
        if last > (2 ^ 32 - 1) / 2 ^ (8 * bytes.length) then none
        else if bytes.any (· > 255) then none
        else some (last + ipv4Bytes 0 bytes)

/-- At most `n` hexadecimal digits, and the rest. -/
def hexRun : Nat → Str → Str × Str
  | n + 1, c :: cs => if isDigit 16 c then (c :: (hexRun n cs).1, (hexRun n cs).2) else ([], c :: cs)
  | _, s => ([], s)

/-- A number of an IPv4 address at the end of an IPv6 address: no leading zero, at most 255. -/
def byteNumber (s : Str) : Option (Nat × Str) :=
  let d := s.takeWhile Char.isDigit
  if d = [] ∨ (d.head? = some '0' ∧ 1 < d.length) ∨ 255 < value 10 d then none
  else some (value 10 d, s.dropWhile Char.isDigit)

/-- The rest of an IPv6 address that ends with an IPv4 address: `left` numbers are missing. -/
def dotted : Nat → Str → Option (List Nat)
  | 0, s => if s = [] then some [] else none
  | left + 1, s =>
    match (if left = 3 then some s else match s with | '.' :: r => some r | _ => none) with
    | none => none
    | some r =>
      match byteNumber r with
      | none => none
      | some (n, r) => (dotted left r).map (n :: ·)

/-- The loop of `parse_ipv6addr`: `left` pieces can follow the pieces so far; `compress` is `compress_pointer`. -/
def ipv6Loop : Nat → List Nat → Option Nat → Str → Option (List Nat × Option Nat)
  | _, pieces, compress, [] => some (pieces, compress)
  | 0, _, _, _ :: _ => none
  | left + 1, pieces, compress, c :: cs =>
    if c = ':' then
      if compress.isSome then none else ipv6Loop left (pieces ++ [0]) (some (pieces.length + 1)) cs
    else
      match hexRun 4 (c :: cs) with
      | (d, []) => ipv6Loop left (pieces ++ [value 16 d]) compress []
      | (d, x :: r) =>
        if x = '.' then
          if d = [] ∨ left = 0 then none
          else
            match dotted 4 (c :: cs) with
            | some [n1, n2, n3, n4] => some (pieces ++ [n1 * 256 + n2, n3 * 256 + n4], compress)
            | _ => none
        else if x = ':' then
          if r = [] then none else ipv6Loop left (pieces ++ [value 16 d]) compress r
        else none

/-- The end of `parse_ipv6addr`: zeros where the address was compressed. -/
def ipv6Finish : List Nat × Option Nat → Option (List Nat)
  | (pieces, some c) => some (pieces.take c ++ List.replicate (8 - pieces.length) 0 ++ pieces.drop c)
  | (pieces, none) => if pieces.length = 8 then some pieces else none

/-- `parse_ipv6addr`. -/
def ipv6Addr : Str → Option (List Nat)
  | c :: x :: s =>
    if c = ':' then
      if x = ':' then (ipv6Loop 7 [0] (some 1) s).bind ipv6Finish else none
    else (ipv6Loop 8 [] none (c :: x :: s)).bind ipv6Finish
  | _ => none

/-- Labels that the `idna` crate decodes. -/
def isXn (label : Str) : Bool := (str% "xn--").isPrefixOf (label.map asciiLower)

/-- Domains for which `idna::domain_to_ascii` only lowers letters. -/
def isOwnAscii (s : Str) : Bool := s.all (fun c => decide (c.toNat < 128)) && (splitOn '.' s).all fun l => !isXn l

/-- `idna::domain_to_ascii`. The result is ASCII. -/
def domainToAscii (idna : Str → Option { t : Str // ∀ c ∈ t, c.toNat < 128 }) (s : Str) : Option Str :=
  if isOwnAscii s then some (s.map asciiLower) else (idna s).map Subtype.val

/-- `is_invalid_domain_char`. -/
def invalidChar (c : Char) : Bool :=
  decide (c.toNat ≤ 32) || c == '#' || c == '%' || c == '/' || c == ':' || c == '<' || c == '>' || c == '?' || c == '@' || c == '[' ||
    c == '\\' || c == ']' || c == '^' || c.toNat == 127 || c == '|'

/-- `Host::parse`; `none` = `Err`. -/
def parse (idna : Str → Option { t : Str // ∀ c ∈ t, c.toNat < 128 }) (s : Str) : Option Host :=
  if s.head? = some '[' then
    if (s.drop 1).getLast? = some ']' then (ipv6Addr (s.drop 1).dropLast).map .ipv6 else none
  else
    match domainToAscii idna (utf8Lossy (percentDecode (utf8 s))) with
    | none => none
    | some d =>
      if d = [] then none
      else if d.any invalidChar then none
      else if endsInNumber d then (ipv4Addr d).map .ipv4
      else some (.domain d)

/-- `Display for Ipv4Addr`. -/
def ipv4Text (n : Nat) : Str :=
  joinWith (str% ".") ([n / 2 ^ 24, n / 2 ^ 16 % 256, n / 2 ^ 8 % 256, n % 256].map Sfv.natStr)

/-- A piece of an IPv6 address, `{:x}`. -/
def hexText (n : Nat) : Str :=
  let d (n : Nat) : Char := if n < 10 then Char.ofNat (48 + n) else Char.ofNat (87 + n)
  if n < 16 then [d n]
  else if n < 256 then [d (n / 16), d (n % 16)]
  else if n < 4096 then [d (n / 256), d (n / 16 % 16), d (n % 16)]
  else [d (n / 4096), d (n / 256 % 16), d (n / 16 % 16), d (n % 16)]

/-- `finish_sequence` of `longest_zero_sequence`: the first longest run as its start and length. -/
def longer (finish : Nat) (start : Option Nat) (longest : Option (Nat × Nat)) : Option (Nat × Nat) :=
  match start, longest with
  | none, l => l
  | some s, none => some (s, finish - s)
  | some s, some (a, n) => if finish - s > n then some (s, finish - s) else some (a, n)

/-- The loop of `longest_zero_sequence`. -/
def longestZeros : Nat → Option Nat → Option (Nat × Nat) → List Nat → Option (Nat × Nat)
  | i, start, longest, [] => longer i start longest
  | i, start, longest, p :: ps =>
    if p = 0 then longestZeros (i + 1) (some (start.getD i)) longest ps
    else longestZeros (i + 1) none (longer i start longest) ps

/-- `write_ipv6`. -/
def ipv6Text (pieces : List Nat) : Str :=
  match longestZeros 0 none none pieces with
  | none => joinWith (str% ":") (pieces.map hexText)
  | some (a, n) =>
    if n < 2 then joinWith (str% ":") (pieces.map hexText)
    else
      (pieces.take a).flatMap (fun p => hexText p ++ str% ":") ++ (if a = 0 then str% "::" else str% ":") ++
        joinWith (str% ":") ((pieces.drop (a + n)).map hexText)

/-- `Display for Host`, which is what `host_str` and `to_string` of a URL show. -/
def Host.text : Host → Str
  | .domain d => d
  | .ipv4 n => ipv4Text n
  | .ipv6 l => '[' :: ipv6Text l ++ str% "]"

/-- The reading of hosts for the parser of URLs. (The test of `hostOk` always succeeds: `hosts_text`.) -/
def hosts (idna : Str → Option { t : Str // ∀ c ∈ t, c.toNat < 128 }) (s : Str) : Option { h : Str // UrlParts.hostOk h = true } :=
  match parse idna s with
  | none => none
  | some h => if ok : UrlParts.hostOk h.text = true then some ⟨h.text, ok⟩ else none

end UrlHost
end Httpsig
