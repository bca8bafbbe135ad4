import Verif.Spec.UrlParse
import Verif.UrlHost
/-
Specification of hosts, after the URL standard (url.spec.whatwg.org, "Hosts"): which texts mean which domains and addresses, and how
addresses are written. International domain names are a parameter.
-/
namespace Httpsig
namespace UrlHost

/-- Digits, up to `f`. -/
inductive DigitIs : Char → Nat → Prop
  | digit (i : Nat) : i < 10 → DigitIs (Char.ofNat (48 + i)) i
  | upper (i : Nat) : i < 6 → DigitIs (Char.ofNat (65 + i)) (10 + i)
  | lower (i : Nat) : i < 6 → DigitIs (Char.ofNat (97 + i)) (10 + i)

/-- One or more digits in some base. -/
inductive Numeral (radix : Nat) : Str → Nat → Prop
  | one {c : Char} {d : Nat} : DigitIs c d → d < radix → Numeral radix [c] d
  | more {s : Str} {n : Nat} {c : Char} {d : Nat} : Numeral radix s n → DigitIs c d → d < radix →
      Numeral radix (s ++ [c]) (radix * n + d)

/-- The numbers of an IPv4 address: octal after `0`, hexadecimal after `0x`. -/
inductive Ipv4Part : Str → Nat → Prop
  | decimal {s : Str} {n : Nat} : Numeral 10 s n → (s.head? = some '0' → s.length = 1) → Ipv4Part s n
  | octal {s : Str} {n : Nat} : Numeral 8 s n → Ipv4Part ('0' :: s) n
  | hex {x : Char} {s : Str} {n : Nat} : x ∈ ['x', 'X'] → Numeral 16 s n → Ipv4Part ('0' :: x :: s) n
  | hexNothing {x : Char} : x ∈ ['x', 'X'] → Ipv4Part ['0', x] 0

/-- Parts separated by dots; a last dot does not count. -/
def DotParts (s : Str) (parts : List Str) : Prop :=
  parts ≠ [] ∧ (s = joinWith (str% ".") parts ∨ s = joinWith (str% ".") parts ++ str% ".")

/-- The text is an IPv4 address: up to four numbers. All but the last stand for one byte, the last for all other bytes. -/
def Ipv4Is (s : Str) (address : Nat) : Prop :=
  ∃ parts bytes last, DotParts s parts ∧ Forall2 Ipv4Part parts (bytes ++ [last]) ∧ bytes.length < 4 ∧ (∀ b ∈ bytes, b < 256) ∧
    last < 256 ^ (4 - bytes.length) ∧ address = bytes.foldl (fun n b => 256 * n + b) 0 * 256 ^ (4 - bytes.length) + last

/-- The last part of the text, but for a dot at the end, looks like a number. -/
def NumberLast (s : Str) : Prop :=
  ∃ pre last dot, s = pre ++ last ++ dot ∧ (pre = [] ∨ ∃ p, pre = p ++ str% ".") ∧ (dot = [] ∨ dot = str% ".") ∧
    ((last ≠ [] ∧ ∀ c ∈ last, ∃ d, DigitIs c d ∧ d < 10) ∨
      ∃ x s, last = '0' :: x :: s ∧ x ∈ ['x', 'X'] ∧ ∀ c ∈ s, ∃ d, DigitIs c d)

/-- A piece of an IPv6 address: up to four hexadecimal digits. -/
def Piece (s : Str) (n : Nat) : Prop := Numeral 16 s n ∧ s.length ≤ 4

/-- A decimal number up to 255 without leading zeros. -/
def ByteText (s : Str) (n : Nat) : Prop := Numeral 10 s n ∧ n < 256 ∧ (s.head? = some '0' → s.length = 1)

/-- Pieces of an IPv6 address. The last two can be written as an IPv4 address. -/
inductive PiecesAre : Str → List Nat → Prop
  | one {s : Str} {n : Nat} : Piece s n → PiecesAre s [n]
  | dotted {s t u v : Str} {a b c d : Nat} : ByteText s a → ByteText t b → ByteText u c → ByteText v d →
      PiecesAre (s ++ '.' :: t ++ '.' :: u ++ '.' :: v) [256 * a + b, 256 * c + d]
  | more {s t : Str} {n : Nat} {l : List Nat} : Piece s n → PiecesAre t l → PiecesAre (s ++ ':' :: t) (n :: l)

/-- The text is an IPv6 address: eight pieces, or fewer, with `::` for one or more zeros. -/
def Ipv6Is (s : Str) (l : List Nat) : Prop :=
  (PiecesAre s l ∧ l.length = 8) ∨
  ∃ a x b y, s = a ++ str% "::" ++ b ∧ '.' ∉ a ∧ (PiecesAre a x ∨ a = [] ∧ x = []) ∧ (PiecesAre b y ∨ b = [] ∧ y = []) ∧
    x.length + y.length ≤ 7 ∧ l = x ++ List.replicate (8 - (x.length + y.length)) 0 ++ y

/-- Lower-case hexadecimal digits without leading zeros. -/
def Hex (n : Nat) (s : Str) : Prop :=
  Numeral 16 s n ∧ (s.head? = some '0' → s.length = 1) ∧ ∀ c ∈ s, c.isUpper = false

/-- Pieces with colons between them. -/
def Joined (l : List Nat) (s : Str) : Prop := ∃ ts, Forall2 Hex l ts ∧ s = joinWith (str% ":") ts

/-- How an IPv6 address is written: `::` stands for the first longest sequence of zeros, if there are two or more. -/
def Ipv6Written (l : List Nat) (s : Str) : Prop :=
  (Joined l s ∧ ∀ x y, l ≠ x ++ 0 :: 0 :: y) ∨
  ∃ x n y a b, l = x ++ List.replicate n 0 ++ y ∧ 2 ≤ n ∧
    (∀ x' m y', l = x' ++ List.replicate m 0 ++ y' → m < n ∨ m = n ∧ x.length ≤ x'.length) ∧
    Joined x a ∧ Joined y b ∧ s = a ++ str% "::" ++ b

/-- How an IPv4 address is written. -/
def Ipv4Written (address : Nat) (s : Str) : Prop :=
  ∃ a b c d ta tb tc td, ByteText ta a ∧ ByteText tb b ∧ ByteText tc c ∧ ByteText td d ∧
    address = 256 * (256 * (256 * a + b) + c) + d ∧ s = ta ++ '.' :: tb ++ '.' :: tc ++ '.' :: td

/-- `%XX` stands for a byte; all else for itself. -/
inductive PctBytes : Bytes → Bytes → Prop
  | nil : PctBytes [] []
  | pct {h l : UInt8} {x y : Nat} {b c : Bytes} : HexDigit h x → HexDigit l y → PctBytes b c →
      PctBytes (37 :: h :: l :: b) (UInt8.ofNat (16 * x + y) :: c)
  | bare {b c : Bytes} : ¬ StartsHex b → PctBytes b c → PctBytes (37 :: b) (37 :: c)
  | literal {a : UInt8} {b c : Bytes} : a ≠ 37 → PctBytes b c → PctBytes (a :: b) (a :: c)

/-- The domain that a text means: without percent-encoding. -/
def PctText (s t : Str) : Prop := ∃ b, PctBytes (utf8 s) b ∧ LossyText b t

/-- A domain that is not international, and not an encoding of an international one (`xn--…`). -/
def OwnAscii (s : Str) : Prop :=
  (∀ c ∈ s, c.toNat < 128) ∧
  ∀ pre x t, s = pre ++ x ++ t → (pre = [] ∨ ∃ p, pre = p ++ str% ".") → lowered x ≠ str% "xn--"

/-- Characters that are not allowed in a domain. -/
def forbiddenChars : Str := str% " #%/:<>?@[\\]^|"

/-- The text of the domain in lower case, and in ASCII. -/
def AsciiIs (idna : Str → Option { t : Str // ∀ c ∈ t, c.toNat < 128 }) (s t : Str) : Prop :=
  (OwnAscii s ∧ t = lowered s) ∨ (¬ OwnAscii s ∧ (idna s).map Subtype.val = some t)

/-- A domain, or an IPv4 address: the text means the domain `d`. -/
def DomainIs (idna : Str → Option { t : Str // ∀ c ∈ t, c.toNat < 128 }) (s d : Str) : Prop :=
  s.head? ≠ some '[' ∧ (∃ t, PctText s t ∧ AsciiIs idna t d) ∧ d ≠ [] ∧ ∀ c ∈ d, 32 < c.toNat ∧ c.toNat ≠ 127 ∧ c ∉ forbiddenChars

/-- The text means the host that is written `h`. -/
inductive HostIs (idna : Str → Option { t : Str // ∀ c ∈ t, c.toNat < 128 }) : Str → Str → Prop
  | domain {s d : Str} : DomainIs idna s d → ¬ NumberLast d → HostIs idna s d
  | ipv4 {s d h : Str} {n : Nat} : DomainIs idna s d → NumberLast d → Ipv4Is d n → Ipv4Written n h → HostIs idna s h
  | ipv6 {s h : Str} {l : List Nat} : Ipv6Is s l → Ipv6Written l h → HostIs idna ('[' :: s ++ str% "]") ('[' :: h ++ str% "]")

/-- Both texts mean the same host, or none of them means any. -/
def HostAlias (idna : Str → Option { t : Str // ∀ c ∈ t, c.toNat < 128 }) (s s' : Str) : Prop := ∀ h, HostIs idna s h ↔ HostIs idna s' h

/-- Bytes written as `%XX`, in upper or lower case. -/
inductive Triplets : Str → Bytes → Prop
  | nil : Triplets [] []
  | cons {h l : Char} {x y : Nat} {e : Str} {b : Bytes} : DigitIs h x → DigitIs l y → Triplets e b →
      Triplets ('%' :: h :: l :: e) (UInt8.ofNat (16 * x + y) :: b)

end UrlHost
end Httpsig
