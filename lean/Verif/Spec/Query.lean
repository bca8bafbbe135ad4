import Verif.Spec.Config
/-
Specification of query strings in the form encoding (`application/x-www-form-urlencoded`), as relations and as the
inverse direction (encoding), independent of the decoder's control flow.
-/
namespace Httpsig

/-- Value of an ASCII hexadecimal digit. -/
inductive HexDigit : UInt8 → Nat → Prop
  | digit (i : Nat) : i < 10 → HexDigit (UInt8.ofNat (48 + i)) i
  | upper (i : Nat) : i < 6 → HexDigit (UInt8.ofNat (65 + i)) (10 + i)
  | lower (i : Nat) : i < 6 → HexDigit (UInt8.ofNat (97 + i)) (10 + i)

/-- The input starts with two hexadecimal digits. -/
def StartsHex (b : Bytes) : Prop := ∃ h l rest x y, b = h :: l :: rest ∧ HexDigit h x ∧ HexDigit l y

/-- `FormBytes b c`: the form-encoded bytes `b` stand for the bytes `c`. `+` stands for a space, `%` followed by two
hexadecimal digits for that byte, anything else for itself. -/
inductive FormBytes : Bytes → Bytes → Prop
  | nil : FormBytes [] []
  | plus {b c : Bytes} : FormBytes b c → FormBytes (43 :: b) (32 :: c)
  | pct {h l : UInt8} {x y : Nat} {b c : Bytes} : HexDigit h x → HexDigit l y → FormBytes b c →
      FormBytes (37 :: h :: l :: b) (UInt8.ofNat (16 * x + y) :: c)
  | bare {b c : Bytes} : ¬ StartsHex b → FormBytes b c → FormBytes (37 :: b) (37 :: c)
  | literal {a : UInt8} {b c : Bytes} : a ≠ 43 → a ≠ 37 → FormBytes b c → FormBytes (a :: b) (a :: c)

/-- The bytes of some character begin with `p`. -/
def BeginsChar (p : Bytes) : Prop := ∃ c : Char, p <+: String.utf8EncodeChar c

/-- Decoding with replacement, as Unicode recommends it. Complete characters are decoded. Where there is none, the longest
piece that begins some character (or one byte, if there is no such piece) is replaced by U+FFFD. -/
inductive LossyText : Bytes → Str → Prop
  | nil : LossyText [] []
  | char (c : Char) {rest : Bytes} {s : Str} : LossyText rest s → LossyText (String.utf8EncodeChar c ++ rest) (c :: s)
  | replaced {p rest : Bytes} {s : Str} : (∀ c, ¬ String.utf8EncodeChar c <+: p ++ rest) →
      p ≠ [] → (BeginsChar p ∨ p.length = 1) → (∀ q, q <+: rest → q ≠ [] → ¬ BeginsChar (p ++ q)) →
      LossyText rest s → LossyText (p ++ rest) ('\uFFFD' :: s)

/-- The text a form-encoded piece stands for. Bytes that are not UTF-8 are replaced. -/
def FormText (b : Bytes) (s : Str) : Prop := ∃ c, FormBytes b c ∧ LossyText c s

/-- A `name=value` piece of a query; without `=`, the value is empty. -/
def FormPair (seg : Bytes) (p : Str × Str) : Prop :=
  (∃ n v, seg = n ++ 61 :: v ∧ 61 ∉ n ∧ FormText n p.1 ∧ FormText v p.2) ∨
  (61 ∉ seg ∧ FormText seg p.1 ∧ p.2 = [])

/-- Pieces separated by `&`. -/
def joinAmp : List Bytes → Bytes
  | [] => []
  | [s] => s
  | s :: t :: rest => s ++ 38 :: joinAmp (t :: rest)

/-- The query `q` consists of the name-value pairs `ps` (empty pieces do not count). -/
def QueryIs (q : Bytes) (ps : List (Str × Str)) : Prop :=
  ∃ segs, segs ≠ [] ∧ q = joinAmp segs ∧ (∀ s ∈ segs, 38 ∉ s) ∧ Forall2 FormPair (segs.filter fun s => !s.isEmpty) ps

/-- Upper-case hexadecimal digit of a number below 16. -/
def hexUpper (n : Nat) : Char := Char.ofNat (if n < 10 then 48 + n else 55 + n)

/-- Bytes the form encoding keeps: letters, digits and `*-._`. -/
def formKeeps (b : UInt8) : Bool :=
  let n := b.toNat
  (48 ≤ n && n ≤ 57) || (65 ≤ n && n ≤ 90) || (97 ≤ n && n ≤ 122) || n == 42 || n == 45 || n == 46 || n == 95

/-- Form encoding of a text. -/
def formEncode (s : Str) : Str :=
  (utf8 s).flatMap fun b =>
    if formKeeps b then [Char.ofNat b.toNat]
    else if b = 32 then ['+']
    else ['%', hexUpper (b.toNat / 16), hexUpper (b.toNat % 16)]

/-- Form encoding of name-value pairs. -/
def formEncodePairs : List (Str × Str) → Str
  | [] => []
  | [p] => formEncode p.1 ++ '=' :: formEncode p.2
  | p :: q :: rest => formEncode p.1 ++ '=' :: formEncode p.2 ++ '&' :: formEncodePairs (q :: rest)

/-- Texts separated by newlines. -/
def joinLines : List Str → Str
  | [] => []
  | [s] => s
  | s :: t :: rest => s ++ '\n' :: joinLines (t :: rest)

/-- The values of the pairs with the given name, in order. -/
inductive Selected (name : Str) : List (Str × Str) → List Str → Prop
  | nil : Selected name [] []
  | take {v : Str} {ps : List (Str × Str)} {vs : List Str} : Selected name ps vs → Selected name ((name, v) :: ps) (v :: vs)
  | skip {p : Str × Str} {ps : List (Str × Str)} {vs : List Str} : p.1 ≠ name → Selected name ps vs →
      Selected name (p :: ps) vs

end Httpsig
