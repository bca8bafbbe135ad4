import Verif.Basic
import Verif.Base64
import Verif.Spec.Text
/-
What key files are: PEM (RFC 7468) and the DER of a `SubjectPublicKeyInfo` (RFC 5280), written as relations.
-/
namespace Httpsig

/-- A PEM file with a label and contents: text without dashes, the first line, base64 in lines ended by LF or CRLF, the last
line, anything. -/
def PemFile (label : Str) (contents file : Bytes) : Prop :=
  ∃ (pre post : Bytes) (eol : Str) (lines : List Str), 45 ∉ pre ∧ (eol = ['\n'] ∨ eol = ['\r', '\n']) ∧ label ≠ [] ∧ '-' ∉ label ∧
    lines.flatten = Base64.encode contents ∧
    file = pre ++ utf8 (str% "-----BEGIN " ++ label ++ str% "-----" ++ eol ++ lines.flatMap (· ++ eol) ++ str% "-----END " ++
      label ++ str% "-----") ++ post

/-- The lines between the first and the last line of a PEM file: after blanks, a text whose lines, without the white space at their
ends, make up the base64 of the contents, of which only padding may be missing. -/
def PemData (contents data : Bytes) : Prop :=
  ∃ (w : Bytes) (text : Str) (lines : List (Str × Str)) (pad : Nat), data = w ++ utf8 text ∧ (∀ x ∈ w, x ∈ [32, 9, 10, 13]) ∧
    text ++ ['\n'] = lines.flatMap (fun l => l.1 ++ l.2 ++ ['\n']) ∧ (∀ l ∈ lines, ∀ c ∈ l.2, whiteSpace c = true) ∧
    (lines.map Prod.fst).flatten ++ List.replicate pad '=' = Base64.encode contents

/-- A file with a PEM document that has the contents: the first and the last line with the same label, and the lines between. -/
def PemDocument (contents file : Bytes) : Prop :=
  ∃ (pre data post : Bytes) (label : Str), label ≠ [] ∧ PemData contents data ∧
    file = pre ++ utf8 (str% "-----BEGIN " ++ label ++ str% "-----") ++ data ++ utf8 (str% "-----END " ++ label ++ str% "-----") ++ post

/-- The value of big-endian digits. -/
def bigEndian : Bytes → Nat
  | [] => 0
  | b :: bs => b.toNat * 256 ^ bs.length + bigEndian bs

/-- The DER encoding of a length: one byte below 128, else the number of digits and the digits without leading zeros. Lengths of
2^28 and more are not supported. -/
def DerLength (n : Nat) (l : Bytes) : Prop :=
  (n < 128 ∧ l = [UInt8.ofNat n]) ∨
  (128 ≤ n ∧ n < 2 ^ 28 ∧ ∃ d ds, d ≠ 0 ∧ ds.length < 4 ∧ bigEndian (d :: ds) = n ∧ l = UInt8.ofNat (129 + ds.length) :: d :: ds)

/-- A DER value. -/
def DerValue (tag : UInt8) (contents der : Bytes) : Prop := ∃ l, DerLength contents.length l ∧ der = tag :: (l ++ contents)

/-- A `SubjectPublicKeyInfo`: algorithm, its parameters (nothing, or one value), and the key bits. -/
def Spki (oid params : Bytes) (unused : UInt8) (key der : Bytes) : Prop :=
  ∃ o alg a bits, DerValue 0x06 oid o ∧ alg = o ++ params ∧ DerValue 0x30 alg a ∧ DerValue 0x03 (unused :: key) bits ∧
    DerValue 0x30 (a ++ bits) der

/-- rsaEncryption, 1.2.840.113549.1.1.1 -/
def oidRsa : Bytes := [0x2a, 0x86, 0x48, 0x86, 0xf7, 0x0d, 0x01, 0x01, 0x01]
/-- id-ecPublicKey, 1.2.840.10045.2.1 -/
def oidEc : Bytes := [0x2a, 0x86, 0x48, 0xce, 0x3d, 0x02, 0x01]

end Httpsig
