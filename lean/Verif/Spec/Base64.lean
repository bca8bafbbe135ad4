import Verif.Basic
/-
RFC 4648 §4 as a relation between texts and bytes, without an algorithm.
-/
namespace Httpsig

/-- The base 64 alphabet in the order of its values. -/
def base64Alphabet : Str :=
  str% "ABCDEFGHIJKLMNOPQRSTUVWXYZabcdefghijklmnopqrstuvwxyz0123456789+/"

/-- The `w` low bits of `n`, most significant first. -/
def bits : Nat → Nat → List Nat
  | 0, _ => []
  | w + 1, n => n / 2 ^ w % 2 :: bits w n

/-- `text` is the base 64 encoding of `b`: symbols of the alphabet whose six-bit values, put end to end, are the bits of
`b` followed by two zero bits for every padding character, and a length divisible by four. -/
def IsBase64 (text : Str) (b : Bytes) : Prop :=
  ∃ syms pad, text = syms ++ List.replicate pad '=' ∧ pad ≤ 2 ∧ text.length % 4 = 0 ∧
    (∀ c ∈ syms, c ∈ base64Alphabet) ∧
    syms.flatMap (fun c => bits 6 (base64Alphabet.idxOf c)) = b.flatMap (fun x => bits 8 x.toNat) ++ List.replicate (2 * pad) 0

end Httpsig
