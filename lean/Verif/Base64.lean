import Verif.Basic
/-
The `base64` 0.21 crate (dependency; not in /repo): standard alphabet, padding on encode.
* `strictDecode` models `general_purpose::STANDARD.decode` used at src/algorithm.rs:80,
  src/algorithm/ring.rs:103,204 and src/algorithm/openssl.rs:93: canonical padding required,
  non-zero trailing bits rejected.
* `lenientDecode` models the engine used by `sfv` for byte sequences: padding indifferent,
  trailing bits allowed.
-/
namespace Httpsig.Base64

/-- The standard alphabet: value (0..63) to symbol. -/
def sym (n : Nat) : Char :=
  if n < 26 then Char.ofNat (n + 65)
  else if n < 52 then Char.ofNat (n + 71)
  else if n < 62 then Char.ofNat (n - 4)
  else if n = 62 then '+' else '/'

/-- Symbol to value. -/
def val (c : Char) : Option Nat :=
  let n := c.toNat
  if 65 ≤ n ∧ n ≤ 90 then some (n - 65)
  else if 97 ≤ n ∧ n ≤ 122 then some (n - 71)
  else if 48 ≤ n ∧ n ≤ 57 then some (n + 4)
  else if n = 43 then some 62
  else if n = 47 then some 63
  else none

/-- `general_purpose::STANDARD.encode` (src/algorithm.rs:72,103,112; src/algorithm/ring.rs:95,195). -/
def encode : Bytes → Str
  | [] => []
  | [a] => [sym (a.toNat / 4), sym (a.toNat % 4 * 16), '=', '=']
  | [a, b] => [sym (a.toNat / 4), sym (a.toNat % 4 * 16 + b.toNat / 16), sym (b.toNat % 16 * 4), '=']
  | a :: b :: c :: rest =>
    sym (a.toNat / 4) :: sym (a.toNat % 4 * 16 + b.toNat / 16) ::
    sym (b.toNat % 16 * 4 + c.toNat / 64) :: sym (c.toNat % 64) :: encode rest

/-- Decode symbols; `strict` = canonical padding required and trailing bits must be zero. -/
def decode (strict : Bool) : Str → Option Bytes
  | [] => some []
  | [_] => none
  | [a, b] =>
    -- two symbols without padding
    if strict then none else do
      let x ← val a; let y ← val b
      some [UInt8.ofNat (x * 4 + y / 16)]
  | [a, b, c] =>
    if strict then none
    else if c = '=' then do
      let x ← val a; let y ← val b
      some [UInt8.ofNat (x * 4 + y / 16)]
    else do
      let x ← val a; let y ← val b; let z ← val c
      some [UInt8.ofNat (x * 4 + y / 16), UInt8.ofNat (y % 16 * 16 + z / 4)]
  | a :: b :: c :: d :: rest =>
    if rest = [] ∧ d = '=' then
      if c = '=' then do
        let x ← val a; let y ← val b
        if strict && y % 16 != 0 then none
        else some [UInt8.ofNat (x * 4 + y / 16)]
      else do
        let x ← val a; let y ← val b; let z ← val c
        if strict && z % 4 != 0 then none
        else some [UInt8.ofNat (x * 4 + y / 16), UInt8.ofNat (y % 16 * 16 + z / 4)]
    else do
      let x ← val a; let y ← val b; let z ← val c; let w ← val d
      let tl ← decode strict rest
      some (UInt8.ofNat (x * 4 + y / 16) :: UInt8.ofNat (y % 16 * 16 + z / 4) ::
            UInt8.ofNat (z % 4 * 64 + w) :: tl)

/-- `general_purpose::STANDARD.decode`. -/
def strictDecode (s : Str) : Option Bytes := decode true s

/-- The engine of the `sfv` crate (padding indifferent, trailing bits allowed). -/
def lenientDecode (s : Str) : Option Bytes := decode false s

end Httpsig.Base64
