import Verif.Model.Rsa
/-
Specification vocabulary for RSA keys (C136).
-/
namespace Httpsig

def IsPrime (p : Nat) : Prop := 2 ≤ p ∧ ∀ a b, p = a * b → a = 1 ∨ b = 1

/-- The numbers of an RSA key (RFC 8017, 3): `n` is the product of two primes, and the exponents are inverse for both. -/
def RsaTriple (n e d : Nat) : Prop :=
  ∃ p q, IsPrime p ∧ IsPrime q ∧ p ≠ q ∧ n = p * q ∧ e * d % (p - 1) = 1 % (p - 1) ∧ e * d % (q - 1) = 1 % (q - 1)

/-- The same with a modulus of at least 94 bytes, as is necessary for signatures with SHA-512 (RFC 8017, 9.2; ring asks for 256 bytes). -/
def RsaKey (n e d : Nat) : Prop := RsaTriple n e d ∧ 256 ^ 93 ≤ n

/-- The two PKCS#1 v1.5 primitives are those of RFC 8017 with the two hashes, whose values have 32 and 64 bytes. `priv` and `pub` tell what
numbers a key has, `none` for keys that the library refuses. -/
structure RealRsa [Deps] (priv pub : Bytes → Option (Nat × Nat)) : Prop where
  sign256 : ∀ k n d rnd m, priv k = some (n, d) → Deps.asymSign .rsaPkcs1Sha256 k rnd m = Rsa.signature Rsa.info256 Deps.sha256 n d m
  sign512 : ∀ k n d rnd m, priv k = some (n, d) → Deps.asymSign .rsaPkcs1Sha512 k rnd m = Rsa.signature Rsa.info512 Deps.sha512 n d m
  verify256 : ∀ k n e m t, pub k = some (n, e) → Deps.asymVerify .rsaPkcs1Sha256 k m t = Rsa.accepts Rsa.info256 Deps.sha256 n e m t
  verify512 : ∀ k n e m t, pub k = some (n, e) → Deps.asymVerify .rsaPkcs1Sha512 k m t = Rsa.accepts Rsa.info512 Deps.sha512 n e m t
  size256 : ∀ m, (Deps.sha256 m).length = 32
  size512 : ∀ m, (Deps.sha512 m).length = 64

/-- The primitive is PKCS#1 v1.5 with this hash. -/
inductive Pkcs1 [Deps] : Primitive → (Bytes → Bytes) → Prop where
  | sha256 : Pkcs1 .rsaPkcs1Sha256 Deps.sha256
  | sha512 : Pkcs1 .rsaPkcs1Sha512 Deps.sha512

end Httpsig
