import Verif.Model.Pss
import Verif.Spec.Rsa
/-
Specification vocabulary for RSA signatures with PSS (C137).
-/
namespace Httpsig

/-- The PSS primitive is that of RFC 8017 with SHA-512, whose values have 64 bytes. `priv` and `pub` tell what numbers a key has. `salt` tells what
salt is drawn, and every salt of 64 bytes can be drawn. -/
structure RealPss [Deps] (priv pub : Bytes → Option (Nat × Nat)) (salt : Nat → Bytes) : Prop where
  sign : ∀ k n d rnd m, priv k = some (n, d) → Deps.asymSign .rsaPssSha512 k rnd m = Pss.signature Deps.sha512 64 n d (salt rnd) m
  verify : ∀ k n e m t, pub k = some (n, e) → Deps.asymVerify .rsaPssSha512 k m t = Pss.accepts Deps.sha512 64 64 n e m t
  size512 : ∀ m, (Deps.sha512 m).length = 64
  salts : ∀ rnd, (salt rnd).length = 64
  every : ∀ s, s.length = 64 → ∃ rnd, salt rnd = s

/-- What PSS hashes for a message: eight zeros, the hash of the message, the salt (RFC 8017, 9.1.1). -/
def pssText (hash : Bytes → Bytes) (salt m : Bytes) : Bytes := [0, 0, 0, 0, 0, 0, 0, 0] ++ hash m ++ salt

/-- Two different texts with the same hash, for two messages and a salt: the messages, or what PSS hashes for them. -/
def PssCollision (hash : Bytes → Bytes) (salt m m' : Bytes) : Prop :=
  (m ≠ m' ∧ hash m = hash m') ∨
  (pssText hash salt m ≠ pssText hash salt m' ∧ hash (pssText hash salt m) = hash (pssText hash salt m'))

end Httpsig
