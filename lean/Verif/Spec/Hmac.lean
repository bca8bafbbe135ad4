import Verif.Model.Hmac
/-
Specification vocabulary for HMAC keys (C135).
-/
namespace Httpsig

/-- The two HMACs are those of RFC 2104 with the two hashes, whose values have 32 and 64 bytes. -/
structure RealHmac [Deps] : Prop where
  hmac256 : Deps.hmac256 = Hmac.tag Deps.sha256 64
  hmac512 : Deps.hmac512 = Hmac.tag Deps.sha512 128
  size256 : ∀ m, (Deps.sha256 m).length = 32
  size512 : ∀ m, (Deps.sha512 m).length = 64

/-- What a key stands for: itself, or its hash if it is longer than a block. -/
inductive StandsFor (hash : Bytes → Bytes) (block : Nat) : Bytes → Bytes → Prop where
  | short {k} : k.length ≤ block → StandsFor hash block k k
  | long {k} : block < k.length → StandsFor hash block k (hash k)

/-- Keys that are the same for HMAC: what they stand for differs only in zero bytes at the end. -/
def SameMacKey (hash : Bytes → Bytes) (block : Nat) (k1 k2 : Bytes) : Prop :=
  ∃ s1 s2 core z1 z2, StandsFor hash block k1 s1 ∧ StandsFor hash block k2 s2 ∧
    s1 = core ++ List.replicate z1 0 ∧ s2 = core ++ List.replicate z2 0

/-- A text as HMAC hashes it: a block that has the key under a mask, then the message. -/
def Masked (hash : Bytes → Bytes) (block : Nat) (mask : UInt8) (k m x : Bytes) : Prop :=
  ∃ s b, StandsFor hash block k s ∧ s.length + b.length = block ∧ (∀ y ∈ b, y = mask) ∧ x = s.map (· ^^^ mask) ++ b ++ m

/-- Two different texts with the same hash, among those that HMAC hashes for the two keys and messages: either the inner ones,
or the outer ones. -/
def MacCollision (hash : Bytes → Bytes) (block : Nat) (k1 m1 k2 m2 : Bytes) : Prop :=
  ∃ x y, x ≠ y ∧ hash x = hash y ∧
    (Masked hash block 0x36 k1 m1 x ∧ Masked hash block 0x36 k2 m2 y ∨
     ∃ i1 i2, Masked hash block 0x36 k1 m1 i1 ∧ Masked hash block 0x36 k2 m2 i2 ∧
       Masked hash block 0x5c k1 (hash i1) x ∧ Masked hash block 0x5c k2 (hash i2) y)

end Httpsig
