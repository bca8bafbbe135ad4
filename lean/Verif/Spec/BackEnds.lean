import Verif.Spec.Pss
/-
Specification vocabulary for signatures that go from one back end to the other (C142).
-/
namespace Httpsig

/-- One signature type belongs to the openssl back end, the other one to ring. -/
def OtherBackEnd (a b : AlgEntry) : Prop := a ∈ opensslTable ∧ b ∈ ringTable ∨ a ∈ ringTable ∧ b ∈ opensslTable

/-- A text with a hash that has the byte FF in all places but the first two. The text is the hash of what PSS hashes for a message, and four zeros. -/
def HashOfOnes (hash : Bytes → Bytes) (salt m : Bytes) : Prop :=
  (hash (hash (pssText hash salt m) ++ [0, 0, 0, 0])).drop 2 = List.replicate 62 0xff

end Httpsig
