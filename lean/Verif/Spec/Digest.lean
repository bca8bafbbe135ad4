import Verif.Model.Algorithm
/-
The two digest algorithms of the documentation, written out: name, and base64 of the hash of the body.
-/
namespace Httpsig
variable [Deps]

/-- SHA-256, the documented default. -/
def documentedSha256 : HttpDigest := ⟨str% "SHA-256", fun b => Base64.encode (Deps.sha256 b)⟩

/-- SHA-512. -/
def documentedSha512 : HttpDigest := ⟨str% "SHA-512", fun b => Base64.encode (Deps.sha512 b)⟩

end Httpsig
