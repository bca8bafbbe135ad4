import Verif.Spec.EndToEnd
/-
What a server can insist on.
-/
namespace Httpsig
variable [Deps]


/-- The component is a header. -/
def SignatureComponent.isHeader : SignatureComponent → Bool
  | .header _ => true
  | .derived _ => false

/-- The client that signs the same headers, and no part of the request line. -/
def SigningConfig.headersOnly (config : SigningConfig) : SigningConfig :=
  { config with components := config.components.filter SignatureComponent.isHeader }

end Httpsig
