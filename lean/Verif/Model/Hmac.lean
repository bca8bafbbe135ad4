import Verif.Model.Algorithm
/-
The `hmac` 0.12 crate (RFC 2104), which src/algorithm.rs:62-90 uses through `Hmac::new_from_slice`, `update`, `finalize` and
`verify_slice`. Only C135 depends on it; everywhere else the tag is a parameter.
-/
namespace Httpsig.Hmac

/-- `get_der_key`: the key, or the hash of a key longer than a block, filled up with zeros to a block. -/
def blockKey (hash : Bytes → Bytes) (block : Nat) (key : Bytes) : Bytes :=
  let k := if key.length ≤ block then key else (hash key).take block
  k ++ List.replicate (block - k.length) 0

/-- The tag of a message: the hash of `opad` and the hash of `ipad` and the message. -/
def tag (hash : Bytes → Bytes) (block : Nat) (key m : Bytes) : Bytes :=
  let k := blockKey hash block key
  hash (k.map (· ^^^ 0x5c) ++ hash (k.map (· ^^^ 0x36) ++ m))

end Httpsig.Hmac
