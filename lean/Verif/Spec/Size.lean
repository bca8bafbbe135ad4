import Verif.Model.Mock
import Verif.Model.Reqwest
/-
Sizes of requests.
-/
namespace Httpsig
variable [Deps]

/-- Bytes of all header names and values. -/
def headerSize (m : HeaderMap) : Nat := (m.map fun e => e.1.str.length + e.2.bytes.length).sum

/-- Bytes of the method, the URL and the headers of a request. -/
def MockRequest.size (r : MockRequest) : Nat := r.method.str.length + r.url.asStr.length + headerSize r.headers

/-- `label=("name" "name" … "name")`, with the name `n + 1` times. -/
def repeatedInput (label name : Str) (n : Nat) : Str :=
  label ++ str% "=(\"" ++ name ++ str% "\"" ++ (List.replicate n (str% " \"" ++ name ++ str% "\"")).flatten ++ str% ")"

end Httpsig
