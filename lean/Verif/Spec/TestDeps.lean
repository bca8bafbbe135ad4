import Verif.Http
import Verif.Spec.Url
/-
A concrete instance of the dependency parameters, used only to show that the hypotheses of theorems are
satisfiable. The "hashes" are toy functions (reversal, concatenation); nothing is claimed about them.
-/
namespace Httpsig

/-- A witness for `Deps`. -/
@[reducible] def toyDeps : Deps where
  dquoteHeaderChar := true
  timestampInRange t := decide (-8334632851200 ≤ t ∧ t ≤ 8210298412799)
  sha256 b := b
  sha512 b := b.reverse
  hmac256 k m := k ++ m
  hmac512 k m := m ++ k
  parseUrl := plainParseUrl
  asymSign _ k _ m := k ++ m
  asymVerify _ k m t := decide (t = k ++ m)
  ringPkcs8 _ b := some b
  ringPkcs1 b := some b
  oidOk o := !o.isEmpty
  anyOk _ := true
  osslPkcs8 b := if b.head? = some 0x30 then some ⟨b.length % 2 == 0, b⟩ else none
  osslRsaDer b := some b
  osslRsaPem b := some b
  osslPubDer b := some b
  osslPubPem b := some b
  osslShort _ k := k.length < 4

end Httpsig
