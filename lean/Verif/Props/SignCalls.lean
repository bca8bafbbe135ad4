import Verif.Lemmas.Calls2
import Verif.Spec.Example
import Verif.Spec.TestDeps
/-
C132: the calls `sign` makes of what the user supplies.
-/
set_option linter.unusedSectionVars false
namespace Httpsig
open Sfv
section
variable [Deps] {R : Type} [ClientRequestLike R] [LawfulClient R]

/-- C132. Recording the calls does not change the outcome. -/
theorem C132_result (r : R) (config : SigningConfig) (env : SignEnv) :
    (signCalled r config env).result = sign r config env := (signCalled_spec r config env).1

/-- C132. All calls of a signing that returns, in their order. -/
theorem C132_calls (r r' : R) (config : SigningConfig) (env : SignEnv) (res : Except Error Unit)
    (h : sign r config env = .ok (r', res)) :
    ∃ date host digest own, (signCalled r config env).calls = date ++ host ++ digest ++ own ∧ DateCalls r config env date ∧
      HostCalls r config host ∧ DigestCalls r config digest ∧ SigningCalls r r' config env own res := by
  obtain ⟨_, auto, own, h1, _, _, h2⟩ := signCalled_spec r config env
  obtain ⟨⟨d, ho, g, hd, hh, hg, rfl⟩, hs, _⟩ := h2 r' res h
  exact ⟨d, ho, g, own, h1, hd, hh, hg, hs⟩

/-- C132. The request is changed by these calls and in no other way. -/
theorem C132_changes (r r' : R) (config : SigningConfig) (env : SignEnv) (res : Except Error Unit)
    (h : sign r config env = .ok (r', res)) : (signCalled r config env).calls.foldl Call.change r = r' := by
  obtain ⟨_, auto, own, h1, _, _, h2⟩ := signCalled_spec r config env
  rw [h1]
  exact (h2 r' res h).2.2

/-- C132. The key is used at most once, and not before a panic. If it was used, `Signature-Input` had been set just before. -/
theorem C132_key_once (r : R) (config : SigningConfig) (env : SignEnv) (base : Bytes)
    (h : .httpSign base ∈ (signCalled r config env).calls) :
    ∃ before vi after r' res, (signCalled r config env).calls = before ++ .setHeader hSignatureInput vi :: .httpSign base :: after ∧
      (∀ b, .httpSign b ∉ before ∧ .httpSign b ∉ after) ∧ sign r config env = .ok (r', res) ∧
      (res = .ok () ∨ res = .error .convertHeader) ∧ SignedBase r r' config (env.sysNow / 1000000000) base := by
  obtain ⟨_, auto, own, h1, hauto, hpanic, h2⟩ := signCalled_spec r config env
  have hno : ∀ b, Call.httpSign b ∉ auto := fun b hb => (hauto _ hb).elim
  rw [h1] at h ⊢
  rcases List.mem_append.1 h with h | h
  · exact absurd h (hno base)
  cases hs : sign r config env with
  | error p => rw [hpanic p hs] at h; cases h
  | ok x =>
  obtain ⟨r', res⟩ := x
  obtain ⟨_, ho, _⟩ := h2 r' res hs
  unfold SigningCalls at ho
  split at ho
  · obtain ⟨vi, vs, b, hb, _, rfl⟩ := ho
    simp only [List.mem_cons, reduceCtorEq, Call.httpSign.injEq, List.not_mem_nil, or_false, false_or] at h
    subst h
    exact ⟨auto, vi, [.setHeader hSignature vs], r', _, rfl, fun b => ⟨hno b, by simp⟩, rfl, .inl rfl, hb⟩
  · obtain ⟨vi, b, hb, _, rfl⟩ := ho
    simp only [List.mem_cons, reduceCtorEq, Call.httpSign.injEq, List.not_mem_nil, or_false, false_or] at h
    subst h
    exact ⟨auto, vi, [], r', _, rfl, fun b => ⟨hno b, by simp⟩, rfl, .inr rfl, hb⟩
  · subst ho; cases h

/-- C132. The body is asked for its digest only if that is to be added and no digest header can be read, only with the configured
algorithm, and the host only if that is to be added and no host header can be read; also before a panic. -/
theorem C132_asked (r : R) (config : SigningConfig) (env : SignEnv) :
    (∀ alg, .computeDigest alg ∈ (signCalled r config env).calls → alg = config.digest ∧ AutoWrite r config hDigest) ∧
    (.host ∈ (signCalled r config env).calls → AutoWrite r config hHost) := by
  obtain ⟨_, auto, own, h1, hauto, hpanic, h2⟩ := signCalled_spec r config env
  have hown : (∀ alg, Call.computeDigest alg ∉ own) ∧ Call.host ∉ own := by
    cases hs : sign r config env with
    | error p => rw [hpanic p hs]; simp
    | ok x =>
      obtain ⟨_, ho, _⟩ := h2 x.1 x.2 hs
      unfold SigningCalls at ho
      split at ho
      · obtain ⟨vi, vs, b, _, _, rfl⟩ := ho; simp
      · obtain ⟨vi, b, _, _, rfl⟩ := ho; simp
      · subst ho; simp
  rw [h1]
  refine ⟨fun alg h => ?_, fun h => ?_⟩
  · rcases List.mem_append.1 h with h | h
    · exact hauto _ h
    · exact absurd h (hown.1 alg)
  · rcases List.mem_append.1 h with h | h
    · exact hauto _ h
    · exact absurd h hown.2

end

/-! ### Examples -/
attribute [local instance] toyDeps

/-- C132: a request with a host header and a body. -/
example : (signCalled exReqwest exSigning exSignEnv).calls.map Call.shown =
    [str% "set date", str% "compute TOY", str% "set digest", str% "set signature-input", str% "sign", str% "set signature"] := rfl

/-- C132: the hypotheses of `C132_calls`, `C132_changes` and `C132_key_once`. -/
example : sign exReqwest exSigning exSignEnv = .ok (exReqwestSigned, .ok ()) ∧
    ∃ base, .httpSign base ∈ (signCalled exReqwest exSigning exSignEnv).calls :=
  ⟨rfl, _, .tail _ (.tail _ (.tail _ (.tail _ (.head _))))⟩

/-- C132: a host header that cannot be read counts as none. The documentation says that `host` "will only be called when the `Host`
header is not set". -/
example : (signCalled { exReqwest with headers := [(hHost, ⟨[0xe9], rfl⟩)] } exSigning exSignEnv).calls.map Call.shown =
    [str% "set date", str% "host", str% "set host", str% "compute TOY", str% "set digest", str% "set signature-input", str% "sign",
      str% "set signature"] := rfl

/-- C132: a label that cannot be written is found out after the key was used; a time that has passed before. -/
example : (signCalled exReqwest { exSigning with label := str% "a\nb" } exSignEnv).calls.map Call.shown =
      [str% "set date", str% "compute TOY", str% "set digest", str% "set signature-input", str% "sign"] ∧
    (signCalled exReqwest (exSigning.setExpiresAt 100) exSignEnv).calls.map Call.shown =
      [str% "set date", str% "compute TOY", str% "set digest"] := ⟨rfl, rfl⟩

end Httpsig
