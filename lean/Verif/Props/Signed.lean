import Verif.Props.Sign
/-
C84: the consuming form of signing.
-/
namespace Httpsig

section
variable [Deps] {R : Type} [ClientRequestLike R] [LawfulClient R]

omit [LawfulClient R] in
/-- C84. `signed` succeeds exactly when `sign` does, and then gives the request as `sign` leaves it; it returns the errors of `sign`,
without a request; and it panics exactly when `sign` does. -/
theorem C84_signed_exact (r r' : R) (config : SigningConfig) (env : SignEnv) (e : Error) (p : Panic) :
    (signed r config env = .ok (.ok r') ↔ sign r config env = .ok (r', .ok ())) ∧
    (signed r config env = .ok (.error e) ↔ ∃ left, sign r config env = .ok (left, .error e)) ∧
    (signed r config env = .error p ↔ sign r config env = .error p) := by
  unfold signed
  cases h : sign r config env with
  | error q =>
    refine ⟨⟨nofun, nofun⟩, ⟨nofun, fun ⟨_, h⟩ => nomatch h⟩, ?_⟩
    exact ⟨fun h => by cases h; rfl, fun h => by cases h; rfl⟩
  | ok x =>
    obtain ⟨y, res⟩ := x
    cases res with
    | ok u => refine ⟨⟨fun h => ?_, fun h => ?_⟩, ⟨nofun, fun ⟨_, h⟩ => nomatch h⟩, ⟨nofun, nofun⟩⟩ <;> cases h <;> rfl
    | error e' =>
      refine ⟨⟨nofun, nofun⟩, ⟨fun h => ?_, fun ⟨_, h⟩ => ?_⟩, ⟨nofun, nofun⟩⟩
      · cases h; exact ⟨_, rfl⟩
      · cases h; rfl

/-- C84. So `signed` never gives a request that is signed in part: its result has one `Signature-Input`, which lists the covered
components and parameters, and one `Signature`, made from the base of these components. -/
theorem C84_result_is_signed [HeaderStore R] (r r' : R) (config : SigningConfig) (env : SignEnv)
    (h : signed r config env = .ok (.ok r')) :
    ∃ ids lids vals vi vs,
      Forall2 Ident (coveredComponents r r' config) ids ∧ Forall2 ListIdent (coveredComponents r r' config) lids ∧
      (coveredComponents r r' config).map (signedValue r r') = vals.map some ∧
      (HeaderStore.headers r').getAll hSignatureInput = [vi] ∧
      vi.bytes = utf8 (str% "sig=" ++ specListText lids ++ signedParamsText config (env.sysNow / 1000000000)) ∧
      (HeaderStore.headers r').getAll hSignature = [vs] ∧
      vs.bytes = utf8 (config.label ++ str% "=:" ++ config.signature.sign env.rnd
        (utf8 (specBase ids lids vals (signedParamsText config (env.sysNow / 1000000000)))) ++ str% ":") :=
  C29_emitted_headers r r' config env ((C84_signed_exact r r' config env .parseError .mockRequest).1.1 h)

end

section
attribute [local instance] toyDeps

/-- Signing that succeeds, and signing that fails after `Signature-Input` was set (`C25_convertHeader_leaves_input`). -/
example : (∃ r', signed exReqwest exSigning exSignEnv = .ok (.ok r')) ∧ signed exReqwest exBadLabel exSignEnv = .ok (.error .convertHeader) :=
  ⟨⟨_, rfl⟩, rfl⟩

end
end Httpsig
