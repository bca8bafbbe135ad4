import Verif.Lemmas.Calls2
import Verif.Spec.SignFail
import Verif.Props.Base
/-
Signing with a key whose operation may panic, against signing with a key that returns.
-/
set_option linter.unusedSectionVars false
namespace Httpsig
open Sfv

section
variable [Deps] {R : Type} [ClientRequestLike R] [LawfulClient R]

theorem signMay_cases (key : Nat → Bytes → P Str) (r : R) (config : SigningConfig) (env : SignEnv) :
    ((∀ b, .httpSign b ∉ (signCalled r config env).calls) ∧ signMay key r config env = signCalled r config env ∧
      ∀ s, signCalled r (config.giving s) env = signCalled r config env) ∨
    ∃ before vi base r1,
      .httpSign base ∈ (signCalled r config env).calls ∧ (∀ b, .httpSign b ∈ (signCalled r config env).calls → b = base) ∧
      (∀ b, .httpSign b ∉ before) ∧
      (∀ p, key env.rnd base = .error p →
        signMay key r config env = ⟨before ++ [.setHeader hSignatureInput vi, .httpSign base], .error p⟩) ∧
      signCalled r (config.giving (str% "\n")) env =
        ⟨before ++ [.setHeader hSignatureInput vi, .httpSign base], .ok (r1, .error .convertHeader)⟩ ∧
      (∀ s, key env.rnd base = .ok s → signMay key r config env = signCalled r (config.giving s) env) ∧
      signCalled r (config.giving (config.signature.sign env.rnd base)) env = signCalled r config env := by
  obtain ⟨l, e, hall, hok⟩ := addAutoCalled r config env
  have e' : ∀ s, addAutoHeadersCalled r (config.giving s) env = ⟨l, addAutoHeaders r config env⟩ := fun s => e
  have hno : ∀ b, Call.httpSign b ∉ l := fun b hb => (hall _ hb).elim
  have hb' : ∀ s comps ts, buildCanonicalizeConfig (config.giving s) comps ts = buildCanonicalizeConfig config comps ts :=
    fun _ _ _ => rfl
  unfold signMay signCalled
  simp only [e', e, hb']
  cases h1 : addAutoHeaders r config env with
  | error p => exact .inl ⟨hno, rfl, fun _ => rfl⟩
  | ok x =>
  obtain ⟨r1, comps⟩ := x
  simp only [Called.bind_mk_ok, unixTimestamp]
  by_cases hn : env.sysNow < 0
  · simp only [if_pos hn]
    exact .inl ⟨fun b => by simpa [Called.bind_lift_error] using hno b, rfl, fun _ => rfl⟩
  simp only [if_neg hn, Called.bind_lift_ok]
  cases h2 : buildCanonicalizeConfig config comps (env.sysNow / 1000000000) with
  | error er => exact .inl ⟨fun b => by simpa [Called.pure_eq] using hno b, rfl, fun _ => rfl⟩
  | ok cc =>
  simp only
  cases h3 : canonicalize r1 cc with
  | error p => exact .inl ⟨fun b => by simpa [Called.bind_lift_error] using hno b, rfl, fun _ => rfl⟩
  | ok o =>
  simp only [Called.bind_lift_ok]
  cases o with
  | error er => exact .inl ⟨fun b => by simpa [Called.pure_eq] using hno b, rfl, fun _ => rfl⟩
  | ok bi =>
  obtain ⟨base, input⟩ := bi
  simp only
  cases h4 : input.display with
  | error p => exact .inl ⟨fun b => by simpa [Called.bind_lift_error] using hno b, rfl, fun _ => rfl⟩
  | ok text =>
  simp only [Called.bind_lift_ok]
  cases h5 : HeaderValue.fromStr text with
  | none => exact .inl ⟨fun b => by simpa [Called.pure_eq] using hno b, rfl, fun _ => rfl⟩
  | some v =>
  have h7 : HeaderValue.fromStr (config.label ++ str% "=:" ++ str% "\n" ++ str% ":") = none := by
    exact fromStr_none_iff.2 ⟨'\n', by simp, .inl ⟨by decide, by decide⟩⟩
  refine .inr ⟨l, v, base, ClientRequestLike.setHeader r1 hSignatureInput v, ?_, ?_, hno, fun p hp => ?_, ?_, fun s hs => ?_, ?_⟩
  · cases h6 : HeaderValue.fromStr (config.label ++ str% "=:" ++ config.signature.sign env.rnd base ++ str% ":") <;>
      simp [setHeaderCalled, Called.bind_call, Called.bind_mk_ok, Called.pure_eq]
  · intro b
    have := hno b
    cases h6 : HeaderValue.fromStr (config.label ++ str% "=:" ++ config.signature.sign env.rnd base ++ str% ":") <;>
      simp [setHeaderCalled, Called.bind_call, Called.bind_mk_ok, Called.pure_eq, this]
  · rw [hp]; rfl
  · simp only [SigningConfig.giving, setHeaderCalled]
    rw [h7]; rfl
  · rw [hs]; rfl
  · rfl

theorem signedBase_det {r r' : R} {config : SigningConfig} {now : Int} {b b' : Bytes} (h : SignedBase r r' config now b)
    (h' : SignedBase r r' config now b') : b = b' := by
  obtain ⟨ids, lids, vals, h1, h2, h3, rfl⟩ := h
  obtain ⟨ids', lids', vals', h1', h2', h3', rfl⟩ := h'
  have e1 : ids = ids' := forall2_det (r := Ident) (fun _ _ _ a b => a.det b) h1 h1'
  have e2 : lids = lids' := forall2_det (r := ListIdent) (fun _ _ _ a b => a.det b) h2 h2'
  have e3 : vals = vals' := (List.map_inj_right fun _ _ => Option.some.inj).1 (h3.symm.trans h3')
  rw [e1, e2, e3]

/-- The key is used on exactly the text for which the call is recorded. -/
theorem usesKey_iff {r : R} {config : SigningConfig} {env : SignEnv} {base : Bytes} :
    UsesKey r config env base ↔ .httpSign base ∈ (signCalled r config env).calls := by
  obtain ⟨_, auto, own, h1, hauto, hpanic, h2⟩ := signCalled_spec r config env
  have hno : ∀ b, Call.httpSign b ∉ auto := fun b hb => (hauto _ hb).elim
  rw [h1, List.mem_append]
  constructor
  · rintro ⟨r', res, hs, hres, hb⟩
    obtain ⟨_, ho, _⟩ := h2 r' res hs
    refine .inr ?_
    rcases hres with rfl | rfl
    · obtain ⟨vi, vs, b, hb', _, rfl⟩ := ho
      rw [signedBase_det hb hb']; simp
    · obtain ⟨vi, b, hb', _, rfl⟩ := ho
      rw [signedBase_det hb hb']; simp
  · rintro (h | h)
    · exact absurd h (hno base)
    cases hs : sign r config env with
    | error p => rw [hpanic p hs] at h; cases h
    | ok x =>
    obtain ⟨r', res⟩ := x
    obtain ⟨_, ho, _⟩ := h2 r' res hs
    unfold SigningCalls at ho
    split at ho
    · obtain ⟨vi, vs, b, hb, _, rfl⟩ := ho
      simp only [List.mem_cons, reduceCtorEq, Call.httpSign.injEq, List.not_mem_nil, or_false, false_or] at h
      subst h
      exact ⟨r', _, hs, .inl rfl, hb⟩
    · obtain ⟨vi, b, hb, _, rfl⟩ := ho
      simp only [List.mem_cons, reduceCtorEq, Call.httpSign.injEq, List.not_mem_nil, or_false, false_or] at h
      subst h
      exact ⟨r', _, hs, .inr rfl, hb⟩
    · subst ho; cases h

end
end Httpsig
