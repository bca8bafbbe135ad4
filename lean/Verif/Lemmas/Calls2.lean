import Verif.Lemmas.Calls
import Verif.Lemmas.EndToEnd
/- `signCalled` step by step. -/
set_option linter.unusedSectionVars false
namespace Httpsig
open Sfv
variable [Deps] {R : Type} [ClientRequestLike R] [LawfulClient R]

/-- A call that adds automatic headers. -/
def AutoCall (r : R) (config : SigningConfig) : Call → Prop
  | .host => AutoWrite r config hHost
  | .computeDigest alg => alg = config.digest ∧ AutoWrite r config hDigest
  | .setHeader h _ => AutoWrite r config h
  | _ => False

theorem autoWrite_date {r : R} {config : SigningConfig} :
    AutoWrite r config hDate ↔ config.addDate = true ∧ RequestLike.derive r (.header hDate) = .ok none := by
  unfold AutoWrite
  constructor
  · rintro ⟨⟨_, h⟩ | ⟨e, _⟩ | ⟨e, _⟩, hn⟩
    · exact ⟨h, hn⟩
    · exact absurd e.symm hHost_ne_hDate
    · exact absurd e.symm hDigest_ne_hDate
  · rintro ⟨h, hn⟩; exact ⟨.inl ⟨rfl, h⟩, hn⟩

theorem autoWrite_host {r : R} {config : SigningConfig} :
    AutoWrite r config hHost ↔ config.addHost = true ∧ RequestLike.derive r (.header hHost) = .ok none := by
  unfold AutoWrite
  constructor
  · rintro ⟨⟨e, _⟩ | ⟨_, h⟩ | ⟨e, _⟩, hn⟩
    · exact absurd e hHost_ne_hDate
    · exact ⟨h, hn⟩
    · exact absurd e.symm hDigest_ne_hHost
  · rintro ⟨h, hn⟩; exact ⟨.inr (.inl ⟨rfl, h⟩), hn⟩

theorem autoWrite_digest {r : R} {config : SigningConfig} :
    AutoWrite r config hDigest ↔ config.computeDigest = true ∧ RequestLike.derive r (.header hDigest) = .ok none := by
  unfold AutoWrite
  constructor
  · rintro ⟨⟨e, _⟩ | ⟨e, _⟩ | ⟨_, h⟩, hn⟩
    · exact absurd e hDigest_ne_hDate
    · exact absurd e hDigest_ne_hHost
    · exact ⟨h, hn⟩
  · rintro ⟨h, hn⟩; exact ⟨.inr (.inr ⟨rfl, h⟩), hn⟩

theorem addDateCalled (r : R) (config : SigningConfig) (env : SignEnv) :
    ∃ l, addDateHeaderCalled r config env = ⟨l, addDateHeader r config env⟩ ∧ (∀ c ∈ l, AutoCall r config c) ∧
      ∀ r1, addDateHeader r config env = .ok r1 → DateCalls r config env l ∧ l.foldl Call.change r = r1 := by
  obtain ⟨x, hx⟩ := LawfulClient.derive_header r hDate
  unfold addDateHeaderCalled addDateHeader DateCalls
  rw [autoWrite_date]
  cases hc' : config.addDate with
  | false => exact ⟨[], rfl, (fun _ h => nomatch h), fun r1 h => by cases h; exact ⟨.inr ⟨by simp, rfl⟩, rfl⟩⟩
  | true =>
  simp only [if_true]
  cases x with
  | some s =>
    rw [has_true hx]
    exact ⟨[], rfl, (fun _ h => nomatch h), fun r1 h => by cases h; exact ⟨.inr ⟨by simp [hx], rfl⟩, rfl⟩⟩
  | none =>
    rw [has_false hx, Called.bind_lift_ok, ebind_ok]
    simp only [Bool.not_false, if_true]
    cases hv : headerValueOrPanic .dateHeader (formatDate env.utcNow) with
    | error p => exact ⟨[], rfl, (fun _ h => nomatch h), fun r1 h => nomatch h⟩
    | ok v =>
      refine ⟨[.setHeader hDate v], rfl, ?_, fun r1 h => ?_⟩
      · intro c hc; rw [List.mem_singleton.1 hc]; exact autoWrite_date.2 ⟨hc', hx⟩
      · cases h
        exact ⟨.inl ⟨⟨trivial, hx⟩, v, headerValueOrPanic_ok.1 hv, rfl⟩, rfl⟩

theorem addHostCalled (r : R) (config : SigningConfig) :
    ∃ l, addHostHeaderCalled r config = ⟨l, addHostHeader r config⟩ ∧ (∀ c ∈ l, (c = .host ∨ ∃ v, c = .setHeader hHost v) ∧ config.addHost = true ∧ RequestLike.derive r (.header hHost) = .ok none) ∧
      ∀ r1, addHostHeader r config = .ok r1 → HostCalls r config l ∧ l.foldl Call.change r = r1 := by
  obtain ⟨x, hx⟩ := LawfulClient.derive_header r hHost
  unfold addHostHeaderCalled addHostHeader HostCalls
  rw [autoWrite_host]
  cases hc : config.addHost with
  | false => exact ⟨[], rfl, (fun _ h => nomatch h), fun r1 h => by cases h; exact ⟨.inr ⟨by simp, rfl⟩, rfl⟩⟩
  | true =>
  simp only [if_true]
  cases x with
  | some s =>
    rw [has_true hx]
    exact ⟨[], rfl, (fun _ h => nomatch h), fun r1 h => by cases h; exact ⟨.inr ⟨by simp [hx], rfl⟩, rfl⟩⟩
  | none =>
    rw [has_false hx, Called.bind_lift_ok, ebind_ok]
    simp only [Bool.not_false, if_true, Called.bind_call]
    cases hh : ClientRequestLike.host r with
    | none =>
      refine ⟨[.host], rfl, ?_, fun r1 h => ?_⟩
      · intro c hc; rw [List.mem_singleton.1 hc]; exact ⟨.inl rfl, trivial, hx⟩
      · cases h; exact ⟨.inl ⟨⟨trivial, hx⟩, .inl ⟨rfl, rfl⟩⟩, rfl⟩
    | some s =>
      simp only
      cases hv : headerValueOrPanic .hostHeader s with
      | error p =>
        refine ⟨[.host], rfl, ?_, fun r1 h => nomatch h⟩
        intro c hc; rw [List.mem_singleton.1 hc]; exact ⟨.inl rfl, trivial, hx⟩
      | ok v =>
        refine ⟨[.host, .setHeader hHost v], rfl, ?_, fun r1 h => ?_⟩
        · intro c hc
          simp only [List.mem_cons, List.not_mem_nil, or_false] at hc
          rcases hc with rfl | rfl
          · exact ⟨.inl rfl, trivial, hx⟩
          · exact ⟨.inr ⟨v, rfl⟩, trivial, hx⟩
        · cases h
          exact ⟨.inl ⟨⟨trivial, hx⟩, .inr ⟨s, v, rfl, headerValueOrPanic_ok.1 hv, rfl⟩⟩, rfl⟩

theorem addDigestCalled (r : R) (config : SigningConfig) :
    ∃ l, addDigestHeaderCalled r config = ⟨l, addDigestHeader r config⟩ ∧ (∀ c ∈ l, (c = .computeDigest config.digest ∨ ∃ v, c = .setHeader hDigest v) ∧ config.computeDigest = true ∧
      RequestLike.derive r (.header hDigest) = .ok none) ∧
      ∀ r1, addDigestHeader r config = .ok r1 → DigestCalls r config l ∧ l.foldl Call.change r = r1 := by
  obtain ⟨x, hx⟩ := LawfulClient.derive_header r hDigest
  unfold addDigestHeaderCalled addDigestHeader DigestCalls
  rw [autoWrite_digest]
  cases hc : config.computeDigest with
  | false => exact ⟨[], rfl, (fun _ h => nomatch h), fun r1 h => by cases h; exact ⟨.inr ⟨by simp, rfl⟩, rfl⟩⟩
  | true =>
  simp only [if_true]
  cases x with
  | some s =>
    rw [has_true hx]
    exact ⟨[], rfl, (fun _ h => nomatch h), fun r1 h => by cases h; exact ⟨.inr ⟨by simp [hx], rfl⟩, rfl⟩⟩
  | none =>
    rw [has_false hx, Called.bind_lift_ok, ebind_ok]
    simp only [Bool.not_false, if_true, Called.bind_call]
    cases hh : (ClientRequestLike.computeDigest r config.digest).2 with
    | none =>
      refine ⟨[.computeDigest config.digest], rfl, ?_, fun r1 h => ?_⟩
      · intro c hc; rw [List.mem_singleton.1 hc]; exact ⟨.inl rfl, trivial, hx⟩
      · cases h; exact ⟨.inl ⟨⟨trivial, hx⟩, .inl ⟨rfl, rfl⟩⟩, rfl⟩
    | some s =>
      simp only
      cases hv : headerValueOrPanic .digestHeader (config.digest.name ++ str% "=" ++ s) with
      | error p =>
        refine ⟨[.computeDigest config.digest], rfl, ?_, fun r1 h => nomatch h⟩
        intro c hc; rw [List.mem_singleton.1 hc]; exact ⟨.inl rfl, trivial, hx⟩
      | ok v =>
        refine ⟨[.computeDigest config.digest, .setHeader hDigest v], rfl, ?_, fun r1 h => ?_⟩
        · intro c hc
          simp only [List.mem_cons, List.not_mem_nil, or_false] at hc
          rcases hc with rfl | rfl
          · exact ⟨.inl rfl, trivial, hx⟩
          · exact ⟨.inr ⟨v, rfl⟩, trivial, hx⟩
        · cases h
          exact ⟨.inl ⟨⟨trivial, hx⟩, .inr ⟨s, v, rfl, headerValueOrPanic_ok.1 hv, rfl⟩⟩, rfl⟩

theorem addAutoCalled (r : R) (config : SigningConfig) (env : SignEnv) :
    ∃ l, addAutoHeadersCalled r config env = ⟨l, addAutoHeaders r config env⟩ ∧ (∀ c ∈ l, AutoCall r config c) ∧
      ∀ r1 comps, addAutoHeaders r config env = .ok (r1, comps) →
        (∃ d h g, DateCalls r config env d ∧ HostCalls r config h ∧ DigestCalls r config g ∧ l = d ++ h ++ g) ∧
        l.foldl Call.change r = r1 := by
  obtain ⟨d, ed, ad, hd⟩ := addDateCalled r config env
  unfold addAutoHeadersCalled addAutoHeaders
  rw [ed]
  cases h1 : addDateHeader r config env with
  | error p => exact ⟨d, rfl, ad, fun _ _ h => nomatch h⟩
  | ok a =>
  rw [Called.bind_mk_ok, ebind_ok]
  obtain ⟨h, eh, ah0, hh⟩ := addHostCalled a config
  rw [eh]
  have oa := addDate_other h1
  have ea := (addDate_facts h1).2.1
  have ah : ∀ c ∈ h, AutoCall r config c := by
    intro c hc
    obtain ⟨h', h1, h2⟩ := ah0 c hc
    rw [ea _ (header_ne hHost_ne_hDate)] at h2
    rcases h' with rfl | ⟨v, rfl⟩
    · exact autoWrite_host.2 ⟨h1, h2⟩
    · exact autoWrite_host.2 ⟨h1, h2⟩
  cases h2 : addHostHeader a config with
  | error p =>
    refine ⟨d ++ h, rfl, ?_, fun _ _ h => nomatch h⟩
    intro c hc
    rcases List.mem_append.1 hc with hc | hc
    · exact ad c hc
    · exact ah c hc
  | ok b =>
  rw [Called.bind_mk_ok, ebind_ok]
  obtain ⟨g, eg, ag0, hg⟩ := addDigestCalled b config
  rw [eg]
  have ob := addHost_other h2
  have eb := (addHost_facts h2).2.1
  have ag : ∀ c ∈ g, AutoCall r config c := by
    intro c hc
    obtain ⟨h', h1, h2⟩ := ag0 c hc
    rw [eb _ (header_ne hDigest_ne_hHost), ea _ (header_ne hDigest_ne_hDate)] at h2
    rcases h' with rfl | ⟨v, rfl⟩
    · exact ⟨rfl, autoWrite_digest.2 ⟨h1, h2⟩⟩
    · exact autoWrite_digest.2 ⟨h1, h2⟩
  have hall : ∀ c ∈ d ++ (h ++ g), AutoCall r config c := by
    intro c hc
    simp only [List.mem_append] at hc
    rcases hc with hc | hc | hc
    · exact ad c hc
    · exact ah c hc
    · exact ag c hc
  cases h3 : addDigestHeader b config with
  | error p => exact ⟨d ++ (h ++ g), rfl, hall, fun _ _ h => nomatch h⟩
  | ok r1 =>
  rw [Called.bind_mk_ok, ebind_ok]
  obtain ⟨sd, fd⟩ := hd a h1
  obtain ⟨sh, fh⟩ := hh b h2
  obtain ⟨sg, fg⟩ := hg r1 h3
  have sh' : HostCalls r config h := by
    unfold HostCalls at sh ⊢
    rwa [autoWrite_host, oa.1, ea _ (header_ne hHost_ne_hDate), ← autoWrite_host] at sh
  have sg' : DigestCalls r config g := by
    unfold DigestCalls at sg ⊢
    rwa [autoWrite_digest, ob, oa.2, eb _ (header_ne hDigest_ne_hHost), ea _ (header_ne hDigest_ne_hDate), ← autoWrite_digest] at sg
  have hfold : (d ++ (h ++ g)).foldl Call.change r = r1 := by rw [List.foldl_append, List.foldl_append, fd, fh, fg]
  have hspec : ∃ d' h' g', DateCalls r config env d' ∧ HostCalls r config h' ∧ DigestCalls r config g' ∧ d ++ (h ++ g) = d' ++ h' ++ g' :=
    ⟨d, h, g, sd, sh', sg', (List.append_assoc ..).symm⟩
  cases hs : config.skipMissing with
  | false =>
    refine ⟨d ++ (h ++ g), by simp [Called.pure_eq]; rfl, hall, fun r2 comps e => ?_⟩
    cases e
    exact ⟨hspec, hfold⟩
  | true =>
    simp only [if_true]
    cases hf : filterPresent r1 config.components with
    | error p => exact ⟨d ++ (h ++ g), by simp [Called.bind_lift_error]; rfl, hall, fun _ _ h => nomatch h⟩
    | ok present =>
      refine ⟨d ++ (h ++ g), by simp [Called.bind_lift_ok, Called.pure_eq]; rfl, hall, fun r2 comps e => ?_⟩
      cases e
      exact ⟨hspec, hfold⟩

/-- The base computed from the request with its automatic headers is the one of the specification, also once the two headers are set. -/
theorem signedBase_of {r r1 : R} {config : SigningConfig} {env : SignEnv} {comps : List SignatureComponent} {cc : CanonicalizeConfig}
    {base : Bytes} {input : SignatureInput} (h1 : addAutoHeaders r config env = .ok (r1, comps))
    (h2 : buildCanonicalizeConfig config comps (env.sysNow / 1000000000) = .ok cc)
    (h3 : canonicalize r1 cc = .ok (.ok (base, input))) (r' : R)
    (hr' : r' = r1 ∨ (∃ v, r' = ClientRequestLike.setHeader r1 hSignatureInput v) ∨
      ∃ v w, r' = ClientRequestLike.setHeader (ClientRequestLike.setHeader r1 hSignatureInput v) hSignature w) :
    SignedBase r r' config (env.sysNow / 1000000000) base := by
  have hsv := signedValue_eq (addAuto_facts h1).touches hr'
  obtain ⟨_, rfl⟩ := buildCanonicalizeConfig_ok_iff.1 h2
  obtain ⟨vals, ids, lids, ps, g1, g2, g3, g4, rfl, rfl⟩ := canonicalize_ok_iff.1 h3
  obtain ⟨_, rfl⟩ := paramsText_signed_iff.1 g4
  have hcomps : coveredComponents r r' config = comps := by
    rw [addAuto_comps h1]
    unfold coveredComponents
    simp only [hsv]
  refine ⟨ids, lids, vals, by rw [hcomps]; exact g2, by rw [hcomps]; exact g3, ?_, rfl⟩
  rw [hcomps, List.map_congr_left fun k _ => hsv k]
  exact values_of_map g1

/-- `signCalled`: automatic headers, then the signature. -/
theorem signCalled_spec (r : R) (config : SigningConfig) (env : SignEnv) :
    (signCalled r config env).result = sign r config env ∧
    ∃ auto own, (signCalled r config env).calls = auto ++ own ∧ (∀ c ∈ auto, AutoCall r config c) ∧
      (∀ p, sign r config env = .error p → own = []) ∧
      ∀ r' res, sign r config env = .ok (r', res) →
        (∃ d h g, DateCalls r config env d ∧ HostCalls r config h ∧ DigestCalls r config g ∧ auto = d ++ h ++ g) ∧
        SigningCalls r r' config env own res ∧ (auto ++ own).foldl Call.change r = r' := by
  obtain ⟨l, e, hall, hok⟩ := addAutoCalled r config env
  unfold signCalled sign
  rw [e]
  cases h1 : addAutoHeaders r config env with
  | error p => exact ⟨rfl, l, [], by simp [Called.bind_mk_error], hall, fun _ _ => rfl, fun _ _ h => nomatch h⟩
  | ok x =>
  obtain ⟨r1, comps⟩ := x
  obtain ⟨hspec, hfold⟩ := hok r1 comps h1
  rw [Called.bind_mk_ok, ebind_ok]
  simp only [unixTimestamp]
  by_cases hn : env.sysNow < 0
  · rw [if_pos hn]
    exact ⟨rfl, l, [], by simp [Called.bind_lift_error], hall, fun _ _ => rfl, fun _ _ h => nomatch h⟩
  rw [if_neg hn, Called.bind_lift_ok, ebind_ok]
  cases h2 : buildCanonicalizeConfig config comps (env.sysNow / 1000000000) with
  | error er =>
    refine ⟨rfl, l, [], by simp [Called.pure_eq], hall, fun _ _ => rfl, fun r' res h => ?_⟩
    cases h
    refine ⟨hspec, ?_, by simpa using hfold⟩
    have : er ≠ .convertHeader := by
      rintro rfl
      unfold buildCanonicalizeConfig at h2
      simp only [Bind.bind, Except.bind, pure, Except.pure] at h2
      repeat' split at h2 <;> try cases h2
      all_goals rename_i hx; revert hx; repeat' split
      all_goals intro hx; cases hx
    unfold SigningCalls
    split
    · rename_i h; cases h
    · rename_i h; cases h; exact absurd rfl this
    · rfl
  | ok cc =>
  simp only
  cases h3 : canonicalize r1 cc with
  | error p => exact ⟨rfl, l, [], by simp [Called.bind_lift_error], hall, fun _ _ => rfl, fun _ _ h => nomatch h⟩
  | ok o =>
  rw [Called.bind_lift_ok, ebind_ok]
  cases o with
  | error er =>
    refine ⟨rfl, l, [], by simp [Called.pure_eq], hall, fun _ _ => rfl, fun r' res h => ?_⟩
    cases h
    exact ⟨hspec, rfl, by simpa using hfold⟩
  | ok bi =>
  obtain ⟨base, input⟩ := bi
  simp only
  cases h4 : input.display with
  | error p => exact ⟨rfl, l, [], by simp [Called.bind_lift_error], hall, fun _ _ => rfl, fun _ _ h => nomatch h⟩
  | ok text =>
  rw [Called.bind_lift_ok, ebind_ok]
  cases h5 : HeaderValue.fromStr text with
  | none =>
    refine ⟨rfl, l, [], by simp [Called.pure_eq], hall, fun _ _ => rfl, fun r' res h => ?_⟩
    cases h
    exact ⟨hspec, rfl, by simpa using hfold⟩
  | some v =>
  have hbase := signedBase_of h1 h2 h3
  simp only [setHeaderCalled]
  cases h6 : HeaderValue.fromStr (config.label ++ str% "=:" ++ config.signature.sign env.rnd base ++ str% ":") with
  | none =>
    refine ⟨rfl, l, [.setHeader hSignatureInput v, .httpSign base], rfl, hall, (fun _ h => nomatch h), fun r' res h => ?_⟩
    cases h
    exact ⟨hspec, ⟨v, base, hbase _ (.inr (.inl ⟨v, rfl⟩)), h6, rfl⟩, by rw [List.foldl_append, hfold]; rfl⟩
  | some w =>
    refine ⟨rfl, l, [.setHeader hSignatureInput v, .httpSign base, .setHeader hSignature w], rfl, hall, (fun _ h => nomatch h),
      fun r' res h => ?_⟩
    cases h
    exact ⟨hspec, ⟨v, w, base, hbase _ (.inr (.inr ⟨v, w, rfl⟩)), h6, rfl⟩, by rw [List.foldl_append, hfold]; rfl⟩

end Httpsig
