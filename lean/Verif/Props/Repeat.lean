import Verif.Props.Sign
/-
C44: signing again.
-/
set_option linter.unusedSectionVars false
namespace Httpsig
open Sfv
variable [Deps]
variable {R : Type} [ClientRequestLike R] [LawfulClient R]

/-- C44. With an algorithm whose output does not depend on randomness, the outcome of `sign` is a function of the request,
the configuration and the two clock readings. -/
theorem C44_deterministic (r : R) (config : SigningConfig) (env env' : SignEnv)
    (hdet : ∀ a b m, config.signature.sign a m = config.signature.sign b m)
    (h1 : env'.sysNow = env.sysNow) (h2 : env'.utcNow = env.utcNow) : sign r config env' = sign r config env := by
  obtain ⟨s, u, rnd⟩ := env
  obtain ⟨s', u', rnd'⟩ := env'
  simp only at h1 h2
  subst h1 h2
  have : config.signature.sign rnd' = config.signature.sign rnd := funext (hdet rnd' rnd)
  unfold sign addAutoHeaders addDateHeader
  simp only [this]

theorem touches_headers [HeaderStore R] {w : HeaderName → Prop} {r r' : R} (t : Touches w r r') (n : HeaderName) (hn : ¬ w n) :
    (HeaderStore.headers r').getAll n = (HeaderStore.headers r).getAll n := by
  induction t with
  | refl => rfl
  | set h v hw _ ih =>
    rw [HeaderStore.headers_set, HeaderMap.getAll_insert_ne _ _ (fun e => hn (by subst e; exact hw)), ih]
  | digest d _ ih => rw [HeaderStore.headers_digest, ih]

theorem touches_host {w : HeaderName → Prop} {r r' : R} (t : Touches w r r') :
    ClientRequestLike.host r' = ClientRequestLike.host r ∧
    ∀ d, (ClientRequestLike.computeDigest r' d).2 = (ClientRequestLike.computeDigest r d).2 := by
  induction t with
  | refl => exact ⟨rfl, fun _ => rfl⟩
  | set h v hw _ ih => exact ⟨by rw [LawfulClient.host_set, ih.1], fun d => by rw [LawfulClient.digest_set, ih.2]⟩
  | digest d _ ih => exact ⟨by rw [LawfulClient.host_digest, ih.1], fun d => by rw [LawfulClient.digest_digest, ih.2]⟩

theorem valueOf_congr {r r' : R} {k : SignatureComponent} (h : RequestLike.derive r' k = RequestLike.derive r k) :
    valueOf r' k = valueOf r k := by
  unfold valueOf; rw [h]

theorem values_congr {r r' : R} : ∀ {comps : List SignatureComponent} {vals : List Str},
    (∀ k ∈ comps, RequestLike.derive r' k = RequestLike.derive r k) → Values r comps vals → Values r' comps vals
  | [], vals, _, h => by rw [Values.nil_iff] at *; exact h
  | c :: cs, vals, hd, h => by
    rw [Values.cons_iff] at *
    obtain ⟨v, vs, rfl, h1, h2⟩ := h
    exact ⟨v, vs, rfl, by rw [hd c (by simp)]; exact h1, values_congr (fun k hk => hd k (by simp [hk])) h2⟩

/-- Requests with the same headers and the same values of all components. -/
structure SameAs [HeaderStore R] (a b : R) : Prop where
  headers : ∀ n, (HeaderStore.headers a).getAll n = (HeaderStore.headers b).getAll n
  derive : ∀ k, RequestLike.derive a k = RequestLike.derive b k

theorem SameAs.trans [HeaderStore R] {a b c : R} (h : SameAs a b) (h' : SameAs b c) : SameAs a c :=
  ⟨fun n => (h.headers n).trans (h'.headers n), fun k => (h.derive k).trans (h'.derive k)⟩

/-- Setting a header to the only value it has changes nothing. -/
theorem sameAs_set [HeaderStore R] [HeaderReads R] {a : R} {h : HeaderName} {v : HeaderValue}
    (hs : (HeaderStore.headers a).getAll h = [v]) : SameAs (ClientRequestLike.setHeader a h v) a := by
  have hh : ∀ n, (HeaderStore.headers (ClientRequestLike.setHeader a h v)).getAll n = (HeaderStore.headers a).getAll n := by
    intro n
    rw [HeaderStore.headers_set]
    by_cases e : n = h
    · subst e; rw [HeaderMap.getAll_insert_self, hs]
    · rw [HeaderMap.getAll_insert_ne _ _ e]
  refine ⟨hh, fun k => ?_⟩
  by_cases e : k = .header h
  · subst e; exact HeaderReads.derive_congr _ _ _ (hh h)
  · exact LawfulClient.derive_set_ne _ _ _ _ e

theorem sameAs_digest [HeaderStore R] (a : R) (d : HttpDigest) : SameAs (ClientRequestLike.computeDigest a d).1 a :=
  ⟨fun n => by rw [HeaderStore.headers_digest], fun k => LawfulClient.derive_digest _ _ _⟩

/-- The result of automatic headers on a request that has the automatic headers it needs already. -/
theorem addAuto_again [HeaderStore R] [HeaderReads R] {r : R} {config : SigningConfig} {env : SignEnv}
    (hdate : ¬ AutoWrite r config hDate)
    (hhost : AutoWrite r config hHost → ∀ s, ClientRequestLike.host r = some s →
      ∃ v, HeaderValue.fromStr s = some v ∧ (HeaderStore.headers r).getAll hHost = [v])
    (hdig : AutoWrite r config hDigest → ∀ s, (ClientRequestLike.computeDigest r config.digest).2 = some s →
      ∃ v, HeaderValue.fromStr (config.digest.name ++ str% "=" ++ s) = some v ∧ (HeaderStore.headers r).getAll hDigest = [v])
    (hd : ∀ k ∈ config.components, ∃ v, RequestLike.derive r k = .ok v) :
    ∃ r1, SameAs r1 r ∧
      addAutoHeaders r config env = .ok (r1, if config.skipMissing then
        config.components.filter (fun k => (valueOf r k).isSome) else config.components) := by
  obtain ⟨⟨r1, comps⟩, h⟩ := addAuto_total (env := env) (r := r) (config := config)
    ⟨(fun hw s hs => by obtain ⟨v, hv, _⟩ := hhost hw s hs; exact fromStr_ok_iff.1 ⟨v, hv⟩),
      (fun hw s hs => by obtain ⟨v, hv, _⟩ := hdig hw s hs; exact fromStr_ok_iff.1 ⟨v, hv⟩)⟩ fun _ => hd
  have hc := addAuto_comps h
  obtain ⟨a, b, h1, h2, h3, _⟩ := addAutoHeaders_iff.1 h
  have ea : a = r := by
    rcases addDateHeader_iff.1 h1 with ⟨g1, g2, v, _, rfl⟩ | ⟨_, rfl⟩
    · exact absurd ⟨.inl ⟨rfl, g1⟩, g2⟩ hdate
    · rfl
  subst ea
  have eb : SameAs b a := by
    rcases addHostHeader_iff.1 h2 with ⟨host, v, g1, g2, g3, g4, rfl⟩ | ⟨_, rfl⟩
    · obtain ⟨v', hv', hs⟩ := hhost ⟨.inr (.inl ⟨rfl, g1⟩), g2⟩ host g3
      rw [g4] at hv'; cases hv'
      exact sameAs_set hs
    · exact ⟨fun _ => rfl, fun _ => rfl⟩
  have eo := addHost_other h2
  have er : SameAs r1 b := by
    rcases addDigestHeader_iff.1 h3 with ⟨s, v, g1, g2, g3, g4, rfl⟩ | ⟨g1, g2, g3, rfl⟩ | ⟨g1, rfl⟩
    · rw [eb.derive] at g2
      rw [eo] at g3
      obtain ⟨v', hv', hs⟩ := hdig ⟨.inr (.inr ⟨rfl, g1⟩), g2⟩ s g3
      rw [g4] at hv'; cases hv'
      refine (sameAs_set ?_).trans (sameAs_digest _ _)
      rw [HeaderStore.headers_digest, eb.headers, hs]
    · exact sameAs_digest _ _
    · exact ⟨fun _ => rfl, fun _ => rfl⟩
  have er := er.trans eb
  refine ⟨r1, er, ?_⟩
  rw [h, hc]
  have : ∀ k, valueOf r1 k = valueOf a k := fun k => valueOf_congr (er.derive k)
  simp only [this]

/-- Where automatic headers were needed, they have been stored. -/
theorem addAuto_stored [HeaderStore R] {r r1 : R} {config : SigningConfig} {env : SignEnv} {comps : List SignatureComponent}
    (h : addAutoHeaders r config env = .ok (r1, comps)) :
    (AutoWrite r config hHost → ∀ s, ClientRequestLike.host r = some s →
      ∃ v, HeaderValue.fromStr s = some v ∧ (HeaderStore.headers r1).getAll hHost = [v]) ∧
    (AutoWrite r config hDigest → ∀ s, (ClientRequestLike.computeDigest r config.digest).2 = some s →
      ∃ v, HeaderValue.fromStr (config.digest.name ++ str% "=" ++ s) = some v ∧ (HeaderStore.headers r1).getAll hDigest = [v]) := by
  obtain ⟨a, b, h1, h2, h3, _⟩ := addAutoHeaders_iff.1 h
  have fa := (addDate_facts h1).2.1
  have oa := addDate_other h1
  have fb := (addHost_facts h2).2.1
  have ob := addHost_other h2
  have keep : (HeaderStore.headers r1).getAll hHost = (HeaderStore.headers b).getAll hHost := by
    rcases addDigestHeader_iff.1 h3 with ⟨s, v, g1, g2, g3, g4, rfl⟩ | ⟨g1, g2, g3, rfl⟩ | ⟨g1, rfl⟩
    · rw [HeaderStore.headers_set, HeaderMap.getAll_insert_ne _ _ hDigest_ne_hHost.symm, HeaderStore.headers_digest]
    · rw [HeaderStore.headers_digest]
    · rfl
  refine ⟨fun ⟨hw, hn⟩ s hs => ?_, fun ⟨hw, hn⟩ s hs => ?_⟩
  · have hw : config.addHost = true := by
      rcases hw with ⟨e, _⟩ | ⟨_, hc⟩ | ⟨e, _⟩
      · exact absurd e hHost_ne_hDate
      · exact hc
      · exact absurd e hDigest_ne_hHost.symm
    rw [keep]
    have hn' : RequestLike.derive a (.header hHost) = .ok none := by
      rw [fa _ (by intro e; cases e), hn]
    rw [← oa.1] at hs
    rcases addHostHeader_iff.1 h2 with ⟨host, v, g1, g2, g3, g4, rfl⟩ | ⟨g, rfl⟩
    · rw [g3] at hs; cases hs
      exact ⟨v, g4, by rw [HeaderStore.headers_set, HeaderMap.getAll_insert_self]⟩
    · rcases g with g | ⟨s', g⟩ | g
      · rw [hw] at g; cases g
      · rw [hn'] at g; cases g
      · rw [hs] at g; cases g
  · have hw : config.computeDigest = true := by
      rcases hw with ⟨e, _⟩ | ⟨e, _⟩ | ⟨_, hc⟩
      · exact absurd e hDigest_ne_hDate
      · exact absurd e hDigest_ne_hHost
      · exact hc
    have hn' : RequestLike.derive b (.header hDigest) = .ok none := by
      rw [fb _ (by intro e; cases e), fa _ (by intro e; cases e), hn]
    rw [← oa.2, ← ob] at hs
    rcases addDigestHeader_iff.1 h3 with ⟨s', v, g1, g2, g3, g4, rfl⟩ | ⟨g1, g2, g3, rfl⟩ | ⟨g, rfl⟩
    · rw [g3] at hs; cases hs
      exact ⟨v, g4, by rw [HeaderStore.headers_set, HeaderMap.getAll_insert_self]⟩
    · rw [g3] at hs; cases hs
    · rcases g with g | ⟨s', g⟩
      · rw [hw] at g; cases g
      · rw [hn'] at g; cases g

/-- C44. Signing a signed request again with the same configuration, the same clock second and an algorithm that does not
depend on randomness succeeds, and every header of the request has the values it had after the first time — even if the
wall clock used for the `date` header has moved. The signature headers themselves must not be among the components. -/
theorem C44_repeatable [HeaderStore R] [HeaderReads R] (r r' : R) (config : SigningConfig) (env env' : SignEnv)
    (hdet : ∀ a b m, config.signature.sign a m = config.signature.sign b m)
    (hsys : env'.sysNow / 1000000000 = env.sysNow / 1000000000)
    (hcov : SignatureComponent.header hSignature ∉ config.components ∧ SignatureComponent.header hSignatureInput ∉ config.components)
    (h : sign r config env = .ok (r', .ok ())) :
    ∃ r'', sign r' config env' = .ok (r'', .ok ()) ∧
      (∀ n, (HeaderStore.headers r'').getAll n = (HeaderStore.headers r').getAll n) ∧
      ∀ k, RequestLike.derive r'' k = RequestLike.derive r' k := by
  have hfix := C52_automatic_headers r r' config env (.ok ()) h
  have hframe := C24_components_frame r r' config env (.ok ()) h
  have htouch := sign_touches h
  obtain ⟨r1, comps, ha, hn, hrest⟩ := sign_iff.1 h
  have hderr1 : ∀ k ∈ config.components, ∃ v, RequestLike.derive r1 k = .ok v := by
    obtain ⟨a, b, _, _, _, hc⟩ := addAutoHeaders_iff.1 ha
    split at hc
    · exact hc.1
    · subst hc
      rcases hrest with ⟨e, _, _, h⟩ | ⟨cc, hb, ⟨e, _, _, h⟩ | ⟨base, si, x, hcan, _⟩⟩
      · cases h
      · cases h
      · obtain ⟨_, rfl⟩ := buildCanonicalizeConfig_ok_iff.1 hb
        obtain ⟨vals, _, _, _, hv, _⟩ := canonicalize_ok_iff.1 hcan
        intro k hk
        have h2 := values_of_map hv
        have : valueOf r1 k ∈ vals.map some := by rw [← h2]; exact List.mem_map.2 ⟨k, hk, rfl⟩
        obtain ⟨v, _, hv⟩ := List.mem_map.1 this
        obtain ⟨v, hv⟩ := valueOf_isSome (r := r1) (k := k) (by rw [← hv]; rfl)
        exact ⟨_, hv⟩
  rcases hrest with ⟨e, _, _, h⟩ | ⟨cc, hb, ⟨e, _, _, h⟩ | ⟨base, si, x, hcan, hx, ⟨_, _, h⟩ | ⟨v, hv, ⟨_, _, h⟩ | ⟨w, hw, hr', _⟩⟩⟩⟩
  · cases h
  · cases h
  · cases h
  · cases h
  -- components keep their values
  have hsame : ∀ k ∈ config.components, RequestLike.derive r' k = RequestLike.derive r1 k := by
    intro k hk
    rw [hr', LawfulClient.derive_set_ne, LawfulClient.derive_set_ne]
    · rintro rfl; exact hcov.2 hk
    · rintro rfl; exact hcov.1 hk
  obtain ⟨eh, ed⟩ := touches_host htouch
  have hback : ∀ n, n = hDate ∨ n = hHost ∨ n = hDigest → RequestLike.derive r' (.header n) = .ok none →
      RequestLike.derive r (.header n) = .ok none := by
    intro n hn hnone
    obtain ⟨o, ho⟩ := LawfulClient.derive_header r n
    cases o with
    | none => exact ho
    | some s => rw [hframe.2 n s hn ho] at hnone; cases hnone
  obtain ⟨st1, st2⟩ := addAuto_stored ha
  have hkeep : ∀ n, n ≠ hSignature → n ≠ hSignatureInput →
      (HeaderStore.headers r').getAll n = (HeaderStore.headers r1).getAll n := by
    intro n e1 e2
    rw [hr', HeaderStore.headers_set, HeaderMap.getAll_insert_ne _ _ e1, HeaderStore.headers_set, HeaderMap.getAll_insert_ne _ _ e2]
  obtain ⟨r2, er2, h2⟩ := addAuto_again (r := r') (config := config) (env := env')
    (by
      rintro ⟨hw, hnone⟩
      have h0 := hback hDate (.inl rfl) hnone
      rcases hw with ⟨_, hc⟩ | ⟨e, _⟩ | ⟨e, _⟩
      · rw [hfix.1 hc h0] at hnone; cases hnone
      · exact hHost_ne_hDate e.symm
      · exact hDigest_ne_hDate e.symm)
    (by
      rintro ⟨hw, hnone⟩ s hs
      rw [eh] at hs
      rw [hkeep _ hSignature_ne_hHost.symm hInput_ne_hHost.symm]
      exact st1 ⟨hw, hback hHost (.inr (.inl rfl)) hnone⟩ s hs)
    (by
      rintro ⟨hw, hnone⟩ s hs
      rw [ed] at hs
      rw [hkeep _ hSignature_ne_hDigest.symm hInput_ne_hDigest.symm]
      exact st2 ⟨hw, hback hDigest (.inr (.inr rfl)) hnone⟩ s hs)
    (fun k hk => by rw [hsame k hk]; exact hderr1 k hk)
  have ecomps : comps = if config.skipMissing then config.components.filter (fun k => (valueOf r' k).isSome) else config.components := by
    rw [addAuto_comps ha]
    split
    · refine List.filter_congr fun k hk => ?_
      rw [valueOf_congr (hsame k hk)]
    · rfl
  rw [← ecomps] at h2
  have hsub : ∀ k ∈ comps, k ∈ config.components := by
    intro k hk
    rw [ecomps] at hk
    split at hk
    · exact (List.mem_filter.1 hk).1
    · exact hk
  have d2 := er2.derive
  have hcan2 : canonicalize r2 cc = .ok (.ok (base, si)) := by
    obtain ⟨_, rfl⟩ := buildCanonicalizeConfig_ok_iff.1 hb
    obtain ⟨vals, ids, lids, ps, g1, g2⟩ := canonicalize_ok_iff.1 hcan
    exact canonicalize_ok_iff.2 ⟨vals, ids, lids, ps,
      values_congr (fun k hk => (d2 k).trans (hsame k (hsub k hk))) g1, g2⟩
  have hn' : 0 ≤ env'.sysNow := by omega
  have g2 := er2.headers
  have gi : (HeaderStore.headers r').getAll hSignatureInput = [v] := by
    rw [hr', HeaderStore.headers_set, HeaderMap.getAll_insert_ne _ _ hSignature_ne_hInput.symm, HeaderStore.headers_set,
      HeaderMap.getAll_insert_self]
  have gs : (HeaderStore.headers r').getAll hSignature = [w] := by
    rw [hr', HeaderStore.headers_set, HeaderMap.getAll_insert_self]
  have e1 : SameAs (ClientRequestLike.setHeader r2 hSignatureInput v) r2 := sameAs_set (by rw [g2, gi])
  have e2 : SameAs (ClientRequestLike.setHeader (ClientRequestLike.setHeader r2 hSignatureInput v) hSignature w) r' :=
    (sameAs_set (by rw [e1.headers, g2, gs])).trans (e1.trans er2)
  exact ⟨_, sign_iff.2 ⟨r2, comps, h2, hn', .inr ⟨cc, by rw [hsys]; exact hb, .inr ⟨base, si, x, hcan2, hx, .inr
    ⟨v, hv, .inr ⟨w, by rw [hdet env'.rnd env.rnd]; exact hw, rfl, rfl⟩⟩⟩⟩⟩, e2.headers, e2.derive⟩

/-- C44 for `reqwest` requests: the second signing changes nothing at all. -/
theorem C44_reqwest (r r' : ReqwestRequest) (config : SigningConfig) (env env' : SignEnv)
    (hdet : ∀ a b m, config.signature.sign a m = config.signature.sign b m)
    (hsys : env'.sysNow / 1000000000 = env.sysNow / 1000000000)
    (hcov : SignatureComponent.header hSignature ∉ config.components ∧ SignatureComponent.header hSignatureInput ∉ config.components)
    (h : sign r config env = .ok (r', .ok ())) :
    ∃ r'', sign r' config env' = .ok (r'', .ok ()) ∧ r''.method = r'.method ∧ r''.url = r'.url ∧ r''.body = r'.body ∧
      ∀ n, r''.headers.getAll n = r'.headers.getAll n := by
  obtain ⟨r'', h1, h2, _⟩ := C44_repeatable r r' config env env' hdet hsys hcov h
  obtain ⟨f1, f2, f3, _⟩ := C24_reqwest_frame r' r'' config env' _ h1
  exact ⟨r'', h1, f1, f2, f3, h2⟩

/-- Non-vacuity: the run of `exSigned_run` repeated with a later wall clock gives literally the same request. -/
example : sign exReqwestSigned exSigning { exSignEnv with utcNow := 3 } = .ok (exReqwestSigned, .ok ()) := by rfl
example : ∀ a b m, exSigning.signature.sign a m = exSigning.signature.sign b m := fun _ _ _ => rfl
/-- Also with a digest that cannot be read back, so that it is computed and stored again. -/
example : ∃ r1, sign exReqwest (exSigning.setDigest ⟨str% "x", fun _ => ['é']⟩) exSignEnv = .ok (r1, .ok ()) ∧
    RequestLike.derive r1 (.header hDigest) = .ok none ∧ (r1.headers.getAll hDigest).map HeaderValue.bytes = [utf8 (str% "x=é")] ∧
    sign r1 (exSigning.setDigest ⟨str% "x", fun _ => ['é']⟩) exSignEnv = .ok (r1, .ok ()) := ⟨_, rfl, rfl, rfl, rfl⟩
/-- When the signature headers are covered, a second signature differs from the first. -/
example : ∃ r1 r2, sign exReqwest (exSigning.setComponents [.header hSignatureInput]) exSignEnv = .ok (r1, .ok ()) ∧
    sign r1 (exSigning.setComponents [.header hSignatureInput]) exSignEnv = .ok (r2, .ok ()) ∧
    (reqwestHeader r1.headers hSignatureInput).map List.length = some 60 ∧
    (reqwestHeader r2.headers hSignatureInput).map List.length = some 77 := ⟨_, _, rfl, rfl, rfl, rfl⟩

end Httpsig
