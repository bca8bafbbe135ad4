import Verif.Lemmas.UrlRequest
import Verif.Props.Forgery
/-
C77 and C78: what covering the whole query or the whole URL of a request gives.
-/
set_option linter.unusedSectionVars false
namespace Httpsig
open Sfv
variable [Deps]

/-! ### Request types -/

/-- Derived components as computed from a host, a method and a URL. -/
theorem derive_ofUrl {host : Option Str} {m : Method} {u : Url} {d : DerivedComponent} {v : Str}
    (h : d.derive host m u = .ok (some v)) : ∃ n, d.Called n ∧ ((n, some v) ∈ derivedTable host m u ∨
      n = str% "@query-params" ∧ ∃ field ps vs, d.HasParam (str% "name") field ∧
        QueryIs (utf8 (u.query.getD [])) ps ∧ Selected field ps vs ∧ v = joinLines vs) := by
  cases hn : d.name with
  | error p =>
    unfold DerivedComponent.derive at h
    rw [hn] at h
    cases h
  | ok n =>
    refine ⟨n, called_iff.2 hn, ?_⟩
    by_cases ht : ∃ w, (n, w) ∈ derivedTable host m u
    · obtain ⟨w, hw⟩ := ht
      have := (derive_table hn host m u).1 w hw
      rw [h] at this
      cases this
      exact .inl hw
    · by_cases hq : n = str% "@query-params"
      · subst hq
        right
        refine ⟨rfl, ?_⟩
        rw [derive_of_name hn] at h
        have h2 : d.deriveNamed (str% "@query-params") host m u =
            match d.param (str% "name") with
            | none => none
            | some field => some (joinWith (str% "\n") ((u.queryPairs.filter fun p => field = p.1).map Prod.snd)) := rfl
        rw [h2] at h
        cases hp : d.param (str% "name") with
        | none => rw [hp] at h; cases h
        | some field =>
          rw [hp] at h
          refine ⟨field, u.queryPairs, _, hasParam_iff.2 hp, queryIs_iff.2 rfl, selected_iff.2 rfl, ?_⟩
          rw [← joinLines_eq]
          simpa using h.symm
      · have := (derive_table hn host m u).2 (fun w hw => ht ⟨w, hw⟩) hq
        rw [h] at this
        cases this

theorem reqwestHeader_one_line {m : HeaderMap} {n : HeaderName} {v : Str} (h : reqwestHeader m n = some v) : '\n' ∉ v := by
  simp only [reqwestHeader, Option.bind_eq_some_iff] at h
  obtain ⟨w, _, hw⟩ := h
  exact toStr_no_newline hw

theorem ofUrl_reqwest (r : ReqwestRequest) : OfUrl r r.url :=
  ⟨fun _ _ h => reqwestHeader_one_line (Except.ok.inj h), r.url.host, r.method, r.url.no_newline.2.2.1, fun _ _ h => derive_ofUrl h⟩

theorem ofUrl_blocking (r : BlockingRequest) : OfUrl r r.url :=
  ⟨fun _ _ h => reqwestHeader_one_line (Except.ok.inj h), r.url.host, r.method, r.url.no_newline.2.2.1, fun _ _ h => derive_ofUrl h⟩

theorem mock_header_one_line {r : MockRequest} {n : HeaderName} {v : Str} (h : r.derive (.header n) = .ok (some v)) : '\n' ∉ v :=
  mock_no_newline (k := .header n) (fun _ h => nomatch h) h

/-- The validator's requests, as client requests and as server requests. -/
theorem ofUrl_mock (r : MockRequest) : @OfUrl _ _ ClientRequestLike.toRequestLike r r.url ∧
    @OfUrl _ _ (ServerRequestLike.toRequestLike (Remnant := Unit)) r r.url :=
  ⟨⟨fun _ _ h => mock_header_one_line h, none, r.method, (fun _ h => nomatch h), fun _ _ h => derive_ofUrl h⟩,
   ⟨fun _ _ h => mock_header_one_line h, none, r.method, (fun _ h => nomatch h), fun _ _ h => derive_ofUrl h⟩⟩

/-- What was signed in a signing event is as on the request. -/
theorem SigningEvent.ofUrl {R : Type} [ClientRequestLike R] [LawfulClient R] (e : SigningEvent R) {u : Url}
    (h : OfUrl e.before u) (h' : OfUrl e.after u) : OfUrl (Table.mk e.value) u := by
  have val : ∀ {r : R} {k : SignatureComponent} {v : Str}, valueOf r k = some v → RequestLike.derive r k = .ok (some v) := by
    intro r k v h
    unfold valueOf at h
    split at h
    · rename_i heq; rw [heq, h]
    · cases h
  constructor
  · intro n v hv
    have hv : signedValue e.before e.after (.header n) = some v := Except.ok.inj hv
    unfold signedValue at hv
    split at hv
    · exact h.header n v (val hv)
    · exact h'.header n v (val hv)
  · obtain ⟨host, m, hh, hd⟩ := h'.derived
    refine ⟨host, m, hh, fun d v hv => ?_⟩
    have hv : signedValue e.before e.after (.derived d) = some v := Except.ok.inj hv
    unfold signedValue at hv
    rw [if_neg (by simp)] at hv
    exact hd d v (val hv)

theorem SigningEvent.ofUrl_reqwest (e : SigningEvent ReqwestRequest) : OfUrl (Table.mk e.value) e.before.url :=
  e.ofUrl (Httpsig.ofUrl_reqwest _) ((C24_reqwest_frame _ _ _ _ _ e.ok).2.1 ▸ Httpsig.ofUrl_reqwest e.after)

theorem SigningEvent.ofUrl_blocking (e : SigningEvent BlockingRequest) : OfUrl (Table.mk e.value) e.before.url :=
  e.ofUrl (Httpsig.ofUrl_blocking _) ((C24_blocking_frame _ _ _ _ _ e.ok).2.1 ▸ Httpsig.ofUrl_blocking e.after)

theorem SigningEvent.ofUrl_mock (e : SigningEvent MockRequest) : OfUrl (Table.mk e.value) e.before.url :=
  e.ofUrl (Httpsig.ofUrl_mock _).1 ((C24_mock_frame _ _ _ _ _ e.ok).2.2.1 ▸ (Httpsig.ofUrl_mock e.after).1)

/-! ### C77 -/

variable {R S Rem Rem' : Type}

/-- C77. If `@query`, `@target-uri` or `@request-target` is covered (without parameters), the signature base determines the
components, the parameters and all values, however many `@query-params` are covered and whatever newlines their values
contain. The requests may be of different types and under different configurations. -/
theorem C77_base_determines_message [RequestLike R] [RequestLike S] (r : R) (s : S) (u u' : Url) (hr : OfUrl r u) (hs : OfUrl s u')
    (c d : CanonicalizeConfig) (base : Bytes) (si si' : SignatureInput)
    (h1 : canonicalize r c = .ok (.ok (base, si))) (h2 : canonicalize s d = .ok (.ok (base, si')))
    (hc : ∀ k ∈ c.components, ComponentTidy k) (hp : ParamsTidy c.params.params)
    (hd : ∀ k ∈ d.components, ComponentTidy k) (hq : ParamsTidy d.params.params) (hk : ∃ k ∈ c.components, coversQuery k) :
    Forall2 ComponentSame c.components d.components ∧ ParamsSame c.params.params d.params.params ∧
      (∃ vals, Values r c.components vals ∧ Values s d.components vals) ∧ u.query = u'.query := by
  obtain ⟨a, b, vals, hv, hv'⟩ := keyed_base hr hs h1 h2 hc hp hd hq hk
  refine ⟨a, b, ⟨vals, hv, hv'⟩, ?_⟩
  obtain ⟨k, hkm, hkc⟩ := hk
  obtain ⟨nm, _, rfl, _, _, hnm⟩ := hkc.cases
  obtain ⟨j, hj⟩ := List.mem_iff_getElem?.1 hkm
  obtain ⟨k', hj', hs'⟩ := a.at hj
  rw [same_new hs'] at hj'
  obtain ⟨x, hx, hxk⟩ := hv.at hj
  obtain ⟨x', hx', hxk'⟩ := hv'.at hj'
  rw [hx] at hx'
  cases hx'
  exact hr.covers_query hs hnm hxk hxk'

/-- C77 for `reqwest` requests. -/
theorem C77_reqwest (r s : ReqwestRequest) (c d : CanonicalizeConfig) (base : Bytes) (si si' : SignatureInput)
    (h1 : canonicalize r c = .ok (.ok (base, si))) (h2 : canonicalize s d = .ok (.ok (base, si')))
    (hc : ∀ k ∈ c.components, ComponentTidy k) (hp : ParamsTidy c.params.params)
    (hd : ∀ k ∈ d.components, ComponentTidy k) (hq : ParamsTidy d.params.params) (hk : ∃ k ∈ c.components, coversQuery k) :
    Forall2 ComponentSame c.components d.components ∧ ParamsSame c.params.params d.params.params ∧
      (∃ vals, Values r c.components vals ∧ Values s d.components vals) ∧ r.url.query = s.url.query :=
  C77_base_determines_message r s _ _ (ofUrl_reqwest r) (ofUrl_reqwest s) c d base si si' h1 h2 hc hp hd hq hk

/-- C77, tampering. Two requests with the same signature headers, both accepted under one HMAC key, with the query covered:
all covered values are the same, or the two bases are a collision of the tag function. -/
theorem C77_tampering_detected [ServerRequestLike R Rem] [ServerRequestLike S Rem'] (r : R) (s : S) (u u' : Url)
    (hru : OfUrl r u) (hsu : OfUrl s u') (config config' : VerifyingConfig) (env env' : VerifyEnv)
    (rem : Rem) (rem' : Rem') (keyId keyId' : Str) (name : Str) (mac : Bytes → Bytes) (v w : Str) (c : CanonicalizeConfig)
    (hr1 : RequestLike.derive r (.header hSignatureInput) = .ok (some v))
    (hs1 : RequestLike.derive s (.header hSignatureInput) = .ok (some v))
    (hr2 : RequestLike.derive r (.header hSignature) = .ok (some w))
    (hs2 : RequestLike.derive s (.header hSignature) = .ok (some w))
    (hc : CanonicalizeConfig.fromSignatureInput v = .ok (.ok c))
    (hk : config.keyProvider keyId = [hmacVerify name mac]) (hk' : config'.keyProvider keyId = [hmacVerify name mac])
    (hr : verify r config env = .ok (.ok (rem, keyId))) (hs : verify s config' env' = .ok (.ok (rem', keyId')))
    (hq : ∃ k ∈ c.components, coversQuery k) :
    ((∀ k ∈ c.components, ∃ x, RequestLike.derive r k = .ok (some x) ∧ RequestLike.derive s k = .ok (some x)) ∧
      u.query = u'.query) ∨
    ∃ b b' si, canonicalize r c = .ok (.ok (b, si)) ∧ canonicalize s c = .ok (.ok (b', si)) ∧ b ≠ b' ∧ mac b = mac b' := by
  rcases accepted_same_base hr1 hs1 hr2 hs2 hc hk hk' hr hs with ⟨base, si, hcan, hcan'⟩ | h
  · left
    obtain ⟨_, hcs, hps⟩ := fromSignatureInput_spec hc
    have ht : ∀ k ∈ c.components, ComponentTidy k := fun k hk => componentRead_tidy (hcs k hk)
    obtain ⟨_, _, ⟨vals, h1, h2⟩, h3⟩ := C77_base_determines_message r s u u' hru hsu c c base si si hcan hcan' ht (paramsOk_tidy hps)
      ht (paramsOk_tidy hps) hq
    refine ⟨fun k hk => ?_, h3⟩
    obtain ⟨i, hi⟩ := List.mem_iff_getElem?.1 hk
    obtain ⟨x, hx, e⟩ := h1.at hi
    obtain ⟨x', hx', e'⟩ := h2.at hi
    rw [hx] at hx'
    cases hx'
    exact ⟨x, e, e'⟩
  · exact .inr h

theorem SigningEvent.determined [ClientRequestLike R] [LawfulClient R] [ServerRequestLike S Rem] (e : SigningEvent R) (req : S)
    {u u' : Url} (he : OfUrl (Table.mk e.value) u) (hu : OfUrl req u') (hn : e.config.nonce ≠ some [])
    (ht : ∀ k ∈ e.config.components, ComponentTidy k) (hk : ∃ k ∈ e.covered, coversQuery k) : e.Determined req :=
  fun c _ _ _ h1 h2 hc hp => keyed_base (c := signedInput e.before e.after e.config e.second) (d := c) he hu h1 h2
    (fun k hk => ht k (covered_subset hk)) (signedParams_tidy hn) hc hp hk

/-- C77, history. Whatever was signed, by any number of signing calls each of which covered the query: an accepted request
says exactly what was signed in one of these calls, or one of the keys provided for its key id accepts its signature on a
text that was never signed. Signed values may contain anything. -/
theorem C77_authentic_or_forged [ClientRequestLike R] [LawfulClient R] [ServerRequestLike S Rem] (events : List (SigningEvent R))
    (he : ∀ e ∈ events, (∃ u, OfUrl (Table.mk e.value) u) ∧ (∀ k ∈ e.config.components, ComponentTidy k) ∧
      e.config.nonce ≠ some [] ∧ ∃ k ∈ e.covered, coversQuery k)
    (req : S) (hu : ∃ u, OfUrl req u) (vc : VerifyingConfig) (venv : VerifyEnv) (rem : Rem) (kid : Str)
    (h : verify req vc venv = .ok (.ok (rem, kid))) :
    ∃ v c w label sig base si, RequestLike.derive req (.header hSignatureInput) = .ok (some v) ∧
      CanonicalizeConfig.fromSignatureInput v = .ok (.ok c) ∧ canonicalize req c = .ok (.ok (base, si)) ∧
      RequestLike.derive req (.header hSignature) = .ok (some w) ∧ SignatureHeader w label sig ∧
      (∃ k ∈ vc.keyProvider kid, k.verify base sig = true) ∧
      ((∃ e ∈ events, e.config.keyId = kid ∧ Authentic e req c.components c.params.params) ∨ ∀ e ∈ events, ¬ e.Base base) :=
  authentic_or_forged events req (fun e hm => (he e hm).2.2.1)
    (fun e hm => (he e hm).1.elim fun _ h1 => hu.elim fun _ h2 => e.determined req h1 h2 (he e hm).2.2.1 (he e hm).2.1 (he e hm).2.2.2)
    vc venv rem kid h

/-- Non-vacuity: the two requests of `C05_neg_query_params`, whose values move text from one covered query parameter to the
other, with `@query` covered as well. Each has a base (and a twin with another body that has the same base); the message is
confusable, so C05 says nothing about it. -/
def exKeyed : CanonicalizeConfig := { components := [qp (str% "p"), qp (str% "q"), .derived (.new atQuery)] }

theorem exKeyed_base (b : AsyncBody) : ∃ base, canonicalize { exQueryRequest exInjectA with body := b } exKeyed = .ok (.ok (base, exKeyed.toSignatureInput)) ∧
    base = utf8 (str% "\"@query-params\";name=\"p\": x\n\"@query-params\";name=\"q\": y\n\"@query-params\";name=\"q\": z\n\"@query\": ?p=x%0A%22@query-params%22;name=%22q%22:+y&q=z\n\"@signature-params\": (\"@query-params\";name=\"p\" \"@query-params\";name=\"q\" \"@query\")") := by
  refine ⟨_, canonicalize_ok_iff.2 ⟨[str% "x\n\"@query-params\";name=\"q\": y", str% "z", '?' :: exInjectA.text],
    [str% "\"@query-params\";name=\"p\"", str% "\"@query-params\";name=\"q\"", str% "\"@query\""],
    [str% "\"@query-params\";name=\"p\"", str% "\"@query-params\";name=\"q\"", str% "\"@query\""], [], ?_,
    .cons (ident_derived_iff.2 rfl) (.cons (ident_derived_iff.2 rfl) (.cons (ident_derived_iff.2 rfl) .nil)),
    .cons (listIdent_iff.2 rfl) (.cons (listIdent_iff.2 rfl) (.cons (listIdent_iff.2 rfl) .nil)), serParams_iff.1 rfl, rfl, rfl⟩, rfl⟩
  have h1 : ∀ n, RequestLike.derive ({ exQueryRequest exInjectA with body := b } : ReqwestRequest) (qp n) =
      .ok (some (joinWith (str% "\n") (((formParse (utf8 exInjectA.text)).filter fun p => n = p.1).map Prod.snd))) := fun _ => rfl
  have h2 : RequestLike.derive ({ exQueryRequest exInjectA with body := b } : ReqwestRequest) (.derived (.new atQuery)) =
      .ok (some ('?' :: exInjectA.text)) := rfl
  simp only [Values, exKeyed, List.map_cons, List.map_nil, h1, h2, exInjectA_pairs]
  rfl

example : (∀ k ∈ exKeyed.components, ComponentTidy k) ∧ ParamsTidy exKeyed.params.params ∧ (∃ k ∈ exKeyed.components, coversQuery k) ∧
    Confusable (exQueryRequest exInjectA) exKeyed.components := by
  refine ⟨?_, ⟨by simp [IMap.NodupKeys, exKeyed], by simp [exKeyed]⟩, ⟨_, by simp [exKeyed]; exact .inr (.inr rfl), .inl rfl⟩, ?_⟩
  · intro k hk
    simp only [exKeyed, List.mem_cons, List.not_mem_nil, or_false] at hk
    rcases hk with rfl | rfl | rfl
    · exact C01_withParam_tidy _ _ _ (C01_new_tidy _) (by simp)
    · exact C01_withParam_tidy _ _ _ (C01_new_tidy _) (by simp)
    · exact C01_new_tidy _
  · refine ⟨0, 1, _, _, str% "x\n\"@query-params\";name=\"q\": y", str% "\"@query-params\";name=\"q\"", rfl, rfl, .inl rfl, ?_, ident_derived_iff.2 rfl,
      str% "x", str% "y", rfl⟩
    rw [derive_qp, exInjectA_pairs]
    rfl

/-! ### C78 -/

/-- Components that are the whole URL, when they are listed without parameters. -/
def coversUrl (k : SignatureComponent) : Prop :=
  k = .derived (.new (str% "@target-uri")) ∨ k = .derived (.new (str% "@request-target"))

theorem coversUrl.query {k : SignatureComponent} (h : coversUrl k) : coversQuery k := .inr h

theorem coversUrl.value {R : Type} [RequestLike R] {r : R} {u : Url} (hr : OfUrl r u) {k : SignatureComponent} {v : Str}
    (h : coversUrl k) (hv : RequestLike.derive r k = .ok (some v)) : v = u.asStr := by
  rcases h with rfl | rfl
  · simpa using hr.covers (.inr (.inl rfl)) hv
  · simpa using hr.covers (.inr (.inr rfl)) hv

/-- C78. If `@target-uri` or `@request-target` is covered, requests with the same signature base are for the same URL: same
scheme, user info, host, port, path, query and fragment. -/
theorem C78_base_determines_url [RequestLike R] [RequestLike S] (r : R) (s : S) (u u' : Url) (hr : OfUrl r u) (hs : OfUrl s u')
    (c d : CanonicalizeConfig) (base : Bytes) (si si' : SignatureInput)
    (h1 : canonicalize r c = .ok (.ok (base, si))) (h2 : canonicalize s d = .ok (.ok (base, si')))
    (hc : ∀ k ∈ c.components, ComponentTidy k) (hp : ParamsTidy c.params.params)
    (hd : ∀ k ∈ d.components, ComponentTidy k) (hq : ParamsTidy d.params.params) (hk : ∃ k ∈ c.components, coversUrl k) :
    u.toUrlParts = u'.toUrlParts := by
  obtain ⟨k, hkm, hkc⟩ := hk
  obtain ⟨a, _, vals, hv, hv'⟩ := keyed_base hr hs h1 h2 hc hp hd hq ⟨k, hkm, hkc.query⟩
  obtain ⟨j, hj⟩ := List.mem_iff_getElem?.1 hkm
  obtain ⟨k', hj', hs'⟩ := a.at hj
  have : k' = k := by rcases hkc with rfl | rfl <;> exact same_new hs'
  subst this
  obtain ⟨x, hx, hxk⟩ := hv.at hj
  obtain ⟨x', hx', hxk'⟩ := hv'.at hj'
  rw [hx] at hx'
  cases hx'
  rw [Url.asStr_inj ((hkc.value hr hxk).symm.trans (hkc.value hs hxk'))]

/-- C78, tampering, for the validator's requests: two requests with the same signature headers, both accepted under one
HMAC key, with the URL covered, have the same URL, or exhibit a collision of the tag function. -/
theorem C78_tampering_detected (r s : MockRequest) (config config' : VerifyingConfig) (env env' : VerifyEnv) (keyId keyId' : Str)
    (name : Str) (mac : Bytes → Bytes) (v w : HeaderValue) (c : CanonicalizeConfig)
    (hr1 : r.headers.get hSignatureInput = some v) (hs1 : s.headers.get hSignatureInput = some v)
    (hr2 : r.headers.get hSignature = some w) (hs2 : s.headers.get hSignature = some w)
    (hc : CanonicalizeConfig.fromSignatureInput (v.toStr.getD []) = .ok (.ok c))
    (hk : config.keyProvider keyId = [hmacVerify name mac]) (hk' : config'.keyProvider keyId = [hmacVerify name mac])
    (hr : verify r config env = .ok (.ok ((), keyId))) (hs : verify s config' env' = .ok (.ok ((), keyId')))
    (hu : ∃ k ∈ c.components, coversUrl k) :
    r.url = s.url ∨ ∃ b b' si, canonicalize r c = .ok (.ok (b, si)) ∧ canonicalize s c = .ok (.ok (b', si)) ∧ b ≠ b' ∧ mac b = mac b' := by
  obtain ⟨k, hkm, hkc⟩ := hu
  rcases C77_tampering_detected (Rem := Unit) (Rem' := Unit) r s _ _ (ofUrl_mock r).2 (ofUrl_mock s).2 config config' env env' () ()
    keyId keyId' name mac (v.toStr.getD []) (w.toStr.getD []) c
    (show (Except.ok ((r.headers.get hSignatureInput).map fun v => v.toStr.getD []) : P (Option Str)) = _ by rw [hr1]; rfl)
    (show (Except.ok ((s.headers.get hSignatureInput).map fun v => v.toStr.getD []) : P (Option Str)) = _ by rw [hs1]; rfl)
    (show (Except.ok ((r.headers.get hSignature).map fun v => v.toStr.getD []) : P (Option Str)) = _ by rw [hr2]; rfl)
    (show (Except.ok ((s.headers.get hSignature).map fun v => v.toStr.getD []) : P (Option Str)) = _ by rw [hs2]; rfl)
    hc hk hk' hr hs ⟨k, hkm, hkc.query⟩ with ⟨h, _⟩ | h
  · left
    obtain ⟨x, h1, h2⟩ := h k hkm
    exact Url.asStr_inj ((hkc.value (ofUrl_mock r).2 h1).symm.trans (hkc.value (ofUrl_mock s).2 h2))
  · exact .inr h

/-- C78, history, for signed `reqwest` requests that arrive at the validator: if every signing call covered the URL, an
accepted request is for the URL of a signed one (and says what was signed there), or one of the keys provided for its key id
accepts its signature on a text that was never signed. -/
theorem C78_accepted_url (events : List (SigningEvent ReqwestRequest))
    (he : ∀ e ∈ events, (∀ k ∈ e.config.components, ComponentTidy k) ∧ e.config.nonce ≠ some [] ∧ ∃ k ∈ e.config.components, coversUrl k)
    (req : MockRequest) (vc : VerifyingConfig) (venv : VerifyEnv) (kid : Str) (h : verify req vc venv = .ok (.ok ((), kid))) :
    ∃ v c base si w label sig, req.derive (.header hSignatureInput) = .ok (some v) ∧
      CanonicalizeConfig.fromSignatureInput v = .ok (.ok c) ∧ canonicalize req c = .ok (.ok (base, si)) ∧
      req.derive (.header hSignature) = .ok (some w) ∧ SignatureHeader w label sig ∧
      (∃ k ∈ vc.keyProvider kid, k.verify base sig = true) ∧
      ((∃ e ∈ events, e.config.keyId = kid ∧ e.before.url = req.url ∧ Authentic e req c.components c.params.params) ∨
        ∀ e ∈ events, ¬ e.Base base) := by
  have hcov : ∀ e ∈ events, ∃ k ∈ e.covered, coversUrl k := by
    intro e hm
    obtain ⟨k, hk, hc⟩ := (he e hm).2.2
    refine ⟨k, ?_, hc⟩
    unfold SigningEvent.covered coveredComponents
    split
    · rw [List.mem_filter]
      refine ⟨hk, ?_⟩
      rcases hc with rfl | rfl <;> rfl
    · exact hk
  obtain ⟨v, c, w, label, sig, base, si, h1, h2, h3, h4, h5, h6, h7⟩ := C77_authentic_or_forged events
    (fun e hm => ⟨⟨_, e.ofUrl_reqwest⟩, (he e hm).1, (he e hm).2.1, (hcov e hm).elim fun k hk => ⟨k, hk.1, hk.2.query⟩⟩)
    req ⟨_, (ofUrl_mock req).2⟩ vc venv () kid h
  refine ⟨v, c, base, si, w, label, sig, h1, h2, h3, h4, h5, h6, h7.imp ?_ id⟩
  rintro ⟨e, hm, hkid, ha⟩
  refine ⟨e, hm, hkid, ?_, ha⟩
  obtain ⟨k, hkm, hkc⟩ := hcov e hm
  obtain ⟨j, hj⟩ := List.mem_iff_getElem?.1 hkm
  obtain ⟨k', hj', hs', x, hx, hx'⟩ := ha.components.at hj
  have : k' = k := by rcases hkc with rfl | rfl <;> exact same_new hs'
  subst this
  have e1 := hkc.value e.ofUrl_reqwest (show RequestLike.derive (Table.mk e.value) k' = .ok (some x) from congrArg Except.ok hx)
  have e2 := hkc.value (ofUrl_mock req).2 hx'
  exact Url.asStr_inj (e1.symm.trans e2)

/-- Non-vacuity: a signed request with `@target-uri` covered arrives and is accepted; so does its twin with another
uncovered header. -/
def exUriSigning : SigningConfig := exSigning.setComponents [.derived (.new atTargetUri), .header hHost]
def exUriSigned : ReqwestRequest :=
  { exReqwest with headers :=
    [(hHost, ⟨utf8 (str% "example.com"), rfl⟩), (⟨str% "content-type", rfl⟩, ⟨utf8 (str% "text/plain"), rfl⟩),
     (hDate, ⟨utf8 (str% "Thu, 01 Jan 1970 00:02:30 GMT"), rfl⟩),
     (hDigest, ⟨utf8 (str% "TOY=aGVsbG8="), rfl⟩),
     (hSignatureInput, ⟨utf8 (str% "sig=(\"@target-uri\" \"host\");alg=\"toy\";created=150;expires=210;keyid=\"k1\";nonce=n1"), rfl⟩),
     (hSignature, ⟨utf8 (str% "sig=:IkB0:"), rfl⟩)] }
def exUriEvent : SigningEvent ReqwestRequest := ⟨exReqwest, exUriSigned, exUriSigning, exSignEnv, rfl⟩

example : (∀ k ∈ exUriEvent.config.components, ComponentTidy k) ∧ exUriEvent.config.nonce ≠ some [] ∧
    (∃ k ∈ exUriEvent.config.components, coversUrl k) ∧
    verify (exMock exUriSigned.headers (some (utf8 (str% "hello")))) exVerifying exEnv = .ok (.ok ((), exUriEvent.config.keyId)) ∧
    verify (exMock ((⟨str% "x", rfl⟩, ⟨utf8 (str% "1"), rfl⟩) :: exUriSigned.headers) (some (utf8 (str% "hello")))) exVerifying exEnv =
      .ok (.ok ((), exUriEvent.config.keyId)) ∧
    exVerifying.keyProvider exUriEvent.config.keyId = [hmacVerify (str% "toy") fun m => m.take 3] := by
  refine ⟨?_, exPortable.nonce, ⟨_, List.mem_cons_self, .inl rfl⟩, rfl, rfl, rfl⟩
  intro k hk
  have hk : k ∈ [.derived (.new atTargetUri), .header hHost] := hk
  simp only [List.mem_cons, List.not_mem_nil, or_false] at hk
  rcases hk with rfl | rfl
  · exact C01_new_tidy _
  · trivial

end Httpsig
