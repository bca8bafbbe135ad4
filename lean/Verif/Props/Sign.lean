import Verif.Lemmas.Sign6
import Verif.Props.Base
/-
C24–C29, C46, C47, C52: signing.
-/
set_option linter.unusedSectionVars false
namespace Httpsig
open Sfv
variable [Deps]

/-- A complete run of `sign`, used below to show that hypotheses are satisfiable. -/
theorem exSigned_run : sign exReqwest exSigning exSignEnv = .ok (exReqwestSigned, .ok ()) := by rfl

/-- With a nonce that is not a token the same call panics. -/
theorem exSigned_bad_nonce : sign exReqwest (exSigning.setNonce (str% "not a token")) exSignEnv = .error .displayComponentList := by rfl

/-! ### C24 -/

/-- C24 for `reqwest` requests: whatever the outcome, `sign` changes neither method, URL, body nor the values of any
header other than `signature`, `signature-input`, and those of `date`, `host` and `digest` whose option is on and which
had no readable value. -/
theorem C24_reqwest_frame (r r' : ReqwestRequest) (config : SigningConfig) (env : SignEnv) (res : Except Error Unit)
    (h : sign r config env = .ok (r', res)) :
    r'.method = r.method ∧ r'.url = r.url ∧ r'.body = r.body ∧
      ∀ n, ¬ MayWrite r config n → r'.headers.getAll n = r.headers.getAll n :=
  (sign_touches h).reqwest

/-- C24 for blocking `reqwest` requests. The body keeps its content, although a reader may have been read into memory. -/
theorem C24_blocking_frame (r r' : BlockingRequest) (config : SigningConfig) (env : SignEnv) (res : Except Error Unit)
    (h : sign r config env = .ok (r', res)) :
    r'.method = r.method ∧ r'.url = r.url ∧ r'.body.content = r.body.content ∧
      ∀ n, ¬ MayWrite r config n → r'.headers.getAll n = r.headers.getAll n :=
  (sign_touches h).blocking

/-- C24 for the validator's requests. -/
theorem C24_mock_frame (r r' : MockRequest) (config : SigningConfig) (env : SignEnv) (res : Except Error Unit)
    (h : sign r config env = .ok (r', res)) :
    r'.version = r.version ∧ r'.method = r.method ∧ r'.url = r.url ∧ r'.path = r.path ∧ r'.body = r.body ∧
      ∀ n, ¬ MayWrite r config n → r'.headers.getAll n = r.headers.getAll n :=
  (sign_touches h).mock

/-- C24 for every lawful request type, in terms of what can be observed through `derive`: components other than the
writable headers keep their value; in particular readable `date`, `host` and `digest` headers do. -/
theorem C24_components_frame {R : Type} [ClientRequestLike R] [LawfulClient R] (r r' : R) (config : SigningConfig)
    (env : SignEnv) (res : Except Error Unit) (h : sign r config env = .ok (r', res)) :
    (∀ k, (∀ n, MayWrite r config n → k ≠ .header n) → RequestLike.derive r' k = RequestLike.derive r k) ∧
    (∀ n s, n = hDate ∨ n = hHost ∨ n = hDigest → RequestLike.derive r (.header n) = .ok (some s) →
      RequestLike.derive r' (.header n) = .ok (some s)) := by
  have t := sign_touches h
  refine ⟨fun k hk => t.derive hk, fun n s hn hs => ?_⟩
  rw [t.derive, hs]
  rintro m hm e
  cases e
  rcases hm with e | e | ⟨_, hm⟩
  · subst e
    rcases hn with e | e | e
    · exact hSignature_ne_hDate e
    · exact hSignature_ne_hHost e
    · exact hSignature_ne_hDigest e
  · subst e
    rcases hn with e | e | e
    · exact hInput_ne_hDate e
    · exact hInput_ne_hHost e
    · exact hInput_ne_hDigest e
  · rw [hs] at hm; cases hm

/-- Non-vacuity: the run above writes four headers and leaves `host` and `content-type` alone. -/
example : sign exReqwest exSigning exSignEnv = .ok (exReqwestSigned, .ok ()) ∧
    ¬ MayWrite exReqwest exSigning hHost ∧ exReqwest.headers.getAll hHost ≠ [] := by
  refine ⟨exSigned_run, ?_, ?_⟩
  · rintro (e | e | ⟨_, e⟩)
    · exact hSignature_ne_hHost e.symm
    · exact hInput_ne_hHost e.symm
    · cases e
  · intro h
    cases h

/-! ### C52: automatic headers -/

/-- C52. Whatever the outcome of `sign`: with `add_date` on and no readable date before, the date is now the IMF-fixdate
of the clock; with `add_host` on and no readable host before, the host header is the URL's host; with `compute_digest`
on, no readable digest before and a computable digest `s`, the digest header is `NAME=s`; if no digest can be computed
there is still none. (Host and digest text must be visible ASCII to be readable at all.) -/
theorem C52_automatic_headers {R : Type} [ClientRequestLike R] [LawfulClient R] (r r' : R) (config : SigningConfig)
    (env : SignEnv) (res : Except Error Unit) (h : sign r config env = .ok (r', res)) :
    (config.addDate = true → RequestLike.derive r (.header hDate) = .ok none →
      RequestLike.derive r' (.header hDate) = .ok (some (formatDate env.utcNow))) ∧
    (config.addHost = true → RequestLike.derive r (.header hHost) = .ok none → ∀ s, ClientRequestLike.host r = some s →
      s.all isVisibleChar = true → RequestLike.derive r' (.header hHost) = .ok (some s)) ∧
    (config.computeDigest = true → RequestLike.derive r (.header hDigest) = .ok none →
      ∀ s, (ClientRequestLike.computeDigest r config.digest).2 = some s →
      (config.digest.name ++ str% "=" ++ s).all isVisibleChar = true →
      RequestLike.derive r' (.header hDigest) = .ok (some (config.digest.name ++ str% "=" ++ s))) ∧
    (config.computeDigest = true → RequestLike.derive r (.header hDigest) = .ok none →
      (ClientRequestLike.computeDigest r config.digest).2 = none → RequestLike.derive r' (.header hDigest) = .ok none) := by
  obtain ⟨r1, comps, ha, _, h⟩ := sign_iff.1 h
  have hf := addAuto_facts ha
  have key : ∀ n, n ≠ hSignature → n ≠ hSignatureInput →
      RequestLike.derive r' (.header n) = RequestLike.derive r1 (.header n) := by
    intro n h1 h2
    rcases h with ⟨e, _, rfl, _⟩ | ⟨cc, _, ⟨e, _, rfl, _⟩ | ⟨base, si, x, _, _, ⟨_, rfl, _⟩ | ⟨v, _, ⟨_, rfl, _⟩ | ⟨w, _, rfl, _⟩⟩⟩⟩
    · rfl
    · rfl
    · rfl
    · rw [LawfulClient.derive_set_ne _ _ _ _ (header_ne h2)]
    · rw [LawfulClient.derive_set_ne _ _ _ _ (header_ne h1), LawfulClient.derive_set_ne _ _ _ _ (header_ne h2)]
  refine ⟨fun h1 h2 => ?_, fun h1 h2 s h3 h4 => ?_, fun h1 h2 s h3 h4 => ?_, fun h1 h2 h3 => ?_⟩
  · rw [key _ hSignature_ne_hDate.symm hInput_ne_hDate.symm]; exact hf.date ⟨.inl ⟨rfl, h1⟩, h2⟩
  · rw [key _ hSignature_ne_hHost.symm hInput_ne_hHost.symm]; exact hf.host ⟨.inr (.inl ⟨rfl, h1⟩), h2⟩ s h3 h4
  · rw [key _ hSignature_ne_hDigest.symm hInput_ne_hDigest.symm]; exact hf.digest ⟨.inr (.inr ⟨rfl, h1⟩), h2⟩ s h3 h4
  · rw [key _ hSignature_ne_hDigest.symm hInput_ne_hDigest.symm]; exact hf.noDigest ⟨.inr (.inr ⟨rfl, h1⟩), h2⟩ h3

example : RequestLike.derive exReqwest (.header hDate) = .ok none ∧
    RequestLike.derive exReqwestSigned (.header hDate) = .ok (some (str% "Thu, 01 Jan 1970 00:02:30 GMT")) ∧
    RequestLike.derive exReqwest (.header hDigest) = .ok none ∧
    RequestLike.derive exReqwestSigned (.header hDigest) = .ok (some (str% "TOY=aGVsbG8=")) := ⟨rfl, rfl, rfl, rfl⟩

/-! ### C47 -/

/-- C47. The date written for the second `n` after the epoch is the IMF-fixdate of the clock that started at Thursday,
1 January 1970, 00:00:00 and ticked `n` times (until the end of the year 9999). -/
theorem C47_imf_fixdate (n : Nat) (h : n < 253402300800) : formatDate n = (Clock.after n).imf := by
  rw [formatDate_eq n (by omega) (by omega), clockAt_after]

/-- C47 before the epoch: one second later the date is the one of the clock's next tick (years 0 to 9999). -/
theorem C47_tick (s : Int) (h0 : -62167219200 ≤ s) (h1 : s + 1 < 253402300800) :
    ∃ c : Clock, formatDate s = c.imf ∧ formatDate (s + 1) = c.tick.imf :=
  ⟨clockAt s, formatDate_eq s h0 (by omega), by rw [formatDate_eq (s + 1) (by omega) h1, clockAt_succ]⟩

/-- C47 in every year: the date is that of a clock that shows the epoch at 0 and ticks with every second, back and forth. Years outside 0 to 9999
have a sign, and the date is then not an IMF-fixdate. -/
theorem C47_every_year :
    ∃ c : Int → Clock, c 0 = .epoch ∧ (∀ s, c (s + 1) = (c s).tick) ∧ ∀ s, formatDate s = (c s).text :=
  ⟨clockAt, clockAt_after 0, clockAt_succ, formatDate_text⟩

/-- The first second of the year 10000, and the last of the year before the year 0. -/
example : formatDate 253402300800 = str% "Sat, 01 Jan +10000 00:00:00 GMT" ∧
    formatDate (-62167219201) = str% "Fri, 31 Dec -0001 23:59:59 GMT" := by decide +kernel

/-- C47. The `expect` on the automatic date never fires: for every clock value, in any year, the text is a valid,
readable header value. -/
theorem C47_valid_header (s : Int) : ∃ v, HeaderValue.fromStr (formatDate s) = some v ∧ v.toStr = some (formatDate s) :=
  fromStr_visible (formatDate_visible s)

/-- The date in the repository's own test. -/
example : formatDate 1618884475 = str% "Tue, 20 Apr 2021 02:07:55 GMT" := by decide +kernel
example : (Clock.after 86399).tick = ⟨5, (1970, 1, 2), 0, 0, 0⟩ := by rw [← clockAt_after]; decide
example : clockAt 951782399 = ⟨1, (2000, 2, 28), 23, 59, 59⟩ ∧ (clockAt 951782399).tick.date = (2000, 2, 29) := by decide

/-! ### C25 -/

/-- C25. When `sign` returns an error, the `signature` header is unchanged; and unless the error is the failure to
encode the `Signature` header value, so is `signature-input`. -/
theorem C25_no_signature_on_error {R : Type} [ClientRequestLike R] [LawfulClient R] (r r' : R) (config : SigningConfig)
    (env : SignEnv) (e : Error) (h : sign r config env = .ok (r', .error e)) :
    RequestLike.derive r' (.header hSignature) = RequestLike.derive r (.header hSignature) ∧
    (e ≠ .convertHeader →
      RequestLike.derive r' (.header hSignatureInput) = RequestLike.derive r (.header hSignatureInput)) := by
  obtain ⟨r1, comps, ha, _, h⟩ := sign_iff.1 h
  have t := (addAuto_facts ha).touches
  have d1 : RequestLike.derive r1 (.header hSignature) = RequestLike.derive r (.header hSignature) :=
    t.derive fun n hn e => (autoWrite_not_sig hn).1 (by cases e; rfl)
  have d2 : RequestLike.derive r1 (.header hSignatureInput) = RequestLike.derive r (.header hSignatureInput) :=
    t.derive fun n hn e => (autoWrite_not_sig hn).2 (by cases e; rfl)
  rcases h with ⟨e', _, rfl, _⟩ | ⟨cc, _, ⟨e', _, rfl, _⟩ | ⟨base, si, x, _, _, ⟨_, rfl, _⟩ | ⟨v, _, ⟨_, rfl, he⟩ | ⟨w, _, _, h⟩⟩⟩⟩
  · exact ⟨d1, fun _ => d2⟩
  · exact ⟨d1, fun _ => d2⟩
  · exact ⟨d1, fun _ => d2⟩
  · refine ⟨?_, fun hne => ?_⟩
    · rw [LawfulClient.derive_set_ne _ _ _ _ (header_ne hSignature_ne_hInput), d1]
    · cases he; exact absurd rfl hne
  · cases h

/-- C25 for `reqwest` requests, in terms of all header values. -/
theorem C25_reqwest (r r' : ReqwestRequest) (config : SigningConfig) (env : SignEnv) (e : Error)
    (h : sign r config env = .ok (r', .error e)) :
    r'.headers.getAll hSignature = r.headers.getAll hSignature ∧
    (e ≠ .convertHeader → r'.headers.getAll hSignatureInput = r.headers.getAll hSignatureInput) := by
  obtain ⟨r1, comps, ha, _, h⟩ := sign_iff.1 h
  have t := (addAuto_facts ha).touches.reqwest.2.2.2
  have d1 := t hSignature fun hn => (autoWrite_not_sig hn).1 rfl
  have d2 := t hSignatureInput fun hn => (autoWrite_not_sig hn).2 rfl
  rcases h with ⟨e', _, rfl, _⟩ | ⟨cc, _, ⟨e', _, rfl, _⟩ | ⟨base, si, x, _, _, ⟨_, rfl, _⟩ | ⟨v, _, ⟨_, rfl, he⟩ | ⟨w, _, _, h⟩⟩⟩⟩
  · exact ⟨d1, fun _ => d2⟩
  · exact ⟨d1, fun _ => d2⟩
  · exact ⟨d1, fun _ => d2⟩
  · refine ⟨?_, fun hne => ?_⟩
    · rw [← d1]; exact HeaderMap.getAll_insert_ne _ _ hSignature_ne_hInput
    · cases he; exact absurd rfl hne
  · cases h

/-- A label that cannot be part of a header value: signing fails after `Signature-Input` has been set. -/
def exBadLabel : SigningConfig := { exSigning with label := str% "a\nb" }

/-- Non-vacuity, and necessity of the exception: this failed `sign` leaves a new `Signature-Input` behind. -/
theorem C25_convertHeader_leaves_input : ∃ r', sign exReqwest exBadLabel exSignEnv = .ok (r', .error .convertHeader) ∧
    RequestLike.derive exReqwest (.header hSignatureInput) = .ok none ∧
    RequestLike.derive r' (.header hSignatureInput) ≠ .ok none :=
  ⟨_, rfl, rfl, fun h => by cases h⟩

example : ∃ r', sign exReqwest (exSigning.setCreatedAt 151) exSignEnv = .ok (r', .error .invalidSignatureCreationDate) :=
  ⟨_, rfl⟩

/-! ### C26 -/

variable {R : Type} [ClientRequestLike R] [LawfulClient R]

/-- C26, enabled: signing never fails because of a missing component. -/
theorem C26_skip_never_missing (r r' : R) (config : SigningConfig) (env : SignEnv) (res : Except Error Unit)
    (hs : config.skipMissing = true) (h : sign r config env = .ok (r', res)) : res ≠ .error .canonicalize := by
  rintro rfl
  obtain ⟨r1, comps, ha, _, h⟩ := sign_iff.1 h
  have hcomps := addAuto_comps ha
  rw [if_pos hs] at hcomps
  rcases h with ⟨e, he, _, h⟩ | ⟨cc, hb, ⟨e, hcan, _, h⟩ | ⟨base, si, x, _, _, ⟨_, _, h⟩ | ⟨v, _, ⟨_, _, h⟩ | ⟨w, _, _, h⟩⟩⟩⟩
  · cases h
    rcases buildCanonicalizeConfig_error_iff.1 he with ⟨t, _, _, h⟩ | ⟨_, t, _, _, h⟩ <;> cases h
  · obtain ⟨_, rfl⟩ := buildCanonicalizeConfig_ok_iff.1 hb
    refine C04_no_error_when_present r1 _ e (fun k hk => ?_) hcan
    have hk : k ∈ comps := hk
    rw [hcomps, List.mem_filter] at hk
    exact valueOf_isSome hk.2
  · cases h
  · cases h
  · cases h

/-- C26, disabled: once the configured times are accepted, signing fails with `Canonicalize` exactly when some
configured component has no value at the moment of signing. -/
theorem C26_missing_fails (r r' : R) (config : SigningConfig) (env : SignEnv) (res : Except Error Unit)
    (hs : config.skipMissing = false) (ht : TimesOk config (env.sysNow / 1000000000))
    (h : sign r config env = .ok (r', res)) :
    res = .error .canonicalize ↔ ∃ k ∈ config.components, signedValue r r' k = none := by
  obtain ⟨r1, comps, ha, _, h⟩ := sign_iff.1 h
  have hcomps := addAuto_comps ha
  rw [hs, if_neg (by simp)] at hcomps
  subst hcomps
  have t := (addAuto_facts ha).touches
  have hpresent : ∀ {cc base si}, buildCanonicalizeConfig config config.components (env.sysNow / 1000000000) = .ok cc →
      canonicalize r1 cc = .ok (.ok (base, si)) → ¬ ∃ k ∈ config.components, valueOf r1 k = none := by
    rintro cc base si hb hcan ⟨k, hk, hn⟩
    obtain ⟨_, rfl⟩ := buildCanonicalizeConfig_ok_iff.1 hb
    obtain ⟨vals, ids, lids, ps, h1, _⟩ := canonicalize_ok_iff.1 hcan
    have h2 := values_of_map h1
    have : valueOf r1 k ∈ vals.map some := by rw [← h2]; exact List.mem_map.2 ⟨k, hk, rfl⟩
    rw [hn] at this
    simp at this
  rcases h with ⟨e, he, rfl, rfl⟩ | ⟨cc, hb, ⟨e, hcan, rfl, rfl⟩ | ⟨base, si, x, hcan, _, ⟨_, rfl, rfl⟩ | ⟨v, _, ⟨_, rfl, rfl⟩ | ⟨w, _, rfl, rfl⟩⟩⟩⟩
  · exfalso
    rcases buildCanonicalizeConfig_error_iff.1 he with ⟨t, h1, h2, _⟩ | ⟨_, t, h1, h2, _⟩
    · have := ht.1 t h1; omega
    · have := ht.2 t h1; omega
  · simp only [signedValue_eq t (.inl rfl), true_iff]
    obtain ⟨_, rfl⟩ := buildCanonicalizeConfig_ok_iff.1 hb
    refine Classical.byContradiction fun hno => C04_no_error_when_present r' _ e (fun k hk => ?_) hcan
    refine valueOf_isSome ?_
    cases hv : valueOf r' k with
    | none => exact absurd ⟨k, hk, hv⟩ hno
    | some v => rfl
  · simp only [signedValue_eq t (.inl rfl), Except.error.injEq, reduceCtorEq, false_iff]
    exact hpresent hb hcan
  · simp only [signedValue_eq t (.inr (.inl ⟨v, rfl⟩)), Except.error.injEq, reduceCtorEq, false_iff]
    exact hpresent hb hcan
  · simp only [signedValue_eq t (.inr (.inr ⟨v, w, rfl⟩)), reduceCtorEq, false_iff]
    exact hpresent hb hcan

/-- C26. After a successful `sign` the `signature-input` header lists exactly the configured components that had a value
at the moment of signing, in configured order (`coveredComponents`); without `skip_missing` these are all of them. -/
theorem C26_covered (r r' : R) (config : SigningConfig) (env : SignEnv) (h : sign r config env = .ok (r', .ok ())) :
    ∃ lids ps, Forall2 ListIdent (coveredComponents r r' config) lids ∧
      RequestLike.derive r' (.header hSignatureInput) = .ok (some (str% "sig=" ++ specListText lids ++ ps)) ∧
      (config.skipMissing = false → coveredComponents r r' config = config.components ∧
        ∀ k ∈ config.components, signedValue r r' k ≠ none) := by
  obtain ⟨r1, ids, lids, vals, vi, vs, _, _, _, hw, hsv, h1, _, h3, h4, _, rfl⟩ := sign_success h
  refine ⟨lids, signedParamsText config (env.sysNow / 1000000000), h3, ?_, fun hs => ?_⟩
  · rw [LawfulClient.derive_set_ne _ _ _ _ (header_ne hSignature_ne_hInput.symm), List.append_assoc]
    have hp := inputText_printable h3 (paramsText_signed_iff.2 ⟨hw, rfl⟩)
    obtain ⟨v', hv', hr⟩ := fromStr_visible (visible_of_printable hp)
    rw [h4] at hv'; cases hv'
    exact LawfulClient.derive_set_same _ _ _ _ hr
  · have e : coveredComponents r (ClientRequestLike.setHeader (ClientRequestLike.setHeader r1 hSignatureInput vi) hSignature vs) config =
        config.components := by unfold coveredComponents; rw [if_neg (by simp [hs])]
    refine ⟨e, fun k hk hn => ?_⟩
    rw [e] at h1
    rw [hsv k] at hn
    have h2 := values_of_map h1
    have : valueOf r1 k ∈ vals.map some := by rw [← h2]; exact List.mem_map.2 ⟨k, hk, rfl⟩
    rw [hn] at this
    simp at this

/-- Non-vacuity: a configured component that the request lacks is skipped, or makes signing fail. -/
def exMissing : SigningConfig := exSigning.setComponents [.header hHost, .header ⟨str% "x-missing", rfl⟩, .derived (.new atMethod)]

example : ∃ r', sign exReqwest exMissing exSignEnv = .ok (r', .ok ()) ∧
    coveredComponents exReqwest r' exMissing = [.header hHost, .derived (.new atMethod)] := ⟨_, rfl, rfl⟩
example : ∃ r', sign exReqwest (exMissing.setSkipMissing false) exSignEnv = .ok (r', .error .canonicalize) := ⟨_, rfl⟩
example : TimesOk exMissing (exSignEnv.sysNow / 1000000000) :=
  ⟨fun t h => by cases h; decide, fun t h => by cases h; decide⟩

/-! ### C27 -/

/-- C27. A successful `sign` has `created` not in the future and `expires` not in the past. -/
theorem C27_times_of_success (r r' : R) (config : SigningConfig) (env : SignEnv)
    (h : sign r config env = .ok (r', .ok ())) :
    (∀ t, createdTime config (env.sysNow / 1000000000) = some t → t ≤ env.sysNow / 1000000000) ∧
    (∀ t, expiresTime config (env.sysNow / 1000000000) = some t → env.sysNow / 1000000000 ≤ t) := by
  obtain ⟨_, _, _, _, _, _, _, ht, _⟩ := sign_success h
  exact ht

/-- C27. A configured `created` in the future makes `sign` fail with `InvalidSignatureCreationDate`; otherwise an
`expires` in the past makes it fail with `InvalidSignatureExpiresDate`; and these errors occur in no other case. -/
theorem C27_bad_times_rejected (r r' : R) (config : SigningConfig) (env : SignEnv) (res : Except Error Unit)
    (h : sign r config env = .ok (r', res)) :
    (res = .error .invalidSignatureCreationDate ↔
      ∃ t, createdTime config (env.sysNow / 1000000000) = some t ∧ env.sysNow / 1000000000 < t) ∧
    (res = .error .invalidSignatureExpiresDate ↔
      (∀ t, createdTime config (env.sysNow / 1000000000) = some t → t ≤ env.sysNow / 1000000000) ∧
      ∃ t, expiresTime config (env.sysNow / 1000000000) = some t ∧ t < env.sysNow / 1000000000) := by
  obtain ⟨r1, comps, ha, _, h⟩ := sign_iff.1 h
  have good : ∀ {cc}, buildCanonicalizeConfig config comps (env.sysNow / 1000000000) = .ok cc →
      res ≠ .error .invalidSignatureCreationDate → res ≠ .error .invalidSignatureExpiresDate →
      (res = .error .invalidSignatureCreationDate ↔
        ∃ t, createdTime config (env.sysNow / 1000000000) = some t ∧ env.sysNow / 1000000000 < t) ∧
      (res = .error .invalidSignatureExpiresDate ↔
        (∀ t, createdTime config (env.sysNow / 1000000000) = some t → t ≤ env.sysNow / 1000000000) ∧
        ∃ t, expiresTime config (env.sysNow / 1000000000) = some t ∧ t < env.sysNow / 1000000000) := by
    intro cc hb h1 h2
    obtain ⟨ht, _⟩ := buildCanonicalizeConfig_ok_iff.1 hb
    refine ⟨⟨fun e => absurd e h1, ?_⟩, ⟨fun e => absurd e h2, ?_⟩⟩
    · rintro ⟨t, ht1, ht2⟩; have := ht.1 t ht1; omega
    · rintro ⟨_, t, ht1, ht2⟩; have := ht.2 t ht1; omega
  rcases h with ⟨e, he, _, rfl⟩ | ⟨cc, hb, ⟨e, _, _, rfl⟩ | ⟨base, si, x, _, _, ⟨_, _, rfl⟩ | ⟨v, _, ⟨_, _, rfl⟩ | ⟨w, _, _, rfl⟩⟩⟩⟩
  · rcases buildCanonicalizeConfig_error_iff.1 he with ⟨t, h1, h2, rfl⟩ | ⟨h0, t, h1, h2, rfl⟩
    · refine ⟨⟨fun _ => ⟨t, h1, h2⟩, fun _ => rfl⟩, ⟨fun e => by simp at e, ?_⟩⟩
      rintro ⟨h, _⟩
      have := h t h1; omega
    · refine ⟨⟨fun e => by simp at e, ?_⟩, ⟨fun _ => ⟨h0, t, h1, h2⟩, fun _ => rfl⟩⟩
      rintro ⟨t', h3, h4⟩
      have := h0 t' h3; omega
  · exact good hb (by simp) (by simp)
  · exact good hb (by simp) (by simp)
  · exact good hb (by simp) (by simp)
  · exact good hb (by simp) (by simp)

/-- C27. What the three kinds of settings mean: nothing, the current second or a fixed time for `created`; nothing, a
fixed time, or the current second plus an offset for `expires`, and the sum saturates at the bounds of `i64`. -/
theorem C27_configured_times (now : Int) :
    SignatureCreated.omit.get now = none ∧ SignatureCreated.automatic.get now = some now ∧
    (∀ t, (SignatureCreated.absolute t).get now = some t) ∧
    SignatureExpires.omit.get now = none ∧ (∀ t, (SignatureExpires.absolute t).get now = some t) ∧
    (∀ off, ∃ t, (SignatureExpires.relative off).get now = some t ∧
      -9223372036854775808 ≤ t ∧ t ≤ 9223372036854775807 ∧
      (-9223372036854775808 ≤ now + off ∧ now + off ≤ 9223372036854775807 → t = now + off) ∧
      (9223372036854775807 < now + off → t = 9223372036854775807) ∧
      (now + off < -9223372036854775808 → t = -9223372036854775808)) := by
  refine ⟨rfl, rfl, fun _ => rfl, rfl, fun _ => rfl, fun off => ⟨_, rfl, ?_⟩⟩
  unfold satAdd i64Min i64Max
  omega

/-- C27. A relative expiry with a non-negative offset is never rejected (for clocks within `i64` seconds), however large;
one with a negative offset always is (unless `created` is rejected first). -/
theorem C27_relative_expiry (r r' : R) (config : SigningConfig) (env : SignEnv) (res : Except Error Unit) (off : Int)
    (he : config.expires = .relative off) (hr : -9223372036854775808 ≤ off)
    (hnow : env.sysNow / 1000000000 ≤ 9223372036854775807) (h : sign r config env = .ok (r', res)) :
    (0 ≤ off → res ≠ .error .invalidSignatureExpiresDate) ∧
    (off < 0 → res = .error .invalidSignatureExpiresDate ∨ res = .error .invalidSignatureCreationDate) := by
  have hb := C27_bad_times_rejected r r' config env res h
  have h0 : 0 ≤ env.sysNow / 1000000000 := by
    obtain ⟨_, _, _, hn, _⟩ := sign_iff.1 h
    omega
  have hget : expiresTime config (env.sysNow / 1000000000) = some (satAdd (env.sysNow / 1000000000) off) := by
    rw [← expires_get, he]; rfl
  constructor
  · intro hoff hres
    obtain ⟨_, t, h1, h2⟩ := hb.2.1 hres
    rw [hget] at h1
    cases h1
    unfold satAdd i64Min i64Max at h2
    omega
  · intro hoff
    by_cases hc : ∃ t, createdTime config (env.sysNow / 1000000000) = some t ∧ env.sysNow / 1000000000 < t
    · exact .inr (hb.1.2 hc)
    · refine .inl (hb.2.2 ⟨fun t ht => ?_, _, hget, ?_⟩)
      · refine Classical.byContradiction fun hlt => hc ⟨t, ht, by omega⟩
      · unfold satAdd i64Min i64Max; omega

example : ∃ r', sign exReqwest (exSigning.setExpiresRelative (-1)) exSignEnv =
    .ok (r', .error .invalidSignatureExpiresDate) := ⟨_, rfl⟩
example : (SignatureExpires.relative 9223372036854775807).get 150 = some 9223372036854775807 := by decide

/-! ### C28 -/

/-- C28 fails: a nonce that is not a token, a key id outside printable ASCII, or a time of more than 15 digits makes
`sign` panic, for every request on which signing gets that far. -/
theorem C28_neg_unwritable_panics (r : R) (config : SigningConfig) (env : SignEnv)
    (hs : config.skipMissing = true) (ht : TimesOk config (env.sysNow / 1000000000))
    (hw : ¬ WritableParams config (env.sysNow / 1000000000)) : ∃ p, sign r config env = .error p := by
  cases hsig : sign r config env with
  | error p => exact ⟨p, rfl⟩
  | ok x =>
    exfalso
    obtain ⟨r', res⟩ := x
    obtain ⟨r1, comps, ha, _, h⟩ := sign_iff.1 hsig
    rcases h with ⟨e, he, _, rfl⟩ | ⟨cc, hb, ⟨e, _, _, rfl⟩ | ⟨base, si, x, hcan, _⟩⟩
    · rcases buildCanonicalizeConfig_error_iff.1 he with ⟨t, h1, h2, _⟩ | ⟨_, t, h1, h2, _⟩
      · have := ht.1 t h1; omega
      · have := ht.2 t h1; omega
    · exact C26_skip_never_missing r r' config env _ hs hsig rfl
    · obtain ⟨_, rfl⟩ := buildCanonicalizeConfig_ok_iff.1 hb
      obtain ⟨_, _, _, ps, _, _, _, h4, _⟩ := canonicalize_ok_iff.1 hcan
      exact hw (paramsText_signed_iff.1 h4).1

/-- The three kinds of bad values. -/
example : ¬ WritableParams (exSigning.setNonce (str% "not a token")) 150 := fun h => by
  rcases h.nonce _ rfl with e | h
  · cases e
  · cases h with
    | mk _ h => exact absurd (h ' ' (by decide)) (by simp [Grammar.Alpha, Grammar.Lcalpha, Grammar.Digit])
example : ¬ WritableParams { exSigning with keyId := str% "clé" } 150 := fun h =>
  absurd (h.keyid 'é' (by decide : 'é' ∈ (str% "clé"))) (by decide)
example : ¬ WritableParams (exSigning.setExpiresRelative 1000000000000000) 150 := fun h =>
  absurd (h.expires _ rfl) (by decide)
example : sign exReqwest { exSigning with keyId := str% "clé" } exSignEnv = .error .displayComponentList := by rfl
example : sign exReqwest (exSigning.setExpiresRelative 1000000000000000) exSignEnv = .error .displayComponentList := by rfl

/-- `sign` returns if and only if the automatic headers can be added, the clock is after the epoch and, should the times
be acceptable, the signature base can be built. -/
theorem sign_returns_iff {r : R} {config : SigningConfig} {env : SignEnv} :
    (∃ r' res, sign r config env = .ok (r', res)) ↔
      ∃ r1 comps, addAutoHeaders r config env = .ok (r1, comps) ∧ 0 ≤ env.sysNow ∧
        (TimesOk config (env.sysNow / 1000000000) →
          ∃ y, canonicalize r1 ⟨none, comps, ⟨SignedParams config (env.sysNow / 1000000000)⟩⟩ = .ok y) := by
  constructor
  · rintro ⟨r', res, h⟩
    obtain ⟨r1, comps, ha, hn, h⟩ := sign_iff.1 h
    refine ⟨r1, comps, ha, hn, fun ht => ?_⟩
    have hb := buildCanonicalizeConfig_ok_iff (comps := comps).2 ⟨ht, rfl⟩
    rcases h with ⟨e, he, _⟩ | ⟨cc, hb', h⟩
    · rw [he] at hb; cases hb
    · rw [hb'] at hb
      cases hb
      rcases h with ⟨e, he, _⟩ | ⟨base, si, x, hcan, _⟩
      · exact ⟨_, he⟩
      · exact ⟨_, hcan⟩
  · rintro ⟨r1, comps, hauto, hn, h⟩
    have key : ∃ x, sign r config env = .ok x := by
      cases hb : buildCanonicalizeConfig config comps (env.sysNow / 1000000000) with
      | error e => exact ⟨_, sign_iff.2 ⟨r1, comps, hauto, hn, .inl ⟨e, hb, rfl, rfl⟩⟩⟩
      | ok cc =>
        obtain ⟨ht, rfl⟩ := buildCanonicalizeConfig_ok_iff.1 hb
        obtain ⟨x, hx⟩ := h ht
        cases x with
        | error e => exact ⟨_, sign_iff.2 ⟨r1, comps, hauto, hn, .inr ⟨_, hb, .inl ⟨e, hx, rfl, rfl⟩⟩⟩⟩
        | ok y =>
          obtain ⟨base, si⟩ := y
          obtain ⟨vals, ids, lids, ps, h1, h2, h3, h4, rfl, rfl⟩ := canonicalize_ok_iff.1 hx
          have hdisp := display_default (display_list_iff.2 ⟨lids, _, h3, h4, rfl⟩)
          cases hv : HeaderValue.fromStr (str% "sig=" ++ (specListText lids ++ ps)) with
          | none => exact ⟨_, sign_iff.2 ⟨r1, comps, hauto, hn, .inr ⟨_, hb, .inr ⟨_, _, _, hx, hdisp, .inl ⟨hv, rfl, rfl⟩⟩⟩⟩⟩
          | some v =>
            cases hw' : HeaderValue.fromStr (config.label ++ str% "=:" ++ config.signature.sign env.rnd
                (utf8 (specBase ids lids vals ps)) ++ str% ":") with
            | none => exact ⟨_, sign_iff.2 ⟨r1, comps, hauto, hn, .inr ⟨_, hb, .inr ⟨_, _, _, hx, hdisp, .inr ⟨v, hv, .inl ⟨hw', rfl, rfl⟩⟩⟩⟩⟩⟩
            | some w => exact ⟨_, sign_iff.2 ⟨r1, comps, hauto, hn, .inr ⟨_, hb, .inr ⟨_, _, _, hx, hdisp, .inr ⟨v, hv, .inr ⟨w, hw', rfl, rfl⟩⟩⟩⟩⟩⟩
    obtain ⟨⟨r', res⟩, h⟩ := key
    exact ⟨r', res, h⟩

/-- The negation of the condition in `C28_exact`. -/
theorem sign_returns_exact {r : R} {config : SigningConfig} {env : SignEnv}
    (hvis : config.skipMissing = true ∨ AutoVisible r config) :
    (∃ r' res, sign r config env = .ok (r', res)) ↔
      AutoOk r config ∧ 0 ≤ env.sysNow ∧
      ((config.skipMissing = true ∨ TimesOk config (env.sysNow / 1000000000)) →
        ∀ k ∈ config.components, ∃ v, RequestLike.derive r k = .ok v) ∧
      (TimesOk config (env.sysNow / 1000000000) →
        (config.skipMissing = true ∨ ∀ k ∈ config.components, Available r config k) →
        WritableParams config (env.sysNow / 1000000000) ∧
          ∀ k ∈ config.components, Available r config k → ∃ i, ListIdent k i) := by
  have hav : ∀ {r1 comps}, addAutoHeaders r config env = .ok (r1, comps) → config.skipMissing = false →
      ∀ k, valueOf r1 k ≠ none ↔ Available r config k := fun ha hs k =>
    valueOf_addAuto_iff ha (hvis.resolve_left (by rw [hs]; simp)) k
  have hder : ∀ {r1 comps}, addAutoHeaders r config env = .ok (r1, comps) →
      ∀ d, valueOf r1 (.derived d) = valueOf r (.derived d) := fun ha d =>
    valueOf_of_derive ((addAuto_facts ha).touches.derive fun n _ e => by cases e)
  have hsup : ∀ d, Available r config (.derived d) → valueOf r (.derived d) ≠ none := by
    rintro d (h | ⟨h, _⟩ | ⟨h, _⟩ | ⟨h, _⟩)
    · exact h
    · cases h
    · cases h
    · cases h
  rw [sign_returns_iff]
  constructor
  · rintro ⟨r1, comps, ha, hn, h⟩
    have hcomps := addAuto_comps ha
    obtain ⟨hok, hd⟩ := addAuto_returns_iff.1 ⟨_, ha⟩
    refine ⟨hok, hn, ?_, ?_⟩
    · rintro (hs | ht)
      · exact hd hs
      · cases hs : config.skipMissing with
        | true => exact hd hs
        | false =>
          rw [hs] at hcomps
          simp only [Bool.false_eq_true, if_false] at hcomps
          subst hcomps
          exact fun k hk => (derive_addAuto_ok ha k).1 ((canonicalize_returns_iff.1 (h ht)).1 k hk)
    · intro ht hpres
      obtain ⟨_, hm | ⟨hl, ps, hps⟩⟩ := canonicalize_returns_iff.1 (h ht)
      · exfalso
        obtain ⟨k, hk, hv⟩ := hm
        simp only at hk
        rw [hcomps] at hk
        split at hk
        · have := (List.mem_filter.1 hk).2
          rw [hv] at this; cases this
        · rename_i hs
          exact (hav ha (by simpa using hs) k).2 ((hpres.resolve_left hs) k hk) hv
      · refine ⟨(paramsText_signed_iff.1 hps).1, fun k hk hk' => ?_⟩
        cases k with
        | header n => exact listIdent_header n
        | derived d =>
          apply hl
          show _ ∈ comps
          rw [hcomps]
          split
          · refine List.mem_filter.2 ⟨hk, ?_⟩
            rw [hder ha]
            exact Option.isSome_iff_ne_none.2 (hsup d hk')
          · exact hk
  · rintro ⟨hok, hn, hd, hw⟩
    obtain ⟨⟨r1, comps⟩, ha⟩ := addAuto_returns_iff (env := env).2 ⟨hok, fun hs => hd (.inl hs)⟩
    have hcomps := addAuto_comps ha
    have hsub : ∀ k ∈ comps, k ∈ config.components := by
      intro k hk
      rw [hcomps] at hk
      split at hk
      · exact (List.mem_filter.1 hk).1
      · exact hk
    refine ⟨r1, comps, ha, hn, fun ht => canonicalize_returns_iff.2 ⟨fun k hk =>
      (derive_addAuto_ok ha k).2 (hd (.inr ht) k (hsub k hk)), ?_⟩⟩
    by_cases hpres : config.skipMissing = true ∨ ∀ k ∈ config.components, Available r config k
    · obtain ⟨h1, h2⟩ := hw ht hpres
      refine .inr ⟨fun k hk => ?_, _, paramsText_signed_iff.2 ⟨h1, rfl⟩⟩
      cases k with
      | header n => exact listIdent_header n
      | derived d =>
        refine h2 _ (hsub _ hk) ?_
        have hk : _ ∈ comps := hk
        rw [hcomps] at hk
        split at hk
        · have hv := (List.mem_filter.1 hk).2
          rw [hder ha] at hv
          exact .inl (Option.isSome_iff_ne_none.1 hv)
        · rename_i hs
          exact hpres.resolve_left hs _ hk
    · have hs : config.skipMissing = false := by
        cases h : config.skipMissing with
        | true => exact absurd (.inl h) hpres
        | false => rfl
      left
      refine Classical.byContradiction fun hne => hpres (.inr fun k hk => (hav ha hs k).1 fun hv => hne ⟨k, ?_, hv⟩)
      show k ∈ comps
      rw [hcomps, hs]
      exact hk

/-- C28, exactly. `sign` panics if and only if an automatic header cannot be written; or the clock is before the epoch;
or the value of a covered component cannot be computed (which matters only if missing components are skipped or the
times are acceptable); or the times are acceptable, no component is missing (or missing ones are skipped), and a
parameter or a covered component that has a value cannot be written. (Unless missing components are skipped, the texts of
the automatic headers are taken to be visible ASCII: whether a header with other characters can be read back depends on
the request type.) -/
theorem C28_exact (r : R) (config : SigningConfig) (env : SignEnv)
    (hvis : config.skipMissing = true ∨ AutoVisible r config) :
    (∃ p, sign r config env = .error p) ↔
      ¬ AutoOk r config ∨ env.sysNow < 0 ∨
      ((config.skipMissing = true ∨ TimesOk config (env.sysNow / 1000000000)) ∧
        ∃ k ∈ config.components, ∃ p, RequestLike.derive r k = .error p) ∨
      (TimesOk config (env.sysNow / 1000000000) ∧
        (config.skipMissing = true ∨ ∀ k ∈ config.components, Available r config k) ∧
        (¬ WritableParams config (env.sysNow / 1000000000) ∨
          ∃ k ∈ config.components, Available r config k ∧ ∀ i, ¬ ListIdent k i)) := by
  have np : (¬ ∃ p, sign r config env = .error p) ↔ ∃ r' res, sign r config env = .ok (r', res) := by
    cases sign r config env with
    | error p => simp
    | ok x => obtain ⟨a, b⟩ := x; simp
  have hder : ∀ k, (∃ v, RequestLike.derive r k = .ok v) ↔ ¬ ∃ p, RequestLike.derive r k = .error p := by
    intro k
    cases RequestLike.derive r k with
    | error p => simp
    | ok v => simp
  rw [← Classical.not_not (a := ∃ p, sign r config env = .error p), np, sign_returns_exact hvis]
  simp only [hder]
  constructor
  · intro h
    refine Classical.byContradiction fun hc => h ?_
    simp only [not_or] at hc
    obtain ⟨h1, h2, h3, h4⟩ := hc
    refine ⟨Classical.not_not.1 h1, by omega, fun ht k hk hp => h3 ⟨ht, k, hk, hp⟩, fun ht hpres => ⟨?_, fun k hk hav => ?_⟩⟩
    · exact Classical.byContradiction fun hw => h4 ⟨ht, hpres, .inl hw⟩
    · exact Classical.byContradiction fun hi => h4 ⟨ht, hpres, .inr ⟨k, hk, hav, fun i h => hi ⟨i, h⟩⟩⟩
  · rintro (h | h | ⟨ht, k, hk, hp⟩ | ⟨ht, hpres, h⟩) ⟨h1, h2, h3, h4⟩
    · exact h h1
    · omega
    · exact h3 ht k hk hp
    · obtain ⟨h5, h6⟩ := h4 ht hpres
      rcases h with h | ⟨k, hk, hav, hi⟩
      · exact h h5
      · obtain ⟨i, h⟩ := h6 k hk hav
        exact hi i h

/-- C28 (partial). What is missing is exactly what `C28_neg_unwritable_panics` shows: with writable parameter values and
printable component identifiers, a clock after the epoch, component values that can be computed without panic, and host
and digest texts that are valid header values if they have to be added, `sign` returns. -/
theorem C28_no_panic_partial (r : R) (config : SigningConfig) (env : SignEnv) (hn : 0 ≤ env.sysNow)
    (hw : WritableParams config (env.sysNow / 1000000000)) (hids : ∀ k ∈ config.components, ∃ i, ListIdent k i)
    (hd : ∀ k ∈ config.components, ∃ v, RequestLike.derive r k = .ok v) (ha : AutoOk r config) :
    ∃ r' res, sign r config env = .ok (r', res) := by
  have hne : ∀ {p}, sign r config env ≠ .error p := by
    intro p hp
    obtain ⟨⟨r1, comps⟩, hauto⟩ := addAuto_total (env := env) ha fun _ => hd
    have hsub : ∀ k ∈ comps, k ∈ config.components := by
      intro k hk
      rw [addAuto_comps hauto] at hk
      split at hk
      · exact (List.mem_filter.1 hk).1
      · exact hk
    obtain ⟨r', res, h⟩ := sign_returns_iff.2 ⟨r1, comps, hauto, hn, fun _ => canonicalize_returns_iff.2
      ⟨fun k hk => (derive_addAuto_ok hauto k).2 (hd k (hsub k hk)), .inr ⟨fun k hk => hids k (hsub k hk), _,
        paramsText_signed_iff.2 ⟨hw, rfl⟩⟩⟩⟩
    rw [h] at hp
    cases hp
  cases hs : sign r config env with
  | error p => exact absurd hs hne
  | ok x => exact ⟨x.1, x.2, rfl⟩

theorem valueOf_addAuto {r r1 : R} {config : SigningConfig} {env : SignEnv} {comps : List SignatureComponent}
    (hauto : addAutoHeaders r config env = .ok (r1, comps)) {k : SignatureComponent}
    (h : valueOf r k ≠ none) : RequestLike.derive r1 k = RequestLike.derive r k := by
  refine (addAuto_facts hauto).touches.derive fun n hn e => ?_
  subst e
  exact h (derive_valueOf hn.2)

/-- C28, exactly, for configurations that add no headers (as the validator's): `sign` panics if and only if the clock
is before the epoch, or the times are acceptable, no component is missing (or missing ones are skipped), and a parameter
or a covered component that has a value cannot be written. -/
theorem C28_plain_exact (r : R) (config : SigningConfig) (env : SignEnv) (hna : NoAuto config)
    (hd : ∀ k ∈ config.components, ∃ v, RequestLike.derive r k = .ok v) :
    (∃ p, sign r config env = .error p) ↔
      env.sysNow < 0 ∨ (TimesOk config (env.sysNow / 1000000000) ∧
        (config.skipMissing = true ∨ ∀ k ∈ config.components, valueOf r k ≠ none) ∧
        (¬ WritableParams config (env.sysNow / 1000000000) ∨
          ∃ k ∈ config.components, valueOf r k ≠ none ∧ ∀ i, ¬ ListIdent k i)) := by
  have hno : ∀ n, ¬ AutoWrite r config n := by
    rintro n ⟨⟨_, h⟩ | ⟨_, h⟩ | ⟨_, h⟩, _⟩
    · rw [hna.1] at h; cases h
    · rw [hna.2.1] at h; cases h
    · rw [hna.2.2] at h; cases h
  have hav : ∀ k, Available r config k ↔ valueOf r k ≠ none := by
    intro k
    refine ⟨?_, .inl⟩
    rintro (h | ⟨_, h⟩ | ⟨_, h, _⟩ | ⟨_, h, _⟩)
    · exact h
    · rw [hna.1] at h; cases h
    · rw [hna.2.1] at h; cases h
    · rw [hna.2.2] at h; cases h
  rw [C28_exact r config env (.inr ⟨fun h => absurd h (hno _), fun h => absurd h (hno _)⟩)]
  have h : ¬ AutoOk r config ↔ False := ⟨fun h => h hna.autoOk, False.elim⟩
  have h' : ((config.skipMissing = true ∨ TimesOk config (env.sysNow / 1000000000)) ∧
        ∃ k ∈ config.components, ∃ p, RequestLike.derive r k = .error p) ↔ False := by
    refine ⟨?_, False.elim⟩
    rintro ⟨_, k, hk, p, hp⟩
    obtain ⟨v, hv⟩ := hd k hk
    rw [hv] at hp; cases hp
  rw [h, h', false_or, false_or]
  simp only [hav]

/-- Success, exactly, for configurations that add no headers and skip no components. -/
theorem sign_plain_iff {r r' : R} {config : SigningConfig} {env : SignEnv} (hna : NoAuto config) (hsk : config.skipMissing = false)
    (hd : ∀ k ∈ config.components, ∃ v, RequestLike.derive r k = .ok v) :
    sign r config env = .ok (r', .ok ()) ↔
      0 ≤ env.sysNow ∧ TimesOk config (env.sysNow / 1000000000) ∧ WritableParams config (env.sysNow / 1000000000) ∧
      ∃ ids lids vals vi vs, Values r config.components vals ∧ Forall2 Ident config.components ids ∧
        Forall2 ListIdent config.components lids ∧
        HeaderValue.fromStr (str% "sig=" ++ (specListText lids ++ signedParamsText config (env.sysNow / 1000000000))) = some vi ∧
        HeaderValue.fromStr (config.label ++ str% "=:" ++ config.signature.sign env.rnd
          (utf8 (specBase ids lids vals (signedParamsText config (env.sysNow / 1000000000)))) ++ str% ":") = some vs ∧
        r' = ClientRequestLike.setHeader (ClientRequestLike.setHeader r hSignatureInput vi) hSignature vs := by
  have hauto := hna.addAuto (env := env) hd
  rw [hsk] at hauto
  simp only [Bool.false_eq_true, if_false] at hauto
  constructor
  · intro h
    obtain ⟨r1, comps, ha, hn, h⟩ := sign_iff.1 h
    rw [hauto] at ha
    cases ha
    rcases h with ⟨e, _, _, h⟩ | ⟨cc, hb, ⟨e, _, _, h⟩ | ⟨base, si, x, hcan, hx, ⟨_, _, h⟩ | ⟨v, hv, ⟨_, _, h⟩ | ⟨w, hw, hr', _⟩⟩⟩⟩
    · cases h
    · cases h
    · cases h
    · cases h
    obtain ⟨ht, rfl⟩ := buildCanonicalizeConfig_ok_iff.1 hb
    obtain ⟨vals, ids, lids, ps, h1, h2, h3, h4, rfl, rfl⟩ := canonicalize_ok_iff.1 hcan
    obtain ⟨hw', rfl⟩ := paramsText_signed_iff.1 h4
    have hdisp := display_default (display_list_iff.2 ⟨lids, _, h3, h4, rfl⟩)
    have e : SignatureInput.display _ = .ok x := hx
    rw [show CanonicalizeConfig.toSignatureInput _ = _ from rfl] at hdisp
    rw [e] at hdisp
    cases hdisp
    exact ⟨hn, ht, hw', ids, lids, vals, v, w, h1, h2, h3, hv, hw, hr'⟩
  · rintro ⟨hn, ht, hw, ids, lids, vals, vi, vs, h1, h2, h3, h4, h5, h6⟩
    have hps : ParamsText (SignedParams config (env.sysNow / 1000000000)) _ := paramsText_signed_iff.2 ⟨hw, rfl⟩
    have hdisp := display_default (c := ⟨none, config.components, ⟨SignedParams config (env.sysNow / 1000000000)⟩⟩)
      (display_list_iff.2 ⟨lids, _, h3, hps, rfl⟩)
    refine sign_iff.2 ⟨r, _, hauto, hn, .inr ⟨_, buildCanonicalizeConfig_ok_iff.2 ⟨ht, rfl⟩, .inr ⟨_, _, _,
      canonicalize_ok_iff.2 ⟨vals, ids, lids, _, h1, h2, h3, hps, rfl, rfl⟩, hdisp,
      .inr ⟨vi, h4, .inr ⟨vs, h5, h6, rfl⟩⟩⟩⟩⟩

/-- Both sides occur: the run of `exSigning` meets the assumptions and returns, and a component with an unwritable
parameter panics. -/
example : (∀ k ∈ exSigning.components, ∃ v, RequestLike.derive exReqwest k = .ok v) ∧ exSigning.skipMissing = true := by
  refine ⟨?_, rfl⟩
  intro k hk
  have hk : k ∈ [SignatureComponent.derived (.new atMethod), .header hHost, .header hDigest, .header hDate] := hk
  simp only [List.mem_cons, List.not_mem_nil, or_false] at hk
  rcases hk with rfl | rfl | rfl | rfl <;> exact ⟨_, rfl⟩

example : ∃ p, sign exReqwest { exSigning with
    components := [.derived ((DerivedComponent.new atMethod).withParam (str% "Bad Name") [])] } exSignEnv = .error p := ⟨_, rfl⟩

/-- The assumption of `C28_exact` when missing components are not skipped; covering a header that is neither there nor
added makes signing fail without panic although the nonce cannot be written. -/
example : AutoVisible exReqwest { exSigning with skipMissing := false } := by
  constructor
  · intro _ s hs; cases hs; rfl
  · intro _ s hs; cases hs; rfl
example : ∃ r', sign exReqwest { exSigning.setNonce (str% "not a token") with
    skipMissing := false, components := [.header hSignature] } exSignEnv = .ok (r', .error .canonicalize) := ⟨_, rfl⟩
example : sign exReqwest { exSigning.setNonce (str% "not a token") with
    skipMissing := false, components := [.header hHost] } exSignEnv = .error .displayComponentList := rfl

/-- Non-vacuity of the partial theorem. -/
example : WritableParams exSigning 150 ∧ (∀ k ∈ exSigning.components, ∃ i, ListIdent k i) ∧
    (∀ k ∈ exSigning.components, ∃ v, RequestLike.derive exReqwest k = .ok v) ∧ AutoOk exReqwest exSigning := by
  refine ⟨((paramsText_signed_iff (ps := signedParamsText exSigning 150)).1 (serParams_iff.1 rfl)).1, ?_, ?_, ?_, ?_⟩
  · intro k hk
    have hk : k ∈ [SignatureComponent.derived (.new atMethod), .header hHost, .header hDigest, .header hDate] := hk
    simp only [List.mem_cons, List.not_mem_nil, or_false] at hk
    rcases hk with rfl | rfl | rfl | rfl <;> exact ⟨_, listIdent_iff.2 rfl⟩
  · intro k hk
    have hk : k ∈ [SignatureComponent.derived (.new atMethod), .header hHost, .header hDigest, .header hDate] := hk
    simp only [List.mem_cons, List.not_mem_nil, or_false] at hk
    rcases hk with rfl | rfl | rfl | rfl <;> exact ⟨_, rfl⟩
  · intro _ s hs; cases hs; exact fromStr_ok_iff.1 ⟨_, rfl⟩
  · intro _ s hs; cases hs; exact fromStr_ok_iff.1 ⟨_, rfl⟩

/-! ### C29 -/

/-- C29. After a successful `sign`: let `comps` be the covered components, `vals` their values at the moment of signing,
`ids` and `lids` their identifiers. Then the only `Signature-Input` value is
`sig=(lids);alg="…";created=…;expires=…;keyid="…";nonce=…` with the configured values, and the only `Signature` value is
`label=:S:` with `S` the configured algorithm's signature of the signature base with these lines and parameters. -/
theorem C29_emitted_headers [HeaderStore R] (r r' : R) (config : SigningConfig) (env : SignEnv)
    (h : sign r config env = .ok (r', .ok ())) :
    ∃ ids lids vals vi vs,
      Forall2 Ident (coveredComponents r r' config) ids ∧ Forall2 ListIdent (coveredComponents r r' config) lids ∧
      (coveredComponents r r' config).map (signedValue r r') = vals.map some ∧
      (HeaderStore.headers r').getAll hSignatureInput = [vi] ∧
      vi.bytes = utf8 (str% "sig=" ++ specListText lids ++ signedParamsText config (env.sysNow / 1000000000)) ∧
      (HeaderStore.headers r').getAll hSignature = [vs] ∧
      vs.bytes = utf8 (config.label ++ str% "=:" ++ config.signature.sign env.rnd
        (utf8 (specBase ids lids vals (signedParamsText config (env.sysNow / 1000000000)))) ++ str% ":") := by
  obtain ⟨r1, ids, lids, vals, vi, vs, _, _, _, hw, hsv, h1, h2, h3, h4, h5, rfl⟩ := sign_success h
  refine ⟨ids, lids, vals, vi, vs, h2, h3, ?_, ?_, ?_, ?_, ?_⟩
  · have := values_of_map h1
    rw [← this]
    exact List.map_congr_left fun k _ => hsv k
  · rw [HeaderStore.headers_set, HeaderMap.getAll_insert_ne _ _ hSignature_ne_hInput.symm, HeaderStore.headers_set,
      HeaderMap.getAll_insert_self]
  · rw [fromStr_bytes h4, List.append_assoc]
  · rw [HeaderStore.headers_set, HeaderMap.getAll_insert_self]
  · rw [fromStr_bytes h5]

example : exReqwestSigned.headers.getAll hSignatureInput =
    [⟨utf8 (str% "sig=(\"@method\" \"host\" \"digest\" \"date\");alg=\"toy\";created=150;expires=210;keyid=\"k1\";nonce=n1"), rfl⟩] ∧
    signedParamsText exSigning 150 = str% ";alg=\"toy\";created=150;expires=210;keyid=\"k1\";nonce=n1" := ⟨rfl, rfl⟩

/-! ### C46 -/

/-- C46. A streaming body gets no digest header and does not make signing fail by itself; a body in memory gets the
header `NAME=digest(body)` if there was none; in all cases the body stays as it was. -/
theorem C46_reqwest_bodies (r r' : ReqwestRequest) (config : SigningConfig) (env : SignEnv) (res : Except Error Unit)
    (hc : config.computeDigest = true) (hd : RequestLike.derive r (.header hDigest) = .ok none)
    (h : sign r config env = .ok (r', res)) :
    r'.body = r.body ∧
    (r.body = .stream ∨ r.body = .absent → r'.headers.getAll hDigest = r.headers.getAll hDigest) ∧
    (∀ b, r.body = .bytes b → (config.digest.name ++ str% "=" ++ config.digest.digest b).all isVisibleChar = true →
      RequestLike.derive r' (.header hDigest) = .ok (some (config.digest.name ++ str% "=" ++ config.digest.digest b))) := by
  refine ⟨(C24_reqwest_frame r r' config env res h).2.2.1, fun hb => ?_, fun b hb hvis => ?_⟩
  · refine (sign_noDigest (by rcases hb with hb | hb <;> simp [ClientRequestLike.computeDigest, hb]) h).reqwest.2.2.2
      hDigest (fun hn => hn rfl)
  · exact (C52_automatic_headers r r' config env res h).2.2.1 hc hd (config.digest.digest b)
      (by simp [ClientRequestLike.computeDigest, hb]) hvis

/-- C46 for blocking requests: bytes and readable readers get a digest of their content, everything else none; what the
body yields when it is sent is unchanged. -/
theorem C46_blocking_bodies (r r' : BlockingRequest) (config : SigningConfig) (env : SignEnv) (res : Except Error Unit)
    (hc : config.computeDigest = true) (hd : RequestLike.derive r (.header hDigest) = .ok none)
    (h : sign r config env = .ok (r', res)) :
    r'.body.content = r.body.content ∧
    (r.body = .reader none ∨ r.body = .absent → r'.headers.getAll hDigest = r.headers.getAll hDigest) ∧
    (∀ b, r.body = .bytes b ∨ r.body = .reader (some b) →
      (config.digest.name ++ str% "=" ++ config.digest.digest b).all isVisibleChar = true →
      RequestLike.derive r' (.header hDigest) = .ok (some (config.digest.name ++ str% "=" ++ config.digest.digest b))) := by
  refine ⟨(C24_blocking_frame r r' config env res h).2.2.1, fun hb => ?_, fun b hb hvis => ?_⟩
  · refine (sign_noDigest (by rcases hb with hb | hb <;> simp [ClientRequestLike.computeDigest, hb]) h).blocking.2.2.2
      hDigest (fun hn => hn rfl)
  · exact (C52_automatic_headers r r' config env res h).2.2.1 hc hd (config.digest.digest b)
      (by rcases hb with hb | hb <;> simp [ClientRequestLike.computeDigest, hb]) hvis

/-- C46 for the validator's requests: a body gets a digest of its content, a request without a body none; the body is unchanged. -/
theorem C46_mock_bodies (r r' : MockRequest) (config : SigningConfig) (env : SignEnv) (res : Except Error Unit)
    (hc : config.computeDigest = true) (hd : r.headers.getAll hDigest = [])
    (h : sign r config env = .ok (r', res)) :
    r'.body = r.body ∧ (r.body = none → r'.headers.getAll hDigest = []) ∧
    (∀ b, r.body = some b → (config.digest.name ++ str% "=" ++ config.digest.digest b).all isVisibleChar = true →
      r'.derive (.header hDigest) = .ok (some (config.digest.name ++ str% "=" ++ config.digest.digest b))) := by
  refine ⟨(C24_mock_frame r r' config env res h).2.2.2.2.1, fun hb => ?_, fun b hb hvis => ?_⟩
  · rw [← hd]
    exact (sign_noDigest (by simp [ClientRequestLike.computeDigest, hb]) h).mock.2.2.2.2.2 hDigest (fun hn => hn rfl)
  · refine (C52_automatic_headers r r' config env res h).2.2.1 hc ?_ (config.digest.digest b)
      (by simp [ClientRequestLike.computeDigest, hb]) hvis
    show Except.ok ((r.headers.get hDigest).map _) = _
    rw [HeaderMap.get_eq_head_getAll, hd]
    rfl

/-- With a body and without one. -/
example : (∃ r', sign (exMock [] (some (utf8 (str% "hello")))) exSigning exSignEnv = .ok (r', .ok ()) ∧
      r'.derive (.header hDigest) = .ok (some (str% "TOY=aGVsbG8="))) ∧
    (∃ r', sign (exMock [] none) exSigning exSignEnv = .ok (r', .ok ()) ∧ r'.headers.getAll hDigest = []) := ⟨⟨_, rfl, rfl⟩, ⟨_, rfl, rfl⟩⟩

/-- C46: when a digest is wanted and no digest header is readable, a reader that can be read to its end is left in
memory, so that it can still be sent after its content was digested; in every other case the body is left as it was. -/
theorem C46_reader_buffered (r r' : BlockingRequest) (config : SigningConfig) (env : SignEnv) (res : Except Error Unit)
    (h : sign r config env = .ok (r', res)) :
    (∀ b, config.computeDigest = true → RequestLike.derive r (.header hDigest) = .ok none → r.body = .reader (some b) → r'.body = .bytes b) ∧
    ((config.computeDigest = false ∨ RequestLike.derive r (.header hDigest) ≠ .ok none ∨ ∀ b, r.body ≠ .reader (some b)) → r'.body = r.body) := by
  have eh : RequestLike.derive r (.header hDigest) = .ok none ↔ reqwestHeader r.headers hDigest = none :=
    ⟨fun h => Except.ok.inj h, fun h => congrArg Except.ok h⟩
  rw [ne_eq, eh, ← ne_eq]
  obtain ⟨r1, comps, ha, _, h⟩ := sign_iff.1 h
  have e1 : r'.body = r1.body := by
    rcases h with ⟨e, _, rfl, _⟩ | ⟨cc, _, ⟨e, _, rfl, _⟩ | ⟨base, si, x, _, _, ⟨_, rfl, _⟩ | ⟨v, _, ⟨_, rfl, _⟩ | ⟨w, _, rfl, _⟩⟩⟩⟩ <;> rfl
  obtain ⟨a, b, h1, h2, h3, _⟩ := addAutoHeaders_iff.1 ha
  have ea : a.body = r.body := by
    rcases addDateHeader_iff.1 h1 with ⟨_, _, v, _, rfl⟩ | ⟨_, rfl⟩ <;> rfl
  have eb : b.body = a.body := by
    rcases addHostHeader_iff.1 h2 with ⟨host, v, g1, g2, g3, g4, rfl⟩ | ⟨g1, rfl⟩ <;> rfl
  have ed : RequestLike.derive b (.header hDigest) = RequestLike.derive r (.header hDigest) :=
    ((addHost_facts h2).2.1 _ (header_ne hDigest_ne_hHost)).trans ((addDate_facts h1).2.1 _ (header_ne hDigest_ne_hDate))
  have ed : (Except.ok (reqwestHeader b.headers hDigest) : P (Option Str)) = .ok (reqwestHeader r.headers hDigest) := ed
  have e3 : r1.body = if config.computeDigest = true ∧ reqwestHeader r.headers hDigest = none
      then (ClientRequestLike.computeDigest b config.digest).1.body else b.body := by
    rcases addDigestHeader_iff.1 h3 with ⟨s, v, g1, g2, g3, g4, rfl⟩ | ⟨g1, g2, g3, rfl⟩ | ⟨g1 | ⟨s, g1⟩, rfl⟩
    · rw [if_pos ⟨g1, Except.ok.inj (ed.symm.trans g2)⟩]; rfl
    · rw [if_pos ⟨g1, Except.ok.inj (ed.symm.trans g2)⟩]
    · rw [if_neg (by simp [g1])]
    · rw [if_neg (by have := Except.ok.inj (ed.symm.trans g1); simp [this])]
  rw [e1, e3, ← ea, ← eb]
  constructor
  · intro c hc hd hb
    rw [if_pos ⟨hc, hd⟩]
    simp [ClientRequestLike.computeDigest, hb]
  · intro hc
    split
    · rename_i hh
      simp only [ClientRequestLike.computeDigest]
      cases hb : b.body with
      | absent => simp [hb]
      | bytes c => simp [hb]
      | reader o =>
        cases o with
        | none => simp [hb]
        | some c =>
          rcases hc with hc | hc | hc
          · rw [hh.1] at hc; cases hc
          · exact absurd hh.2 hc
          · exact absurd hb (hc c)
    · rfl

/-- Non-vacuity: a streaming request is signed without digest, a reader's content is digested. -/
example : (∃ r', sign { exReqwest with body := .stream } exSigning exSignEnv = .ok (r', .ok ()) ∧
      RequestLike.derive r' (.header hDigest) = .ok none) ∧
    (∃ r', sign (⟨exReqwest.method, exReqwest.url, exReqwest.headers, .reader (some (utf8 (str% "hello")))⟩ : BlockingRequest)
        exSigning exSignEnv = .ok (r', .ok ()) ∧ r'.body = .bytes (utf8 (str% "hello")) ∧
      RequestLike.derive r' (.header hDigest) = .ok (some (str% "TOY=aGVsbG8="))) := ⟨⟨_, rfl, rfl⟩, ⟨_, rfl, rfl, rfl⟩⟩

end Httpsig
