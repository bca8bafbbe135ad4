import Verif.Props.Unsigned
import Verif.Props.Wire
import Verif.Props.Required
/-
C101–C105: contracts that the documentation of the library states in passing.
-/
set_option linter.unusedSectionVars false
namespace Httpsig
open Sfv
variable [Deps]

/-! ### C101: reading reflects writing -/

/-- C101. A header set on a `reqwest` request is the one that is read: its text, or nothing if it is not text, whatever was there
before. -/
theorem C101_reqwest_set (r : ReqwestRequest) (h : HeaderName) (v : HeaderValue) :
    RequestLike.derive (ClientRequestLike.setHeader r h v) (.header h) = .ok v.toStr ∧
    ∀ k, k ≠ .header h → RequestLike.derive (ClientRequestLike.setHeader r h v) k = RequestLike.derive r k := by
  refine ⟨?_, fun k hk => LawfulClient.derive_set_ne r h v k hk⟩
  show Except.ok (reqwestHeader (r.headers.insert h v) h) = _
  unfold reqwestHeader
  rw [HeaderMap.get_insert_self]
  rfl

/-- C101 for blocking requests. -/
theorem C101_blocking_set (r : BlockingRequest) (h : HeaderName) (v : HeaderValue) :
    RequestLike.derive (ClientRequestLike.setHeader r h v) (.header h) = .ok v.toStr ∧
    ∀ k, k ≠ .header h → RequestLike.derive (ClientRequestLike.setHeader r h v) k = RequestLike.derive r k := by
  refine ⟨?_, fun k hk => LawfulClient.derive_set_ne r h v k hk⟩
  show Except.ok (reqwestHeader (r.headers.insert h v) h) = _
  unfold reqwestHeader
  rw [HeaderMap.get_insert_self]
  rfl

/-- C101 for the validator's requests, which read a value that is not text as the empty one. -/
theorem C101_mock_set (r : MockRequest) (h : HeaderName) (v : HeaderValue) :
    RequestLike.derive (self := ClientRequestLike.toRequestLike) (ClientRequestLike.setHeader r h v) (.header h) =
      .ok (some (v.toStr.getD [])) ∧
    ∀ k, k ≠ .header h → RequestLike.derive (self := ClientRequestLike.toRequestLike) (ClientRequestLike.setHeader r h v) k =
      RequestLike.derive (self := ClientRequestLike.toRequestLike) r k := by
  refine ⟨?_, fun k hk => LawfulClient.derive_set_ne r h v k hk⟩
  show Except.ok (((r.headers.insert h v).get h).map fun v => v.toStr.getD []) = _
  rw [HeaderMap.get_insert_self]
  rfl

/-- C101. `has_component` says yes exactly if `derive` gives a value, after any sequence of calls of `set_header`; and one panics
exactly if the other does. For each of the three request types, whose instances of `LawfulClient` are proved in `Lemmas/Sign`. -/
theorem C101_has_component {R : Type} [ClientRequestLike R] [LawfulClient R] (r : R) (sets : List (HeaderName × HeaderValue))
    (k : SignatureComponent) :
    let r' := sets.foldl (fun x s => ClientRequestLike.setHeader x s.1 s.2) r
    (RequestLike.hasComponent r' k = .ok true ↔ ∃ v, RequestLike.derive r' k = .ok (some v)) ∧
    (RequestLike.hasComponent r' k = .ok false ↔ RequestLike.derive r' k = .ok none) ∧
    ∀ p, RequestLike.hasComponent r' k = .error p ↔ RequestLike.derive r' k = .error p := by
  intro r'
  rw [LawfulClient.has_eq]
  cases RequestLike.derive r' k with
  | error p => simp [Except.map]
  | ok v => cases v <;> simp [Except.map]

/-- C101. After any sequence of calls of `set_header`, the value read under a name is the one set last, and without one it is the
value of the original request; components that are not headers never change. -/
theorem C101_last_set {R : Type} [ClientRequestLike R] [LawfulClient R] (r : R) (sets : List (HeaderName × HeaderValue))
    (h : HeaderName) (v : HeaderValue) (s : Str) (hv : v.toStr = some s) (later : List (HeaderName × HeaderValue))
    (hl : ∀ e ∈ later, e.1 ≠ h) (k : SignatureComponent) (hk : ∀ e ∈ later, k ≠ .header e.1) :
    RequestLike.derive ((sets ++ (h, v) :: later).foldl (fun x s => ClientRequestLike.setHeader x s.1 s.2) r) (.header h) =
      .ok (some s) ∧
    RequestLike.derive (later.foldl (fun x s => ClientRequestLike.setHeader x s.1 s.2) r) k = RequestLike.derive r k := by
  have frame : ∀ (l : List (HeaderName × HeaderValue)) (x : R) (k : SignatureComponent), (∀ e ∈ l, k ≠ .header e.1) →
      RequestLike.derive (l.foldl (fun x s => ClientRequestLike.setHeader x s.1 s.2) x) k = RequestLike.derive x k := by
    intro l
    induction l with
    | nil => intro x k _; rfl
    | cons e l ih =>
      intro x k h
      rw [List.foldl_cons, ih _ _ fun e' he' => h e' (List.mem_cons_of_mem _ he')]
      exact LawfulClient.derive_set_ne _ _ _ _ (h e (List.mem_cons_self ..))
  refine ⟨?_, frame later r k hk⟩
  rw [List.foldl_append, List.foldl_cons, frame later _ _ fun e he e' => hl e he (SignatureComponent.header.inj e').symm]
  exact LawfulClient.derive_set_same _ _ _ _ hv

/-! ### C102: which key is used -/

section
variable {R Rem : Type} [ServerRequestLike R Rem]

/-- C102 fails: without a string parameter `alg` no key is used, however many are stored; such a request is never accepted. -/
theorem C102_neg_no_algorithm (req : R) (config : VerifyingConfig) (env : VerifyEnv) (rem : Rem) (keyId v : Str)
    (c : CanonicalizeConfig) (hv : RequestLike.derive req (.header hSignatureInput) = .ok (some v))
    (hc : CanonicalizeConfig.fromSignatureInput v = .ok (.ok c)) (hno : ∀ a, (str% "alg", BareItem.string a) ∉ c.params.params) :
    verify req config env ≠ .ok (.ok (rem, keyId)) := by
  intro h
  obtain ⟨a, ha⟩ := C23_alg_present_partial req config env rem keyId v c hv hc h
  exact hno a ha

/-- C102: what is done instead. A request is accepted with a key store exactly if it is accepted with a store that has only one of the
keys stored under its key id; it does not matter at which place the key was stored. -/
theorem C102_some_key_partial (req : R) (config : VerifyingConfig) (env : VerifyEnv) (rem : Rem) (keyId : Str)
    (init : List (Str × HttpSignatureVerify)) :
    verify req { config with keyProvider := (SimpleKeyProvider.new init).provideKeys } env = .ok (.ok (rem, keyId)) ↔
      ∃ k, (keyId, k) ∈ init ∧
        verify req { config with keyProvider := (SimpleKeyProvider.new [(keyId, k)]).provideKeys } env = .ok (.ok (rem, keyId)) := by
  have keys : ∀ (l : List (Str × HttpSignatureVerify)) (id : Str) (k : HttpSignatureVerify),
      k ∈ (SimpleKeyProvider.new l).provideKeys id ↔ (id, k) ∈ l := by
    intro l id k
    have := C20_keys_since_creation l [] id (fun _ h => nomatch h)
    simp only [SimpleKeyProvider.after, List.foldl_nil] at this
    rw [this]
    simp only [addedUnder, List.filterMap_nil, List.append_nil, List.mem_map, List.mem_filter, decide_eq_true_eq]
    constructor
    · rintro ⟨⟨i, x⟩, ⟨hm, hi⟩, hx⟩
      cases hi; cases hx
      exact hm
    · intro h
      exact ⟨_, ⟨h, rfl⟩, rfl⟩
  constructor
  · intro h
    obtain ⟨c, sig, base, hs, hr, hd, hg⟩ := verify_ok_iff.1 h
    obtain ⟨k, hk, hk'⟩ := hs.key
    refine ⟨k, (keys init keyId k).1 hk, verify_ok_iff.2 ⟨c, sig, base, ⟨hs.1, hs.2, hs.3, hs.4, hs.5, hs.6, hs.7, ⟨k, ?_, hk'⟩⟩, hr, hd, hg⟩⟩
    exact (keys _ _ _).2 (List.mem_singleton.2 rfl)
  · rintro ⟨k, hk, h⟩
    obtain ⟨c, sig, base, hs, hr, hd, hg⟩ := verify_ok_iff.1 h
    obtain ⟨k', hk', hv⟩ := hs.key
    have e : (keyId, k') = (keyId, k) := List.mem_singleton.1 ((keys _ _ _).1 hk')
    cases e
    exact verify_ok_iff.2 ⟨c, sig, base, ⟨hs.1, hs.2, hs.3, hs.4, hs.5, hs.6, hs.7, ⟨k, (keys _ _ _).2 hk, hv⟩⟩, hr, hd, hg⟩

/-! ### C103: `digest` as a required component -/

/-- C103. Build a verifier by any history of setter calls whose last component call names the `Digest` header: it accepts no request
without that header, in particular none without body that was not given one. -/
theorem C103_digest_required_denies (req : R) (kp : Str → List HttpSignatureVerify) (calls : List VerifyingCall)
    (config : VerifyingConfig) (hconf : verifyingAfter kp calls = .ok config) (l : List SignatureComponent)
    (hl : lastCall (fun | .requiredComponents l => some l | _ => none) calls = some l) (hn : .header hDigest ∈ l)
    (hno : RequestLike.derive req (.header hDigest) = .ok none) (env : VerifyEnv) (rem : Rem) (keyId : Str) :
    verify req config env ≠ .ok (.ok (rem, keyId)) := by
  intro h
  obtain ⟨_, _, _, v, _, _, _, _, hv, _⟩ := C11_setter req kp calls config hconf l hl hDigest hn env rem keyId h
  rw [hno] at hv
  cases hv

/-- C103. With digests validated and required instead, a request for which the server has neither body nor `Digest` header passes:
whether it is accepted does not depend on the two digest options. -/
theorem C103_options_admit (req : R) (config : VerifyingConfig) (env : VerifyEnv) (keyId : Str) (rem : Rem) (validate require : Bool)
    (hno : RequestLike.derive req (.header hDigest) = .ok none)
    (hbody : ServerRequestLike.completeWithDigest req documentedSha256 = (none, rem)) :
    (∃ rem', verify req { config with validateDigest := validate, requireDigest := require } env = .ok (.ok (rem', keyId))) ↔
      ∃ rem' : Rem, verify req config env = .ok (.ok (rem', keyId)) := by
  have dig : ∀ vc : VerifyingConfig, ∃ rem', DigestOk req vc rem' := by
    intro vc
    cases hr : vc.requireDigest with
    | true => exact ⟨rem, .inr ⟨hno, by rw [hr]; exact hbody⟩⟩
    | false => exact ⟨ServerRequestLike.complete req, .inr ⟨hno, by rw [hr]; rfl⟩⟩
  constructor
  · rintro ⟨_, h⟩
    obtain ⟨c, sig, base, hs, hr, hd, _⟩ := verify_ok_iff.1 h
    obtain ⟨rem', hg⟩ := dig config
    exact ⟨rem', verify_ok_iff.2 ⟨c, sig, base, ⟨hs.1, hs.2, hs.3, hs.4, hs.5, hs.6, hs.7, hs.8⟩, hr, hd, hg⟩⟩
  · rintro ⟨_, h⟩
    obtain ⟨c, sig, base, hs, hr, hd, _⟩ := verify_ok_iff.1 h
    obtain ⟨rem', hg⟩ := dig { config with validateDigest := validate, requireDigest := require }
    exact ⟨rem', verify_ok_iff.2 ⟨c, sig, base, ⟨hs.1, hs.2, hs.3, hs.4, hs.5, hs.6, hs.7, hs.8⟩, hr, hd, hg⟩⟩

end

/-! ### C104: the example of the README -/

/-- C104 fails. Sign any request as the README does (label `sig`, any key and key id, all options at their defaults). Put the two
signature headers on any other request with any body, with a `Digest` header for that body: a verifier for the key, with all options
at their defaults except date validation (which accepts nothing, see C08), accepts it at any time. -/
theorem C104_neg_readme_transfer (r r' : ReqwestRequest) (keyId : Str) (key : Bytes) (env : SignEnv)
    (h : sign r (SigningConfig.newDefault (str% "sig") keyId key) env = .ok (r', .ok ())) :
    ∃ vi vs, r'.headers.getAll hSignatureInput = [vi] ∧ r'.headers.getAll hSignature = [vs] ∧
      ∀ (req : MockRequest) (b : Bytes) (dv : HeaderValue) (venv : VerifyEnv), req.body = some b →
        dv.toStr = some (str% "SHA-256=" ++ Base64.encode (Deps.sha256 b)) → 0 ≤ venv.sysNow →
        verify { req with headers := ((req.headers.insert hSignatureInput vi).insert hSignature vs).insert hDigest dv }
          (plainVerifier keyId (hmacSha256Verify key)) venv = .ok (.ok ((), keyId)) := by
  obtain ⟨_, _, _, vi, vs, _, _, _, h4, _, h6, _⟩ := C29_emitted_headers r r' _ env h
  have h4 : r'.headers.getAll hSignatureInput = [vi] := h4
  have h6 : r'.headers.getAll hSignature = [vs] := h6
  refine ⟨vi, vs, h4, h6, fun req b dv venv hb hdv hclock => ?_⟩
  have hp : Portable (SigningConfig.newDefault (str% "sig") keyId key) env.rnd := by
    refine ⟨fun _ h => (nomatch h), fun h => (nomatch h), ?_, fun m c hc => ?_⟩
    · show ∀ c ∈ str% "sig", ((32 ≤ c.toNat ∧ c.toNat < 127) ∨ c.toNat = 9) ∧ c ≠ '='
      decide
    · exact ⟨base64_visible _ c hc, fun e => by subst e; exact base64_no_colon (C31_rfc4648 _) hc⟩
  obtain ⟨⟨ti, hti, _⟩, ts, hts⟩ := signed_headers_readable h hp
  have hti' : Except.ok (reqwestHeader r'.headers hSignatureInput) = (.ok (some ti) : P (Option Str)) := hti
  have hts' : Except.ok (reqwestHeader r'.headers hSignature) = (.ok (some ts) : P (Option Str)) := hts
  unfold reqwestHeader at hti' hts'
  rw [HeaderMap.get_eq_head_getAll, h4] at hti'
  rw [HeaderMap.get_eq_head_getAll, h6] at hts'
  have hti' : vi.toStr = some ti := Except.ok.inj hti'
  have hts' : vs.toStr = some ts := Except.ok.inj hts'
  have n1 : hSignatureInput ≠ hDigest := fun e => nomatch congrArg HeaderName.str e
  have n2 : hSignature ≠ hDigest := fun e => nomatch congrArg HeaderName.str e
  have n3 : hSignatureInput ≠ hSignature := fun e => nomatch congrArg HeaderName.str e
  refine C06_signed_requests_verify_partial r r' (SigningConfig.newDefault (str% "sig") keyId key) env _ h ⟨?_, ?_, ?_⟩ hp rfl _ venv ()
    ⟨hmacSha256Verify key, ?_, fun m => (C45_hmac_halves_match key m env.rnd).1.2⟩ hclock (fun t ht => (nomatch ht))
    (fun t ht => (nomatch ht)) (fun c hc => (nomatch hc)) rfl (.inl ⟨str% "SHA-256=" ++ Base64.encode (Deps.sha256 b), ?_, ?_⟩)
  · rw [hti, mock_derive_header]
    simp only
    rw [HeaderMap.get_insert_ne _ _ n1, HeaderMap.get_insert_ne _ _ n3, HeaderMap.get_insert_self]
    simp [hti']
  · rw [hts, mock_derive_header]
    simp only
    rw [HeaderMap.get_insert_ne _ _ n2, HeaderMap.get_insert_self]
    simp [hts']
  · intro k hk
    exact nomatch covered_subset hk
  · show _ ∈ if keyId = keyId then _ else _
    rw [if_pos rfl]
    exact List.mem_singleton.2 rfl
  · rw [mock_derive_header]
    simp only
    rw [HeaderMap.get_insert_self]
    simp [hdv]
  · show ∃ alg value, _
    refine ⟨documentedSha256, Base64.encode (Deps.sha256 b), ?_, ?_⟩
    · obtain ⟨f1, f2, _⟩ := standard_facts (.inl rfl : StandardDigest documentedSha256)
      exact C39_entry defaultDigestProvider _ _ _ f1 f2
    · show (req.body.map documentedSha256.digest, ()) = _
      rw [hb]
      rfl

/-! ### C23: the algorithm named in the request -/

/-- C23 fails for every algorithm name: a signature made with a key for HMAC-SHA256 is accepted by that key whatever the `alg` parameter
names, `rsa-pss-sha512` or anything else that can be printed (conditions on the trip and the verifier as in C06). -/
theorem C23_neg_any_algorithm {R S Rem : Type} [ClientRequestLike R] [LawfulClient R] [ServerRequestLike S Rem] (r r' : R)
    (config : SigningConfig) (env : SignEnv) (req : S) (alg : Str) (key : Bytes)
    (hsig : config.signature = { name := alg, sign := (hmacSha256Sign key).sign })
    (h : sign r config env = .ok (r', .ok ())) (hrec : Received r r' config req) (hp : Portable config env.rnd)
    (hlabel : config.label = str% "sig") (vc : VerifyingConfig) (venv : VerifyEnv) (rem : Rem)
    (hkey : vc.keyProvider config.keyId = [hmacSha256Verify key]) (hclock : 0 ≤ venv.sysNow)
    (hw : WithinWindow config (env.sysNow / 1000000000) (venv.sysNow / 1000000000))
    (hreq : vc.requiredComponents = []) (hdate : vc.validateDate = false) (hdigest : DigestOk req vc rem) :
    (∃ v c, RequestLike.derive req (.header hSignatureInput) = .ok (some v) ∧ CanonicalizeConfig.fromSignatureInput v = .ok (.ok c) ∧
      (str% "alg", BareItem.string alg) ∈ c.params.params) ∧
    verify req vc venv = .ok (.ok (rem, config.keyId)) := by
  constructor
  · obtain ⟨⟨s, hs, hc⟩, _⟩ := signed_headers_readable h hp
    refine ⟨s, _, hrec.input.trans hs, hc, ?_⟩
    refine List.mem_map.2 ⟨(str% "alg", BareItem.string alg), ?_, rfl⟩
    show _ ∈ SignedParams config _
    unfold SignedParams
    rw [hsig]
    simp
  · refine C06_signed_requests_verify_partial r r' config env req h hrec hp hlabel vc venv rem ⟨hmacSha256Verify key, ?_, fun m => ?_⟩ hclock
      hw.1 hw.2 (fun c hc => ?_) hdate hdigest
    · rw [hkey]; exact List.mem_singleton.2 rfl
    · rw [hsig]; exact (C45_hmac_halves_match key m env.rnd).1.2
    · rw [hreq] at hc; exact nomatch hc

/-! ### C105: the `Authorization` header -/

/-- C105 fails: the documentation of `set_header` says that signing always sets the `Authorization` header. It never touches it. -/
theorem C105_neg_authorization_untouched (n : HeaderName) (hn : n.str = str% "authorization") (config : SigningConfig) (env : SignEnv)
    (res : Except Error Unit) :
    (∀ r r' : ReqwestRequest, sign r config env = .ok (r', res) → r'.headers.getAll n = r.headers.getAll n) ∧
    (∀ r r' : BlockingRequest, sign r config env = .ok (r', res) → r'.headers.getAll n = r.headers.getAll n) ∧
    ∀ r r' : MockRequest, sign r config env = .ok (r', res) → r'.headers.getAll n = r.headers.getAll n := by
  have key : ∀ {R : Type} [ClientRequestLike R] (r : R), ¬ MayWrite r config n := by
    intro R _ r h
    rcases h with rfl | rfl | ⟨⟨rfl, _⟩ | ⟨rfl, _⟩ | ⟨rfl, _⟩, _⟩ <;> exact nomatch hn
  exact ⟨fun r r' h => (C24_reqwest_frame r r' config env res h).2.2.2 n (key r),
    fun r r' h => (C24_blocking_frame r r' config env res h).2.2.2 n (key r),
    fun r r' h => (C24_mock_frame r r' config env res h).2.2.2.2.2 n (key r)⟩

/-! ### Examples -/

/-- C101: an unreadable value hides the header of a `reqwest` request and empties that of the validator's. -/
example : RequestLike.derive (ClientRequestLike.setHeader exReqwest hHost ⟨[200], rfl⟩) (.header hHost) = .ok none ∧
    RequestLike.derive exReqwest (.header hHost) = .ok (some (str% "example.com")) ∧
    RequestLike.derive (self := ClientRequestLike.toRequestLike) (ClientRequestLike.setHeader exSigned hHost ⟨[200], rfl⟩) (.header hHost) =
      .ok (some []) := ⟨(C101_reqwest_set ..).1, rfl, (C101_mock_set ..).1⟩

/-- C101: the last of three calls decides. -/
example : RequestLike.derive (List.foldl (fun (x : ReqwestRequest) (s : HeaderName × HeaderValue) => ClientRequestLike.setHeader x s.1 s.2)
    exReqwest ([(hDate, ⟨utf8 (str% "a"), rfl⟩)] ++ (hHost, ⟨utf8 (str% "b"), rfl⟩) :: [(hDate, ⟨utf8 (str% "c"), rfl⟩)])) (.header hHost) =
      .ok (some (str% "b")) :=
  (C101_last_set exReqwest [(hDate, ⟨utf8 (str% "a"), rfl⟩)] hHost ⟨utf8 (str% "b"), rfl⟩ (str% "b") rfl [(hDate, ⟨utf8 (str% "c"), rfl⟩)]
    (fun e he h => by rw [List.mem_singleton.1 he] at h; exact nomatch congrArg HeaderName.str h) (.derived (.new atMethod))
    (fun _ _ h => nomatch h)).1

/-- C102: a request whose `alg` is missing but which is otherwise accepted, and a store in which only the third key matters. -/
example : verify (exWithInput ⟨utf8 (str% "sig=(\"@method\");keyid=\"k1\""), rfl⟩) exVerifying exEnv = .ok (.error ()) ∧
    verify (exWithInput ⟨utf8 (str% "sig=(\"@method\");alg=\"toy\";keyid=\"k1\""), rfl⟩) exVerifying exEnv = .ok (.ok ((), str% "k1")) ∧
    verify exSigned { exVerifying with keyProvider := (SimpleKeyProvider.new
      [(str% "k1", exOtherKey), (str% "k2", exKey), (str% "k1", exKey)]).provideKeys } exEnv = .ok (.ok ((), str% "k1")) ∧
    verify exSigned { exVerifying with keyProvider := (SimpleKeyProvider.new
      [(str% "k1", exOtherKey), (str% "k2", exKey)]).provideKeys } exEnv = .ok (.error ()) := ⟨rfl, rfl, rfl, rfl⟩

/-- A signed request without body and digest. -/
def exBodyless : MockRequest := exMock [(hSignatureInput, ⟨utf8 (str% "sig=();alg=\"toy\";keyid=\"k1\""), rfl⟩),
  (hSignature, ⟨utf8 (str% "sig=:IkBz:"), rfl⟩)] none

/-- C103: accepted with both digest options on, refused with `digest` among the required components. -/
example : verify exBodyless { exVerifying with validateDigest := true, requireDigest := true } exEnv = .ok (.ok ((), str% "k1")) ∧
    ∃ config, verifyingAfter (fun _ => [exKey]) [.validateDate false, .requiredComponents [.header hDigest]] = .ok config ∧
      verify exBodyless config exEnv = .ok (.error ()) := ⟨rfl, _, rfl, rfl⟩

/-- Another request. -/
def exDelete : MockRequest := { exBodyless with method := ⟨str% "DELETE", rfl⟩, body := some (utf8 (str% "bye")) }

/-- C105. -/
example : (⟨str% "authorization", rfl⟩ : HeaderName).str = str% "authorization" ∧
    sign exReqwest exSigning exSignEnv = .ok (exReqwestSigned, .ok ()) := ⟨rfl, rfl⟩

end Httpsig

namespace Httpsig
section
attribute [local instance] toyDeps

/-- C104: the hypotheses are met; the transferred signature is accepted for a `DELETE` with another body, a century later. -/
example : ∃ r' vi vs, sign exReqwest (SigningConfig.newDefault (str% "sig") (str% "My Key") (utf8 (str% "secret"))) exSignEnv = .ok (r', .ok ()) ∧
    verify { exDelete with
        headers := ((exDelete.headers.insert hSignatureInput vi).insert hSignature vs).insert hDigest ⟨utf8 (str% "SHA-256=Ynll"), rfl⟩ }
      (plainVerifier (str% "My Key") (hmacSha256Verify (utf8 (str% "secret")))) ⟨4000000000000000000, 0⟩ = .ok (.ok ((), str% "My Key")) := by
  obtain ⟨r', h⟩ : ∃ r', sign exReqwest (SigningConfig.newDefault (str% "sig") (str% "My Key") (utf8 (str% "secret"))) exSignEnv = .ok (r', .ok ()) :=
    ⟨_, rfl⟩
  obtain ⟨vi, vs, _, _, hv⟩ := C104_neg_readme_transfer exReqwest r' _ _ exSignEnv h
  exact ⟨r', vi, vs, h, hv exDelete (utf8 (str% "bye")) _ _ rfl rfl (by decide)⟩

/-- C23: a configuration for which the signature goes through, although it names an RSA algorithm. -/
def exMisnamed : SigningConfig :=
  SigningConfig.new (str% "sig") (str% "k1") { name := str% "rsa-pss-sha512", sign := (hmacSha256Sign [1, 2]).sign }

example : ∃ r' vi vs, sign exReqwest exMisnamed exSignEnv = .ok (r', .ok ()) ∧
    r'.headers.get hSignatureInput = some vi ∧ r'.headers.get hSignature = some vs ∧
    vi.bytes = utf8 (str% "sig=();alg=\"rsa-pss-sha512\";keyid=\"k1\"") ∧
    verify (exMock [(hSignatureInput, vi), (hSignature, vs)] none) (plainVerifier (str% "k1") (hmacSha256Verify [1, 2])) exEnv =
      .ok (.ok ((), str% "k1")) := ⟨_, _, _, rfl, rfl, rfl, rfl, rfl⟩

end
end Httpsig
