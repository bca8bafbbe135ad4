import Verif.Lemmas.Query
import Verif.Spec.Delivery
import Verif.Props.Pipeline
/-
C06, C39: requests of each client type, sent to the server type of this repository.
-/
set_option linter.unusedSectionVars false
namespace Httpsig
open Sfv
variable [Deps]

section
variable {R S Rem : Type} [ClientRequestLike R] [LawfulClient R] [ServerRequestLike S Rem]

theorem signed_headers_readable {r r' : R} {config : SigningConfig} {env : SignEnv}
    (h : sign r config env = .ok (r', .ok ())) (hp : Portable config env.rnd) :
    (∃ s, RequestLike.derive r' (.header hSignatureInput) = .ok (some s) ∧
      CanonicalizeConfig.fromSignatureInput s = .ok (.ok (signedInput r r' config (env.sysNow / 1000000000)).norm)) ∧
    ∃ s, RequestLike.derive r' (.header hSignature) = .ok (some s) := by
  obtain ⟨r1, ids, lids, vals, vi, vs, _, _, _, hw, hsv, h1, h2, h3, h4, h5, hr'⟩ := sign_success h
  have h4p : ParamsText (signedInput r r' config (env.sysNow / 1000000000)).params.params
      (signedParamsText config (env.sysNow / 1000000000)) := paramsText_signed_iff.2 ⟨hw, rfl⟩
  obtain ⟨vi', e4, t4⟩ := fromStr_visible (visible_of_printable (inputText_printable h3 h4p))
  rw [h4] at e4; cases e4
  have hvis : (config.label ++ str% "=:" ++ config.signature.sign env.rnd
        (utf8 (specBase ids lids vals (signedParamsText config (env.sysNow / 1000000000)))) ++ str% ":").all isVisibleChar = true := by
    rw [List.all_append, List.all_append, List.all_append, visible_iff.2 fun c hc => (hp.label c hc).1,
      visible_iff.2 fun c hc => (hp.signature _ c hc).1]
    decide
  obtain ⟨vs', e5, t5⟩ := fromStr_visible hvis
  rw [h5] at e5; cases e5
  have hdisp := display_default (c := signedInput r r' config (env.sysNow / 1000000000))
    (display_list_iff.2 ⟨lids, _, h3, h4p, rfl⟩)
  have hpc := signedParams_clean (now := env.sysNow / 1000000000) hp.nonce
  obtain ⟨hk, hcs, hps⟩ := componentTidy_read hdisp (by simp [CanonicalizeConfig.getLabel])
    (fun k hk => hp.components k (covered_subset hk)) ⟨hpc.1, fun e he => ⟨(hpc.2 e he).1, (hpc.2 e he).2.tidy⟩⟩
  obtain ⟨y, hy, _, hread⟩ := read_render hk hcs hps
  rw [hdisp] at hy
  cases hy
  refine ⟨⟨str% "sig=" ++ (specListText lids ++ signedParamsText config (env.sysNow / 1000000000)), ?_, hread⟩,
    ⟨config.label ++ str% "=:" ++ config.signature.sign env.rnd
        (utf8 (specBase ids lids vals (signedParamsText config (env.sysNow / 1000000000)))) ++ str% ":", ?_⟩⟩
  · rw [hr', LawfulClient.derive_set_ne _ _ _ _ (fun e => hSignature_ne_hInput (SignatureComponent.header.inj e).symm)]
    exact LawfulClient.derive_set_same _ _ _ _ t4
  · rw [hr']
    exact LawfulClient.derive_set_same (ClientRequestLike.setHeader r1 hSignatureInput vi) hSignature vs _ t5

theorem values_mem_derive {r1 : R} : ∀ {comps : List SignatureComponent} {vals : List Str}, Values r1 comps vals →
    ∀ k ∈ comps, ∃ v, RequestLike.derive r1 k = .ok (some v)
  | [], _, _, _, hk => by cases hk
  | c :: cs, vals, h, k, hk => by
    rw [Values.cons_iff] at h
    obtain ⟨v, vs, rfl, h1, h2⟩ := h
    rcases List.mem_cons.1 hk with rfl | hk
    · exact ⟨v, h1⟩
    · exact values_mem_derive h2 k hk

theorem Deliverable.notAuthority {config : SigningConfig} (hd : Deliverable config) {k : SignatureComponent}
    (hk : k ∈ config.components ∨ k = .header hSignatureInput ∨ k = .header hSignature) : NotAuthority k := by
  rcases hk with hk | rfl | rfl
  · exact (hd.components k hk).2
  · trivial
  · trivial

theorem deliverable_portable {config : SigningConfig} {sk : HttpSignatureVerify} (hd : Deliverable config)
    (hm : MacPair config.signature sk) (rnd : Nat) : Portable config rnd where
  components k hk := (hd.components k hk).1
  nonce := hd.nonce
  label := by rw [hd.label]; unfold VisibleChar; decide
  signature m c hc := by
    have : ∃ b, config.signature.sign rnd m = Base64.encode b := by
      generalize config.signature = s at hm
      cases hm <;> exact ⟨_, rfl⟩
    obtain ⟨b, hb⟩ := this
    rw [hb] at hc
    exact ⟨base64_visible _ c hc, fun e => by subst e; exact base64_no_colon (C31_rfc4648 _) hc⟩

/-- The covered values are on the signed request. -/
theorem covered_value {r r' : R} {config : SigningConfig} {env : SignEnv} (h : sign r config env = .ok (r', .ok ()))
    (hd : Deliverable config) {k : SignatureComponent} (hk : k ∈ coveredComponents r r' config) :
    ∃ x, RequestLike.derive r' k = .ok (some x) ∧ signedValue r r' k = some x := by
  obtain ⟨r1, ids, lids, vals, vi, vs, _, _, _, _, hsv, h1, _, _, _, _, hr'⟩ := sign_success h
  obtain ⟨x, hx⟩ := values_mem_derive h1 k hk
  have hc := covered_subset hk
  refine ⟨x, ?_, by rw [hsv k, derive_valueOf hx]⟩
  rw [hr', LawfulClient.derive_set_ne _ _ _ _ (fun e => hd.signature (e ▸ hc)),
    LawfulClient.derive_set_ne _ _ _ _ (fun e => hd.input (e ▸ hc)), hx]

/-- What the server sees agrees with what the client sent, on everything that can be signed. -/
theorem delivered {r r' : R} {config : SigningConfig} {env : SignEnv} {req : S}
    (h : sign r config env = .ok (r', .ok ())) (hd : Deliverable config) (hp : Portable config env.rnd)
    (hsame : ∀ k v, k ∈ config.components ∨ k = .header hSignatureInput ∨ k = .header hSignature →
      RequestLike.derive r' k = .ok (some v) → ∀ k', ComponentSame k k' → RequestLike.derive req k' = .ok (some v)) : Received r r' config req := by
  obtain ⟨⟨si, hsi, _⟩, ss, hss⟩ := signed_headers_readable h hp
  refine ⟨by rw [hsi, hsame (.header hSignatureInput) _ (.inr (.inl rfl)) hsi (.header hSignatureInput) rfl],
    by rw [hss, hsame (.header hSignature) _ (.inr (.inr rfl)) hss (.header hSignature) rfl], fun k hk k' hk' => ?_⟩
  obtain ⟨x, hx, hs⟩ := covered_value h hd hk
  rw [hsame k x (.inl (covered_subset hk)) hx k' hk', hs]

theorem delivered_accepted {r r' : R} {config : SigningConfig} {env : SignEnv} {req : S} {sk : HttpSignatureVerify} {rem : Rem}
    (h : sign r config env = .ok (r', .ok ())) (hd : Deliverable config) (hm : MacPair config.signature sk)
    (hsame : ∀ k v, k ∈ config.components ∨ k = .header hSignatureInput ∨ k = .header hSignature →
      RequestLike.derive r' k = .ok (some v) → ∀ k', ComponentSame k k' → RequestLike.derive req k' = .ok (some v))
    (venv : VerifyEnv) (hclock : 0 ≤ venv.sysNow)
    (hdig : DigestOk req (plainVerifier config.keyId sk) rem) :
    verify req (plainVerifier config.keyId sk) venv = .ok (.ok (rem, config.keyId)) ↔
      WithinWindow config (env.sysNow / 1000000000) (venv.sysNow / 1000000000) := by
  have hp := deliverable_portable hd hm env.rnd
  obtain ⟨base, _, hiff⟩ := verify_signed_iff h (delivered h hd hp hsame) hp
  rw [hiff]
  constructor
  · rintro ⟨_, _, _, h1, h2, _⟩
    exact ⟨h1, h2⟩
  · rintro ⟨h1, h2⟩
    refine ⟨hd.label, rfl, hclock, h1, h2, ⟨sk, by simp [plainVerifier, VerifyingConfig.setValidateDate, VerifyingConfig.new], ?_⟩, ?_, rfl, hdig⟩
    · generalize config.signature = s at hm
      cases hm with
      | sha256 key => exact (C30_hmac_unmalleable key base env.rnd _).1.2 rfl
      | sha512 key => exact (C30_hmac_unmalleable key base env.rnd _).2.2 rfl
    · intro c hc
      simp [plainVerifier, VerifyingConfig.setValidateDate, VerifyingConfig.new] at hc

end

theorem derive_no_host {d : DerivedComponent} {host : Option Str} {m : Method} {u : Url} (h : NotAuthority (.derived d)) :
    d.derive host m u = d.derive none m u := by
  unfold DerivedComponent.derive DerivedComponent.name DerivedComponent.deriveNamed
  cases hn : d.item.bare.asStr with
  | none => rfl
  | some nm =>
    have : nm ≠ atAuthority := fun e => h (asStr_iff.1 (by rw [hn, e]; rfl))
    simp only [Bind.bind, Except.bind, this, if_false]

theorem served_same {v : Version} {path : Str} {m : Method} {u : Url} {hs : HeaderMap} {b : Option Bytes}
    (k : SignatureComponent) (x : Str) (hk : NotAuthority k) (h : reqwestDerive m u hs k = .ok (some x))
    (k' : SignatureComponent) (hk' : ComponentSame k k') : (served v path m u hs b).derive k' = .ok (some x) := by
  rw [← mock_derive_same _ hk']
  cases k with
  | header n =>
    simp only [reqwestDerive, reqwestHeader, Except.ok.injEq, Option.bind_eq_some_iff] at h
    obtain ⟨w, h1, h2⟩ := h
    simp [MockRequest.derive, served, h1, h2]
  | derived d =>
    simp only [reqwestDerive] at h
    rw [derive_no_host hk] at h
    exact h

theorem served_no_digest {v : Version} {path : Str} {m : Method} {u : Url} {hs : HeaderMap} {id : Str} {sk : HttpSignatureVerify}
    (h : hs.getAll hDigest = []) : DigestOk (served v path m u hs none) (plainVerifier id sk) () := by
  refine .inr ⟨?_, ?_⟩
  · show Except.ok ((hs.get hDigest).map _) = _
    rw [HeaderMap.get_eq_head_getAll, h]; rfl
  · rfl

/-- C06, C39: a `reqwest` request without a digest header, with a body in memory or none, signed with a MAC key and the
automatic digest (the default) over components other than `@authority`, and sent to a server that has the same key under the
same id and does not validate dates: the server accepts the request exactly within the created/expires window. Missing:
`@authority`, labels other than `sig`, and date validation. -/
theorem C06_reqwest_to_server_partial (r r' : ReqwestRequest) (config : SigningConfig) (env : SignEnv) (sk : HttpSignatureVerify)
    (h : sign r config env = .ok (r', .ok ())) (hd : Deliverable config) (hm : MacPair config.signature sk)
    (hcd : config.computeDigest = true) (hsd : StandardDigest config.digest) (hno : r.headers.getAll hDigest = [])
    (hb : r.body ≠ .stream) (v : Version) (path : Str) (venv : VerifyEnv) (hclock : 0 ≤ venv.sysNow) :
    verify (served v path r'.method r'.url r'.headers r'.body.sent) (plainVerifier config.keyId sk) venv =
        .ok (.ok ((), config.keyId)) ↔
      WithinWindow config (env.sysNow / 1000000000) (venv.sysNow / 1000000000) := by
  have hno' : reqwestHeader r.headers hDigest = none := by
    unfold reqwestHeader; rw [HeaderMap.get_eq_head_getAll, hno]; rfl
  refine delivered_accepted h hd hm (fun k x hk hx => served_same k x (hd.notAuthority hk) hx) venv hclock ?_
  obtain ⟨hbody, habs, _⟩ := C46_reqwest_bodies r r' config env _ hcd (congrArg Except.ok hno') h
  cases hb' : r.body with
  | stream => exact absurd hb' hb
  | absent =>
    rw [hbody, hb']
    exact served_no_digest (by rw [habs (.inr hb'), hno])
  | bytes b =>
    rw [hbody, hb']
    obtain ⟨⟨t, ht, hdr⟩, hacc⟩ := C39_auto_digest_accepted r r' config env _ h hcd hsd (by
      show Except.ok (reqwestHeader r.headers hDigest) = _; rw [hno']) b
      (by simp [ClientRequestLike.computeDigest, hb'])
    refine hacc _ _ _ ?_ rfl rfl rfl
    rw [hdr]
    exact served_same (.header hDigest) _ trivial hdr (.header hDigest) rfl

/-- C06, C39 for blocking `reqwest` requests: the same, where the body may also come from a reader that can be read. -/
theorem C06_blocking_to_server_partial (r r' : BlockingRequest) (config : SigningConfig) (env : SignEnv) (sk : HttpSignatureVerify)
    (h : sign r config env = .ok (r', .ok ())) (hd : Deliverable config) (hm : MacPair config.signature sk)
    (hcd : config.computeDigest = true) (hsd : StandardDigest config.digest) (hno : r.headers.getAll hDigest = [])
    (hb : r.body ≠ .reader none) (v : Version) (path : Str) (venv : VerifyEnv) (hclock : 0 ≤ venv.sysNow) :
    verify (served v path r'.method r'.url r'.headers r'.body.content) (plainVerifier config.keyId sk) venv =
        .ok (.ok ((), config.keyId)) ↔
      WithinWindow config (env.sysNow / 1000000000) (venv.sysNow / 1000000000) := by
  have hno' : reqwestHeader r.headers hDigest = none := by
    unfold reqwestHeader; rw [HeaderMap.get_eq_head_getAll, hno]; rfl
  refine delivered_accepted h hd hm (fun k x hk hx => served_same k x (hd.notAuthority hk) hx) venv hclock ?_
  obtain ⟨hbody, habs, _⟩ := C46_blocking_bodies r r' config env _ hcd (congrArg Except.ok hno') h
  have main : ∀ b, r.body = .bytes b ∨ r.body = .reader (some b) →
      DigestOk (served v path r'.method r'.url r'.headers (some b)) (plainVerifier config.keyId sk) () := by
    intro b hb'
    obtain ⟨⟨t, ht, hdr⟩, hacc⟩ := C39_auto_digest_accepted r r' config env _ h hcd hsd (by
      show Except.ok (reqwestHeader r.headers hDigest) = _; rw [hno']) b
      (by rcases hb' with hb' | hb' <;> simp [ClientRequestLike.computeDigest, hb'])
    refine hacc _ _ _ ?_ rfl rfl rfl
    rw [hdr]
    exact served_same (.header hDigest) _ trivial hdr (.header hDigest) rfl
  rw [hbody]
  match hb' : r.body with
  | .absent => exact served_no_digest (by rw [habs (.inr hb'), hno])
  | .bytes b => exact main b (.inl hb')
  | .reader none => exact absurd hb' hb
  | .reader (some b) => exact main b (.inr hb')

/-- C06, negative: a signature that covers `@authority` is never accepted by the server type of this repository, whoever
signed the request and however it is configured, because its requests have no host. -/
theorem C06_neg_authority {R : Type} [ClientRequestLike R] [LawfulClient R] (r r' : R) (config : SigningConfig) (env : SignEnv)
    (h : sign r config env = .ok (r', .ok ())) (hp : Portable config env.rnd) (d : DerivedComponent)
    (hd : .derived d ∈ coveredComponents r r' config) (hn : ¬ NotAuthority (.derived d)) (req : MockRequest)
    (hreq : req.derive (.header hSignatureInput) = RequestLike.derive r' (.header hSignatureInput))
    (vc : VerifyingConfig) (venv : VerifyEnv) (kid : Str) : verify req vc venv ≠ .ok (.ok ((), kid)) := by
  intro hv
  obtain ⟨⟨s, hs, hread⟩, _⟩ := signed_headers_readable h hp
  obtain ⟨c, sig, base, hok, _⟩ := verify_ok_iff.1 hv
  obtain ⟨x, hx, hc⟩ := hok.input
  have : Except.ok (some x) = Except.ok (ε := Panic) (some s) := by rw [← hx, ← hs]; exact hreq
  cases this
  rw [hread] at hc
  cases hc
  obtain ⟨si, hsi⟩ := hok.canon
  obtain ⟨vals, _, _, _, h1, _⟩ := canonicalize_ok_iff.1 hsi
  obtain ⟨v, hv⟩ := mock_values_mem h1 (normComponent (.derived d)) (List.mem_map.2 ⟨_, hd, rfl⟩)
  have hn' : d.item.bare = .string atAuthority := by
    exact Classical.not_not.1 hn
  have e : req.derive (normComponent (.derived d)) = .ok none := by
    simp only [MockRequest.derive, normComponent, DerivedComponent.derive, DerivedComponent.name, normItem, hn', BareItem.norm,
      BareItem.asStr, Bind.bind, Except.bind, DerivedComponent.deriveNamed]
    rfl
  rw [e] at hv
  cases hv

end Httpsig

namespace Httpsig

/-- Signing succeeded. -/
def signedOk [Deps] {R : Type} : P (R × Except Error Unit) → Bool
  | .ok (_, .ok ()) => true
  | _ => false

theorem signedOk_iff [Deps] {R : Type} {x : P (R × Except Error Unit)} (h : signedOk x = true) : ∃ r', x = .ok (r', .ok ()) := by
  unfold signedOk at h
  split at h
  · exact ⟨_, rfl⟩
  · cases h

section
attribute [local instance] toyDeps

/-- Signing with a MAC key: method, host, digest and date are covered, made now, valid for a minute. -/
def exMacSigning : SigningConfig :=
  (((SigningConfig.new (str% "sig") (str% "k1") (hmacSha256Sign [1, 2])).setComponents
    [.derived (.new atMethod), .header hHost, .header hDigest, .header hDate]).setCreatedAuto).setExpiresRelative 60

theorem exMac_signed : ∃ r', sign exReqwest exMacSigning exSignEnv = .ok (r', .ok ()) := signedOk_iff (by decide +kernel)

theorem exMac_deliverable : Deliverable exMacSigning := by
  refine ⟨?_, by decide, by decide, by decide, rfl⟩
  intro k hk
  have hk : k ∈ [.derived (.new atMethod), .header hHost, .header hDigest, .header hDate] := hk
  simp only [List.mem_cons, List.not_mem_nil, or_false] at hk
  rcases hk with rfl | rfl | rfl | rfl
  · exact ⟨C01_new_tidy _, by simp [NotAuthority, DerivedComponent.Called, DerivedComponent.new, atMethod]⟩
  all_goals exact ⟨trivial, trivial⟩

/-- A request with a body, signed at 150 s and accepted by the server at 150 s and at 210 s, but not at 211 s. -/
example : ∃ r', sign exReqwest exMacSigning exSignEnv = .ok (r', .ok ()) ∧
    ∀ s : Int, 0 ≤ s → (verify (served .http11 (str% "/foo") r'.method r'.url r'.headers r'.body.sent)
      (plainVerifier (str% "k1") (hmacSha256Verify [1, 2])) ⟨s * 1000000000, 0⟩ = .ok (.ok ((), str% "k1")) ↔ 150 ≤ s ∧ s ≤ 210) := by
  obtain ⟨r', h⟩ := exMac_signed
  refine ⟨r', h, fun s hs => ?_⟩
  refine Iff.trans (C06_reqwest_to_server_partial exReqwest r' exMacSigning exSignEnv (hmacSha256Verify [1, 2]) h exMac_deliverable (.sha256 _) rfl
    (.inl rfl) rfl (by decide) .http11 (str% "/foo") ⟨s * 1000000000, 0⟩ (by show 0 ≤ s * 1000000000; omega)) ?_
  have e : s * 1000000000 / 1000000000 = s := by omega
  show (∀ t, some (150 : Int) = some t → t ≤ s * 1000000000 / 1000000000) ∧
    (∀ t, some (210 : Int) = some t → s * 1000000000 / 1000000000 ≤ t) ↔ _
  rw [e]
  constructor
  · rintro ⟨h1, h2⟩; exact ⟨h1 _ rfl, h2 _ rfl⟩
  · rintro ⟨h1, h2⟩
    exact ⟨fun t ht => by cases ht; exact h1, fun t ht => by cases ht; exact h2⟩

/-- C06 for blocking requests, with a body from a reader: the hypotheses can be met. -/
example : ∃ r', sign ({ method := exPost, url := exUrl, headers := exReqwest.headers, body := .reader (some [1]) } : BlockingRequest)
    exMacSigning exSignEnv = .ok (r', .ok ()) := signedOk_iff (by decide +kernel)

/-- C06: a signature that covers `@authority`. -/
example : ∃ r', sign exReqwest (exMacSigning.setComponents [.derived (.new atAuthority)]) exSignEnv = .ok (r', .ok ()) ∧
    .derived (.new atAuthority) ∈ coveredComponents exReqwest r' (exMacSigning.setComponents [.derived (.new atAuthority)]) ∧
    ¬ NotAuthority (.derived (.new atAuthority)) ∧
    Portable (exMacSigning.setComponents [.derived (.new atAuthority)]) exSignEnv.rnd := by
  obtain ⟨r', h⟩ := signedOk_iff (x := sign exReqwest (exMacSigning.setComponents [.derived (.new atAuthority)]) exSignEnv)
    (by decide +kernel)
  refine ⟨r', h, ?_, fun h => h rfl, ?_, exMac_deliverable.nonce,
      (deliverable_portable exMac_deliverable (.sha256 _) exSignEnv.rnd).label,
      (deliverable_portable exMac_deliverable (.sha256 _) exSignEnv.rnd).signature⟩
  · refine List.mem_filter.2 ⟨List.mem_singleton.2 rfl, ?_⟩
    show (r'.url.host).isSome = true
    rw [(C24_reqwest_frame _ _ _ _ _ h).2.1]; rfl
  · intro k hk
    have : k = .derived (.new atAuthority) := List.mem_singleton.1 hk
    subst this
    exact C01_new_tidy _

end
end Httpsig
