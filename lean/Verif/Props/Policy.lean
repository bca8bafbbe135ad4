import Verif.Spec.Policy
import Verif.Props.Outcome
import Verif.Props.Delivery
/-
C130: no server can insist that the request line is signed.
-/
set_option linter.unusedSectionVars false
namespace Httpsig
open Sfv
section
variable [Deps]

theorem isHeader_iff {k : SignatureComponent} : k.isHeader = true ↔ ∃ n, k = .header n := by
  cases k <;> simp [SignatureComponent.isHeader]

/-- No serialised item starts with `@`. -/
theorem serItem_no_at {i : Item} {s t : Str} (h : serItem i = some s) : s ≠ '@' :: t := by
  unfold serItem at h
  cases ha : serBare i.bare with
  | none => simp [ha] at h
  | some a =>
    cases hb : serParams i.params with
    | none => simp [ha, hb] at h
    | some b =>
      simp only [ha, hb, Option.bind_eq_bind, Option.bind_some, Option.some.injEq] at h
      subst h
      have hb' : ∀ t, b ≠ '@' :: t := by
        intro t e
        subst e
        cases hp : i.params with
        | nil => simp [hp, serParams] at hb
        | cons x rest =>
          obtain ⟨k, v⟩ := x
          rw [hp] at hb
          unfold serParams at hb
          simp only [Option.bind_eq_bind, Option.bind_eq_some_iff] at hb
          obtain ⟨y, hy, z, _, e⟩ := hb
          obtain ⟨y', rfl⟩ : ∃ y', y = ';' :: y' := by
            unfold serParam at hy
            simp only [Option.bind_eq_bind, Option.bind_eq_some_iff] at hy
            obtain ⟨ks, _, hy⟩ := hy
            split at hy
            · cases hy; exact ⟨_, rfl⟩
            · obtain ⟨_, _, hy⟩ := Option.bind_eq_some_iff.1 hy
              cases hy; exact ⟨_, rfl⟩
          cases e
      have ha' : ∀ t, a ≠ '@' :: t := by
        intro t e
        subst e
        have num : ∀ n t, natStr n ≠ '@' :: t := fun n t e => by
          have := natStr_all n '@' (by rw [e]; simp)
          revert this; decide
        cases hi : i.bare with
        | boolean b => rw [hi] at ha; cases b <;> cases ha
        | string s => rw [hi] at ha; simp only [serBare, serString] at ha; split at ha <;> cases ha
        | byteSeq b => rw [hi] at ha; cases ha
        | token t =>
          rw [hi] at ha
          cases t with
          | nil => cases ha
          | cons c cs =>
            simp only [serBare, serToken, Option.ite_none_right_eq_some] at ha
            obtain ⟨h, e⟩ := ha
            cases e
            simp only [Bool.and_eq_true] at h
            exact absurd h.1 (by decide)
        | integer n =>
          rw [hi] at ha
          simp only [serBare, serInteger, Option.ite_none_right_eq_some, Option.some.injEq] at ha
          cases n with
          | ofNat n => exact num _ _ ha.2
          | negSucc n => cases ha.2
        | decimal d =>
          rw [hi] at ha
          simp only [serBare, serDecimal] at ha
          have dec : ∀ (neg : Bool) n x, (if neg then ['-'] else []) ++ natStr n ++ x ≠ '@' :: t := by
            intro neg n x e
            cases neg with
            | true => cases e
            | false =>
              cases hn : natStr n with
              | nil => exact natStr_ne_nil n hn
              | cons c cs =>
                simp only [hn, Bool.false_eq_true, if_false, List.nil_append, List.cons_append, List.cons.injEq] at e
                exact num n cs (by rw [hn, e.1])
          split at ha
          · cases ha
          · split at ha
            · exact dec _ _ _ (Option.some.inj ha)
            · exact dec _ _ _ (Option.some.inj ha)
      intro e
      cases a with
      | nil => exact hb' _ e
      | cons c cs =>
        simp only [List.cons_append, List.cons.injEq] at e
        exact ha' cs (by rw [e.1])

/-- The printed form of a component does not start with `@`. -/
theorem display_no_at {k : SignatureComponent} {s t : Str} (h : k.display = .ok s) : s ≠ '@' :: t := by
  cases k with
  | header n =>
    cases h
    intro e
    exact headerName_no_at n (e ▸ List.mem_cons_self)
  | derived d =>
    have h : d.display = .ok s := h
    unfold DerivedComponent.display at h
    cases hs : serItem d.item with
    | none => rw [hs] at h; cases h
    | some x => rw [hs] at h; cases h; exact serItem_no_at hs

/-- The requirements never depend on derived components. -/
theorem requiredOk_headers {vc : VerifyingConfig} {c c' : CanonicalizeConfig} (hn : ∀ d, .derived d ∈ c.components → d.Named)
    (hc : ∀ n, .header n ∈ c.components → .header n ∈ c'.components) (h : RequiredOk vc c) : RequiredOk vc c' := by
  intro k hk
  obtain ⟨s, hs, x, hx, e⟩ := h k hk
  cases x with
  | header n => exact ⟨s, hs, _, hc n hx, e⟩
  | derived d =>
    obtain ⟨cs, hd⟩ := hn d hx
    simp only [itemOf] at e
    rw [hd] at e
    cases e
    exact absurd rfl (display_no_at hs)

variable {R S Rem : Type} [ClientRequestLike R] [LawfulClient R] [ServerRequestLike S Rem]

theorem Portable.headersOnly {config : SigningConfig} {rnd : Nat} (hp : Portable config rnd) : Portable config.headersOnly rnd :=
  ⟨fun k hk => hp.components k (List.mem_filter.1 hk).1, hp.nonce, hp.label, hp.signature⟩

/-- Signing headers only gives the same request but for the headers of the signature. -/
theorem sign_headersOnly {r r1 : R} {sc : SigningConfig} {env : SignEnv} (h : sign r sc env = .ok (r1, .ok ()))
    (hplain : PlainSignatures sc.signature) (hvis : sc.skipMissing = true ∨ AutoVisible r sc) :
    ∃ r2 ra vi vs vi' vs', sign r sc.headersOnly env = .ok (r2, .ok ()) ∧
      r1 = ClientRequestLike.setHeader (ClientRequestLike.setHeader ra hSignatureInput vi) hSignature vs ∧
      r2 = ClientRequestLike.setHeader (ClientRequestLike.setHeader ra hSignatureInput vi') hSignature vs' ∧
      (∀ k, signedValue r r1 k = valueOf ra k) ∧ (∀ k, signedValue r r2 k = valueOf ra k) := by
  obtain ⟨h1, h2, h3, h4, h5, h6, h7, h8⟩ := (C112_success r sc env hvis hplain).1 ⟨r1, h⟩
  have sub : ∀ {k}, k ∈ sc.headersOnly.components → k ∈ sc.components := fun hk => (List.mem_filter.1 hk).1
  obtain ⟨r2, h'⟩ := (C112_success r sc.headersOnly env (hvis.imp id fun h => ⟨h.host, h.digest⟩) hplain).2
    ⟨⟨h1.host, h1.digest⟩, h2, h3, fun k hk => h4 k (sub hk), h5.imp id fun h k hk => h k (sub hk),
      ⟨h6.alg, h6.keyid, h6.created, h6.expires, h6.nonce⟩,
      fun k hk ha => h7 k (sub hk) ha, h8⟩
  obtain ⟨ra, comps, ha, _, hr⟩ := sign_iff.1 h
  obtain ⟨rb, comps', hb, _, hr'⟩ := sign_iff.1 h'
  have : ra = rb := by
    obtain ⟨a, b, e1, e2, e3, _⟩ := addAutoHeaders_iff.1 ha
    obtain ⟨a', b', e1', e2', e3', _⟩ := addAutoHeaders_iff.1 hb
    have e1' : addDateHeader r sc env = .ok a' := e1'
    have e2' : addHostHeader a' sc = .ok b' := e2'
    have e3' : addDigestHeader b' sc = .ok rb := e3'
    rw [e1] at e1'; cases e1'
    rw [e2] at e2'; cases e2'
    rw [e3] at e3'; cases e3'
    rfl
  subst this
  rcases hr with ⟨e, _, _, h⟩ | ⟨cc, _, ⟨e, _, _, h⟩ | ⟨base, si, x, _, _, ⟨_, _, h⟩ | ⟨v, _, ⟨_, _, h⟩ | ⟨w, _, e, _⟩⟩⟩⟩ <;> try cases h
  rcases hr' with ⟨e, _, _, h⟩ | ⟨cc, _, ⟨e, _, _, h⟩ | ⟨base, si, x, _, _, ⟨_, _, h⟩ | ⟨v', _, ⟨_, _, h⟩ | ⟨w', _, e', _⟩⟩⟩⟩ <;> try cases h
  exact ⟨r2, ra, v, w, v', w', h', e, e', signedValue_eq (addAuto_facts ha).touches (Or.inr (Or.inr ⟨v, w, e⟩)),
    signedValue_eq (addAuto_facts hb).touches (Or.inr (Or.inr ⟨v', w', e'⟩))⟩

/-- The two headers of a signature are readable. -/
theorem signed_headers_stored {r r' : R} {config : SigningConfig} {env : SignEnv} (h : sign r config env = .ok (r', .ok ()))
    (hp : Portable config env.rnd) :
    ∃ ra vi vs x y, r' = ClientRequestLike.setHeader (ClientRequestLike.setHeader ra hSignatureInput vi) hSignature vs ∧
      vi.toStr = some x ∧ vs.toStr = some y := by
  obtain ⟨r1, ids, lids, vals, vi, vs, _, _, _, hw, hsv, h1, h2, h3, h4, h5, hr'⟩ := sign_success h
  have h4p : ParamsText (signedInput r r' config (env.sysNow / 1000000000)).params.params
      (signedParamsText config (env.sysNow / 1000000000)) := paramsText_signed_iff.2 ⟨hw, rfl⟩
  obtain ⟨vi', e4, t4⟩ := fromStr_visible (visible_of_printable (inputText_printable h3 h4p))
  rw [h4] at e4; cases e4
  have hvis : (config.label ++ str% "=:" ++ config.signature.sign env.rnd
        (utf8 (specBase ids lids vals (signedParamsText config (env.sysNow / 1000000000)))) ++ str% ":").all isVisibleChar = true := by
    rw [List.all_append, List.all_append, List.all_append, visible_iff.2 fun c hc => (hp.label c hc).1,
      visible_iff.2 fun c hc => (hp.signature _ c hc).1]
    decide
  obtain ⟨vs', e5, t5⟩ := fromStr_visible hvis
  rw [h5] at e5; cases e5
  exact ⟨r1, vi, vs, _, _, hr', t4, t5⟩

theorem covered_headersOnly {r r1 r2 : R} {sc : SigningConfig} (h : ∀ k, signedValue r r1 k = signedValue r r2 k) {k : SignatureComponent} :
    k ∈ coveredComponents r r2 sc.headersOnly ↔ k ∈ coveredComponents r r1 sc ∧ ∃ n, k = .header n := by
  unfold coveredComponents
  have e : sc.headersOnly.skipMissing = sc.skipMissing := rfl
  rw [e]
  split
  · simp only [SigningConfig.headersOnly, List.mem_filter, isHeader_iff, h]
    exact and_right_comm
  · simp only [SigningConfig.headersOnly, List.mem_filter, isHeader_iff]

/-- C130. A server does not notice when a client stops to sign parts of the request line. Let it accept a request that a client signed, under
any configuration. The same client, signing only those of its components that are headers, signs the request just as well, and the same
server accepts it at the same time, if the covered headers arrive as they were signed and the digest is in order. -/
theorem C130_derived_dropped (r r1 : R) (sc : SigningConfig) (env : SignEnv) (req : S)
    (h : sign r sc env = .ok (r1, .ok ())) (hrec : Received r r1 sc req) (hp : Portable sc env.rnd)
    (hplain : PlainSignatures sc.signature) (hvis : sc.skipMissing = true ∨ AutoVisible r sc)
    (vc : VerifyingConfig) (venv : VerifyEnv) (rem : Rem) (kid : Str)
    (hkey : ∃ k ∈ vc.keyProvider sc.keyId, ∀ m, k.verify m (sc.signature.sign env.rnd m) = true)
    (hacc : verify req vc venv = .ok (.ok (rem, kid))) :
    ∃ r2, sign r sc.headersOnly env = .ok (r2, .ok ()) ∧
      (∀ k, k ∈ coveredComponents r r2 sc.headersOnly ↔ k ∈ coveredComponents r r1 sc ∧ ∃ n, k = .header n) ∧
      ∀ (req2 : S) (rem2 : Rem), Received r r2 sc.headersOnly req2 → DigestOk req2 vc rem2 →
        verify req2 vc venv = .ok (.ok (rem2, kid)) := by
  obtain ⟨r2, ra, vi, vs, vi', vs', h', e1, e2, s1, s2⟩ := sign_headersOnly h hplain hvis
  have hcov : ∀ k, k ∈ coveredComponents r r2 sc.headersOnly ↔ k ∈ coveredComponents r r1 sc ∧ ∃ n, k = .header n :=
    fun k => covered_headersOnly fun k => (s1 k).trans (s2 k).symm
  refine ⟨r2, h', hcov, fun req2 rem2 hrec2 hdig => ?_⟩
  obtain ⟨base, _, hiff⟩ := C06_exact r r1 sc env req h hrec hp
  obtain ⟨hl, rfl, hc, hcr, hex, _, hreq, hd, _⟩ := (hiff vc venv rem kid).1 hacc
  obtain ⟨base2, _, hiff2⟩ := C06_exact r r2 sc.headersOnly env req2 h' hrec2 hp.headersOnly
  refine (hiff2 vc venv rem2 _).2 ⟨hl, rfl, hc, hcr, hex, hkey.imp fun k hk => ⟨hk.1, hk.2 _⟩, ?_, hd, hdig⟩
  refine requiredOk_headers (fun d hd => (show d.Named ∧ _ from hp.components (.derived d) (covered_subset hd)).1) (fun n hn => (hcov _).2 ⟨hn, n, rfl⟩) hreq

variable [HeaderStore R]

/-- C130. Hence no server of this repository can insist that the method or the URL is signed, whatever it requires. If it accepts a request that
a client signed, there is a signature by the same client for the same headers with which it accepts the same headers and body with every
method and every URL. -/
theorem C130_request_line (r r1 : R) (sc : SigningConfig) (env : SignEnv) (req : MockRequest)
    (h : sign r sc env = .ok (r1, .ok ())) (hrec : Received r r1 sc req) (hp : Portable sc env.rnd)
    (hplain : PlainSignatures sc.signature) (hvis : sc.skipMissing = true ∨ AutoVisible r sc)
    (hown : .header hSignature ∉ sc.components ∧ .header hSignatureInput ∉ sc.components)
    (vc : VerifyingConfig) (venv : VerifyEnv) (kid : Str)
    (hkey : ∃ k ∈ vc.keyProvider sc.keyId, ∀ m, k.verify m (sc.signature.sign env.rnd m) = true)
    (hacc : verify req vc venv = .ok (.ok ((), kid))) :
    ∃ r2 vi vs, sign r sc.headersOnly env = .ok (r2, .ok ()) ∧ (HeaderStore.headers r2).getAll hSignatureInput = [vi] ∧
      (HeaderStore.headers r2).getAll hSignature = [vs] ∧
      ∀ version method url path, verify { req with
          version := version, method := method, url := url, path := path
          headers := (req.headers.insert hSignatureInput vi).insert hSignature vs } vc venv = .ok (.ok ((), kid)) := by
  obtain ⟨r2, h', hcov, hall⟩ := C130_derived_dropped r r1 sc env req h hrec hp hplain hvis vc venv () kid hkey hacc
  obtain ⟨ra, vi, vs, x, y, e, tx, ty⟩ := signed_headers_stored h' hp.headersOnly
  have hne := hSignature_ne_hInput
  refine ⟨r2, vi, vs, h', ?_, ?_, fun version method url path => ?_⟩
  · rw [e, HeaderStore.headers_set, HeaderMap.getAll_insert_ne _ _ hne.symm, HeaderStore.headers_set, HeaderMap.getAll_insert_self]
  · rw [e, HeaderStore.headers_set, HeaderMap.getAll_insert_self]
  · obtain ⟨r2', ra', _, _, _, _, h'', _, _, s1, s2⟩ := sign_headersOnly h hplain hvis
    rw [h'] at h''
    cases h''
    have mget : ∀ (q : MockRequest) n, RequestLike.derive q (.header n) = .ok ((q.headers.get n).map fun v => v.toStr.getD []) :=
      fun _ _ => rfl
    have same : ∀ n, n ≠ hSignature → n ≠ hSignatureInput →
        ((req.headers.insert hSignatureInput vi).insert hSignature vs).get n = req.headers.get n := by
      intro n n1 n2
      rw [HeaderMap.get_eq_head_getAll, HeaderMap.getAll_insert_ne _ _ n1, HeaderMap.getAll_insert_ne _ _ n2, ← HeaderMap.get_eq_head_getAll]
    refine hall _ () ⟨?_, ?_, fun k hk k' hk' => ?_⟩ ?_
    · rw [mget, e, LawfulClient.derive_set_ne _ _ _ _ (fun e => hne (SignatureComponent.header.inj e).symm),
        LawfulClient.derive_set_same _ _ _ _ tx]
      simp [HeaderMap.get_eq_head_getAll, HeaderMap.getAll_insert_ne _ _ hne.symm, HeaderMap.getAll_insert_self, tx]
    · rw [mget, e, LawfulClient.derive_set_same _ _ _ _ ty]
      simp [HeaderMap.get_eq_head_getAll, HeaderMap.getAll_insert_self, ty]
    · obtain ⟨hk1, n, rfl⟩ := (hcov k).1 hk
      have hc := covered_subset hk1
      cases k' with
      | derived d => exact hk'.elim
      | header m =>
        have : n = m := hk'
        subst this
        rw [mget]
        simp only
        rw [same n (fun e => hown.1 (e ▸ hc)) (fun e => hown.2 (e ▸ hc)), ← mget req, hrec.covered _ hk1 (.header n) rfl, s1, s2]
    · obtain ⟨_, _, _, _, _, _, hdig⟩ := verify_ok_iff.1 hacc
      unfold DigestOk at hdig ⊢
      rw [mget] at hdig ⊢
      simp only at hdig ⊢
      rw [same hDigest (fun e => absurd (congrArg HeaderName.str e) (by decide : (str% "digest") ≠ str% "signature"))
        (fun e => absurd (congrArg HeaderName.str e) (by decide : (str% "digest") ≠ str% "signature-input"))]
      exact hdig

end

/-! ### Example -/

section
variable [Deps]

/-- The client of the example signs `@method` and three headers. What it signs without `@method` is accepted with every method and URL. -/
example : SignatureComponent.derived (.new atMethod) ∈ exSigning.components ∧
    ∃ r2 vi vs, sign exReqwest exSigning.headersOnly exSignEnv = .ok (r2, .ok ()) ∧ r2.headers.getAll hSignatureInput = [vi] ∧
      r2.headers.getAll hSignature = [vs] ∧
      ∀ version method url path, verify { exArrived with
          version := version, method := method, url := url, path := path
          headers := (exArrived.headers.insert hSignatureInput vi).insert hSignature vs } exVerifying exEnv = .ok (.ok ((), str% "k1")) := by
  refine ⟨List.mem_cons_self, ?_⟩
  refine C130_request_line exReqwest exReqwestSigned exSigning exSignEnv exArrived exReqwest_signed exReceived exPortable ?_ (.inl rfl)
    ⟨?_, ?_⟩ exVerifying exEnv (str% "k1") ⟨exKey, List.mem_singleton.2 rfl, fun m => ?_⟩ rfl
  · exact fun _ _ => encode_plain _
  · intro h
    have h : SignatureComponent.header hSignature ∈ [.derived (.new atMethod), .header hHost, .header hDigest, .header hDate] := h
    simp only [List.mem_cons, List.not_mem_nil, or_false, reduceCtorEq, false_or, SignatureComponent.header.injEq] at h
    have e : hSignature.str = str% "host" ∨ hSignature.str = str% "digest" ∨ hSignature.str = str% "date" :=
      h.imp (congrArg _) (Or.imp (congrArg _) (congrArg _))
    exact absurd e (by show ¬ (str% "signature" = _ ∨ str% "signature" = _ ∨ str% "signature" = _); decide)
  · intro h
    have h : SignatureComponent.header hSignatureInput ∈ [.derived (.new atMethod), .header hHost, .header hDigest, .header hDate] := h
    simp only [List.mem_cons, List.not_mem_nil, or_false, reduceCtorEq, false_or, SignatureComponent.header.injEq] at h
    have e : hSignatureInput.str = str% "host" ∨ hSignatureInput.str = str% "digest" ∨ hSignatureInput.str = str% "date" :=
      h.imp (congrArg _) (Or.imp (congrArg _) (congrArg _))
    exact absurd e (by show ¬ (str% "signature-input" = _ ∨ str% "signature-input" = _ ∨ str% "signature-input" = _); decide)
  · simp [exKey, hmacVerify, b64Verify, exSigning, exSigner, hmacSign, SigningConfig.new, SigningConfig.setDigest,
      SigningConfig.setComponents, SigningConfig.setCreatedAuto, SigningConfig.setExpiresRelative, SigningConfig.setNonce,
      (C31_lossless _ _).2 rfl]

end
end Httpsig
