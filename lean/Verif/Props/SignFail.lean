import Verif.Lemmas.SignFail
import Verif.Props.Sign
import Verif.Props.Verify
import Verif.Props.KeyFiles
/-
C141: signing with a key whose operation panics.
-/
set_option linter.unusedSectionVars false
namespace Httpsig
open Sfv
section
variable [Deps] {R : Type} [ClientRequestLike R] [LawfulClient R]

/-- C141. If the operation returns for the text it is used on, signing is as with a key that gives this signature: the same calls and
the same outcome. -/
theorem C141_returns (key : Nat → Bytes → P Str) (r : R) (config : SigningConfig) (env : SignEnv) (base : Bytes) (s : Str)
    (hu : UsesKey r config env base) (hk : key env.rnd base = .ok s) :
    signMay key r config env = signCalled r (config.giving s) env := by
  rcases signMay_cases key r config env with ⟨hno, _⟩ | ⟨before, vi, b, r1, _, hb, _, _, _, hok, _⟩
  · exact absurd (usesKey_iff.1 hu) (hno base)
  · obtain rfl := hb base (usesKey_iff.1 hu)
    exact hok s hk

/-- C141. In particular, with an operation that does what the key of the configuration does wherever it is used, it is the signing of
all other claims. -/
theorem C141_same (key : Nat → Bytes → P Str) (r : R) (config : SigningConfig) (env : SignEnv)
    (hk : ∀ base, UsesKey r config env base → key env.rnd base = .ok (config.signature.sign env.rnd base)) :
    signMay key r config env = signCalled r config env ∧ (signMay key r config env).result = sign r config env := by
  have h : signMay key r config env = signCalled r config env := by
    rcases signMay_cases key r config env with ⟨_, h, _⟩ | ⟨before, vi, b, r1, hb, _, _, _, _, hok, hself⟩
    · exact h
    · exact (hok _ (hk b (usesKey_iff.2 hb))).trans hself
  exact ⟨h, by rw [h]; exact (signCalled_spec r config env).1⟩

/-- C141. Exactly which panics there are: those of signing itself, and those of the operation on the signature base. -/
theorem C141_panics (key : Nat → Bytes → P Str) (r : R) (config : SigningConfig) (env : SignEnv) (p : Panic) :
    (signMay key r config env).result = .error p ↔
      sign r config env = .error p ∨ ∃ base, UsesKey r config env base ∧ key env.rnd base = .error p := by
  have hres := (signCalled_spec r config env).1
  rcases signMay_cases key r config env with ⟨hno, h, _⟩ | ⟨before, vi, b, r1, hb, hall, _, herr, _, hok, _⟩
  · rw [h, hres]
    refine ⟨.inl, ?_⟩
    rintro (h | ⟨base, hu, _⟩)
    · exact h
    · exact absurd (usesKey_iff.1 hu) (hno base)
  · obtain ⟨r', res, hs, hr, _⟩ := usesKey_iff.2 hb
    cases hk : key env.rnd b with
    | error q =>
      rw [herr q hk]
      constructor
      · intro h; cases h; exact .inr ⟨b, usesKey_iff.2 hb, hk⟩
      · rintro (h | ⟨base, hu, h⟩)
        · rw [hs] at h; cases h
        · rw [hall base (usesKey_iff.1 hu), hk] at h; cases h; rfl
    | ok s =>
      rw [hok s hk, (signCalled_spec r (config.giving s) env).1]
      constructor
      · intro h
        obtain ⟨r1', comps, h1, h2, h3⟩ := sign_iff.1 hs
        have h3' : ∃ r'' res', sign r (config.giving s) env = .ok (r'', res') := by
          rcases h3 with ⟨e, _, _, h⟩ | ⟨cc, hcc, ⟨e, _, _, h⟩ | ⟨base, si, x, hcan, hx, ⟨_, _, h⟩ | ⟨v, hv, _⟩⟩⟩
          · subst h; rcases hr with h | h
            · cases h
            · cases h; exact ⟨_, _, sign_iff.2 ⟨r1', comps, h1, h2, .inl ⟨_, ‹_›, rfl, rfl⟩⟩⟩
          · subst h; rcases hr with h | h <;> cases h
          · subst h; rcases hr with h | h <;> cases h
          · cases hw : HeaderValue.fromStr (config.label ++ str% "=:" ++ s ++ str% ":") with
            | none => exact ⟨_, _, sign_iff.2 ⟨r1', comps, h1, h2, .inr ⟨cc, hcc, .inr ⟨base, si, x, hcan, hx, .inr ⟨v, hv,
                .inl ⟨hw, rfl, rfl⟩⟩⟩⟩⟩⟩
            | some w => exact ⟨_, _, sign_iff.2 ⟨r1', comps, h1, h2, .inr ⟨cc, hcc, .inr ⟨base, si, x, hcan, hx, .inr ⟨v, hv,
                .inr ⟨w, hw, rfl, rfl⟩⟩⟩⟩⟩⟩
        obtain ⟨_, _, h3'⟩ := h3'
        rw [h3'] at h; cases h
      · rintro (h | ⟨base, hu, h⟩)
        · rw [hs] at h; cases h
        · rw [hall base (usesKey_iff.1 hu), hk] at h; cases h

/-- C141. When the operation panics, `Signature-Input` has been set just before, and nothing comes after. The calls are those of,
and the request is left as by, a signing whose signature cannot be written to a header. -/
theorem C141_left_as_unwritable (key : Nat → Bytes → P Str) (r : R) (config : SigningConfig) (env : SignEnv) (base : Bytes) (p : Panic)
    (hu : UsesKey r config env base) (hk : key env.rnd base = .error p) :
    (∃ before vi, (signMay key r config env).calls = before ++ [.setHeader hSignatureInput vi, .httpSign base] ∧
      ∀ b, .httpSign b ∉ before) ∧
    (signMay key r config env).calls = (signCalled r (config.giving (str% "\n")) env).calls ∧
    sign r (config.giving (str% "\n")) env = .ok (leftBy r (signMay key r config env), .error .convertHeader) := by
  rcases signMay_cases key r config env with ⟨hno, _⟩ | ⟨before, vi, b, r1, hb', hb, hbef, herr, hgiv, _, _⟩
  · exact absurd (usesKey_iff.1 hu) (hno base)
  · obtain rfl := hb base (usesKey_iff.1 hu)
    rw [herr p hk]
    refine ⟨⟨before, vi, rfl, hbef⟩, by rw [hgiv], ?_⟩
    have hs : sign r (config.giving (str% "\n")) env = .ok (r1, .error .convertHeader) := by
      rw [← (signCalled_spec r (config.giving (str% "\n")) env).1, hgiv]
    obtain ⟨_, auto, own, h1, _, _, h2⟩ := signCalled_spec r (config.giving (str% "\n")) env
    have h3 := (h2 r1 _ hs).2.2
    rw [← h1, hgiv] at h3
    have h4 : leftBy r (⟨before ++ [.setHeader hSignatureInput vi, .httpSign base], .error p⟩ : Called (R × Except Error Unit)) = r1 := h3
    rw [hs, h4]

/-- C141. So after such a panic the request has no new `Signature`, and nothing but `Signature-Input` and the automatic headers is
changed; … -/
theorem C141_left (key : Nat → Bytes → P Str) (r : R) (config : SigningConfig) (env : SignEnv) (base : Bytes) (p : Panic)
    (hu : UsesKey r config env base) (hk : key env.rnd base = .error p) :
    RequestLike.derive (leftBy r (signMay key r config env)) (.header hSignature) = RequestLike.derive r (.header hSignature) ∧
    ∀ k, (∀ n, MayWrite r config n → k ≠ .header n) →
      RequestLike.derive (leftBy r (signMay key r config env)) k = RequestLike.derive r k := by
  have h := (C141_left_as_unwritable key r config env base p hu hk).2.2
  exact ⟨(C25_no_signature_on_error r _ _ env _ h).1, (C24_components_frame r _ _ env _ h).1⟩

/-- C141. … but `Signature-Input` is the one of the signature that was not made, and replaces any that was there. -/
theorem C141_left_input [HeaderStore R] (key : Nat → Bytes → P Str) (r : R) (config : SigningConfig) (env : SignEnv) (base : Bytes)
    (p : Panic) (hu : UsesKey r config env base) (hk : key env.rnd base = .error p) :
    ∃ lids vi, Forall2 ListIdent (coveredComponents r (leftBy r (signMay key r config env)) config) lids ∧
      (HeaderStore.headers (leftBy r (signMay key r config env))).getAll hSignatureInput = [vi] ∧
      vi.bytes = utf8 (str% "sig=" ++ specListText lids ++ signedParamsText config (env.sysNow / 1000000000)) := by
  have h := (C141_left_as_unwritable key r config env base p hu hk).2.2
  generalize leftBy r (signMay key r config env) = r' at h
  obtain ⟨r1, comps, ha, hn, h⟩ := sign_iff.1 h
  rcases h with ⟨e, h0, _, h⟩ | ⟨cc, hb, ⟨e, _, _, h⟩ | ⟨base, si, x, hcan, hx, ⟨_, _, h⟩ | ⟨v, hv, ⟨_, hr', _⟩ | ⟨w, hw, hr', h⟩⟩⟩⟩
  · cases h
    exfalso
    unfold buildCanonicalizeConfig at h0
    simp only [Bind.bind, Except.bind, pure, Except.pure] at h0
    repeat' split at h0 <;> try cases h0
    all_goals rename_i hx; revert hx; repeat' split
    all_goals intro hx; cases hx
  · cases h
  · cases h
  · have ha' : addAutoHeaders r config env = .ok (r1, comps) := ha
    have hsv := signedValue_eq (addAuto_facts ha').touches (Or.inr (Or.inl ⟨v, hr'⟩))
    obtain ⟨ht, rfl⟩ := buildCanonicalizeConfig_ok_iff.1 hb
    obtain ⟨vals, ids, lids, ps, h1, h2, h3, h4, rfl, rfl⟩ := canonicalize_ok_iff.1 hcan
    obtain ⟨hw', rfl⟩ := paramsText_signed_iff.1 h4
    have hcomps : coveredComponents r r' config = comps := by
      rw [addAuto_comps ha']
      unfold coveredComponents
      simp only [hsv]
    have hdisp := display_default (display_list_iff.2 ⟨lids, _, h3, h4, rfl⟩)
    have : x = str% "sig=" ++ (specListText lids ++ signedParamsText config (env.sysNow / 1000000000)) := by
      have e : SignatureInput.display _ = .ok x := hx
      rw [show CanonicalizeConfig.toSignatureInput _ = _ from rfl] at hdisp
      rw [e] at hdisp
      cases hdisp
      rfl
    subst this
    refine ⟨lids, v, by rw [hcomps]; exact h3, ?_, by rw [fromStr_bytes hv, List.append_assoc]⟩
    rw [hr', HeaderStore.headers_set, HeaderMap.getAll_insert_self]
  · cases h

/-- C141. A request of the validator that had no readable `Signature` before is rejected after such a panic, by every verifier. -/
theorem C141_not_accepted (key : Nat → Bytes → P Str) (r : MockRequest) (config : SigningConfig) (env : SignEnv) (base : Bytes)
    (p : Panic) (hu : UsesKey r config env base) (hk : key env.rnd base = .error p)
    (hr : RequestLike.derive r (.header hSignature) = .ok none) (vconfig : VerifyingConfig) (venv : VerifyEnv) (x : Unit × Str) :
    verify (leftBy r (signMay key r config env)) vconfig venv ≠ .ok (.ok x) := by
  intro h
  obtain ⟨c, sig, b, hs, _⟩ := (C10_acceptance_iff _ vconfig venv x.1 x.2).1 h
  obtain ⟨v, label, hv, _⟩ := hs.signature
  have : RequestLike.derive (leftBy r (signMay key r config env)) (.header hSignature) = .ok (some v) := hv
  rw [(C141_left key r config env base p hu hk).1, hr] at this
  cases this

/-- C141. The keys of the openssl back end: signing a request panics with a key that is no plain RSA key or too short for the digest,
as soon as the key is used; with all others it is the signing of the other claims. -/
theorem C141_openssl (e : AlgEntry) (k : OsslKey) (r : R) (config : SigningConfig) (env : SignEnv)
    (hc : config.signature = e.signer k.key) (base : Bytes) (hu : UsesKey r config env base) :
    (k.rsa = false → (signMay (Openssl.httpSign e k) r config env).result = .error .opensslPadding) ∧
    (k.rsa = true → Deps.osslShort e.signWith k.key = true →
      (signMay (Openssl.httpSign e k) r config env).result = .error .opensslSign) ∧
    (k.rsa = true → Deps.osslShort e.signWith k.key = false →
      (signMay (Openssl.httpSign e k) r config env).result = sign r config env) := by
  refine ⟨fun h => ?_, fun h hs => ?_, fun h hs => ?_⟩
  · exact (C141_panics _ r config env _).2 (.inr ⟨base, hu, by unfold Openssl.httpSign; rw [h]; rfl⟩)
  · exact (C141_panics _ r config env _).2 (.inr ⟨base, hu, by unfold Openssl.httpSign; rw [h, hs]; rfl⟩)
  · refine (C141_same _ r config env fun b _ => ?_).2
    unfold Openssl.httpSign
    rw [h, hs, hc]; rfl

end

/-! ### Examples -/
attribute [local instance] toyDeps

/-- An operation that fails as those of ring do. -/
def exFailing : Nat → Bytes → P Str := fun _ _ => .error .ringSign

/-- C141: the hypotheses of the theorems above. -/
example : (∃ base, UsesKey exReqwest exSigning exSignEnv base ∧ exFailing exSignEnv.rnd base = .error .ringSign) ∧
    (∃ base, UsesKey exReqwest exSigning exSignEnv base ∧
      (fun n b => .ok (exSigning.signature.sign n b) : Nat → Bytes → P Str) exSignEnv.rnd base =
        .ok (exSigning.signature.sign exSignEnv.rnd base)) := by
  have h : ∃ base, .httpSign base ∈ (signCalled exReqwest exSigning exSignEnv).calls :=
    ⟨_, .tail _ (.tail _ (.tail _ (.tail _ (.head _))))⟩
  obtain ⟨base, h⟩ := h
  exact ⟨⟨base, usesKey_iff.2 h, rfl⟩, base, usesKey_iff.2 h, rfl⟩

/-- C141: date, digest and `Signature-Input` are set, and there is no `Signature`. -/
example : (signMay exFailing exReqwest exSigning exSignEnv).result = .error .ringSign ∧
    (leftBy exReqwest (signMay exFailing exReqwest exSigning exSignEnv)).headers = exReqwestSigned.headers.dropLast := ⟨rfl, rfl⟩

/-- C141: the hypotheses of `C141_not_accepted`. -/
example : (∃ base, UsesKey (exMock [] (some [1])) (exSigning.setComponents [.header hDate]) exSignEnv base) ∧
    RequestLike.derive (exMock [] (some [1])) (.header hSignature) = .ok none := by
  have h : ∃ base, .httpSign base ∈ (signCalled (exMock [] (some [1])) (exSigning.setComponents [.header hDate]) exSignEnv).calls :=
    ⟨_, .tail _ (.tail _ (.tail _ (.tail _ (.tail _ (.head _)))))⟩
  obtain ⟨base, h⟩ := h
  exact ⟨⟨base, usesKey_iff.2 h⟩, rfl⟩

/-- C141: signing a request again, later and with a key that fails, leaves the old signature beside the new `Signature-Input`. -/
example : (leftBy exReqwestSigned (signMay exFailing exReqwestSigned exSigning
      { exSignEnv with sysNow := 151000000000 })).headers.filter (fun h => h.1 = hSignature ∨ h.1 = hSignatureInput) =
    [(hSignatureInput, ⟨utf8 (str% "sig=(\"@method\" \"host\" \"digest\" \"date\");alg=\"toy\";created=151;expires=211;keyid=\"k1\";nonce=n1"), rfl⟩),
     (hSignature, ⟨utf8 (str% "sig=:IkBt:"), rfl⟩)] := rfl

/-- An algorithm of the openssl back end. -/
def exOsslAlg : AlgEntry := ⟨str% "RsaSha512", str% "rsa-v1_5-sha512", .rsaPkcs1Sha512, .rsaPkcs1Sha512⟩
/-- A configuration with a key of it. -/
def exOssl (key : Bytes) : SigningConfig := { exSigning with signature := exOsslAlg.signer key }

/-- C141: an openssl key that is too short, one of another kind and a good one, with the hypotheses of `C141_openssl`. -/
example : (∀ key, ∃ base, UsesKey exReqwest (exOssl key) exSignEnv base) ∧
    (signMay (Openssl.httpSign exOsslAlg ⟨true, [1]⟩) exReqwest (exOssl [1]) exSignEnv).result =
      .error .opensslSign ∧
    (signMay (Openssl.httpSign exOsslAlg ⟨false, [1]⟩) exReqwest (exOssl [1]) exSignEnv).result =
      .error .opensslPadding ∧
    (signMay (Openssl.httpSign exOsslAlg ⟨true, [1, 2, 3, 4]⟩) exReqwest (exOssl [1, 2, 3, 4]) exSignEnv).result =
      sign exReqwest (exOssl [1, 2, 3, 4]) exSignEnv := by
  refine ⟨fun key => ?_, rfl, rfl, (C141_same _ _ _ _ fun _ _ => rfl).2⟩
  have h : ∃ base, .httpSign base ∈ (signCalled exReqwest (exOssl key) exSignEnv).calls :=
    ⟨_, .tail _ (.tail _ (.tail _ (.tail _ (.head _))))⟩
  obtain ⟨base, h⟩ := h
  exact ⟨base, usesKey_iff.2 h⟩

/-- C141: a signature that is refused for its times does not get as far as the key. -/
example : (signMay exFailing exReqwest (exSigning.setExpiresAt 100) exSignEnv).result =
    sign exReqwest (exSigning.setExpiresAt 100) exSignEnv := rfl

end Httpsig
