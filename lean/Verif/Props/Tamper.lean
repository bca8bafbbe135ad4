import Verif.Props.Keys
/-
C36 and C37: what an accepted signature says, and what it does not depend on.
-/
set_option linter.unusedSectionVars false
namespace Httpsig
open Sfv
variable [Deps] {R S Rem Rem' : Type} [ServerRequestLike R Rem] [ServerRequestLike S Rem']

/-! ### C36 -/

/-- An HMAC key accepts exactly the base64 text of the tag. -/
theorem hmacVerify_iff {name : Str} {mac : Bytes → Bytes} {base : Bytes} {sig : Str} :
    (hmacVerify name mac).verify base sig = true ↔ Base64.strictDecode sig = some (mac base) := by
  simp only [hmacVerify, b64Verify]
  cases Base64.strictDecode sig <;> simp

/-- Two requests with the same signature headers accepted under one HMAC key have the same base, or exhibit a collision. -/
theorem accepted_same_base {r : R} {s : S} {config config' : VerifyingConfig} {env env' : VerifyEnv}
    {rem : Rem} {rem' : Rem'} {keyId keyId' : Str} {name : Str} {mac : Bytes → Bytes} {v w : Str} {c : CanonicalizeConfig}
    (hr1 : RequestLike.derive r (.header hSignatureInput) = .ok (some v))
    (hs1 : RequestLike.derive s (.header hSignatureInput) = .ok (some v))
    (hr2 : RequestLike.derive r (.header hSignature) = .ok (some w))
    (hs2 : RequestLike.derive s (.header hSignature) = .ok (some w))
    (hc : CanonicalizeConfig.fromSignatureInput v = .ok (.ok c))
    (hk : config.keyProvider keyId = [hmacVerify name mac]) (hk' : config'.keyProvider keyId = [hmacVerify name mac])
    (hr : verify r config env = .ok (.ok (rem, keyId))) (hs : verify s config' env' = .ok (.ok (rem', keyId'))) :
    (∃ b si, canonicalize r c = .ok (.ok (b, si)) ∧ canonicalize s c = .ok (.ok (b, si))) ∨
    ∃ b b' si, canonicalize r c = .ok (.ok (b, si)) ∧ canonicalize s c = .ok (.ok (b', si)) ∧ b ≠ b' ∧ mac b = mac b' := by
  obtain ⟨c1, sig, base, ho, _⟩ := verify_ok_iff.1 hr
  obtain ⟨c2, sig', base', ho', _⟩ := verify_ok_iff.1 hs
  obtain ⟨v1, e1, e2⟩ := ho.input
  rw [hr1] at e1; cases e1
  rw [hc] at e2; cases e2
  obtain ⟨v2, e1, e2⟩ := ho'.input
  rw [hs1] at e1; cases e1
  rw [hc] at e2; cases e2
  have hkid : keyId = keyId' := by
    have hnd : IMap.NodupKeys c.params.params := (paramsOk_tidy (fromSignatureInput_spec hc).2.2).1
    have h1 := IMap.get_of_mem hnd ho.keyid
    have h2 := IMap.get_of_mem hnd ho'.keyid
    rw [h1] at h2; cases h2; rfl
  subst hkid
  have hsig : sig = sig' := by
    obtain ⟨x, l, f1, f2, f3⟩ := ho.signature
    obtain ⟨y, l', g1, g2, g3⟩ := ho'.signature
    rw [hr2] at f1; cases f1
    rw [hs2] at g1; cases g1
    have := parseSignatureHeader_iff.2 f2
    rw [parseSignatureHeader_iff.2 g2] at this
    cases this; rfl
  subst hsig
  obtain ⟨si, hcan⟩ := ho.canon
  obtain ⟨si', hcan'⟩ := ho'.canon
  obtain ⟨k1, hk1, hv1⟩ := ho.key
  obtain ⟨k2, hk2, hv2⟩ := ho'.key
  rw [hk, List.mem_singleton] at hk1
  rw [hk', List.mem_singleton] at hk2
  subst hk1 hk2
  have hm : mac base = mac base' := by
    have h1 := hmacVerify_iff.1 hv1
    rw [hmacVerify_iff.1 hv2] at h1
    exact (Option.some.inj h1).symm
  have : si = si' := by
    obtain ⟨_, _, _, _, _, _, _, _, _, rfl⟩ := canonicalize_ok_iff.1 hcan
    obtain ⟨_, _, _, _, _, _, _, _, _, rfl⟩ := canonicalize_ok_iff.1 hcan'
    rfl
  subst this
  by_cases hb : base = base'
  · subst hb
    exact .inl ⟨base, si, hcan, hcan'⟩
  · exact .inr ⟨base, base', si, hcan, hcan', hb, hm⟩

/-- C36 (partial). Two requests (possibly of different types, verified at different times) with the same `Signature-Input`
and `Signature` headers, both accepted under one HMAC key: either they have the same value for every covered component,
or they exhibit a collision of the tag function, namely two different bases with the same tag.
Missing: two or more covered values with newlines (only `@query-params` produces them; see `C05_neg_query_params`). -/
theorem C36_tampering_detected_partial (r : R) (s : S) (config config' : VerifyingConfig) (env env' : VerifyEnv)
    (rem : Rem) (rem' : Rem') (keyId keyId' : Str) (name : Str) (mac : Bytes → Bytes) (v w : Str) (c : CanonicalizeConfig)
    (hr1 : RequestLike.derive r (.header hSignatureInput) = .ok (some v))
    (hs1 : RequestLike.derive s (.header hSignatureInput) = .ok (some v))
    (hr2 : RequestLike.derive r (.header hSignature) = .ok (some w))
    (hs2 : RequestLike.derive s (.header hSignature) = .ok (some w))
    (hc : CanonicalizeConfig.fromSignatureInput v = .ok (.ok c))
    (hk : config.keyProvider keyId = [hmacVerify name mac]) (hk' : config'.keyProvider keyId = [hmacVerify name mac])
    (hr : verify r config env = .ok (.ok (rem, keyId))) (hs : verify s config' env' = .ok (.ok (rem', keyId')))
    (hn : AtMostOneLong r c.components s c.components) :
    (∀ k ∈ c.components, ∃ x, RequestLike.derive r k = .ok (some x) ∧ RequestLike.derive s k = .ok (some x)) ∨
    ∃ b b' si, canonicalize r c = .ok (.ok (b, si)) ∧ canonicalize s c = .ok (.ok (b', si)) ∧ b ≠ b' ∧ mac b = mac b' := by
  rcases accepted_same_base hr1 hs1 hr2 hs2 hc hk hk' hr hs with ⟨base, si, hcan, hcan'⟩ | h
  · left
    obtain ⟨_, _, vals, h1, h2⟩ := C05_read_headers_partial r s v v c c base si si hc hc hcan hcan' hn
    intro k hk
    unfold Values at h1 h2
    obtain ⟨i, hi, rfl⟩ := List.mem_iff_getElem.1 hk
    have hl : i < vals.length := by have := congrArg List.length h1; simp at this; omega
    refine ⟨vals[i], ?_, ?_⟩
    · have := congrArg (fun l => l[i]?) h1
      simpa [hi, hl] using this
    · have := congrArg (fun l => l[i]?) h2
      simpa [hi, hl] using this
  · exact .inr h

/-- No component of a `MockRequest` except `@query-params` has a value with a newline. -/
theorem mock_no_newline {r : MockRequest} {k : SignatureComponent} {v : Str}
    (hk : ∀ d, k = .derived d → d.item.bare ≠ .string atQueryParams) (h : r.derive k = .ok (some v)) : '\n' ∉ v := by
  cases k with
  | header n =>
    simp only [MockRequest.derive, Except.ok.injEq, Option.map_eq_some_iff] at h
    obtain ⟨w, _, rfl⟩ := h
    cases hw : w.toStr with
    | none => simp
    | some x => exact toStr_no_newline hw
  | derived d =>
    by_cases ha : d.name = .ok atAuthority
    · simp only [MockRequest.derive, DerivedComponent.derive, ha] at h
      cases h
    · apply reqwestDerive_no_newline (m := r.method) (u := r.url) (hs := []) (k := .derived d) hk
      rw [← h]
      simp only [reqwestDerive, MockRequest.derive, DerivedComponent.derive]
      cases hn : d.name with
      | error p => rfl
      | ok nm =>
        have hne : nm ≠ atAuthority := by rintro rfl; exact ha hn
        simp only [Bind.bind, Except.bind, pure, Except.pure]
        unfold DerivedComponent.deriveNamed
        simp only [if_neg hne]

/-- C36 for the validator's request type: no assumption on values, only that `@query-params` is covered at most once. -/
theorem C36_mock_partial (r s : MockRequest) (config : VerifyingConfig) (env env' : VerifyEnv) (keyId keyId' : Str)
    (name : Str) (mac : Bytes → Bytes) (v w : HeaderValue) (c : CanonicalizeConfig)
    (hr1 : r.headers.get hSignatureInput = some v) (hs1 : s.headers.get hSignatureInput = some v)
    (hr2 : r.headers.get hSignature = some w) (hs2 : s.headers.get hSignature = some w)
    (hc : CanonicalizeConfig.fromSignatureInput (v.toStr.getD []) = .ok (.ok c))
    (hq : AtMostOneQueryParams c.components)
    (hk : config.keyProvider keyId = [hmacVerify name mac])
    (hr : verify r config env = .ok (.ok ((), keyId))) (hs : verify s config env' = .ok (.ok ((), keyId'))) :
    (∀ k ∈ c.components, ∃ x, r.derive k = .ok (some x) ∧ s.derive k = .ok (some x)) ∨ 
    ∃ b b' si, canonicalize r c = .ok (.ok (b, si)) ∧ canonicalize s c = .ok (.ok (b', si)) ∧ b ≠ b' ∧ mac b = mac b' := by
  rcases C36_tampering_detected_partial r s config config env env' () () keyId keyId' name mac (v.toStr.getD []) (w.toStr.getD []) c
    (show (Except.ok ((r.headers.get hSignatureInput).map fun v => v.toStr.getD []) : P (Option Str)) = _ by rw [hr1]; rfl)
    (show (Except.ok ((s.headers.get hSignatureInput).map fun v => v.toStr.getD []) : P (Option Str)) = _ by rw [hs1]; rfl)
    (show (Except.ok ((r.headers.get hSignature).map fun v => v.toStr.getD []) : P (Option Str)) = _ by rw [hr2]; rfl)
    (show (Except.ok ((s.headers.get hSignature).map fun v => v.toStr.getD []) : P (Option Str)) = _ by rw [hs2]; rfl)
    hc hk hk hr hs
    (atMostOneLong_of_query hq (componentsSame_refl _) (fun k hk x hx => mock_no_newline hk hx)
      (fun k hk x hx => mock_no_newline hk hx)) with h | h
  · exact Or.inl h
  · exact Or.inr h

/-- Two different accepted requests with the same signature: the uncovered `x` header and the URL differ, the covered
`host` does not. The tag function is the identity (so there are no collisions). -/
def exIdKey : HttpSignatureVerify := hmacVerify (str% "id") id
def exIdHeaders (x : HeaderValue) : HeaderMap :=
  [(⟨str% "x", rfl⟩, x), (hHost, ⟨utf8 (str% "a"), rfl⟩), (hSignatureInput, ⟨utf8 (str% "sig=(\"host\");alg=\"a\";keyid=\"k\""), rfl⟩),
    (hSignature, ⟨utf8 (str% "sig=:Imhvc3QiOiBhCiJAc2lnbmF0dXJlLXBhcmFtcyI6ICgiaG9zdCIpO2FsZz0iYSI7a2V5aWQ9Imsi:"), rfl⟩)]
def exIdConfig : VerifyingConfig := { exVerifying with keyProvider := fun _ => [exIdKey] }
example : verify (exMock (exIdHeaders ⟨utf8 (str% "1"), rfl⟩) none) exIdConfig exEnv = .ok (.ok ((), str% "k")) := by rfl
example : verify (exMock (exIdHeaders ⟨utf8 (str% "2"), rfl⟩) none) exIdConfig exEnv = .ok (.ok ((), str% "k")) := by rfl
example : verify (exMock ((exIdHeaders ⟨utf8 (str% "1"), rfl⟩).insert hHost ⟨utf8 (str% "b"), rfl⟩) none) exIdConfig exEnv = .ok (.error ()) := by rfl

/-! ### C37 -/

/-- What a caller sees of a verification, apart from the remnant of the request: a key id or a rejection (or a panic). -/
def outcome {Rem : Type} : P (Except Rem (Rem × Str)) → P (Option Str)
  | .error p => .error p
  | .ok (.error _) => .ok none
  | .ok (.ok (_, keyId)) => .ok (some keyId)

/-- C37. Requests, possibly of different types, that agree on the `Signature-Input`, `Signature` and `Digest` headers, on
every component listed in that `Signature-Input`, and on the digests of their bodies have the same outcome. Nothing else
about a request matters. -/
theorem C37_uncovered_data_irrelevant (r : R) (s : S) (config : VerifyingConfig) (env : VerifyEnv)
    (h1 : RequestLike.derive r (.header hSignatureInput) = RequestLike.derive s (.header hSignatureInput))
    (h2 : RequestLike.derive r (.header hSignature) = RequestLike.derive s (.header hSignature))
    (h3 : RequestLike.derive r (.header hDigest) = RequestLike.derive s (.header hDigest))
    (h4 : ∀ v c, RequestLike.derive r (.header hSignatureInput) = .ok (some v) →
      CanonicalizeConfig.fromSignatureInput v = .ok (.ok c) →
      ∀ k ∈ c.components, RequestLike.derive r k = RequestLike.derive s k)
    (h5 : ∀ d, (ServerRequestLike.completeWithDigest r d).1 = (ServerRequestLike.completeWithDigest s d).1) :
    outcome (verify r config env) = outcome (verify s config env) := by
  have hsig : verifySignatureOnly r config env = verifySignatureOnly s config env := by
    unfold verifySignatureOnly
    rw [← h1, ← h2]
    cases hv : RequestLike.derive r (.header hSignatureInput) with
    | error p => rfl
    | ok v =>
      cases v with
      | none => rfl
      | some v =>
        simp only [Bind.bind, Except.bind]
        cases hc : CanonicalizeConfig.fromSignatureInput v with
        | error p => rfl
        | ok x =>
          cases x with
          | error e => rfl
          | ok c =>
            simp only [canonicalize_congr (h4 v c hv hc)]
  have hex : verifyExceptDigest r config env = verifyExceptDigest s config env := by
    unfold verifyExceptDigest
    rw [hsig]
  unfold verify
  rw [hex, h3]
  cases verifyExceptDigest s config env with
  | error p => rfl
  | ok x =>
    cases x with
    | none => rfl
    | some keyId =>
      simp only [Bind.bind, Except.bind]
      cases RequestLike.derive s (.header hDigest) with
      | error p => rfl
      | ok dv =>
        cases dv with
        | none =>
          simp only [h5]
          split
          · split <;> rfl
          · rfl
        | some dv =>
          simp only
          split
          · cases selectDigest config.digestProvider dv with
            | none => rfl
            | some p =>
              simp only [h5]
              cases (ServerRequestLike.completeWithDigest s p.1).1 with
              | none => rfl
              | some e =>
                simp only
                split <;> rfl
          · rfl

/-- C37 for the validator's request type: version, URL text, method and all uncovered headers are irrelevant. -/
theorem C37_mock_headers_only (r s : MockRequest) (config : VerifyingConfig) (env : VerifyEnv)
    (h1 : r.headers.get hSignatureInput = s.headers.get hSignatureInput)
    (h2 : r.headers.get hSignature = s.headers.get hSignature) (h3 : r.headers.get hDigest = s.headers.get hDigest)
    (hb : r.body = s.body)
    (h4 : ∀ v c, r.headers.get hSignatureInput = some v → CanonicalizeConfig.fromSignatureInput (v.toStr.getD []) = .ok (.ok c) →
      ∀ k ∈ c.components, ∃ n, k = .header n ∧ r.headers.get n = s.headers.get n) :
    verify r config env = verify s config env := by
  have key := C37_uncovered_data_irrelevant r s config env
    (show (Except.ok ((r.headers.get hSignatureInput).map fun v => v.toStr.getD []) : P (Option Str)) = _ by rw [h1]; rfl)
    (show (Except.ok ((r.headers.get hSignature).map fun v => v.toStr.getD []) : P (Option Str)) = _ by rw [h2]; rfl)
    (show (Except.ok ((r.headers.get hDigest).map fun v => v.toStr.getD []) : P (Option Str)) = _ by rw [h3]; rfl)
    (by
      intro v c hv hc k hk
      have hv' : (Except.ok ((r.headers.get hSignatureInput).map fun v => v.toStr.getD []) : P (Option Str)) = .ok (some v) := hv
      simp only [Except.ok.injEq, Option.map_eq_some_iff] at hv'
      obtain ⟨w, hw, rfl⟩ := hv'
      obtain ⟨n, rfl, hn⟩ := h4 w c hw hc k hk
      show (Except.ok ((r.headers.get n).map fun v => v.toStr.getD []) : P (Option Str)) = _
      rw [hn]
      rfl)
    (by intro d; show r.body.map d.digest = s.body.map d.digest; rw [hb])
  cases hr : verify r config env with
  | error p =>
    rw [hr] at key
    cases hs : verify s config env with
    | error q => rw [hs] at key; cases key; rfl
    | ok y =>
      rw [hs] at key
      rcases y with _ | ⟨_, _⟩ <;> cases key
  | ok x =>
    rw [hr] at key
    cases hs : verify s config env with
    | error q =>
      rw [hs] at key
      rcases x with _ | ⟨_, _⟩ <;> cases key
    | ok y =>
      rw [hs] at key
      rcases x with _ | ⟨_, _⟩ <;> rcases y with _ | ⟨_, _⟩ <;> cases key <;> rfl

/-- The two requests of the C36 example differ in an uncovered header. -/
example : outcome (verify (exMock (exIdHeaders ⟨utf8 (str% "1"), rfl⟩) none) exIdConfig exEnv) =
    outcome (verify { exMock (exIdHeaders ⟨utf8 (str% "2"), rfl⟩) none with version := .http3, method := ⟨str% "PUT", rfl⟩ } exIdConfig exEnv) := by rfl

end Httpsig
