import Verif.Props.Cli
/-
C49: what sign mode writes is accepted by verify mode.
-/
set_option linter.unusedSectionVars false
namespace Httpsig
open Sfv

variable [Deps]

theorem mock_touches {w : HeaderName → Prop} {r r1 : MockRequest} (t : Touches w r r1) (hw : ∀ n, ¬ w n) : r1 = r := by
  induction t with
  | refl => rfl
  | set h v hh => exact absurd hh (hw h)
  | digest d _ ih => exact ih

theorem optSigning_no_auto {r : MockRequest} {o : Opt} {name : Str} {prim : Primitive} {key : Bytes}
    {comps : List SignatureComponent} (n : HeaderName) : ¬ AutoWrite r (optSigning o name prim key comps) n := by
  rintro ⟨⟨_, h⟩ | ⟨_, h⟩ | ⟨_, h⟩, _⟩ <;> cases h

theorem not_blank_visible {c : Char} (hv : VisibleChar c) (hb : ¬ Blank c) : whiteSpace c = false := by
  rw [← isRustWhitespace_eq]
  have : ¬ (c.toNat = 32 ∨ c.toNat = 9) := by
    rintro (h | h)
    · exact hb (by
        have : c = ' ' := by rw [← Char.ofNat_toNat c, h]
        rw [this]; unfold Blank; decide)
    · exact hb (by
        have : c = '\t' := by rw [← Char.ofNat_toNat c, h]
        rw [this]; unfold Blank; decide)
  unfold VisibleChar at hv
  unfold isRustWhitespace
  simp
  omega

theorem setHeader_readable {r : MockRequest} {n : HeaderName} {v : HeaderValue} (h : Readable r) (hn : n ≠ hHost)
    (hv : ∀ s, v.toStr = some s → Trimmed whiteSpace s s) : Readable (r.setHeader n v) := by
  refine ⟨h.path, ?_, HeaderMap.insert_nodup h.names _ _, ?_⟩
  · have := h.url
    unfold UrlOf at this ⊢
    simp only [MockRequest.setHeader]
    rwa [HeaderMap.getAll_insert_ne _ _ hn.symm]
  · intro e he s hs
    simp only [MockRequest.setHeader] at he
    rcases HeaderMap.mem_insert he with he | rfl
    · exact h.values e he s hs
    · exact hv s hs

theorem quoted_last (s : Str) : (quoted s).getLast? = some '"' := by
  unfold quoted
  rw [List.getLast?_append]; rfl

/-- What sign mode leaves in memory: the request with two more headers, in the shape that files can express. -/
theorem signed_file {r r' : MockRequest} {o : Opt} {name : Str} {prim : Primitive} {key : Bytes}
    {comps : List SignatureComponent} {env : SignEnv} (hr : Readable r)
    (h : sign r (optSigning o name prim key comps) env = .ok (r', .ok ())) (hl : PlainLabel (o.label.getD (str% "sig"))) :
    Readable r' ∧ ∃ vi vs, r' = (r.setHeader hSignatureInput vi).setHeader hSignature vs := by
  obtain ⟨r1, ids, lids, vals, vi, vs, hauto, _, _, hw, hsv, h1, h2, h3, h4, h5, hr'⟩ := sign_success h
  have := mock_touches hauto.touches optSigning_no_auto
  subst this
  refine ⟨?_, vi, vs, hr'⟩
  rw [hr']
  refine setHeader_readable (setHeader_readable hr hInput_ne_hHost ?_) hSignature_ne_hHost ?_
  · intro s hs
    rw [toStr_fromStr h4 hs]
    refine ⟨[], [], by simp, by simp, by simp, ?_, ?_⟩
    · intro c hc
      simp only [List.cons_append, List.head?_cons, Option.mem_some_iff] at hc
      subst hc; decide
    · intro c hc
      have : signedParamsText (optSigning o name prim key comps) (env.sysNow / 1000000000) ≠ [] := by
        simp [signedParamsText]
      have e2 : (signedParamsText (optSigning o name prim key comps) (env.sysNow / 1000000000)).getLast? = some '"' := by
        simp only [signedParamsText, optSigning, List.append_nil, List.getLast?_append, quoted_last, Option.some_or]
      rw [List.getLast?_append, List.getLast?_append, e2] at hc
      cases hc; decide
  · intro s hs
    rw [toStr_fromStr h5 hs]
    refine ⟨[], [], by simp, by simp, by simp, ?_, ?_⟩
    · intro c hc
      cases hlab : o.label.getD (str% "sig") with
      | nil =>
        simp only [optSigning, hlab, List.nil_append, List.cons_append, List.head?_cons, Option.mem_some_iff] at hc
        subst hc; decide
      | cons x xs =>
        simp only [optSigning, hlab, List.cons_append, List.head?_cons, Option.mem_some_iff] at hc
        subst hc
        exact not_blank_visible (hl.1 _ (by rw [hlab]; simp)).1 (hl.2 _ (by rw [hlab]; simp))
    · intro c hc
      rw [List.getLast?_append] at hc
      cases hc; decide

theorem headerOption_tidy {o : Opt} {comps : List SignatureComponent} (h : HeaderOption o comps) :
    ∀ k ∈ comps, ComponentTidy k := by
  unfold HeaderOption at h
  split at h
  · subst h; simp
  · subst h; simp
  · obtain ⟨ws, _, hf⟩ := h
    intro k hk
    obtain ⟨w, _, hw⟩ := forall2_right hf k hk
    unfold SignatureComponent.fromStr at hw
    split at hw
    · cases hd : DerivedComponent.fromStr w with
      | error e => rw [hd] at hw; cases hw
      | ok d => rw [hd] at hw; cases hw; exact C01_fromStr_tidy w d hd
    · split at hw
      · cases hw; trivial
      · cases hw

theorem optSigning_portable {o : Opt} {name : Str} {prim : Primitive} {key : Bytes} {comps : List SignatureComponent}
    {rnd : Nat} (hc : HeaderOption o comps) (hl : PlainLabel (o.label.getD (str% "sig"))) :
    Portable (optSigning o name prim key comps) rnd where
  components := headerOption_tidy hc
  nonce := by simp [optSigning]
  label := hl.1
  signature m c hm := ⟨base64_visible _ c hm, fun e => by
    subst e
    exact base64_no_colon (C31_rfc4648 _) hm⟩

theorem runSign_iff {req : MockRequest} {o : Opt} {env : SignEnv} {out : Bytes} :
    runSign req o env = .ok (.ok out) ↔ ∃ c r', o.signingConfig = .ok c ∧ sign req c env = .ok (r', .ok ()) ∧ r'.write = some out := by
  unfold runSign
  cases hc : o.signingConfig with
  | error e => simp
  | ok c =>
    have e : (∃ c_1 r', Except.ok (ε := AppError) c = .ok c_1 ∧ sign req c_1 env = .ok (r', .ok ()) ∧ r'.write = some out) ↔
        ∃ r', sign req c env = .ok (r', .ok ()) ∧ r'.write = some out :=
      ⟨fun ⟨_, r', h1, h2⟩ => by cases h1; exact ⟨r', h2⟩, fun ⟨r', h⟩ => ⟨c, r', rfl, h⟩⟩
    rw [e]
    simp only [Bind.bind, Except.bind, Pure.pure, Except.pure]
    cases hs : sign req c env with
    | error p => simp
    | ok x =>
      obtain ⟨r', res⟩ := x
      cases res with
      | error e => simp
      | ok u => cases hw : r'.write <;> simp [hw]

theorem runVerify_iff {req : MockRequest} {o : Opt} {env : VerifyEnv} :
    runVerify req o env = .ok (.ok ()) ↔ ∃ c kid, o.verificationConfig = .ok c ∧ verify req c env = .ok (.ok ((), kid)) := by
  unfold runVerify
  cases hc : o.verificationConfig with
  | error e => simp
  | ok c =>
    simp only [Bind.bind, Except.bind, Pure.pure, Except.pure, Except.ok.injEq, exists_and_left, exists_eq_left']
    cases hs : verify req c env with
    | error p => simp
    | ok x =>
      cases x with
      | error e => simp
      | ok y => simp [Prod.ext_iff]

theorem mock_values_mem {r1 : MockRequest} : ∀ {comps : List SignatureComponent} {vals : List Str}, Values r1 comps vals →
    ∀ k ∈ comps, ∃ v, r1.derive k = .ok (some v)
  | [], _, _, _, hk => by cases hk
  | c :: cs, vals, h, k, hk => by
    rw [Values.cons_iff] at h
    obtain ⟨v, vs, rfl, h1, h2⟩ := h
    rcases List.mem_cons.1 hk with rfl | hk
    · exact ⟨v, h1⟩
    · exact mock_values_mem h2 k hk

theorem signed_received {r r' : MockRequest} {o : Opt} {name : Str} {prim : Primitive} {key : Bytes}
    {comps : List SignatureComponent} {env : SignEnv}
    (h : sign r (optSigning o name prim key comps) env = .ok (r', .ok ()))
    (hno : .header hSignature ∉ comps ∧ .header hSignatureInput ∉ comps) (v : Version) :
    Received r r' (optSigning o name prim key comps) ({ r' with version := v } : MockRequest) := by
  refine ⟨rfl, rfl, fun k hk k' hs => ?_⟩
  obtain ⟨r1, ids, lids, vals, vi, vs, hauto, _, _, hw, hsv, h1, h2, h3, h4, h5, hr'⟩ := sign_success h
  have := mock_touches hauto.touches optSigning_no_auto
  subst this
  obtain ⟨x, hx⟩ := mock_values_mem h1 k hk
  have hk : k ∈ comps := hk
  have e : r'.derive k = r1.derive k := by
    rw [hr']
    refine (LawfulClient.derive_set_ne (R := MockRequest) _ _ _ _ fun e => hno.1 (e ▸ hk)).trans ?_
    exact LawfulClient.derive_set_ne (R := MockRequest) _ _ _ _ fun e => hno.2 (e ▸ hk)
  have e1 : RequestLike.derive (self := ServerRequestLike.toRequestLike (Remnant := Unit)) ({ r' with version := v } : MockRequest) k' =
      r'.derive k := (mock_derive_same r' hs).symm
  have e2 : valueOf r1 k = some x := derive_valueOf hx
  rw [e1, e, hx, hsv k, e2]

theorem firstSupported_nonempty {provider : Str → Option HttpDigest} {alg : HttpDigest} {value : Str} :
    ¬ FirstSupported provider [] alg value := by
  rintro ⟨before, entry, after, he, _, ⟨k, v, name, rfl, _⟩, _⟩
  cases before with
  | nil =>
    cases after with
    | nil =>
      simp only [List.nil_append, joinWith] at he
      cases k <;> cases he
    | cons f fs => rw [List.nil_append, joinWith_cons (by simp)] at he; cases k <;> cases he
  | cons e es =>
    rw [List.cons_append, joinWith_cons (by simp)] at he
    cases e <;> cases he

theorem digestOk_iff {r : MockRequest} {keys : Str → List HttpSignatureVerify} :
    DigestOk r (optVerifying keys) () ↔ DigestFits r := by
  have hd : RequestLike.derive (self := ServerRequestLike.toRequestLike (Remnant := Unit)) r (.header hDigest) =
      .ok ((r.headers.getAll hDigest).head?.map fun v => v.toStr.getD []) := by
    rw [← HeaderMap.get_eq_head_getAll]; rfl
  unfold DigestOk DigestFits
  rw [hd]
  cases hg : r.headers.getAll hDigest with
  | nil => simp [optVerifying]
  | cons v vs =>
    have e1 : (optVerifying keys).validateDigest = true := rfl
    have e2 : (optVerifying keys).digestProvider = defaultDigestProvider := rfl
    simp only [List.head?_cons, Option.map_some, Except.ok.injEq, Option.some.injEq, e1, e2, if_true,
      reduceCtorEq, false_and, or_false, false_or]
    constructor
    · rintro ⟨_, rfl, alg, value, hf, hb⟩
      cases hs : v.toStr with
      | none => rw [hs] at hf; exact absurd hf firstSupported_nonempty
      | some s =>
        rw [hs] at hf
        have hb := congrArg Prod.fst hb
        cases hbody : r.body with
        | none => simp only [ServerRequestLike.completeWithDigest, hbody] at hb; cases hb
        | some b =>
          simp only [ServerRequestLike.completeWithDigest, hbody, Option.map_some, Option.some.injEq] at hb
          subst hb
          exact ⟨v, s, alg, b, rfl, hs, rfl, hf⟩
    · rintro ⟨_, s', alg, b, rfl, hs', hb, hf⟩
      rw [hs']
      exact ⟨s', rfl, alg, _, hf, by simp only [ServerRequestLike.completeWithDigest, hb, Option.map_some]⟩

/-- What sign mode writes is read back by verify mode, and if the library accepts it exactly if some conditions hold, where the signature
is checked against the text `base'`, then verify mode does. -/
theorem pipeline_file {input out : Bytes} {trace : Bool} {req : MockRequest} {o : Opt} {env : SignEnv}
    (hin : MockRequest.fromReader input trace = .ok (some req)) (hs : runSign req o env = .ok (.ok out))
    (hl : PlainLabel (o.label.getD (str% "sig"))) :
    ∃ r' alg name prim pem key comps, MockRequest.fromReader out trace = .ok (some { r' with version := .http11 }) ∧
      sign req (optSigning o name prim key comps) env = .ok (r', .ok ()) ∧ HeaderOption o comps ∧
      o.algorithm = some alg ∧ Supports alg name prim ∧ o.privateKey = some (some pem) ∧ privatePkcs8Pem pem = some key ∧
      ∀ base base', (∀ (vc : VerifyingConfig) (venv : VerifyEnv) (rem : Unit) (kid : Str),
          verify ({ r' with version := .http11 } : MockRequest) vc venv = .ok (.ok (rem, kid)) ↔
            (optSigning o name prim key comps).label = str% "sig" ∧ kid = (optSigning o name prim key comps).keyId ∧ 0 ≤ venv.sysNow ∧
            (∀ t, createdTime (optSigning o name prim key comps) (env.sysNow / 1000000000) = some t → t ≤ venv.sysNow / 1000000000) ∧
            (∀ t, expiresTime (optSigning o name prim key comps) (env.sysNow / 1000000000) = some t → venv.sysNow / 1000000000 ≤ t) ∧
            (∃ k ∈ vc.keyProvider (optSigning o name prim key comps).keyId,
              k.verify base' ((optSigning o name prim key comps).signature.sign env.rnd base) = true) ∧
            RequiredOk vc (signedInput req r' (optSigning o name prim key comps) (env.sysNow / 1000000000)) ∧ vc.validateDate = false ∧
            DigestOk ({ r' with version := .http11 } : MockRequest) vc rem) →
        ∀ (o' : Opt) (venv : VerifyEnv), runVerify { r' with version := .http11 } o' venv = .ok (.ok ()) ↔
          o.label.getD (str% "sig") = str% "sig" ∧ 0 ≤ venv.sysNow ∧
          (∀ t, o.created = some t → t ≤ venv.sysNow / 1000000000) ∧
          (∀ t, o.expires = some t → venv.sysNow / 1000000000 ≤ t) ∧ DigestFits req ∧
          ∃ alg' name' prim' pem' key', o'.algorithm = some alg' ∧ Supports alg' name' prim' ∧
            o'.publicKey = some (some pem') ∧ PublicKey alg' pem' key' ∧ o'.keyId.getD [] = o.keyId.getD [] ∧
            Deps.asymVerify prim' key' base' (Deps.asymSign prim key env.rnd base) = true := by
  obtain ⟨c, r', hc, hsign, hw⟩ := runSign_iff.1 hs
  obtain ⟨alg, name, prim, pem, key, comps, ha, hsup, hpem, hkey, hcomps, rfl⟩ := (C50_signing_exact o c).1 hc
  obtain ⟨hread, htext⟩ := fromReader_facts hin
  obtain ⟨hread', vi, vs, hr'⟩ := signed_file hread hsign hl
  have hbody : r'.body = req.body := by rw [hr']; rfl
  have hback := C48_round_trip_partial r' out hw hread' trace (by rw [hbody]; exact htext)
  refine ⟨r', alg, name, prim, pem, key, comps, hback, hsign, hcomps, ha, hsup, hpem, hkey, fun base base' hiff o' venv => ?_⟩
  have hdig : ∀ keys, DigestOk ({ r' with version := .http11 } : MockRequest) (optVerifying keys) () ↔ DigestFits req := by
    intro keys
    rw [digestOk_iff (r := { r' with version := .http11 })]
    have eh : r'.headers.getAll hDigest = req.headers.getAll hDigest := by
      rw [hr']
      simp only [MockRequest.setHeader]
      rw [HeaderMap.getAll_insert_ne _ _ hSignature_ne_hDigest.symm, HeaderMap.getAll_insert_ne _ _ hInput_ne_hDigest.symm]
    unfold DigestFits
    simp only [eh, hbody]
  have hcr : ∀ t, createdTime (optSigning o name prim key comps) (env.sysNow / 1000000000) = some t ↔ o.created = some t := by
    intro t; cases h : o.created <;> simp [optSigning, h, createdTime]
  have hex : ∀ t, expiresTime (optSigning o name prim key comps) (env.sysNow / 1000000000) = some t ↔ o.expires = some t := by
    intro t; cases h : o.expires <;> simp [optSigning, h, expiresTime]
  rw [runVerify_iff]
  simp only [hcr, hex] at hiff
  have hver : ∀ n p k, (asymVerifier n p k).verify base' ((optSigning o name prim key comps).signature.sign env.rnd base) =
      Deps.asymVerify p k base' (Deps.asymSign prim key env.rnd base) := by
    intro n p k
    simp only [asymVerifier, optSigning, asymSigner, b64Verify, Base64.strictDecode_encode]
  constructor
  · rintro ⟨vc, kid, hvc, hv⟩
    obtain ⟨h1, h2, h3, h4, h5, ⟨k, hk, hacc⟩, _, _, h8⟩ := (hiff vc venv () kid).1 hv
    rcases (C50_verifying_exact o' vc).1 hvc with ⟨_, _, rfl⟩ | ⟨alg', name', prim', pem', key', g1, g2, g3, g4, rfl⟩
    · cases hk
    · refine ⟨h1, h3, h4, h5, (hdig _).1 h8, alg', name', prim', pem', key', g1, g2, g3, g4, ?_⟩
      simp only [optVerifying, VerifyingConfig.new, onlyKey] at hk
      split at hk
      · rename_i e
        simp only [List.mem_singleton] at hk
        subst hk
        exact ⟨e.symm, (hver _ _ _).symm.trans hacc⟩
      · cases hk
  · rintro ⟨h1, h3, h4, h5, h8, alg', name', prim', pem', key', g1, g2, g3, g4, g5, g6⟩
    refine ⟨_, o.keyId.getD [], (C50_verifying_exact o' _).2 (.inr ⟨alg', name', prim', pem', key', g1, g2, g3, g4, rfl⟩), ?_⟩
    refine (hiff _ venv () _).2 ⟨h1, rfl, h3, h4, h5, ⟨asymVerifier name' prim' key', ?_, ?_⟩, ?_, rfl, (hdig _).2 h8⟩
    · simp only [optVerifying, VerifyingConfig.new, onlyKey, optSigning]
      rw [if_pos g5.symm]; simp
    · rw [hver]; exact g6
    · intro c hc; cases hc

theorem optBase_of_signed {r r' : MockRequest} {o : Opt} {name : Str} {prim : Primitive} {key : Bytes}
    {comps : List SignatureComponent} {env : SignEnv} {now : Int} {base : Bytes} (ho : HeaderOption o comps)
    (h : sign r (optSigning o name prim key comps) env = .ok (r', .ok ()))
    (hb : SignedBase r r' (optSigning o name prim key comps) now base) : OptBase r o name base := by
  obtain ⟨r1, _, _, _, vi, vs, hauto, _, _, hw, hsv, h1, _⟩ := sign_success h
  have := mock_touches hauto.touches optSigning_no_auto
  subst this
  obtain ⟨ids, lids, vals, g1, g2, g3, rfl⟩ := hb
  refine ⟨comps, ids, lids, vals, ho, ?_, g1, g2, congrArg (fun t => utf8 (specBase ids lids vals t)) ?_⟩
  · have g3 : comps.map (signedValue r1 r') = vals.map some := g3
    have hm : ∀ k ∈ comps, RequestLike.derive r1 k = .ok (signedValue r1 r' k) := by
      intro k hk
      obtain ⟨x, hx⟩ := mock_values_mem h1 k hk
      rw [hsv k, derive_valueOf hx]; exact hx
    unfold Values
    rw [List.map_congr_left hm, show comps.map (fun k => (Except.ok (signedValue r1 r' k) : P (Option Str))) =
      (comps.map (signedValue r1 r')).map Except.ok from (List.map_map ..).symm, g3, List.map_map]
    rfl
  · unfold signedParamsText optParamsText
    cases h1 : o.created <;> cases h2 : o.expires <;> simp [optSigning, h1, h2, createdTime, expiresTime, asymSigner]

/-- C49. Exactly when the output of sign mode is accepted by verify mode, for every request read from a file and options
that name no signature header and a plain label: the label is `sig`, the verifier's key belongs to the same key id and its
primitive accepts the signature of the signed base, the clock is within the window, and the digest header, if any, fits the body. -/
theorem C49_exact (input out : Bytes) (trace : Bool) (req : MockRequest) (o : Opt) (env : SignEnv)
    (hin : MockRequest.fromReader input trace = .ok (some req)) (hs : runSign req o env = .ok (.ok out))
    (hl : PlainLabel (o.label.getD (str% "sig"))) (hno : NoSignatureHeaders o) :
    ∃ req' alg name prim pem key base, MockRequest.fromReader out trace = .ok (some req') ∧
      o.algorithm = some alg ∧ Supports alg name prim ∧ o.privateKey = some (some pem) ∧ privatePkcs8Pem pem = some key ∧
      OptBase req o name base ∧
      ∀ (o' : Opt) (venv : VerifyEnv), runVerify req' o' venv = .ok (.ok ()) ↔
        o.label.getD (str% "sig") = str% "sig" ∧ 0 ≤ venv.sysNow ∧
        (∀ t, o.created = some t → t ≤ venv.sysNow / 1000000000) ∧
        (∀ t, o.expires = some t → venv.sysNow / 1000000000 ≤ t) ∧ DigestFits req ∧
        ∃ alg' name' prim' pem' key', o'.algorithm = some alg' ∧ Supports alg' name' prim' ∧
          o'.publicKey = some (some pem') ∧ PublicKey alg' pem' key' ∧ o'.keyId.getD [] = o.keyId.getD [] ∧
          Deps.asymVerify prim' key' base (Deps.asymSign prim key env.rnd base) = true := by
  obtain ⟨r', alg, name, prim, pem, key, comps, hback, hsign, hcomps, ha, hsup, hpem, hkey, hrun⟩ := pipeline_file hin hs hl
  obtain ⟨base, hb, hiff⟩ := C06_exact req r' _ env _ hsign (signed_received hsign (hno comps hcomps) .http11) (optSigning_portable hcomps hl)
  exact ⟨_, alg, name, prim, pem, key, base, hback, ha, hsup, hpem, hkey, optBase_of_signed hcomps hsign hb, hrun base base hiff⟩

/-- C49, partial. The output of sign mode is accepted by verify mode with the matching key, the same algorithm and the same
key id, at every time within the window. Missing: labels other than `sig` (`C49_neg_label`), covering the signature headers
themselves (`C49_neg_self_cover`), requests whose digest header does not fit the body. -/
theorem C49_pipeline_partial (input out : Bytes) (trace : Bool) (req : MockRequest) (o o' : Opt) (env : SignEnv) (venv : VerifyEnv)
    (hin : MockRequest.fromReader input trace = .ok (some req)) (hs : runSign req o env = .ok (.ok out))
    (hl : o.label.getD (str% "sig") = str% "sig") (hno : NoSignatureHeaders o) (hd : DigestFits req)
    (halg : o'.algorithm = o.algorithm) (hid : o'.keyId.getD [] = o.keyId.getD []) (alg pem pem' key key' : _)
    (ha : o.algorithm = some alg) (hpem : o.privateKey = some (some pem)) (hkey : privatePkcs8Pem pem = some key)
    (hpem' : o'.publicKey = some (some pem')) (hkey' : PublicKey alg pem' key')
    (hmatch : ∀ name p rnd m, Supports alg name p → Deps.asymVerify p key' m (Deps.asymSign p key rnd m) = true)
    (hclock : 0 ≤ venv.sysNow) (hcreated : ∀ t, o.created = some t → t ≤ venv.sysNow / 1000000000)
    (hexpires : ∀ t, o.expires = some t → venv.sysNow / 1000000000 ≤ t) :
    ∃ req', MockRequest.fromReader out trace = .ok (some req') ∧ runVerify req' o' venv = .ok (.ok ()) := by
  have hpl : PlainLabel (o.label.getD (str% "sig")) := by
    rw [hl]; unfold PlainLabel VisibleChar Blank; decide
  obtain ⟨req', alg2, name, prim, pem2, key2, base, hback, e1, hsup, e2, e3, _, hiff⟩ := C49_exact input out trace req o env hin hs hpl hno
  rw [ha] at e1; cases e1
  rw [hpem] at e2; cases e2
  rw [hkey] at e3; cases e3
  exact ⟨req', hback, (hiff o' venv).2 ⟨hl, hclock, hcreated, hexpires, hd, alg, name, prim, pem', key', halg.trans ha, hsup, hpem', hkey', hid,
    hmatch _ _ _ _ hsup⟩⟩

/-- C49, negative. With a plain label other than `sig`, sign mode writes a request that verify mode rejects with all options. -/
theorem C49_neg_label (input out : Bytes) (trace : Bool) (req : MockRequest) (o : Opt) (env : SignEnv)
    (hin : MockRequest.fromReader input trace = .ok (some req)) (hs : runSign req o env = .ok (.ok out))
    (hl : PlainLabel (o.label.getD (str% "sig"))) (hl' : o.label.getD (str% "sig") ≠ str% "sig") (hno : NoSignatureHeaders o) :
    ∃ req', MockRequest.fromReader out trace = .ok (some req') ∧ ∀ o' venv, runVerify req' o' venv ≠ .ok (.ok ()) := by
  obtain ⟨req', alg2, name, prim, pem2, key2, base, hback, _, _, _, _, _, hiff⟩ := C49_exact input out trace req o env hin hs hl hno
  exact ⟨req', hback, fun o' venv h => hl' ((hiff o' venv).1 h).1⟩

/-! ### C50, continued -/

/-- C50, negative. The nonce option has no effect in sign mode. -/
theorem C50_neg_nonce (o : Opt) (n : Option Str) (req : MockRequest) (env : SignEnv) :
    runSign req { o with nonce := n } env = runSign req o env := rfl

/-- C50. Unknown algorithms, algorithms without a key, unreadable key files and bad keys are rejected before anything is signed or verified. -/
theorem C50_rejects (o : Opt) (req : MockRequest) :
    ((∃ a, o.algorithm = some a ∧ ∀ name prim, ¬ Supports a name prim) ∨ o.algorithm = none ∨
      (∀ pem key, o.privateKey = some (some pem) → privatePkcs8Pem pem ≠ some key) →
        ∀ env, ∃ e, runSign req o env = .ok (.error e)) ∧
    ((∃ a, o.algorithm = some a ∧ ∀ name prim, ¬ Supports a name prim) ∨
      (∃ a, o.algorithm = some a ∧ ∀ pem key, o.publicKey = some (some pem) → ¬ PublicKey a pem key) →
        ∀ env, ∃ e, runVerify req o env = .ok (.error e)) := by
  constructor
  · intro h env
    cases hc : o.signingConfig with
    | error e => exact ⟨e, by unfold runSign; rw [hc]⟩
    | ok c =>
      obtain ⟨alg, name, prim, pem, key, comps, h1, h2, h3, h4, _⟩ := (C50_signing_exact o c).1 hc
      rcases h with ⟨a, ha, hn⟩ | ha | hk
      · rw [ha] at h1; cases h1; exact absurd h2 (hn _ _)
      · rw [ha] at h1; cases h1
      · exact absurd h4 (hk _ _ h3)
  · intro h env
    cases hc : o.verificationConfig with
    | error e => exact ⟨e, by unfold runVerify; rw [hc]⟩
    | ok c =>
      rcases (C50_verifying_exact o c).1 hc with ⟨h1, _⟩ | ⟨alg, name, prim, pem, key, h1, h2, h3, h4, _⟩
      · rcases h with ⟨a, ha, _⟩ | ⟨a, ha, _⟩ <;> rw [ha] at h1 <;> cases h1
      · rcases h with ⟨a, ha, hn⟩ | ⟨a, ha, hn⟩ <;> rw [ha] at h1 <;> cases h1
        · exact absurd h2 (hn _ _)
        · exact absurd h4 (hn _ _ h3)

/-- C50. Without an algorithm, verify mode accepts nothing. -/
theorem C50_no_algorithm_rejects (o : Opt) (req : MockRequest) (env : VerifyEnv) (ha : o.algorithm = none) :
    runVerify req o env ≠ .ok (.ok ()) := by
  intro h
  obtain ⟨c, kid, hc, hv⟩ := runVerify_iff.1 h
  rcases (C50_verifying_exact o c).1 hc with ⟨_, _, rfl⟩ | ⟨alg, _, _, _, _, h1, _⟩
  · exact C21_no_keys_no_success req _ env () kid rfl hv
  · rw [ha] at h1; cases h1

/-- C50, negative. `hmac-sha256` and `ecdsa-p256-sha256` pass the option check (canonicalize mode works with them) but sign
mode never signs with them. -/
theorem C50_neg_hmac (o : Opt) (a : Str) (ha : a = str% "hmac-sha256" ∨ a = str% "ecdsa-p256-sha256") (ho : o.algorithm = some a) :
    (∀ comps, HeaderOption o comps → o.canonicalizeConfig = .ok (optCanonicalize o a comps)) ∧
    ∀ req env, ∃ e, runSign req o env = .ok (.error e) := by
  refine ⟨fun comps hc => (C50_canonicalize_exact o _).2 ⟨a, comps, ho, ?_, hc, rfl⟩, fun req env => ?_⟩
  · rcases ha with rfl | rfl <;> decide
  · refine (C50_rejects o req).1 (.inl ⟨a, ho, fun name prim hs => ?_⟩) env
    rcases ha with rfl | rfl <;> cases hs

/-- C50, partial. What sign mode writes: the request with `Signature-Input` and `Signature` set, where `Signature-Input` lists
the given components and has the parameters alg, created, expires and keyid given by the options, and `Signature` has the
given label. Missing: the nonce (`C50_neg_nonce`) and the label in `Signature-Input` (always `sig`). -/
theorem C50_reflected_partial (req : MockRequest) (o : Opt) (env : SignEnv) (out : Bytes)
    (h : runSign req o env = .ok (.ok out)) :
    ∃ alg name prim pem key comps ids lids vals vi vs, o.algorithm = some alg ∧ Supports alg name prim ∧
      o.privateKey = some (some pem) ∧ privatePkcs8Pem pem = some key ∧ HeaderOption o comps ∧
      Forall2 Ident comps ids ∧ Forall2 ListIdent comps lids ∧ Values req comps vals ∧
      ((req.setHeader hSignatureInput vi).setHeader hSignature vs).write = some out ∧
      vi.bytes = utf8 (str% "sig=" ++ (specListText lids ++ (str% ";alg=" ++ quoted name ++
        (match o.created with | some t => str% ";created=" ++ timeText t | none => []) ++
        (match o.expires with | some t => str% ";expires=" ++ timeText t | none => []) ++
        str% ";keyid=" ++ quoted (o.keyId.getD [])))) ∧
      ∃ base, vs.bytes = utf8 (o.label.getD (str% "sig") ++ str% "=:" ++
          Base64.encode (Deps.asymSign prim key env.rnd base) ++ str% ":") ∧
        base = utf8 (specBase ids lids vals (str% ";alg=" ++ quoted name ++
        (match o.created with | some t => str% ";created=" ++ timeText t | none => []) ++
        (match o.expires with | some t => str% ";expires=" ++ timeText t | none => []) ++
        str% ";keyid=" ++ quoted (o.keyId.getD []))) := by
  obtain ⟨c, r', hc, hsign, hw⟩ := runSign_iff.1 h
  obtain ⟨alg, name, prim, pem, key, comps, ha, hsup, hpem, hkey, hcomps, rfl⟩ := (C50_signing_exact o c).1 hc
  obtain ⟨r1, ids, lids, vals, vi, vs, hauto, _, _, _, hsv, h1, h2, h3, h4, h5, hr'⟩ := sign_success hsign
  have := mock_touches hauto.touches optSigning_no_auto
  subst this
  have ht : signedParamsText (optSigning o name prim key comps) (env.sysNow / 1000000000) = str% ";alg=" ++ quoted name ++
        (match o.created with | some t => str% ";created=" ++ timeText t | none => []) ++
        (match o.expires with | some t => str% ";expires=" ++ timeText t | none => []) ++
        str% ";keyid=" ++ quoted (o.keyId.getD []) := by
    unfold signedParamsText optSigning
    cases o.created <;> cases o.expires <;>
      simp only [createdTime, expiresTime, asymSigner, List.append_nil]
  rw [ht] at h4 h5
  refine ⟨alg, name, prim, pem, key, comps, ids, lids, vals, vi, vs, ha, hsup, hpem, hkey, hcomps, h2, h3, h1, ?_, fromStr_bytes h4, _, fromStr_bytes h5, rfl⟩
  rw [← hw, hr']
  rfl

end Httpsig

namespace Httpsig
section
attribute [local instance] toyDeps

/-- A request file. -/
def exFile : Bytes := utf8 (str% "POST /a?x=1 HTTP/1.1\nHost: h\nDigest: SHA-256=aGVsbG8=\n\nhello")
/-- A key file. -/
def exKeyFile : Bytes := utf8 (str% "-----BEGIN KEY-----\nAQI=\n-----END KEY-----\n")
/-- Options of sign mode. -/
def exSignOpt : Opt := { headers := some (some (str% "\"@method\"  host digest \"@query-params\";name=\"x\"")), keyId := some (str% "k"), privateKey := some (some exKeyFile),
                         algorithm := some (str% "rsa-pss-sha256"), created := some 100, nonce := some (str% "n") }
/-- The matching options of verify mode. -/
def exVerifyOpt : Opt := { keyId := some (str% "k"), publicKey := some (some exKeyFile), algorithm := some (str% "rsa-pss-sha256") }

theorem exKey_read : Pem.parse exKeyFile = some [1, 2] := by decide +kernel

theorem exKey_private : privatePkcs8Pem exKeyFile = some [1, 2] := by
  unfold privatePkcs8Pem; rw [exKey_read]; rfl

/-- The request in `exFile`. -/
def exRead : MockRequest where
  version := .http11
  method := ⟨str% "POST", rfl⟩
  url := { scheme := str% "http", authority := some { host := str% "h" }, path := str% "/a", query := some (str% "x=1"), ok := rfl }
  path := str% "/a?x=1"
  headers := [(hHost, ⟨utf8 (str% "h"), rfl⟩), (hDigest, ⟨utf8 (str% "SHA-256=aGVsbG8="), rfl⟩)]
  body := some (utf8 (str% "hello"))

theorem exRead_eq (trace : Bool) : MockRequest.fromReader exFile trace = .ok (some exRead) := by
  have : ∀ trace, (MockRequest.fromReader exFile trace).toOption = some (some exRead) := by decide +kernel
  have := this trace
  cases h : MockRequest.fromReader exFile trace with
  | error e => rw [h] at this; cases this
  | ok x => rw [h] at this; cases this; rfl

theorem exRead_sign : ∃ out, runSign exRead exSignOpt ⟨0, 150000000000, 0⟩ = .ok (.ok out) := by
  have : (match runSign exRead exSignOpt ⟨0, 150000000000, 0⟩ with | .ok (.ok _) => true | _ => false) = true := by
    decide +kernel
  split at this
  · exact ⟨_, by assumption⟩
  · cases this

theorem exRead_comps : NoSignatureHeaders exSignOpt := by
  intro comps h
  obtain ⟨x, hx, rfl⟩ := headerOption_iff.1 h
  have : (exSignOpt.parseHeaders.toOption.map fun x => decide (.header hSignature ∉ x.getD [] ∧ .header hSignatureInput ∉ x.getD [])) =
    some true := by decide +kernel
  rw [hx] at this
  simpa [Except.toOption] using this

theorem exRead_digest : DigestFits exRead :=
  .inr ⟨_, str% "SHA-256=aGVsbG8=", documentedSha256, utf8 (str% "hello"), rfl, by decide, rfl, [], str% "SHA-256=aGVsbG8=", [], rfl,
    by decide, ⟨str% "SHA-256", str% "aGVsbG8=", str% "SHA-256", rfl, by decide, ⟨[], [], rfl, by decide, by decide, by decide, by decide⟩,
      ⟨[], [], by decide, by decide, by decide, by decide, by decide⟩, rfl⟩, by simp⟩

/-- The hypotheses of `C48_reread`, `C49_exact` and `C49_pipeline_partial` together. -/
example : ∃ out req', runSign exRead exSignOpt ⟨0, 150000000000, 0⟩ = .ok (.ok out) ∧
    MockRequest.fromReader out true = .ok (some req') ∧ runVerify req' exVerifyOpt ⟨200000000000, 0⟩ = .ok (.ok ()) := by
  obtain ⟨out, hout⟩ := exRead_sign
  obtain ⟨req', h1, h2⟩ := C49_pipeline_partial exFile out true exRead exSignOpt exVerifyOpt ⟨0, 150000000000, 0⟩ ⟨200000000000, 0⟩
    (exRead_eq true) hout rfl exRead_comps exRead_digest rfl rfl (str% "rsa-pss-sha256") exKeyFile exKeyFile [1, 2] [1, 2] rfl rfl
    exKey_private rfl (.inr ⟨by decide, exKey_read⟩) (fun _ _ _ _ _ => decide_eq_true rfl) (by decide) (by intro t h; cases h; decide) (by intro t h; cases h)
  exact ⟨out, req', hout, h1, h2⟩

/-- A request with an old `Signature-Input`. -/
def exOld : Bytes := utf8 (str% "GET /a HTTP/1.1\nHost: h\nSignature-Input: old\n")
/-- Options that cover it. -/
def exOldSign : Opt := { headers := some (some (str% "Signature-Input")), privateKey := some (some exKeyFile), algorithm := some (str% "rsa-pss-sha512") }
/-- The matching options of verify mode. -/
def exOldVerify : Opt := { publicKey := some (some exKeyFile), algorithm := some (str% "rsa-pss-sha512") }

theorem ok_of_toOption {ε α : Type} {x : Except ε α} {a : α} (h : x.toOption = some a) : x = .ok a := by
  cases x <;> cases h; rfl

/-- C49, negative. Covering the header that signing overwrites: there is a request that sign mode signs, with verify mode
rejecting the output although key, algorithm and key id match and the key accepts all genuine signatures. -/
theorem C49_neg_self_cover : ∃ (input out file file' key key' : Bytes) (req req' : MockRequest) (o o' : Opt) (env : SignEnv) (venv : VerifyEnv),
    MockRequest.fromReader input = .ok (some req) ∧ runSign req o env = .ok (.ok out) ∧
    MockRequest.fromReader out = .ok (some req') ∧ HeaderOption o [.header hSignatureInput] ∧
    o'.algorithm = o.algorithm ∧ o'.keyId = o.keyId ∧ o.privateKey = some (some file) ∧ o'.publicKey = some (some file') ∧
    privatePkcs8Pem file = some key ∧ publicPkcs1Pem file' = some key' ∧
    (∀ p rnd m, Deps.asymVerify p key' m (Deps.asymSign p key rnd m) = true) ∧
    runVerify req' o' venv = .ok (.error .verification) := by
  let r0 := ((MockRequest.fromReader exOld).toOption.join).getD exRead
  let out := ((runSign r0 exOldSign ⟨0, 0, 0⟩).toOption.bind Except.toOption).getD []
  let r1 := ((MockRequest.fromReader out).toOption.join).getD exRead
  refine ⟨exOld, out, exKeyFile, exKeyFile, [1, 2], [1, 2], r0, r1, exOldSign, exOldVerify, ⟨0, 0, 0⟩, ⟨0, 0⟩, ok_of_toOption (by decide +kernel), ?_, ok_of_toOption (by decide +kernel),
    headerOption_iff.2 ⟨some [.header hSignatureInput], rfl, rfl⟩, rfl, rfl, rfl, rfl, exKey_private, exKey_read,
    fun _ _ _ => decide_eq_true rfl, ?_⟩
  · have : ((runSign r0 exOldSign ⟨0, 0, 0⟩).toOption.bind Except.toOption) = some out := by decide +kernel
    obtain ⟨x, h1, h2⟩ := Option.bind_eq_some_iff.1 this
    rw [ok_of_toOption h1, ok_of_toOption h2]
  · have : (match runVerify r1 exOldVerify ⟨0, 0⟩ with | .ok (.error .verification) => true | _ => false) = true := by decide +kernel
    split at this
    · assumption
    · cases this

/-- `C50_signing_exact` and `C50_reflected_partial` apply: the nonce option is set but not in the output. -/
example : (∃ c, exSignOpt.signingConfig = .ok c) ∧ exSignOpt.nonce = some (str% "n") := by
  obtain ⟨out, h⟩ := exRead_sign
  obtain ⟨c, _, hc, _⟩ := runSign_iff.1 h
  exact ⟨⟨c, hc⟩, rfl⟩

example : (∃ c, exVerifyOpt.verificationConfig = .ok c) ∧ ∃ c, exSignOpt.canonicalizeConfig = .ok c := by
  have h : (exVerifyOpt.verificationConfig.toOption.isSome && exSignOpt.canonicalizeConfig.toOption.isSome) = true := by decide +kernel
  simp only [Bool.and_eq_true, Option.isSome_iff_exists] at h
  obtain ⟨⟨a, ha⟩, b, hb⟩ := h
  exact ⟨⟨a, ok_of_toOption ha⟩, b, ok_of_toOption hb⟩

/-- `C49_neg_label`: the same options with another label still sign. -/
example : PlainLabel (str% "other") ∧ ∃ out, runSign exRead { exSignOpt with label := some (str% "other") } ⟨0, 150000000000, 0⟩ = .ok (.ok out) := by
  refine ⟨by unfold PlainLabel VisibleChar Blank; decide, ?_⟩
  have : (match runSign exRead { exSignOpt with label := some (str% "other") } ⟨0, 150000000000, 0⟩ with | .ok (.ok _) => true | _ => false) = true := by
    decide +kernel
  split at this
  · exact ⟨_, by assumption⟩
  · cases this

/-- `C50_rejects`: an unknown algorithm. -/
example : ∀ name prim, ¬ Supports (str% "hmac-sha512") name prim := by intro _ _ h; cases h

/-- `C48_neg_*`: a value with blanks, a repeated header, another version, a body that is not text. -/
example : ∃ v : HeaderValue, v.toStr = some (str% " a ") ∧ ¬ Trimmed whiteSpace (str% " a ") (str% " a ") :=
  ⟨⟨utf8 (str% " a "), rfl⟩, by decide, fun ⟨_, _, _, _, _, h, _⟩ => by have := h ' ' (by simp); revert this; decide⟩

example : ∀ s, utf8 s ≠ [0xff] := utf8Decode_none.1 (by decide +kernel)

end
end Httpsig
