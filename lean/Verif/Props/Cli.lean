import Verif.Lemmas.Cli
import Verif.Props.EndToEnd
import Verif.Spec.TestDeps
import Verif.Spec.Example
/-
C48, C49, C50: the validator.
-/
set_option linter.unusedSectionVars false
set_option linter.unusedSimpArgs false
namespace Httpsig
open Sfv
variable [Deps]

/-! ### C48 -/

theorem writeHeaders_isSome {hs : HeaderMap} :
    (∃ t, MockRequest.writeHeaders hs = some t) ↔ ∀ e ∈ hs, ∃ s, e.2.toStr = some s := by
  induction hs with
  | nil => simp [MockRequest.writeHeaders]
  | cons e hs ih =>
    obtain ⟨n, v⟩ := e
    rw [MockRequest.writeHeaders]
    simp only [List.mem_cons, forall_eq_or_imp, ← ih]
    cases v.toStr with
    | none => simp
    | some s => cases MockRequest.writeHeaders hs <;> simp

/-- C48. Exactly the requests whose header values are all readable text can be written. -/
theorem C48_writable_iff (r : MockRequest) : (∃ out, r.write = some out) ↔ ∀ e ∈ r.headers, ∃ s, e.2.toStr = some s := by
  rw [← writeHeaders_isSome]
  unfold MockRequest.write
  cases MockRequest.writeHeaders r.headers with
  | none => simp
  | some t => cases r.body <;> simp

theorem write_parts {r : MockRequest} {out : Bytes} (h : r.write = some out) :
    ∃ t tail, MockRequest.writeHeaders r.headers = some t ∧
      out = utf8 (r.method.str ++ str% " " ++ r.path ++ str% " HTTP/1.1\n") ++ (utf8 t ++ tail) ∧
      ((r.body = none ∧ tail = []) ∨ ∃ b, r.body = some b ∧ tail = 10 :: b) := by
  unfold MockRequest.write at h
  cases ht : MockRequest.writeHeaders r.headers with
  | none => rw [ht] at h; cases h
  | some t =>
    rw [ht] at h
    simp only [Option.bind_eq_bind, Option.bind_some] at h
    cases hb : r.body with
    | none =>
      rw [hb] at h
      refine ⟨t, [], rfl, ?_, .inl ⟨rfl, rfl⟩⟩
      rw [← Option.some.inj h, utf8_append, List.append_nil]
    | some b =>
      rw [hb] at h
      refine ⟨t, 10 :: b, rfl, ?_, .inr ⟨b, rfl, rfl⟩⟩
      rw [← Option.some.inj h, utf8_append, List.append_assoc]

theorem read_written {r : MockRequest} {out : Bytes} (h : r.write = some out) (hr : Readable r) (trace : Bool) :
    MockRequest.fromReader out trace =
      if trace && (r.body.any fun b => (utf8Decode b).isNone) then .error .traceBody
      else .ok (some { r with version := .http11 }) := by
  obtain ⟨t, tail, ht, rfl, htail⟩ := write_parts h
  obtain ⟨hl, hs⟩ := readRequestLine (m := r.method) hr.path.1 hr.path.2 (utf8 t ++ tail)
  have hread : MockRequest.readHeaders [] (utf8 t ++ tail) = MockRequest.readHeaders r.headers tail := by
    have := readHeaders_lines (acc := []) (rest := tail) ht (by simpa using hr.names)
      (isRustWhitespace_eq ▸ hr.values)
    simpa using this
  have hu := urlOf_iff.1 hr.url
  unfold MockRequest.fromReader
  rw [hl]
  simp only [utf8Decode_utf8, hs, r.method.ofStr_str, show Version.ofStr (str% "HTTP/1.1") = some .http11 from rfl, hread]
  rcases htail with ⟨hb, rfl⟩ | ⟨b, hb, rfl⟩
  · rw [readHeaders_end]
    obtain ⟨version, method, url, path, headers, body⟩ := r
    simp only at hb hu ⊢
    subst hb
    simp only [hu, Bool.and_false, Bool.false_and, Bool.false_eq_true, if_false, Option.any_none]
    rfl
  · rw [readHeaders_blank]
    obtain ⟨version, method, url, path, headers, body⟩ := r
    simp only at hb hu ⊢
    subst hb
    simp only [hu, Bool.and_true, Option.any_some, if_true]
    by_cases hc : (trace && (utf8Decode b).isNone) = true
    · rw [if_pos hc, if_pos hc]; rfl
    · rw [if_neg hc, if_neg hc]; rfl

/-- C48, partial. Reading back what was written gives the same method, path, URL, headers and body, for requests in the
shape that files can express, unless trace logging is on and the body is not text. The body may be any bytes: blank lines
in it do no harm. Missing: the version (always HTTP/1.1), requests not in that shape, binary bodies with trace logging; each
is a `C48_neg_*` theorem. -/
theorem C48_round_trip_partial (r : MockRequest) (out : Bytes) (h : r.write = some out) (hr : Readable r) (trace : Bool)
    (htrace : trace = true → ∀ b, r.body = some b → ∃ s, utf8 s = b) :
    MockRequest.fromReader out trace = .ok (some { r with version := .http11 }) := by
  rw [read_written h hr, if_neg]
  cases trace with
  | false => simp
  | true =>
    cases hb : r.body with
    | none => simp
    | some b =>
      obtain ⟨s, rfl⟩ := htrace rfl b hb
      simp [utf8Decode_utf8]

theorem fromReader_facts {input : Bytes} {trace : Bool} {r : MockRequest}
    (h : MockRequest.fromReader input trace = .ok (some r)) :
    Readable r ∧ (trace = true → ∀ b, r.body = some b → ∃ s, utf8 s = b) := by
  unfold MockRequest.fromReader at h
  split at h
  · cases h
  split at h
  · rename_i m path v rest hsp
    split at h
    · rename_i method version _ _
      split at h
      · cases h
      · rename_i headers hasBody rest hh
        have hpath := splitAsciiWs_words (s := _) (w := path) (by rw [hsp]; simp)
        have hinv := readHeaders_inv hh (by simp) (by simp)
        by_cases htr : (trace && hasBody && (utf8Decode rest).isNone) = true
        · rw [if_pos htr] at h; cases h
        · rw [if_neg htr] at h
          simp only at h
          cases hu : MockRequest.deriveUrl path headers with
          | error e => rw [hu] at h; cases h
          | ok u =>
            rw [hu] at h
            cases u with
            | none => cases h
            | some url =>
              cases h
              refine ⟨⟨⟨hpath.1, fun c hc => not_blank_iff.1 (hpath.2 c hc)⟩, urlOf_iff.2 hu, hinv.1, isRustWhitespace_eq ▸ hinv.2⟩, ?_⟩
              rintro rfl b hb
              simp only at hb
              split at hb
              · rename_i hbody
                cases hb
                subst hbody
                simp only [Bool.and_self, Bool.true_and, Bool.not_eq_true, Option.isNone_eq_false_iff, Option.isSome_iff_exists] at htr
                obtain ⟨s, hs⟩ := htr
                refine ⟨s, ?_⟩
                unfold utf8Decode at hs
                split at hs
                · rename_i he; cases hs; exact he
                · cases hs
              · cases hb
    · cases h
  · cases h

/-- C48. Every request that was read from a file, whatever the file, and can be written reads back as the same request, up
to the version. -/
theorem C48_reread (input out : Bytes) (trace : Bool) (r : MockRequest) (h : MockRequest.fromReader input trace = .ok (some r))
    (hw : r.write = some out) : MockRequest.fromReader out trace = .ok (some { r with version := .http11 }) :=
  C48_round_trip_partial r out hw (fromReader_facts h).1 trace (fromReader_facts h).2

/-- C48. Rewriting is idempotent: what a rewritten file reads as is written as the same bytes. -/
theorem C48_stable (input out : Bytes) (trace : Bool) (r r' : MockRequest)
    (h : MockRequest.fromReader input trace = .ok (some r)) (hw : r.write = some out)
    (h' : MockRequest.fromReader out trace = .ok (some r')) : r'.write = some out := by
  rw [C48_reread input out trace r h hw] at h'
  cases h'
  exact hw

/-- C48, negative. A request with a header value that starts or ends with a blank is not what any file reads as. -/
theorem C48_neg_blanks (r : MockRequest) (n : HeaderName) (v : HeaderValue) (s : Str) (he : (n, v) ∈ r.headers)
    (hv : v.toStr = some s) (hs : ¬ Trimmed whiteSpace s s) (input : Bytes) (trace : Bool) :
    MockRequest.fromReader input trace ≠ .ok (some r) :=
  fun h => hs ((fromReader_facts h).1.values _ he s hv)

/-- C48, negative. A request with two headers of the same name is not what any file reads as. -/
theorem C48_neg_repeated (r : MockRequest) (n : HeaderName) (v w : HeaderValue) (a b c : HeaderMap)
    (he : r.headers = a ++ (n, v) :: b ++ (n, w) :: c) (input : Bytes) (trace : Bool) :
    MockRequest.fromReader input trace ≠ .ok (some r) := by
  intro h
  have := (fromReader_facts h).1.names
  rw [he] at this
  simp only [List.append_assoc, List.map_append, List.map_cons, List.cons_append] at this
  rw [List.nodup_append] at this
  exact (List.nodup_cons.1 this.2.1).1 (by simp)

/-- C48, negative. The version is lost: whatever it was, the file reads as HTTP/1.1. -/
theorem C48_neg_version (r r' : MockRequest) (out : Bytes) (h : r.write = some out) (hr : Readable r) (trace : Bool)
    (h' : MockRequest.fromReader out trace = .ok (some r')) : r'.version = .http11 := by
  rw [read_written h hr] at h'
  split at h'
  · cases h'
  · cases h'; rfl

/-- C48, exactly. What was written reads back as the very request that was written if and only if the request is in the
shape that files can express, its version is HTTP/1.1, and trace logging is off or the body is text. -/
theorem C48_exact (r : MockRequest) (out : Bytes) (h : r.write = some out) (trace : Bool) :
    MockRequest.fromReader out trace = .ok (some r) ↔
      Readable r ∧ r.version = .http11 ∧ (trace = true → ∀ b, r.body = some b → ∃ s, utf8 s = b) := by
  constructor
  · intro hr
    obtain ⟨h1, h2⟩ := fromReader_facts hr
    exact ⟨h1, C48_neg_version r r out h h1 trace hr, h2⟩
  · rintro ⟨h1, h2, h3⟩
    rw [C48_round_trip_partial r out h h1 trace h3, ← h2]

/-- C48, negative. With trace logging, reading a request whose body is not text panics. -/
theorem C48_neg_trace (r : MockRequest) (out : Bytes) (h : r.write = some out) (hr : Readable r) (b : Bytes)
    (hb : r.body = some b) (hbin : ∀ s, utf8 s ≠ b) : MockRequest.fromReader out true = .error .traceBody := by
  rw [read_written h hr, if_pos]
  simp [hb, utf8Decode_none.2 hbin]

/-! ### C50 -/

theorem mapM_fromStr {ws : List Str} {l : List SignatureComponent} :
    ws.mapM SignatureComponent.fromStr = .ok l ↔ Forall2 (fun w k => SignatureComponent.fromStr w = .ok k) ws l := by
  induction ws generalizing l with
  | nil =>
    constructor
    · intro h; cases h; exact .nil
    · intro h; cases h; rfl
  | cons w ws ih =>
    rw [List.mapM_cons]
    constructor
    · intro h
      cases h1 : SignatureComponent.fromStr w with
      | error e => rw [h1] at h; cases h
      | ok k =>
        cases h2 : ws.mapM SignatureComponent.fromStr with
        | error e => rw [h1, h2] at h; cases h
        | ok l' =>
          rw [h1, h2] at h
          cases h
          exact .cons h1 (ih.1 h2)
    · intro h
      cases h with
      | cons h1 h2 => rw [h1, ih.2 h2]; rfl

theorem headerOption_iff {o : Opt} {comps : List SignatureComponent} :
    HeaderOption o comps ↔ ∃ x, o.parseHeaders = .ok x ∧ comps = x.getD [] := by
  unfold HeaderOption Opt.parseHeaders
  cases o.headers with
  | none =>
    constructor
    · rintro rfl; exact ⟨none, rfl, rfl⟩
    · rintro ⟨x, h, rfl⟩; cases h; rfl
  | some y =>
    cases y with
    | none =>
      constructor
      · rintro rfl; exact ⟨some [], rfl, rfl⟩
      · rintro ⟨x, h, rfl⟩; cases h; rfl
    | some s =>
      simp only
      constructor
      · rintro ⟨ws, hw, hf⟩
        rw [words_iff.1 hw, mapM_fromStr.2 hf]
        exact ⟨some comps, rfl, rfl⟩
      · rintro ⟨x, h, rfl⟩
        cases hm : (splitAsciiWs s).mapM SignatureComponent.fromStr with
        | error e => rw [hm] at h; cases h
        | ok l =>
          rw [hm] at h
          cases h
          exact ⟨_, words_iff.2 rfl, mapM_fromStr.1 hm⟩

theorem signerFor_iff {alg : Str} {f : Bytes → HttpSignatureSign} :
    Opt.signerFor alg = some f ↔ ∃ name prim, Supports alg name prim ∧ f = asymSigner name prim := by
  constructor
  · intro h
    unfold Opt.signerFor at h
    split at h
    · rename_i e; subst e; cases h; exact ⟨_, _, .pkcs256, rfl⟩
    split at h
    · rename_i e; subst e; cases h; exact ⟨_, _, .pkcs512, rfl⟩
    split at h
    · rename_i e; subst e; cases h; exact ⟨_, _, .pss256, rfl⟩
    split at h
    · rename_i e; subst e; cases h; exact ⟨_, _, .pss512, rfl⟩
    · cases h
  · rintro ⟨name, prim, hs, rfl⟩
    cases hs <;> rfl

theorem supports_det {alg n n' : Str} {p p' : Primitive} (h : Supports alg n p) (h' : Supports alg n' p') : n = n' ∧ p = p' := by
  cases h <;> cases h' <;> exact ⟨rfl, rfl⟩

theorem supports_known {alg n : Str} {p : Primitive} (h : Supports alg n p) : alg ∈ Opt.knownAlgorithms := by
  cases h <;> decide

/-- C50. Exactly when sign mode has a configuration, and which: a supported algorithm, a readable private key, readable
component names; label (default `sig`), key id (default empty), created, expires and the components are those given. -/
theorem C50_signing_exact (o : Opt) (c : SigningConfig) :
    o.signingConfig = .ok c ↔ ∃ alg name prim pem key comps, o.algorithm = some alg ∧ Supports alg name prim ∧
      o.privateKey = some (some pem) ∧ privatePkcs8Pem pem = some key ∧ HeaderOption o comps ∧
      c = optSigning o name prim key comps := by
  constructor
  · intro h
    unfold Opt.signingConfig at h
    cases hk : o.privateKey with
    | none =>
      rw [hk] at h
      cases ha : o.algorithm with
      | none => simp only [Bind.bind, Except.bind, Pure.pure, Except.pure, Except.mapError, Opt.readKey, Opt.checkAlgorithm, ha] at h; cases h
      | some a =>
        simp only [Bind.bind, Except.bind, Pure.pure, Except.pure, Except.mapError, Opt.readKey, Opt.checkAlgorithm, ha] at h
        by_cases hm : a ∈ Opt.knownAlgorithms
        · rw [if_pos hm] at h; cases h
        · rw [if_neg hm] at h; cases h
    | some k =>
      cases k with
      | none => rw [hk] at h; cases h
      | some pem =>
        rw [hk] at h
        cases ha : o.algorithm with
        | none => simp only [Bind.bind, Except.bind, Pure.pure, Except.pure, Except.mapError, Opt.readKey, Opt.checkAlgorithm, ha] at h; cases h
        | some a =>
          simp only [Bind.bind, Except.bind, Pure.pure, Except.pure, Except.mapError, Opt.readKey, Opt.checkAlgorithm, ha] at h
          by_cases hm : a ∈ Opt.knownAlgorithms
          · rw [if_pos hm] at h
            cases hf : Opt.signerFor a with
            | none => simp only [hf, Bind.bind, Except.bind, Pure.pure, Except.pure, Except.mapError] at h; cases h
            | some f =>
              simp only [hf, Bind.bind, Except.bind, Pure.pure, Except.pure, Except.mapError] at h
              cases hp : privatePkcs8Pem pem with
              | none => simp only [hp, Bind.bind, Except.bind, Pure.pure, Except.pure, Except.mapError] at h; cases h
              | some key =>
                simp only [hp, Bind.bind, Except.bind, Pure.pure, Except.pure, Except.mapError] at h
                cases hh : o.parseHeaders with
                | error e => simp only [hh] at h; cases h
                | ok x =>
                  simp only [hh] at h
                  obtain ⟨name, prim, hs, rfl⟩ := signerFor_iff.1 hf
                  refine ⟨a, name, prim, pem, key, x.getD [], rfl, hs, rfl, hp, headerOption_iff.2 ⟨x, hh, rfl⟩, ?_⟩
                  cases x <;> cases hc : o.created <;> cases he : o.expires <;>
                    (simp only [hc, he] at h; cases h; simp only [optSigning, hc, he]; rfl)
          · rw [if_neg hm] at h; cases h
  · rintro ⟨alg, name, prim, pem, key, comps, ha, hs, hk, hp, hh, rfl⟩
    obtain ⟨x, hx, rfl⟩ := headerOption_iff.1 hh
    unfold Opt.signingConfig
    simp only [Bind.bind, Except.bind, Pure.pure, Except.pure, Except.mapError, hk, Opt.readKey, Opt.checkAlgorithm, ha, if_pos (supports_known hs), signerFor_iff.2 ⟨name, prim, hs, rfl⟩, hp, hx]
    cases x <;> cases hc : o.created <;> cases he : o.expires <;>
      (simp only [optSigning, hc, he]; rfl)

theorem verifierFor_iff {alg : Str} {f : Bytes → Option HttpSignatureVerify} :
    Opt.verifierFor alg = some f → ∃ name prim, Supports alg name prim ∧
      ∀ pem v, f pem = some v ↔ ∃ key, PublicKey alg pem key ∧ v = asymVerifier name prim key := by
  have other : ∀ {alg : Str} (name : Str) (prim : Primitive), alg ≠ str% "rsa-v1_5-sha256" → ∀ pem v,
      (publicPkcs1Pem pem).map (asymVerifier name prim) = some v ↔
        ∃ key, PublicKey alg pem key ∧ v = asymVerifier name prim key := by
    intro alg name prim hne pem v
    simp only [PublicKey, hne, false_and, false_or, ne_eq, not_false_eq_true, true_and, Option.map_eq_some_iff]
    constructor
    · rintro ⟨k, hk, rfl⟩; exact ⟨k, hk, rfl⟩
    · rintro ⟨k, hk, rfl⟩; exact ⟨k, hk, rfl⟩
  intro h
  unfold Opt.verifierFor at h
  split at h
  · rename_i e
    subst e
    cases h
    refine ⟨_, _, .pkcs256, fun pem v => ?_⟩
    simp only [PublicKey, true_and, ne_eq, not_true_eq_false, false_and, or_false, Option.map_eq_some_iff, Option.or_eq_some_iff]
    constructor
    · rintro ⟨k, hk, rfl⟩; exact ⟨k, hk, rfl⟩
    · rintro ⟨k, hk, rfl⟩; exact ⟨k, hk, rfl⟩
  split at h
  · rename_i e; subst e; cases h; exact ⟨_, _, .pkcs512, other _ _ (by decide)⟩
  split at h
  · rename_i e; subst e; cases h; exact ⟨_, _, .pss256, other _ _ (by decide)⟩
  split at h
  · rename_i e; subst e; cases h; exact ⟨_, _, .pss512, other _ _ (by decide)⟩
  · cases h

theorem verifierFor_of_supports {alg name : Str} {prim : Primitive} (h : Supports alg name prim) :
    ∃ f, Opt.verifierFor alg = some f := by
  cases h <;> exact ⟨_, rfl⟩

theorem provide_one (id : Str) (k : HttpSignatureVerify) :
    (SimpleKeyProvider.add {} id k).provideKeys = onlyKey id k := by
  funext i
  unfold SimpleKeyProvider.add SimpleKeyProvider.provideKeys onlyKey
  by_cases h : i = id
  · subst h; simp [IMap.insert, IMap.get]
  · simp [IMap.insert, IMap.get, h, Ne.symm h]

/-- C50. Exactly when verify mode has a configuration, and which: without an algorithm it has no keys; with an algorithm it
must be a supported one, with a readable public key, which is registered under the given key id (default empty). -/
theorem C50_verifying_exact (o : Opt) (c : VerifyingConfig) :
    o.verificationConfig = .ok c ↔
      (o.algorithm = none ∧ o.publicKey ≠ some none ∧ c = optVerifying fun _ => []) ∨
      ∃ alg name prim pem key, o.algorithm = some alg ∧ Supports alg name prim ∧ o.publicKey = some (some pem) ∧
        PublicKey alg pem key ∧ c = optVerifying (onlyKey (o.keyId.getD []) (asymVerifier name prim key)) := by
  have hnone : (({} : SimpleKeyProvider)).provideKeys = fun _ => [] := by
    funext i; rfl
  unfold Opt.verificationConfig
  cases hk : o.publicKey with
  | none =>
    cases ha : o.algorithm with
    | none =>
      simp only [Bind.bind, Except.bind, Pure.pure, Except.pure, Opt.readKey, Opt.checkAlgorithm, ha, hnone]
      simp [optVerifying, VerifyingConfig.setRequireDigest, VerifyingConfig.setValidateDate, eq_comm]
    | some a =>
      simp only [Bind.bind, Except.bind, Pure.pure, Except.pure, Opt.readKey, Opt.checkAlgorithm, ha]
      by_cases hm : a ∈ Opt.knownAlgorithms
      · rw [if_pos hm]; simp [throw, throwThe, MonadExceptOf.throw]
      · rw [if_neg hm]; simp
  | some k =>
    cases k with
    | none => simp [Bind.bind, Except.bind, Opt.readKey]
    | some pem =>
      cases ha : o.algorithm with
      | none =>
        simp only [Bind.bind, Except.bind, Pure.pure, Except.pure, Opt.readKey, Opt.checkAlgorithm, ha, hnone]
        simp [optVerifying, VerifyingConfig.setRequireDigest, VerifyingConfig.setValidateDate, eq_comm]
      | some a =>
        simp only [Bind.bind, Except.bind, Pure.pure, Except.pure, Opt.readKey, Opt.checkAlgorithm, ha]
        constructor
        · intro h
          by_cases hm : a ∈ Opt.knownAlgorithms
          · rw [if_pos hm] at h
            cases hf : Opt.verifierFor a with
            | none => simp only [hf] at h; cases h
            | some f =>
              simp only [hf] at h
              cases hp : f pem with
              | none => simp only [hp] at h; cases h
              | some v =>
                simp only [hp] at h
                obtain ⟨name, prim, hs, hv⟩ := verifierFor_iff hf
                obtain ⟨key, hkey, rfl⟩ := (hv pem v).1 hp
                refine .inr ⟨a, name, prim, pem, key, rfl, hs, rfl, hkey, ?_⟩
                rw [provide_one] at h
                cases h
                rfl
          · rw [if_neg hm] at h; cases h
        · rintro (⟨h, _⟩ | ⟨alg, name, prim, pem', key, e1, hs, e2, hkey, rfl⟩)
          · cases h
          · cases e1
            cases e2
            obtain ⟨f, hf⟩ := verifierFor_of_supports hs
            obtain ⟨name', prim', hs', hv⟩ := verifierFor_iff hf
            obtain ⟨rfl, rfl⟩ := supports_det hs hs'
            rw [if_pos (supports_known hs)]
            simp only [hf, (hv pem _).2 ⟨key, hkey, rfl⟩]
            rw [provide_one]
            rfl

/-- C50. Exactly when canonicalize mode has a configuration, and which: created, expires, nonce, key id, label and the
components are those given, and the algorithm must be on the list. -/
theorem C50_canonicalize_exact (o : Opt) (c : CanonicalizeConfig) :
    o.canonicalizeConfig = .ok c ↔ ∃ alg comps, o.algorithm = some alg ∧ alg ∈ algorithmNames ∧ HeaderOption o comps ∧
      c = optCanonicalize o alg comps := by
  unfold Opt.canonicalizeConfig
  cases hh : o.parseHeaders with
  | error e =>
    simp only [Bind.bind, Except.bind, Except.mapError, reduceCtorEq, false_iff]
    rintro ⟨_, _, _, _, h, _⟩
    obtain ⟨x, hx, _⟩ := headerOption_iff.1 h
    rw [hh] at hx
    cases hx
  | ok x =>
    have huniq : ∀ comps, HeaderOption o comps ↔ comps = x.getD [] := by
      intro comps
      rw [headerOption_iff, hh]
      constructor
      · rintro ⟨y, hy, rfl⟩; cases hy; rfl
      · intro h; exact ⟨x, rfl, h⟩
    simp only [Bind.bind, Except.bind, Except.mapError, Pure.pure, Except.pure, huniq]
    cases ha : o.algorithm with
    | none => simp [throw, throwThe, MonadExceptOf.throw]
    | some alg =>
      by_cases hm : alg ∈ Opt.knownAlgorithms
      · simp only [if_pos hm, Except.ok.injEq, Option.some.injEq]
        constructor
        · rintro rfl
          refine ⟨alg, _, rfl, hm, rfl, ?_⟩
          cases x <;> cases h1 : o.created <;> cases h2 : o.expires <;> cases h3 : o.nonce <;> cases h4 : o.label <;>
            cases h5 : o.keyId <;> simp only [optCanonicalize, h1, h2, h3, h4, h5] <;> rfl
        · rintro ⟨_, _, rfl, _, rfl, rfl⟩
          cases x <;> cases h1 : o.created <;> cases h2 : o.expires <;> cases h3 : o.nonce <;> cases h4 : o.label <;>
            cases h5 : o.keyId <;> simp only [optCanonicalize, h1, h2, h3, h4, h5] <;> rfl
      · have hm' : alg ∉ algorithmNames := hm
        simp [if_neg hm, hm', throw, throwThe, MonadExceptOf.throw]

end Httpsig
