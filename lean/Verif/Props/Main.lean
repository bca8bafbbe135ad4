import Verif.Lemmas.Main
/-
C61 to C64: the validator as a program.
-/
set_option linter.unusedSectionVars false
namespace Httpsig
open Sfv
variable [Deps]

theorem mock_total {r : MockRequest} {o : Opt} {comps : List SignatureComponent} (h : HeaderOption o comps) :
    ∀ k ∈ comps, ∃ v, RequestLike.derive (self := ClientRequestLike.toRequestLike) r k = .ok v :=
  fun k hk => C19_mock_total r k (recognised_of_read (headerOption_listed h k hk).1)

/-! ### C62: what success means -/

/-- C62, verify mode. Nothing is written, and the exit status is success exactly when the input is a request, the options
name a supported algorithm and a file with a public key, the signature of the request is valid for that key under the
given key id, and its digest header, if any, fits the body. -/
theorem C62_verify_exact (a : Args) (h : Host) (hm : a.mode = .verify) :
    (a.main h).stdout = [] ∧
    ((a.main h).status = .ok (.ok ()) ↔
      ∃ req name prim key c sig keyId base, ReadsRequest a h req ∧ VerifyOptions a h name prim key ∧
        SignatureOk (Rem := Unit) req (optVerifying (onlyKey (a.keyId.getD []) (asymVerifier name prim key))) h.verifyEnv c sig keyId base ∧
        DigestFits req) := by
  by_cases hr : ∃ req, ReadsRequest a h req
  · obtain ⟨req, hr⟩ := hr
    rw [main_reads hr]
    unfold Args.run
    rw [hm]
    refine ⟨rfl, ?_⟩
    show runVerify req (a.opt h) h.verifyEnv = .ok (.ok ()) ↔ _
    rw [runVerify_iff]
    constructor
    · rintro ⟨vc, kid, hvc, hv⟩
      obtain ⟨c, sig, base, hs, _, _, hd⟩ := (C10_acceptance_iff req vc h.verifyEnv () kid).1 hv
      rcases (C50_verifying_exact (a.opt h) vc).1 hvc with ⟨_, _, rfl⟩ | ⟨alg, name, prim, pem, key, g1, g2, g3, g4, rfl⟩
      · obtain ⟨k, hk, _⟩ := hs.key; cases hk
      · exact ⟨req, name, prim, key, c, sig, kid, base, hr, ⟨alg, pem, g1, g2, keyFile_iff.1 g3, g4⟩, hs, digestOk_iff.1 hd⟩
    · rintro ⟨req', name, prim, key, c, sig, kid, base, hr', ⟨alg, pem, g1, g2, g3, g4⟩, hs, hd⟩
      cases reads_unique hr hr'
      refine ⟨_, kid, (C50_verifying_exact (a.opt h) _).2 (.inr ⟨alg, name, prim, pem, key, g1, g2, keyFile_iff.2 g3, g4, rfl⟩), ?_⟩
      refine (C10_acceptance_iff req _ h.verifyEnv () kid).2 ⟨c, sig, base, hs, ?_, (fun e => by cases e), digestOk_iff.2 hd⟩
      intro r hr
      cases hr
  · have hr : ∀ req, ¬ ReadsRequest a h req := fun req h => hr ⟨req, h⟩
    obtain ⟨p, hp⟩ := main_unreadable hr
    rw [hp]
    refine ⟨rfl, (fun e => by cases e), ?_⟩
    rintro ⟨req, _, _, _, _, _, _, _, h1, _⟩
    exact absurd h1 (hr req)

/-- C62, canonicalize mode. It succeeds with output `out` exactly when the input is a request, the algorithm option is a
known name, the components named by the options have values and the other options can be written, and then `out` is the
signature base of the request for these components and options. -/
theorem C62_canonicalize_exact (a : Args) (h : Host) (out : Bytes) (hm : a.mode = .canonicalize) :
    a.main h = ⟨out, .ok (.ok ())⟩ ↔
      ∃ req alg comps ids lids vals, ReadsRequest a h req ∧ a.algorithm = some alg ∧ alg ∈ algorithmNames ∧
        HeaderOption (a.opt h) comps ∧ Values req comps vals ∧
        Forall2 Ident comps ids ∧ Forall2 ListIdent comps lids ∧ WritableOptions a ∧
        out = utf8 (specBase ids lids vals (canonParamsText a alg)) := by
  by_cases hr : ∃ req, ReadsRequest a h req
  · obtain ⟨req, hr⟩ := hr
    rw [main_reads hr]
    unfold Args.run
    rw [hm]
    simp only
    constructor
    · intro e
      unfold runCanonicalize at e
      cases hc : (a.opt h).canonicalizeConfig with
      | error x => rw [hc] at e; cases e
      | ok c =>
        rw [hc] at e
        obtain ⟨alg, comps, h1, h2, h3, rfl⟩ := (C50_canonicalize_exact _ _).1 hc
        simp only [Bind.bind, Except.bind] at e
        cases hcan : canonicalize req (optCanonicalize (a.opt h) alg comps) with
        | error p => rw [hcan] at e; cases e
        | ok x =>
          cases x with
          | error x => rw [hcan] at e; cases e
          | ok x =>
            obtain ⟨base, si⟩ := x
            rw [hcan] at e
            cases e
            obtain ⟨vals, ids, lids, ps, g1, g2, g3, g4, rfl, _⟩ := canonicalize_ok_iff.1 hcan
            obtain ⟨g5, rfl⟩ := (serParams_options h2).1 (serParams_iff.2 g4)
            exact ⟨req, alg, comps, ids, lids, vals, hr, h1, h2, h3, g1, g2, g3, g5, rfl⟩
    · rintro ⟨req', alg, comps, ids, lids, vals, hr', h1, h2, h3, g1, g2, g3, g5, rfl⟩
      cases reads_unique hr hr'
      have hc := (C50_canonicalize_exact (a.opt h) _).2 ⟨alg, comps, h1, h2, h3, rfl⟩
      have hcan := (canonicalize_ok_iff (c := optCanonicalize (a.opt h) alg comps)).2 ⟨vals, ids, lids, _, g1, g2, g3, serParams_iff.1 ((serParams_options h2).2 ⟨g5, rfl⟩), rfl, rfl⟩
      unfold runCanonicalize
      rw [hc]
      simp only [Bind.bind, Except.bind]
      rw [hcan]
      rfl
  · have hr : ∀ req, ¬ ReadsRequest a h req := fun req h => hr ⟨req, h⟩
    obtain ⟨p, hp⟩ := main_unreadable hr
    rw [hp]
    refine ⟨(fun e => by cases e), ?_⟩
    rintro ⟨req, _, _, _, _, _, h1, _⟩
    exact absurd h1 (hr req)

theorem signs_iff {a : Args} {h : Host} {req r' : MockRequest} :
    (∃ c, (a.opt h).signingConfig = .ok c ∧ sign req c h.signEnv = .ok (r', .ok ())) ↔ Signs a h req r' := by
  constructor
  · rintro ⟨c, hc, hs⟩
    obtain ⟨name, prim, key, comps, ho, rfl⟩ := signingConfig_iff.1 hc
    obtain ⟨alg, pem, g1, g2, g3, g4, g5⟩ := id ho
    obtain ⟨hn, ht, hw, ids, lids, vals, vi, vs, h1, h2, h3, h4, h5, h6⟩ :=
      (sign_plain_iff (optSigning_noAuto _ _ _ _ _) rfl (mock_total g5)).1 hs
    rw [optSigning_text] at h4 h5
    exact ⟨name, prim, key, comps, ids, lids, vals, vi, vs, ho, hn, optSigning_times.1 ht, (optSigning_writable g2).1 hw, h1, h2, h3,
      headerValue_iff.1 h4, headerValue_iff.1 h5, h6⟩
  · rintro ⟨name, prim, key, comps, ids, lids, vals, vi, vs, ho, hn, ht, hw, h1, h2, h3, h4, h5, h6⟩
    obtain ⟨alg, pem, g1, g2, g3, g4, g5⟩ := id ho
    refine ⟨_, signingConfig_iff.2 ⟨name, prim, key, comps, ho, rfl⟩, ?_⟩
    refine (sign_plain_iff (optSigning_noAuto _ _ _ _ _) rfl (mock_total g5)).2 ⟨hn, optSigning_times.2 ht,
      (optSigning_writable g2).2 hw, ids, lids, vals, vi, vs, h1, h2, h3, ?_, ?_, h6⟩
    · rw [optSigning_text]; exact headerValue_iff.2 h4
    · rw [optSigning_text]; exact headerValue_iff.2 h5

theorem run_signs {a : Args} {h : Host} {req r' : MockRequest} (hm : a.mode = .sign) (hs : Signs a h req r') :
    a.run h req = ⟨r'.writeTo.1, .ok (if r'.writeTo.2 then .ok () else .error .write)⟩ := by
  obtain ⟨c, hc, hs⟩ := signs_iff.2 hs
  unfold Args.run
  rw [hm]
  simp only
  rw [hc]
  simp only
  rw [hs]

theorem signingConfig_ne_write (o : Opt) : o.signingConfig ≠ .error .write := by
  have h1 : ∀ {e}, Opt.readKey o.privateKey = .error e → e ≠ .write := by
    intro e h
    unfold Opt.readKey at h
    split at h <;> cases h
    simp
  have h2 : ∀ {e}, o.checkAlgorithm = .error e → e ≠ .write := by
    intro e h
    unfold Opt.checkAlgorithm at h
    repeat' split at h
    all_goals cases h
    simp
  unfold Opt.signingConfig
  simp only [Bind.bind, Except.bind, throw, throwThe, MonadExceptOf.throw, pure, Except.pure]
  cases hk : Opt.readKey o.privateKey with
  | error e => exact fun h => h1 hk (by cases h; rfl)
  | ok kd =>
    simp only
    cases ha : o.checkAlgorithm with
    | error e => exact fun h => h2 ha (by cases h; rfl)
    | ok u =>
      simp only
      cases hp : o.parseHeaders with
      | error e =>
        simp only [Except.mapError]
        repeat' split
        all_goals (intro h; cases h)
      | ok x =>
        simp only [Except.mapError]
        repeat' split
        all_goals (intro h; cases h)

theorem run_not_signs {a : Args} {h : Host} {req : MockRequest} (hm : a.mode = .sign) (hs : ∀ r', ¬ Signs a h req r') :
    (a.run h req).stdout = [] ∧ (a.run h req).status ≠ .ok (.ok ()) ∧ (a.run h req).status ≠ .ok (.error .write) := by
  unfold Args.run
  rw [hm]
  simp only
  cases hc : (a.opt h).signingConfig with
  | error e => exact ⟨rfl, (fun e => by cases e), fun e' => by cases e'; exact signingConfig_ne_write _ hc⟩
  | ok c =>
    simp only
    cases hsg : sign req c h.signEnv with
    | error p => exact ⟨rfl, (fun e => by cases e), fun e => by cases e⟩
    | ok x =>
      obtain ⟨r', res⟩ := x
      cases res with
      | error e => exact ⟨rfl, (fun e => by cases e), fun e => by cases e⟩
      | ok u => exact absurd (signs_iff.1 ⟨c, hc, hsg⟩) (hs r')

/-- C62, sign mode. It succeeds with output `out` exactly when the input is a request, the options name a supported
algorithm, a private key file, components that have values on the request, admissible times and values that can be
written, and then `out` is the request with the two signature headers, the signature being that of the signature base. -/
theorem C62_sign_exact (a : Args) (h : Host) (out : Bytes) (hm : a.mode = .sign) :
    a.main h = ⟨out, .ok (.ok ())⟩ ↔ ∃ req r', ReadsRequest a h req ∧ Signs a h req r' ∧ FileOf r' out := by
  by_cases hr : ∃ req, ReadsRequest a h req
  · obtain ⟨req, hr⟩ := hr
    rw [main_reads hr]
    by_cases hs : ∃ r', Signs a h req r'
    · obtain ⟨r', hs⟩ := hs
      rw [run_signs hm hs]
      constructor
      · intro e
        refine ⟨req, r', hr, hs, writeTo_ok.1 ?_⟩
        injection e with e1 e2
        cases hw : r'.writeTo.2 with
        | false => rw [hw] at e2; cases e2
        | true => rw [← e1, ← hw]
      · rintro ⟨req', r'', h1, h2, h3⟩
        cases reads_unique hr h1
        have := (run_signs hm hs).symm.trans (run_signs hm h2)
        rw [this, writeTo_ok.2 h3]
        rfl
    · have hs : ∀ r', ¬ Signs a h req r' := fun r' h => hs ⟨r', h⟩
      constructor
      · intro e
        exact absurd (congrArg Exit.status e) (run_not_signs hm hs).2.1
      · rintro ⟨req', r', h1, h2, _⟩
        cases reads_unique hr h1
        exact absurd h2 (hs r')
  · have hr : ∀ req, ¬ ReadsRequest a h req := fun req h => hr ⟨req, h⟩
    obtain ⟨p, hp⟩ := main_unreadable hr
    rw [hp]
    refine ⟨(fun e => by cases e), ?_⟩
    rintro ⟨req, _, h1, _⟩
    exact absurd h1 (hr req)

/-! ### C61: standard output -/

/-- C61, partial. Something is written only if the program succeeds or if sign mode fails while writing. Missing: the
second case (`C61_neg_truncated`). -/
theorem C61_output_partial (a : Args) (h : Host) (ho : (a.main h).stdout ≠ []) :
    (a.main h).status = .ok (.ok ()) ∨ (a.mode = .sign ∧ (a.main h).status = .ok (.error .write)) := by
  by_cases hr : ∃ req, ReadsRequest a h req
  · obtain ⟨req, hr⟩ := hr
    cases hm : a.mode with
    | verify => exact absurd (C62_verify_exact a h hm).1 ho
    | canonicalize =>
      rw [main_reads hr] at ho ⊢
      unfold Args.run at ho ⊢
      rw [hm] at ho ⊢
      simp only at ho ⊢
      split at ho
      · exact absurd rfl ho
      · exact absurd rfl ho
      · exact .inl rfl
    | sign =>
      rw [main_reads hr] at ho ⊢
      by_cases hs : ∃ r', Signs a h req r'
      · obtain ⟨r', hs⟩ := hs
        rw [run_signs hm hs]
        simp only
        split
        · exact .inl rfl
        · exact .inr ⟨trivial, rfl⟩
      · exact absurd (run_not_signs hm fun r' h => hs ⟨r', h⟩).1 ho
  · obtain ⟨p, hp⟩ := main_unreadable fun req h => hr ⟨req, h⟩
    rw [hp] at ho
    exact absurd rfl ho

/-- C61. Exactly what a failure to write leaves on standard output: the file of the signed request cut off before the first
header whose value is not readable text, so without the headers from there on and without the body. -/
theorem C61_truncated_exact (a : Args) (h : Host) (out : Bytes) (hm : a.mode = .sign) :
    a.main h = ⟨out, .ok (.error .write)⟩ ↔
      ∃ req r' before n v after, ReadsRequest a h req ∧ Signs a h req r' ∧ r'.headers = before ++ (n, v) :: after ∧
        v.toStr = none ∧ FileOf { r' with headers := before, body := none } out := by
  by_cases hr : ∃ req, ReadsRequest a h req
  · obtain ⟨req, hr⟩ := hr
    rw [main_reads hr]
    by_cases hs : ∃ r', Signs a h req r'
    · obtain ⟨r', hs⟩ := hs
      rw [run_signs hm hs]
      constructor
      · intro e
        injection e with e1 e2
        cases hw : r'.writeTo.2 with
        | true => rw [hw] at e2; cases e2
        | false =>
          obtain ⟨b, n, v, c, h1, h2, h3⟩ := writeTo_stuck.1 (show r'.writeTo = (out, false) by rw [← e1, ← hw])
          exact ⟨req, r', b, n, v, c, hr, hs, h1, h2, h3⟩
      · rintro ⟨req', r'', b, n, v, c, h1, h2, h3, h4, h5⟩
        cases reads_unique hr h1
        have := (run_signs hm hs).symm.trans (run_signs hm h2)
        rw [this, writeTo_stuck.2 ⟨b, n, v, c, h3, h4, h5⟩]
        rfl
    · have hs : ∀ r', ¬ Signs a h req r' := fun r' h => hs ⟨r', h⟩
      constructor
      · intro e
        exact absurd (congrArg Exit.status e) (run_not_signs hm hs).2.2
      · rintro ⟨req', r', _, _, _, _, h1, h2, _⟩
        cases reads_unique hr h1
        exact absurd h2 (hs r')
  · have hr : ∀ req, ¬ ReadsRequest a h req := fun req h => hr ⟨req, h⟩
    obtain ⟨p, hp⟩ := main_unreadable hr
    rw [hp]
    refine ⟨(fun e => by cases e), ?_⟩
    rintro ⟨req, _, _, _, _, _, h1, _⟩
    exact absurd h1 (hr req)

theorem first_unreadable : ∀ {m : HeaderMap}, (∃ e ∈ m, e.2.toStr = none) →
    ∃ a n v b t, m = a ++ (n, v) :: b ∧ v.toStr = none ∧ HeaderLines a t
  | [], h => by obtain ⟨e, he, _⟩ := h; cases he
  | (n, v) :: m, h => by
    cases hv : v.toStr with
    | none => exact ⟨[], n, v, m, [], rfl, hv, .nil⟩
    | some s =>
      obtain ⟨e, he, h0⟩ := h
      rcases List.mem_cons.1 he with rfl | he
      · rw [hv] at h0; cases h0
      · obtain ⟨a, n', v', b, t, rfl, h1, h2⟩ := first_unreadable ⟨e, he, h0⟩
        exact ⟨(n, v) :: a, n', v', b, _, rfl, h1, .cons hv h2⟩

/-- C61, negative. Whenever sign mode gets as far as signing a request that has a header (other than the two signature
headers) whose value is not readable text, the program fails and yet has written part of the request. -/
theorem C61_neg_truncated (a : Args) (h : Host) (req r' : MockRequest) (hm : a.mode = .sign) (hr : ReadsRequest a h req)
    (hs : Signs a h req r') (hu : ∃ e ∈ r'.headers, e.2.toStr = none) :
    (a.main h).stdout ≠ [] ∧ (a.main h).status = .ok (.error .write) := by
  obtain ⟨b, n, v, c, t, h1, h2, h3⟩ := first_unreadable hu
  rw [(C61_truncated_exact a h _ hm).2 ⟨req, r', b, n, v, c, hr, hs, h1, h2, t, h3, rfl⟩]
  refine ⟨?_, rfl⟩
  simp [utf8]

/-! ### C63: panics -/

theorem canonicalize_panics_iff {r : MockRequest} {c : CanonicalizeConfig}
    (hd : ∀ k ∈ c.components, ∃ v, RequestLike.derive (self := ClientRequestLike.toRequestLike) r k = .ok v)
    (hl : ∀ k ∈ c.components, ∃ i, ListIdent k i) :
    (∃ p, canonicalize r c = .error p) ↔ (∀ k ∈ c.components, valueOf r k ≠ none) ∧ serParams c.params.params = none := by
  constructor
  · rintro ⟨p, hp⟩
    constructor
    · intro k hk hv
      obtain ⟨e, he⟩ := canonicalize_reports (r := r) hd ⟨k, hk, hv⟩
      have := hp.symm.trans he
      cases this
    · cases hs : serParams c.params.params with
      | none => rfl
      | some ps =>
        obtain ⟨x, hx⟩ := canonicalize_returns (r := r) hl ⟨ps, serParams_iff.1 hs⟩ hd
        have := hp.symm.trans hx
        cases this
  · rintro ⟨hv, hs⟩
    cases hc : canonicalize r c with
    | error p => exact ⟨p, rfl⟩
    | ok x =>
      cases x with
      | error e =>
        obtain ⟨k, hk, hk'⟩ := canonicalize_error_value hc
        exact absurd hk' (hv k hk)
      | ok x =>
        obtain ⟨base, si⟩ := x
        obtain ⟨_, _, _, ps, _, _, _, h4, _⟩ := canonicalize_ok_iff.1 hc
        rw [← serParams_iff, hs] at h4
        cases h4

theorem verifyStarts_iff {a : Args} {h : Host} : VerifyStarts a h ↔ ∃ vc, (a.opt h).verificationConfig = .ok vc := by
  unfold VerifyStarts VerifyOptions
  simp only [C50_verifying_exact]
  constructor
  · rintro (⟨g1, g2⟩ | ⟨name, prim, key, alg, pem, g1, g2, g3, g4⟩)
    · refine ⟨_, .inl ⟨g1, ?_, rfl⟩⟩
      intro e
      show False
      obtain ⟨path, e1, e2⟩ := Option.map_eq_some_iff.1 (show (a.publicKey.map fun p => (h.files p).read) = some none from e)
      obtain ⟨b, hb⟩ := g2 path e1
      rw [hb] at e2
      cases e2
    · exact ⟨_, .inr ⟨alg, name, prim, pem, key, g1, g2, keyFile_iff.2 g3, g4, rfl⟩⟩
  · rintro ⟨vc, ⟨g1, g2, _⟩ | ⟨alg, name, prim, pem, key, g1, g2, g3, g4, _⟩⟩
    · refine .inl ⟨g1, fun path e => ?_⟩
      cases hf : h.files path with
      | contents b => exact ⟨b, rfl⟩
      | missing => exact absurd (show (a.publicKey.map fun p => (h.files p).read) = some none by rw [e]; simp [hf, FileState.read]) g2
      | broken => exact absurd (show (a.publicKey.map fun p => (h.files p).read) = some none by rw [e]; simp [hf, FileState.read]) g2
    · exact .inr ⟨name, prim, key, alg, pem, g1, g2, keyFile_iff.1 g3, g4⟩

/-- C63, exactly: when the program panics. The claim is that it never does. In canonicalize mode it is options that cannot
be written while nothing is missing; in sign mode a clock before 1970 or, with acceptable times and nothing missing,
options that cannot be written; in verify mode a malformed `Signature-Input` header, or a clock before 1970 and a request
that presents a signature. -/
theorem C63_exact (a : Args) (h : Host) :
    (∃ p, (a.main h).status = .error p) ↔
      (∀ req, ¬ ReadsRequest a h req) ∨ ∃ req, ReadsRequest a h req ∧
        match a.mode with
        | .canonicalize => ∃ alg comps, a.algorithm = some alg ∧ alg ∈ algorithmNames ∧ HeaderOption (a.opt h) comps ∧
            (∀ k ∈ comps, valueOf req k ≠ none) ∧ ¬ WritableOptions a
        | .sign => ∃ name prim key comps, SignOptions a h name prim key comps ∧ (h.signEnv.sysNow < 0 ∨
            OptionTimesOk a (h.signEnv.sysNow / 1000000000) ∧ (∀ k ∈ comps, valueOf req k ≠ none) ∧ ¬ WritableSignOptions a)
        | .verify => VerifyStarts a h ∧ ((∃ v, (req.headers.getAll hSignatureInput).head? = some v ∧
            ∀ c, CanonicalizeConfig.fromSignatureInput (v.toStr.getD []) ≠ .ok (.ok c)) ∨
            h.verifyEnv.sysNow < 0 ∧ ∃ c sig kid, SignaturePresented req c sig kid) := by
  by_cases hr : ∃ req, ReadsRequest a h req
  · obtain ⟨req, hr⟩ := hr
    have h1 : ¬ ∀ req, ¬ ReadsRequest a h req := fun h' => h' req hr
    have h2 : ∀ P : MockRequest → Prop, ((∀ req, ¬ ReadsRequest a h req) ∨ ∃ req, ReadsRequest a h req ∧ P req) ↔ P req := by
      intro P
      constructor
      · rintro (h' | ⟨req', hr', hp⟩)
        · exact absurd h' h1
        · cases reads_unique hr hr'; exact hp
      · exact fun hp => .inr ⟨req, hr, hp⟩
    rw [h2 (fun req => match a.mode with
        | .canonicalize => ∃ alg comps, a.algorithm = some alg ∧ alg ∈ algorithmNames ∧ HeaderOption (a.opt h) comps ∧
            (∀ k ∈ comps, valueOf req k ≠ none) ∧ ¬ WritableOptions a
        | .sign => ∃ name prim key comps, SignOptions a h name prim key comps ∧ (h.signEnv.sysNow < 0 ∨
            OptionTimesOk a (h.signEnv.sysNow / 1000000000) ∧ (∀ k ∈ comps, valueOf req k ≠ none) ∧ ¬ WritableSignOptions a)
        | .verify => VerifyStarts a h ∧ ((∃ v, (req.headers.getAll hSignatureInput).head? = some v ∧
            ∀ c, CanonicalizeConfig.fromSignatureInput (v.toStr.getD []) ≠ .ok (.ok c)) ∨
            h.verifyEnv.sysNow < 0 ∧ ∃ c sig kid, SignaturePresented req c sig kid)), main_reads hr]
    unfold Args.run
    cases hm : a.mode with
    | canonicalize =>
      simp only
      unfold runCanonicalize
      cases hc : (a.opt h).canonicalizeConfig with
      | error e =>
        refine ⟨(fun ⟨p, hp⟩ => by cases hp), ?_⟩
        rintro ⟨alg, comps, g1, g2, g3, _⟩
        have := (C50_canonicalize_exact (a.opt h) _).2 ⟨alg, comps, g1, g2, g3, rfl⟩
        rw [hc] at this
        cases this
      | ok c =>
        obtain ⟨alg, comps, g1, g2, g3, rfl⟩ := (C50_canonicalize_exact _ _).1 hc
        have key := canonicalize_panics_iff (r := req) (c := optCanonicalize (a.opt h) alg comps) (mock_total g3)
          (fun k hk => (headerOption_listed g3 k hk).2)
        have hw : serParams (optCanonicalize (a.opt h) alg comps).params.params = none ↔ ¬ WritableOptions a := by
          constructor
          · intro hs hw
            have := (serParams_options (h := h) (comps := comps) g2).2 ⟨hw, rfl⟩
            rw [hs] at this; cases this
          · intro hw
            cases hs : serParams (optCanonicalize (a.opt h) alg comps).params.params with
            | none => rfl
            | some ps => exact absurd ((serParams_options g2).1 hs).1 hw
        rw [hw] at key
        have e1 : (∃ p, canonicalize req (optCanonicalize (a.opt h) alg comps) = .error p) ↔ ∃ alg comps, a.algorithm = some alg ∧ alg ∈ algorithmNames ∧ HeaderOption (a.opt h) comps ∧
            (∀ k ∈ comps, valueOf req k ≠ none) ∧ ¬ WritableOptions a := by
          rw [key]
          constructor
          · rintro ⟨k1, k2⟩; exact ⟨alg, comps, g1, g2, g3, k1, k2⟩
          · rintro ⟨alg', comps', g1', g2', g3', k1, k2⟩
            have := (C50_canonicalize_exact (a.opt h) _).2 ⟨alg', comps', g1', g2', g3', rfl⟩
            rw [hc] at this
            have := congrArg CanonicalizeConfig.components (Except.ok.inj this)
            exact ⟨by rw [this]; exact k1, k2⟩
        rw [← e1]
        simp only [Bind.bind, Except.bind]
        cases canonicalize req (optCanonicalize (a.opt h) alg comps) with
        | error p => exact ⟨fun _ => ⟨p, rfl⟩, fun _ => ⟨p, rfl⟩⟩
        | ok x =>
          cases x with
          | error e => exact ⟨(fun ⟨p, hp⟩ => by cases hp), fun ⟨p, hp⟩ => by cases hp⟩
          | ok x => exact ⟨(fun ⟨p, hp⟩ => by cases hp), fun ⟨p, hp⟩ => by cases hp⟩
    | sign =>
      simp only
      cases hc : (a.opt h).signingConfig with
      | error e =>
        refine ⟨(fun ⟨p, hp⟩ => by cases hp), ?_⟩
        rintro ⟨name, prim, key, comps, ho, _⟩
        have := signingConfig_iff.2 ⟨name, prim, key, comps, ho, rfl⟩
        rw [hc] at this
        cases this
      | ok c =>
        obtain ⟨name, prim, key, comps, ho, rfl⟩ := signingConfig_iff.1 hc
        obtain ⟨alg, pem, g1, g2, g3, g4, g5⟩ := id ho
        have hk := C28_plain_exact req _ h.signEnv (optSigning_noAuto (a.opt h) name prim key comps) (mock_total g5)
        rw [optSigning_times, optSigning_writable g2] at hk
        have e1 : (∃ p, sign req (optSigning (a.opt h) name prim key comps) h.signEnv = .error p) ↔
            ∃ name prim key comps, SignOptions a h name prim key comps ∧ (h.signEnv.sysNow < 0 ∨
            OptionTimesOk a (h.signEnv.sysNow / 1000000000) ∧ (∀ k ∈ comps, valueOf req k ≠ none) ∧ ¬ WritableSignOptions a) := by
          rw [hk]
          constructor
          · rintro (hlt | ⟨k1, k2 | k2, k3 | ⟨k, hk, _, hno⟩⟩)
            · exact ⟨name, prim, key, comps, ho, .inl hlt⟩
            · cases k2
            · cases k2
            · exact ⟨name, prim, key, comps, ho, .inr ⟨k1, k2, k3⟩⟩
            · obtain ⟨i, hi⟩ := (headerOption_listed g5 k hk).2
              exact absurd hi (hno i)
          · rintro ⟨name', prim', key', comps', ho', hlt | ⟨k1, k2, k3⟩⟩
            · exact .inl hlt
            have := signingConfig_iff.2 ⟨name', prim', key', comps', ho', rfl⟩
            rw [hc] at this
            have e : comps = comps' := congrArg SigningConfig.components (Except.ok.inj this)
            subst e
            exact .inr ⟨k1, .inr k2, .inl k3⟩
        rw [← e1]
        simp only
        cases sign req (optSigning (a.opt h) name prim key comps) h.signEnv with
        | error p => exact ⟨fun _ => ⟨p, rfl⟩, fun _ => ⟨p, rfl⟩⟩
        | ok x =>
          obtain ⟨r', res⟩ := x
          cases res with
          | error e => exact ⟨(fun ⟨p, hp⟩ => by cases hp), fun ⟨p, hp⟩ => by cases hp⟩
          | ok x => exact ⟨(fun ⟨p, hp⟩ => by cases hp), fun ⟨p, hp⟩ => by cases hp⟩
    | verify =>
      simp only
      rw [verifyStarts_iff]
      unfold runVerify
      cases hc : (a.opt h).verificationConfig with
      | error e => exact ⟨(fun ⟨p, hp⟩ => by cases hp), fun ⟨⟨vc, hvc⟩, _⟩ => by cases hvc⟩
      | ok vc =>
        have hreq : vc.requiredComponents = [] := by
          rcases (C50_verifying_exact _ _).1 hc with ⟨_, _, rfl⟩ | ⟨_, _, _, _, _, _, _, _, _, rfl⟩ <;> rfl
        have hk := C19_mock_exact req vc h.verifyEnv
        have hno : (∃ c sig kid base, SignatureOk req vc h.verifyEnv c sig kid base ∧ RequiredPanics vc c) ↔ False := by
          refine ⟨?_, False.elim⟩
          rintro ⟨_, _, _, _, _, b, k, l, e, _⟩
          rw [hreq] at e
          cases b <;> cases e
        rw [HeaderMap.get_eq_head_getAll, hno, or_false] at hk
        simp only [Except.ok.injEq, exists_eq', true_and]
        rw [← hk]
        simp only [Bind.bind, Except.bind]
        cases verify req vc h.verifyEnv with
        | error p => exact ⟨fun _ => ⟨p, rfl⟩, fun _ => ⟨p, rfl⟩⟩
        | ok x =>
          cases x with
          | error e => exact ⟨(fun ⟨p, hp⟩ => by cases hp), fun ⟨p, hp⟩ => by cases hp⟩
          | ok x => exact ⟨(fun ⟨p, hp⟩ => by cases hp), fun ⟨p, hp⟩ => by cases hp⟩
  · have hr : ∀ req, ¬ ReadsRequest a h req := fun req h => hr ⟨req, h⟩
    obtain ⟨p, hp⟩ := main_unreadable hr
    rw [hp]
    exact ⟨fun _ => .inl hr, fun _ => ⟨p, rfl⟩⟩

/-- C63, negative. An input that cannot be opened or read or is not a request makes the program panic, in every mode. -/
theorem C63_neg_unreadable (a : Args) (h : Host) (hr : ∀ req, ¬ ReadsRequest a h req) : ∃ p, (a.main h).status = .error p := by
  obtain ⟨p, hp⟩ := main_unreadable hr
  exact ⟨p, by rw [hp]⟩

/-- C63, negative. In verify mode with usable options, a request with a malformed `Signature-Input` header makes the
program panic. -/
theorem C63_neg_signature_input (a : Args) (h : Host) (req : MockRequest) (v : HeaderValue) (hm : a.mode = .verify)
    (hr : ReadsRequest a h req) (hs : VerifyStarts a h)
    (hv : (req.headers.getAll hSignatureInput).head? = some v)
    (hbad : ∀ c, CanonicalizeConfig.fromSignatureInput (v.toStr.getD []) ≠ .ok (.ok c)) : ∃ p, (a.main h).status = .error p := by
  refine (C63_exact a h).2 (.inr ⟨req, hr, ?_⟩)
  rw [hm]
  exact ⟨hs, .inl ⟨v, hv, hbad⟩⟩

/-! ### C64: what the outcome depends on -/

theorem SameFile.read {o o' : Option Str} {h h' : Host} (hs : SameFile o o' h h') :
    (o.map fun p => (h.files p).read) = o'.map fun p => (h'.files p).read := by
  obtain ⟨rfl, h2⟩ := hs
  cases o with
  | none => rfl
  | some p => simp [h2 p rfl]

theorem main_congr {a b : Args} {h h' : Host} (hi : SameInput a b h h') (hrun : ∀ req, a.run h req = b.run h' req) :
    a.main h = b.main h' := by
  obtain ⟨h1, h2, h3⟩ := hi
  have : a.input h = b.input h' := by
    unfold Args.input
    rw [← h1]
    cases hf : a.inFile with
    | none => rw [hf] at h3; simp only at h3 ⊢; rw [h3]
    | some p => rw [hf] at h3; simp only at h3 ⊢; rw [h3]
  unfold Args.main
  rw [this, h2]
  simp only [hrun]

/-- C64, verify mode: the outcome is a function of the input, the algorithm, the key id, the public key file and the clock.
No other file is used, and no other option has any influence. -/
theorem C64_verify (a b : Args) (h h' : Host) (ha : a.mode = .verify) (hb : b.mode = .verify) (hi : SameInput a b h h')
    (h1 : a.algorithm = b.algorithm) (h2 : a.keyId = b.keyId) (h3 : SameFile a.publicKey b.publicKey h h')
    (h4 : h.verifyEnv = h'.verifyEnv) : a.main h = b.main h' := by
  refine main_congr hi fun req => ?_
  unfold Args.run
  rw [ha, hb]
  have : (a.opt h).verificationConfig = (b.opt h').verificationConfig := by
    unfold Opt.verificationConfig Opt.checkAlgorithm
    rw [show (a.opt h).publicKey = (b.opt h').publicKey from h3.read, show (a.opt h).algorithm = (b.opt h').algorithm from h1,
      show (a.opt h).keyId = (b.opt h').keyId from h2]
  simp only [runVerify, this, h4]

theorem canonicalize_label {r : MockRequest} {c c' : CanonicalizeConfig} (h1 : c.components = c'.components)
    (h2 : c.params = c'.params) : (canonicalize r c).map (fun x => x.map Prod.fst) = (canonicalize r c').map (fun x => x.map Prod.fst) := by
  unfold canonicalize
  have e : c.toSignatureInput.list = c'.toSignatureInput.list := by
    unfold CanonicalizeConfig.toSignatureInput
    simp only [h1, h2]
    rfl
  rw [h1]
  cases deriveAll r c'.components with
  | error p => rfl
  | ok x =>
    obtain ⟨found, missing⟩ := x
    simp only [Bind.bind, Except.bind]
    split
    · rfl
    · rw [e]
      cases (c'.toSignatureInput.list.display : P Str) with
      | error p => rfl
      | ok sp =>
        simp only
        split <;> rfl

/-- C64, canonicalize mode: the outcome is a function of the input, the headers option, the algorithm, the key id, the
times and the nonce. No key file is read, clock and coins are not used, and the label has no influence. -/
theorem C64_canonicalize (a b : Args) (h h' : Host) (ha : a.mode = .canonicalize) (hb : b.mode = .canonicalize)
    (hi : SameInput a b h h') (h1 : a.headers = b.headers) (h2 : a.algorithm = b.algorithm) (h3 : a.keyId = b.keyId)
    (h4 : a.created = b.created) (h5 : a.expires = b.expires) (h6 : a.nonce = b.nonce) : a.main h = b.main h' := by
  refine main_congr hi fun req => ?_
  unfold Args.run
  rw [ha, hb]
  simp only
  have key : runCanonicalize req (a.opt h) = runCanonicalize req (b.opt h') := by
    have e1 : ∀ o : Opt, runCanonicalize req o = match o.canonicalizeConfig with
        | .error e => .ok (.error e)
        | .ok c => ((canonicalize req c).map fun x => x.map Prod.fst).map fun x => x.mapError .lib := by
      intro o
      unfold runCanonicalize
      cases o.canonicalizeConfig with
      | error e => rfl
      | ok c =>
        simp only [Bind.bind, Except.bind]
        cases canonicalize req c with
        | error p => rfl
        | ok x => cases x <;> rfl
    have e2 : (a.opt h).parseHeaders = (b.opt h').parseHeaders := by
      unfold Opt.parseHeaders
      rw [show (a.opt h).headers = (b.opt h').headers from h1]
    have e3 : (a.opt h).canonicalizeConfig.map (fun c => (c.components, c.params)) =
        (b.opt h').canonicalizeConfig.map fun c => (c.components, c.params) := by
      unfold Opt.canonicalizeConfig
      rw [e2, show (a.opt h).algorithm = (b.opt h').algorithm from h2,
        show (a.opt h).keyId = (b.opt h').keyId from h3, show (a.opt h).created = (b.opt h').created from h4,
        show (a.opt h).expires = (b.opt h').expires from h5, show (a.opt h).nonce = (b.opt h').nonce from h6]
      cases (b.opt h').parseHeaders with
      | error e => rfl
      | ok x =>
        cases (b.opt h').algorithm with
        | none => rfl
        | some alg =>
          simp only [Bind.bind, Except.bind, Except.mapError]
          by_cases hk : alg ∈ Opt.knownAlgorithms
          · simp only [hk, if_true]
            cases (a.opt h).label <;> cases (b.opt h').label <;> cases x <;> cases (b.opt h').keyId <;>
              cases (b.opt h').created <;> cases (b.opt h').expires <;> cases (b.opt h').nonce <;> rfl
          · simp only [hk, if_false]
    rw [e1, e1]
    cases ca : (a.opt h).canonicalizeConfig with
    | error e =>
      cases cb : (b.opt h').canonicalizeConfig with
      | error e' => rw [ca, cb] at e3; cases e3; rfl
      | ok c' => rw [ca, cb] at e3; cases e3
    | ok c =>
      cases cb : (b.opt h').canonicalizeConfig with
      | error e' => rw [ca, cb] at e3; cases e3
      | ok c' =>
        rw [ca, cb] at e3
        injection e3 with e3
        injection e3 with f1 f2
        simp only [canonicalize_label f1 f2]
  rw [key]

/-- C64, sign mode: the outcome is a function of the input, the headers option, the algorithm, the key id, the times, the
label, the private key file, clocks and coins. -/
theorem C64_sign (a b : Args) (h h' : Host) (ha : a.mode = .sign) (hb : b.mode = .sign)
    (hi : SameInput a b h h') (h1 : a.headers = b.headers) (h2 : a.algorithm = b.algorithm) (h3 : a.keyId = b.keyId)
    (h4 : a.created = b.created) (h5 : a.expires = b.expires) (h6 : a.label = b.label)
    (h7 : SameFile a.privateKey b.privateKey h h') (h8 : h.signEnv = h'.signEnv) : a.main h = b.main h' := by
  refine main_congr hi fun req => ?_
  unfold Args.run
  rw [ha, hb]
  have : (a.opt h).signingConfig = (b.opt h').signingConfig := by
    unfold Opt.signingConfig Opt.checkAlgorithm Opt.parseHeaders
    rw [show (a.opt h).privateKey = (b.opt h').privateKey from h7.read, show (a.opt h).algorithm = (b.opt h').algorithm from h2,
      show (a.opt h).keyId = (b.opt h').keyId from h3, show (a.opt h).headers = (b.opt h').headers from h1,
      show (a.opt h).created = (b.opt h').created from h4, show (a.opt h).expires = (b.opt h').expires from h5,
      show (a.opt h).label = (b.opt h').label from h6]
  simp only [this, h8]

/-! ### C49 for processes -/

/-- C49, for the processes: exactly when verify mode accepts on standard input what sign mode wrote to standard output. -/
theorem C49_processes (a : Args) (h : Host) (out : Bytes) (hm : a.mode = .sign) (hs : a.main h = ⟨out, .ok (.ok ())⟩)
    (hl : PlainLabel (a.label.getD (str% "sig"))) (hno : NoSignatureHeaders (a.opt h)) :
    ∃ req name prim key comps base, ReadsRequest a h req ∧ SignOptions a h name prim key comps ∧
      OptBase req (a.opt h) name base ∧
      ∀ (a' : Args) (h' : Host), a'.mode = .verify → a'.inFile = none → h'.stdin = some out → (h'.trace = true → h.trace = true) →
        ((a'.main h').status = .ok (.ok ()) ↔
          a.label.getD (str% "sig") = str% "sig" ∧ 0 ≤ h'.verifyEnv.sysNow ∧
          (∀ t, a.created = some t → t ≤ h'.verifyEnv.sysNow / 1000000000) ∧
          (∀ t, a.expires = some t → h'.verifyEnv.sysNow / 1000000000 ≤ t) ∧ DigestFits req ∧
          ∃ name' prim' key', VerifyOptions a' h' name' prim' key' ∧ a'.keyId.getD [] = a.keyId.getD [] ∧
            Deps.asymVerify prim' key' base (Deps.asymSign prim key h.signEnv.rnd base) = true) := by
  obtain ⟨req, r', hr, hsg, hf⟩ := (C62_sign_exact a h out hm).1 hs
  obtain ⟨c, hc, hsign⟩ := signs_iff.2 hsg
  have hrun : runSign req (a.opt h) h.signEnv = .ok (.ok out) := runSign_iff.2 ⟨c, r', hc, hsign, write_iff.2 hf⟩
  obtain ⟨input, hi1, hi2, hi3⟩ := id hr
  obtain ⟨req', alg, name, prim, pem, key, base, hback, g1, g2, g3, g4, hbase, hiff⟩ :=
    C49_exact input out h.trace req (a.opt h) h.signEnv ((C60_reads_exactly input h.trace req).2 ⟨hi2, hi3⟩) hrun hl hno
  obtain ⟨name', prim', key', comps, ho, _⟩ := signingConfig_iff.1 hc
  have ho' : SignOptions a h name prim key comps := by
    obtain ⟨_, _, _, _, _, _, e⟩ := ho
    exact ⟨alg, pem, g1, g2, keyFile_iff.1 g3, g4, e⟩
  refine ⟨req, name, prim, key, comps, base, hr, ho', hbase, fun a' h' hm' hin hstd htr => ?_⟩
  obtain ⟨k1, k2⟩ := (C60_reads_exactly out h.trace req').1 hback
  have hr' : ReadsRequest a' h' req' := ⟨out, by unfold Source; rw [hin]; exact hstd, k1, fun ht => k2 (htr ht)⟩
  rw [main_reads hr']
  unfold Args.run
  rw [hm']
  show runVerify req' (a'.opt h') h'.verifyEnv = .ok (.ok ()) ↔ _
  rw [hiff]
  constructor
  · rintro ⟨e1, e2, e3, e4, e5, alg', name', prim', pem', key', f1, f2, f3, f4, f5, f6⟩
    exact ⟨e1, e2, e3, e4, e5, name', prim', key', ⟨alg', pem', f1, f2, keyFile_iff.1 f3, f4⟩, f5, f6⟩
  · rintro ⟨e1, e2, e3, e4, e5, name', prim', key', ⟨alg', pem', f1, f2, f3, f4⟩, f5, f6⟩
    exact ⟨e1, e2, e3, e4, e5, alg', name', prim', pem', key', f1, f2, keyFile_iff.2 f3, f4, f5, f6⟩

end Httpsig

namespace Httpsig
section
attribute [local instance] toyDeps

/-- A file system with a key file, a request file, and a request file with a header value that is not ASCII. -/
def exHost : Host where
  files p := if p = str% "key" then .contents exKeyFile else if p = str% "req" then .contents exFile
    else if p = str% "odd" then .contents (utf8 (str% "POST /a HTTP/1.1\nHost: h\nSignature-Input: x\nSignature: x\nX: é\n\nhello"))
    else if p = str% "bad" then .contents (utf8 (str% "POST /a HTTP/1.1\nHost: h\nSignature-Input: x=\n"))
    else .missing
  stdin := none
  trace := true
  signEnv := ⟨0, 150000000000, 0⟩
  verifyEnv := ⟨200000000000, 0⟩

/-- A command line of sign mode. -/
def exSignArgs : Args where
  mode := .sign
  inFile := some (str% "req")
  headers := some (some (str% "\"@method\"  host digest \"@query-params\";name=\"x\""))
  keyId := some (str% "k")
  privateKey := some (str% "key")
  algorithm := some (str% "rsa-pss-sha256")
  created := some 100

/-- The matching command line of verify mode, reading standard input. -/
def exVerifyArgs : Args where
  mode := .verify
  keyId := some (str% "k")
  publicKey := some (str% "key")
  algorithm := some (str% "rsa-pss-sha256")

/-- The kind of an exit status, to evaluate examples. -/
def Exit.kind (e : Exit) : Nat :=
  match e.status with
  | .ok (.ok ()) => 0
  | .ok (.error .write) => 1
  | .ok (.error _) => 2
  | .error _ => 3

theorem Exit.kind_ok {e : Exit} (h : e.kind = 0) : e.status = .ok (.ok ()) := by
  unfold Exit.kind at h
  split at h
  · assumption
  all_goals cases h

theorem Exit.kind_write {e : Exit} (h : e.kind = 1) : e.status = .ok (.error .write) := by
  unfold Exit.kind at h
  split at h
  · cases h
  · assumption
  all_goals cases h

/-- C61, negative. The part of a request left on standard output by a failed run of sign mode can be a request of its own,
which verify mode accepts; here it lacks the body of the original. -/
theorem C61_neg_truncated_verifies : ∃ (a a' : Args) (h h' : Host) (req req' : MockRequest) (out b : Bytes),
    a.mode = .sign ∧ ReadsRequest a h req ∧ req.body = some b ∧ b ≠ [] ∧ a.main h = ⟨out, .ok (.error .write)⟩ ∧
    a'.mode = .verify ∧ a'.inFile = none ∧ h'.stdin = some out ∧ ReadsRequest a' h' req' ∧ req'.body = none ∧
    (a'.main h').status = .ok (.ok ()) := by
  let a : Args := { exSignArgs with inFile := some (str% "odd"), headers := some (some (str% "host")) }
  let out := (a.main exHost).stdout
  let h' : Host := { exHost with stdin := some out }
  have h0 : a.main exHost = ⟨out, .ok (.error .write)⟩ := by
    have : (a.main exHost).kind = 1 := by decide +kernel
    rw [← Exit.kind_write this]
  have h1 : (exVerifyArgs.main h').status = .ok (.ok ()) := Exit.kind_ok (by decide +kernel)
  obtain ⟨req, r', _, _, _, _, hr, _⟩ := (C61_truncated_exact a exHost out rfl).1 h0
  obtain ⟨req', _, _, _, _, _, _, _, hr', _⟩ := (C62_verify_exact exVerifyArgs h' rfl).2.1 h1
  have hb : ∀ {input : Bytes} {r : MockRequest}, RequestFile input r → ∀ x, (MockRequest.fromReader input).toOption.map (fun o => o.map fun r => r.body) = some (some x) → r.body = x := by
    intro input r hf x hx
    rw [(C60_reads_exactly input false r).2 ⟨hf, by simp⟩] at hx
    simpa [Except.toOption] using hx
  refine ⟨a, exVerifyArgs, exHost, h', req, req', out, utf8 (str% "hello"), rfl, hr, ?_, by decide +kernel, h0, rfl, rfl, rfl, hr', ?_, h1⟩
  · obtain ⟨i, e1, e2, _⟩ := hr
    cases e1
    exact hb e2 _ (by decide +kernel)
  · obtain ⟨i, e1, e2, _⟩ := hr'
    cases e1
    exact hb e2 _ (by decide +kernel)

/-- `C62_sign_exact`, `C62_verify_exact` and `C49_processes`: signing the request file succeeds and verify mode accepts the
output on standard input. -/
example : exSignArgs.mode = .sign ∧ (exSignArgs.main exHost).status = .ok (.ok ()) ∧
    (exVerifyArgs.main { exHost with stdin := some (exSignArgs.main exHost).stdout }).status = .ok (.ok ()) :=
  ⟨rfl, Exit.kind_ok (by decide +kernel), Exit.kind_ok (by decide +kernel)⟩

/-- A changed method in between makes it fail. -/
example : (exVerifyArgs.main { exHost with stdin := some (71 :: 69 :: 84 :: (exSignArgs.main exHost).stdout.drop 4) }).kind = 2 := by
  decide +kernel

/-- `C62_canonicalize_exact`. -/
example : ({ exSignArgs with mode := .canonicalize, expires := some 7, label := some (str% "other") } : Args).main exHost =
    ⟨utf8 (str% "\"@method\": POST\n\"host\": h\n\"digest\": SHA-256=aGVsbG8=\n\"@query-params\";name=\"x\": 1\n\"@signature-params\": (\"@method\" \"host\" \"digest\" \"@query-params\";name=\"x\");created=100;expires=7;keyid=\"k\";alg=\"rsa-pss-sha256\""), .ok (.ok ())⟩ := by
  have h : (({ exSignArgs with mode := .canonicalize, expires := some 7, label := some (str% "other") } : Args).main exHost).kind = 0 ∧
      (({ exSignArgs with mode := .canonicalize, expires := some 7, label := some (str% "other") } : Args).main exHost).stdout =
    utf8 (str% "\"@method\": POST\n\"host\": h\n\"digest\": SHA-256=aGVsbG8=\n\"@query-params\";name=\"x\": 1\n\"@signature-params\": (\"@method\" \"host\" \"digest\" \"@query-params\";name=\"x\");created=100;expires=7;keyid=\"k\";alg=\"rsa-pss-sha256\"") := by
    decide +kernel
  rw [← Exit.kind_ok h.1, ← h.2]

/-- C63: a missing file, a malformed `Signature-Input` header, and a key id that cannot be written panic; a missing key
file and a component without value do not. -/
example : ({ exSignArgs with inFile := some (str% "none") } : Args).main exHost = ⟨[], .error .openInput⟩ := rfl
example : (({ exVerifyArgs with inFile := some (str% "bad") } : Args).main exHost).kind = 3 := by decide +kernel
example : (({ exSignArgs with keyId := some (str% "clé") } : Args).main exHost).kind = 3 := by decide +kernel
example : (({ exSignArgs with privateKey := some (str% "none") } : Args).main exHost).kind = 2 := by decide +kernel
example : (({ exSignArgs with headers := some (some (str% "date")) } : Args).main exHost).kind = 2 := by decide +kernel

/-- C64 applies to different command lines and file systems. -/
example : SameInput exVerifyArgs { exVerifyArgs with label := some (str% "x"), nonce := some (str% "n"), created := some 5, privateKey := some (str% "y") }
    exHost { exHost with signEnv := ⟨9, 9, 9⟩ } := ⟨rfl, rfl, rfl⟩

end
end Httpsig
