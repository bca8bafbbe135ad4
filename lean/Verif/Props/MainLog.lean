import Verif.Lemmas.MainLog
import Verif.Props.KeyPairs
/-
C123: what the log of the validator contains.
-/
set_option linter.unusedSectionVars false
namespace Httpsig
open Sfv
section
variable [Deps]

/-- C123. Logging does not change what the program does. -/
theorem C123_exit (f : AppFmt) (a : Args) (h : Host) : (a.mainLogged f h).toExit = a.main h := mainLogged_exit f a h

/-- C123. The records of reading an input, exactly. -/
theorem C123_reading (input : Bytes) (trace : Bool) (l : List Str) :
    (MockRequest.fromReaderLogged input trace).records = l ↔ ReadRecords trace input l := readRecords_iff.symm

/-- C123. If no request can be read, the log is that of reading. -/
theorem C123_unreadable (f : AppFmt) (a : Args) (h : Host) (l : List Str) (hr : ∀ req, ¬ ReadsRequest a h req) :
    (a.mainLogged f h).records = l ↔ (l = [] ∧ ∀ input, ¬ Source a h input) ∨ ∃ input, Source a h input ∧ ReadRecords h.trace input l :=
  mainLogged_unreadable hr l

theorem verifyConfig_iff {a : Args} {h : Host} {vc : VerifyingConfig} :
    (a.opt h).verificationConfig = .ok vc ↔ VerifyConfig a h vc := by
  rw [C50_verifying_exact]
  constructor
  · rintro (⟨g1, g2, rfl⟩ | ⟨alg, name, prim, pem, key, g1, g2, g3, g4, rfl⟩)
    · refine .noKey g1 fun path e => ?_
      cases hf : h.files path with
      | contents b => exact ⟨b, rfl⟩
      | missing => exact absurd (show (a.publicKey.map fun p => (h.files p).read) = some none by rw [e]; simp [hf, FileState.read]) g2
      | broken => exact absurd (show (a.publicKey.map fun p => (h.files p).read) = some none by rw [e]; simp [hf, FileState.read]) g2
    · exact .key ⟨alg, pem, g1, g2, keyFile_iff.1 g3, g4⟩
  · rintro (⟨g1, g2⟩ | ⟨alg, pem, g1, g2, g3, g4⟩)
    · refine .inl ⟨g1, ?_, rfl⟩
      intro e
      show False
      obtain ⟨path, e1, e2⟩ := Option.map_eq_some_iff.1 (show (a.publicKey.map fun p => (h.files p).read) = some none from e)
      obtain ⟨b, hb⟩ := g2 path e1
      rw [hb] at e2
      cases e2
    · exact .inr ⟨alg, _, _, pem, _, g1, g2, keyFile_iff.2 g3, g4, rfl⟩

theorem run_info_other {f : AppFmt} {a : Args} {h : Host} {req : MockRequest} (ht : h.trace = false)
    (hv : a.mode ≠ .verify) : (a.runLogged f h req).records = [] := by
  unfold Args.runLogged
  rw [ht]
  cases hm : a.mode with
  | verify => exact absurd hm hv
  | canonicalize =>
    simp only
    cases (a.opt h).canonicalizeConfig with
    | error e => rfl
    | ok c =>
      simp only [then_records, canonicalizeAt, Bool.false_eq_true, if_false]
      cases canonicalize req c with
      | error p => rfl
      | ok o => cases o <;> rfl
  | sign =>
    simp only
    cases (a.opt h).signingConfig with
    | error e => rfl
    | ok c =>
      simp only [then_records, signAt, Bool.false_eq_true, if_false]
      cases sign req c h.signEnv with
      | error p => rfl
      | ok o => obtain ⟨r, o⟩ := o; cases o <;> rfl

theorem run_info_verify {f : AppFmt} {a : Args} {h : Host} {req : MockRequest} {vc : VerifyingConfig} (ht : h.trace = false)
    (hv : a.mode = .verify) (hc : (a.opt h).verificationConfig = .ok vc) :
    (a.runLogged f h req).records = (verifyLogged (Rem := Unit) f.toFmt req vc h.verifyEnv).records := by
  unfold Args.runLogged
  rw [ht, hv]
  simp only [then_records, verificationConfigLogged_eq, hc, verifyAt_result, Bool.false_eq_true, if_false, List.nil_append]
  cases verify (Rem := Unit) req vc h.verifyEnv with
  | error p => rfl
  | ok o => cases o <;> exact List.append_nil _

theorem run_info_refused {f : AppFmt} {a : Args} {h : Host} {req : MockRequest} {e : AppError} (ht : h.trace = false)
    (hv : a.mode = .verify) (hc : (a.opt h).verificationConfig = .error e) : (a.runLogged f h req).records = [] := by
  unfold Args.runLogged
  rw [ht, hv]
  simp only [then_records, verificationConfigLogged_eq, hc, Bool.false_eq_true, if_false, List.nil_append]

theorem main_info {f : AppFmt} {a : Args} {h : Host} {req : MockRequest} (ht : h.trace = false) (hr : ReadsRequest a h req) :
    (a.mainLogged f h).records = (a.runLogged f h req).records := by
  obtain ⟨l, hl⟩ := startRecords_ex f hr
  rw [mainLogged_reads hr l hl, start_info hr ht hl, List.nil_append]

theorem run_verify_status {a : Args} {h : Host} {req : MockRequest} {vc : VerifyingConfig} (hv : a.mode = .verify)
    (hc : (a.opt h).verificationConfig = .ok vc) : (a.run h req).status =
      (verify (Rem := Unit) req vc h.verifyEnv).map fun | .ok _ => .ok () | .error _ => .error .verification := by
  unfold Args.run
  rw [hv]
  simp only [runVerify, hc]
  cases verify (Rem := Unit) req vc h.verifyEnv with
  | error p => rfl
  | ok o => cases o <;> rfl

/-- C123. At level info, a run that succeeds or stops with an error other than a failed verification leaves no record. -/
theorem C123_info_quiet (f : AppFmt) (a : Args) (h : Host) (ht : h.trace = false)
    (hs : (a.main h).status = .ok (.ok ()) ∨ ∃ e, e ≠ .verification ∧ (a.main h).status = .ok (.error e)) :
    (a.mainLogged f h).records = [] := by
  by_cases hr : ∃ req, ReadsRequest a h req
  · obtain ⟨req, hr⟩ := hr
    rw [main_info ht hr]
    rw [main_reads hr] at hs
    by_cases hv : a.mode = .verify
    · cases hc : (a.opt h).verificationConfig with
      | error e => exact run_info_refused ht hv hc
      | ok vc =>
        rw [run_info_verify ht hv hc]
        rw [run_verify_status hv hc] at hs
        cases hx : verify (Rem := Unit) req vc h.verifyEnv with
        | error p => rw [hx] at hs; rcases hs with hs | ⟨e, _, hs⟩ <;> cases hs
        | ok o =>
          cases o with
          | error r => rw [hx] at hs; rcases hs with hs | ⟨e, hne, hs⟩ <;> cases hs; exact absurd rfl hne
          | ok r => exact (C116_accepted f.toFmt req vc h.verifyEnv).1 r hx
    · exact run_info_other ht hv
  · obtain ⟨p, hp⟩ := main_unreadable (fun req hh => hr ⟨req, hh⟩)
    rw [hp] at hs
    rcases hs with hs | ⟨e, _, hs⟩ <;> cases hs

/-- C123. At level info, verification fails with log `ms` exactly if `ms` is the text belonging to the first check the request
does not pass. -/
theorem C123_info_failed (f : AppFmt) (a : Args) (h : Host) (ms : List Str) (ht : h.trace = false) (hv : a.mode = .verify) :
    ((a.main h).status = .ok (.error .verification) ∧ (a.mainLogged f h).records = ms) ↔
      ∃ req vc, ReadsRequest a h req ∧ VerifyConfig a h vc ∧ Refusal (Rem := Unit) f.toFmt req vc h.verifyEnv ms := by
  constructor
  · rintro ⟨hs, hms⟩
    by_cases hr : ∃ req, ReadsRequest a h req
    · obtain ⟨req, hr⟩ := hr
      rw [main_info ht hr] at hms
      rw [main_reads hr] at hs
      cases hc : (a.opt h).verificationConfig with
      | error e =>
        have he := (C76_verify_refused _ _).1 hc
        unfold Args.run at hs
        rw [hv] at hs
        simp only [runVerify, hc] at hs
        cases hs
        cases he
      | ok vc =>
        rw [run_info_verify ht hv hc] at hms
        rw [run_verify_status hv hc] at hs
        refine ⟨req, vc, hr, verifyConfig_iff.1 hc, (C116_rejected f.toFmt req vc h.verifyEnv ms).1 ?_⟩
        cases hx : verify (Rem := Unit) req vc h.verifyEnv with
        | error p => rw [hx] at hs; cases hs
        | ok o =>
          cases o with
          | ok r => rw [hx] at hs; cases hs
          | error r => exact ⟨r, rfl, hms⟩
    · obtain ⟨p, hp⟩ := main_unreadable (fun req hh => hr ⟨req, hh⟩)
      rw [hp] at hs
      cases hs
  · rintro ⟨req, vc, hr, hc, hx⟩
    obtain ⟨rem, h1, h2⟩ := (C116_rejected f.toFmt req vc h.verifyEnv ms).2 hx
    rw [main_info ht hr, run_info_verify ht hv (verifyConfig_iff.2 hc), main_reads hr, run_verify_status hv (verifyConfig_iff.2 hc), h1]
    exact ⟨rfl, h2⟩

theorem homeless_unreadable {a : Args} {h : Host} {path : Str} (hh : Homeless a h path) : ∀ req, ¬ ReadsRequest a h req := by
  obtain ⟨input, method, version, headers, body, h1, h2, h3, h4⟩ := hh
  rintro req ⟨input', g1, g2, _⟩
  have e : input = input' := by have := (source_iff.2 h1).symm.trans (source_iff.2 g1); cases this; rfl
  cases e
  have hread := (C60_reads_exactly input false req).2 ⟨g2, by simp⟩
  rw [fromReader_eq h2] at hread
  simp only [Bool.false_and, Bool.false_eq_true, if_false, MockRequest.deriveUrl, h3, get_none_iff.2 h4] at hread
  cases hread

/-- C123. A request without a `Host` header whose target is not an absolute URL is not read; the target as it is gets into the log,
also at level info. -/
theorem C123_info_homeless (f : AppFmt) (a : Args) (h : Host) (path : Str) (ht : h.trace = false) (hh : Homeless a h path) :
    a.main h = ⟨[], .error .readInput⟩ ∧ (a.mainLogged f h).records = [str% "Cannot use relative URLs: " ++ path] := by
  have hun := homeless_unreadable hh
  obtain ⟨input, method, version, headers, body, h1, h2, h3, h4⟩ := hh
  refine ⟨?_, (mainLogged_unreadable hun _).2 (.inr ⟨input, h1, ?_⟩)⟩
  · unfold Args.main
    rw [source_iff.2 h1]
    simp only [ht]
    rw [fromReader_eq h2]
    simp only [Bool.false_and, Bool.false_eq_true, if_false, MockRequest.deriveUrl, h3, get_none_iff.2 h4]
    rfl
  · rw [ht]
    refine ReadRecords.text (l := []) h2 ?_ (.noHost h3 h4)
    cases body with
    | none => exact .none
    | some b => exact .off rfl

/-- C123. At level info, a run that panics leaves no record, or that of a request without host, or those of a `Signature-Input`
value that cannot be read. -/
theorem C123_info_panic (f : AppFmt) (a : Args) (h : Host) (p : Panic) (ht : h.trace = false) (hs : (a.main h).status = .error p) :
    (a.mainLogged f h).records = [] ∨
    (∃ path, Homeless a h path ∧ (a.mainLogged f h).records = [str% "Cannot use relative URLs: " ++ path]) ∨
    a.mode = .verify ∧ ∃ req v, ReadsRequest a h req ∧ FieldText req hSignatureInput v ∧
      BadInput v (a.mainLogged f h).records := by
  by_cases hr : ∃ req, ReadsRequest a h req
  · obtain ⟨req, hr⟩ := hr
    rw [main_info ht hr]
    rw [main_reads hr] at hs
    by_cases hv : a.mode = .verify
    · cases hc : (a.opt h).verificationConfig with
      | error e => exact .inl (run_info_refused ht hv hc)
      | ok vc =>
        rw [run_info_verify ht hv hc]
        rw [run_verify_status hv hc] at hs
        cases hx : verify (Rem := Unit) req vc h.verifyEnv with
        | ok o => rw [hx] at hs; cases hs
        | error p' =>
          rcases (C116_panic f.toFmt req vc h.verifyEnv).1 p' hx with e | ⟨v, h1, h2, _⟩
          · exact .inl e
          · exact .inr (.inr ⟨hv, req, v, hr, derive_field.1 h1, h2⟩)
    · exact .inl (run_info_other ht hv)
  · rcases (mainLogged_unreadable (f := f) (fun req hh => hr ⟨req, hh⟩) _).1 rfl with ⟨e, _⟩ | ⟨input, h1, h2⟩
    · exact .inl e
    · generalize (a.mainLogged f h).records = l at h2
      rw [ht] at h2
      cases h2 with
      | malformed => exact .inl rfl
      | body => exact .inl rfl
      | @text method path version headers body l1 l2 h3 hb htg =>
        have e1 : l1 = [] := by cases hb with | none => rfl | off => rfl | text e => cases e
        subst e1
        cases htg with
        | url => exact .inl rfl
        | hostOff => exact .inl rfl
        | host _ _ e => cases e
        | noHost hp hh => exact .inr (.inl ⟨path, ⟨input, method, version, headers, body, h1, h3, hp, hh⟩, rfl⟩)

/-- C123. At level info every record is a line of printable ASCII, except for the target of a request without host. -/
theorem C123_info_printable (f : AppFmt) (hf : f.toFmt.Printable) (a : Args) (h : Host) (ht : h.trace = false) :
    ∀ m ∈ (a.mainLogged f h).records, PrintableLine m ∨ ∃ path, Homeless a h path ∧ m = str% "Cannot use relative URLs: " ++ path := by
  intro m hm
  by_cases hr : ∃ req, ReadsRequest a h req
  · obtain ⟨req, hr⟩ := hr
    rw [main_info ht hr] at hm
    by_cases hv : a.mode = .verify
    · cases hc : (a.opt h).verificationConfig with
      | error e => rw [run_info_refused ht hv hc] at hm; cases hm
      | ok vc =>
        rw [run_info_verify ht hv hc] at hm
        exact .inl (C117_printable f.toFmt hf req vc h.verifyEnv m hm)
    · rw [run_info_other ht hv] at hm; cases hm
  · obtain ⟨p, hp⟩ := main_unreadable (fun req hh => hr ⟨req, hh⟩)
    rcases C123_info_panic f a h p ht (by rw [hp]) with e | ⟨path, h1, e⟩ | ⟨_, req, _, h1, _⟩
    · rw [e] at hm; cases hm
    · rw [e] at hm
      exact .inr ⟨path, h1, List.mem_singleton.1 hm⟩
    · exact absurd ⟨req, h1⟩ hr

/-! ### Level trace -/

/-- C123. The records of canonicalize mode at level trace: none if its options are refused, else those of the canonicalization. -/
theorem C123_trace_canonicalize (f : AppFmt) (a : Args) (h : Host) (req : MockRequest) (l : List Str) (ht : h.trace = true)
    (hm : a.mode = .canonicalize) (hr : ReadsRequest a h req) (hl : StartRecords f a h req l) :
    (∀ e, CanonicalizeRefused (a.opt h) e → (a.mainLogged f h).records = l) ∧
    ∀ alg comps, a.algorithm = some alg → alg ∈ algorithmNames → HeaderOption (a.opt h) comps →
      ∃ t, CanonTrace f.toFmt (canonicalize req (optCanonicalize (a.opt h) alg comps)) t ∧ (a.mainLogged f h).records = l ++ t := by
  rw [mainLogged_reads hr l hl]
  refine ⟨fun e he => ?_, fun alg comps h1 h2 h3 => ⟨_, (canonTraced f.toFmt req _).2, ?_⟩⟩
  · unfold Args.runLogged
    rw [hm, (C76_canonicalize_refused _ _).2 he]
    exact List.append_nil _
  · have hc := (C50_canonicalize_exact (a.opt h) _).2 ⟨alg, comps, h1, h2, h3, rfl⟩
    unfold Args.runLogged
    rw [hm, hc]
    simp only [then_records, canonicalizeAt_result]
    rw [ht]
    cases canonicalize req (optCanonicalize (a.opt h) alg comps) with
    | error p => rfl
    | ok o => cases o <;> simp [canonicalizeAt]

/-- C123. The records of an accepted verification at level trace, exactly: reading, the key, the canonicalization. -/
theorem C123_trace_verify (f : AppFmt) (a : Args) (h : Host) (l : List Str) (ht : h.trace = true) (hm : a.mode = .verify)
    (req : MockRequest) (hr : ReadsRequest a h req) (hl : StartRecords f a h req l) (hs : (a.main h).status = .ok (.ok ())) :
    ∃ alg name prim pem key c sig keyId s si, a.algorithm = some alg ∧ Supports alg name prim ∧ KeyFile h a.publicKey pem ∧
      PublicKey alg pem key ∧
      SignatureOk (Rem := Unit) req (optVerifying fun i => if i = a.keyId.getD [] then [asymVerifier name prim key] else [])
        h.verifyEnv c sig keyId (utf8 s) ∧
      canonicalize req c = .ok (.ok (utf8 s, si)) ∧
      (a.mainLogged f h).records = l ++
        [str% "Using key_id: " ++ a.keyId.getD [], str% "Reading public key from file", str% "Loading " ++ alg] ++
        (if alg = str% "rsa-v1_5-sha256" ∧ publicSpkiPem pem = none then [str% "Not an SPKI formatted key.  Trying PKCS1"] else []) ++
        [str% "Signature Base [u8]: " ++ debugBytes (utf8 s), str% "Signature Base String: " ++ s,
         str% "SignatureInut: " ++ f.debugInput si, str% "Verifying SignatureString: " ++ s] := by
  rw [main_reads hr] at hs
  rw [mainLogged_reads hr l hl]
  cases hc : (a.opt h).verificationConfig with
  | error e => unfold Args.run at hs; rw [hm] at hs; simp only [runVerify, hc] at hs; cases hs
  | ok vc =>
    rw [run_verify_status hm hc] at hs
    cases hx : verify (Rem := Unit) req vc h.verifyEnv with
    | error p => rw [hx] at hs; cases hs
    | ok o =>
    cases o with
    | error r => rw [hx] at hs; cases hs
    | ok r =>
    obtain ⟨⟨⟩, keyId⟩ := r
    obtain ⟨c, sig, s, si, hok, hcan, hrec⟩ := C118_accepted f.toFmt req vc h.verifyEnv () keyId hx
    have hrun : (a.runLogged f h req).records = configRecords (a.opt h) ++ (verifyTraced (Rem := Unit) f.toFmt req vc h.verifyEnv).records := by
      unfold Args.runLogged
      rw [hm, ht]
      simp only [then_records, verificationConfigLogged_eq, hc, verifyAt_result, hx, if_true, List.append_nil]
      rfl
    rcases (C50_verifying_exact (a.opt h) vc).1 hc with ⟨_, _, rfl⟩ | ⟨alg, name, prim, pem, key, g1, g2, g3, g4, rfl⟩
    · obtain ⟨k, hk, _⟩ := hok.key
      cases hk
    · refine ⟨alg, name, prim, pem, key, c, sig, keyId, s, si, g1, g2, keyFile_iff.1 g3, g4, hok, hcan, ?_⟩
      rw [hrun, hrec]
      have hchk : (a.opt h).checkAlgorithm = .ok () := by
        unfold Opt.checkAlgorithm
        rw [g1]
        simp only
        rw [if_pos (supports_known g2)]
      obtain ⟨build, hb⟩ := verifierFor_of_supports g2
      unfold configRecords
      rw [g3, hchk, g1]
      simp only [Opt.readKey, hb, List.append_assoc]
      rfl

theorem signTraced_canon {R : Type} [ClientRequestLike R] (f : Fmt) {req r1 : R} {config : SigningConfig} {env : SignEnv}
    {cs : List SignatureComponent} (ha : addAutoHeaders req config env = .ok (r1, cs)) :
    (signTraced f req config env).records =
      if 0 ≤ env.sysNow then
        match buildCanonicalizeConfig config cs (env.sysNow / 1000000000) with
        | .ok cc => (canonicalizeTraced f r1 cc).records
        | .error _ => []
      else [] := by
  unfold signTraced unixTimestamp
  rw [ha]
  simp only [Logged.bind_lift_ok]
  by_cases hn : env.sysNow < 0
  · rw [if_pos hn, if_neg (by omega)]; rfl
  rw [if_neg hn, if_pos (by omega)]
  simp only [Logged.bind_lift_ok]
  cases buildCanonicalizeConfig config cs (env.sysNow / 1000000000) with
  | error e => rfl
  | ok cc =>
  simp only
  obtain ⟨t, x⟩ := canonicalizeTraced f r1 cc
  cases x with
  | error p => rfl
  | ok o =>
  cases o with
  | error e => exact List.append_nil _
  | ok o =>
  obtain ⟨base, input⟩ := o
  simp only [Logged.bind_mk_ok]
  cases input.display with
  | error p => exact List.append_nil _
  | ok x =>
  simp only [Logged.bind_lift_ok]
  cases HeaderValue.fromStr x with
  | none => exact List.append_nil _
  | some v =>
  simp only
  cases HeaderValue.fromStr (config.label ++ str% "=:" ++ config.signature.sign env.rnd base ++ str% ":") <;> exact List.append_nil _

/-- C123. Two signing configurations that only differ in the function that signs: the records of signing are the same. -/
theorem C123_signer {R : Type} [ClientRequestLike R] (f : Fmt) (req : R) (config : SigningConfig) (env : SignEnv)
    (signer : Nat → Bytes → Str) :
    (signTraced f req { config with signature := { config.signature with sign := signer } } env).records =
      (signTraced f req config env).records := by
  cases ha : addAutoHeaders req config env with
  | error p =>
    have ha' : addAutoHeaders req { config with signature := { config.signature with sign := signer } } env = .error p := ha
    unfold signTraced
    rw [ha, ha']
    rfl
  | ok o =>
    obtain ⟨r1, cs⟩ := o
    have ha' : addAutoHeaders req { config with signature := { config.signature with sign := signer } } env = .ok (r1, cs) := ha
    rw [signTraced_canon f ha, signTraced_canon f ha']
    rfl

theorem signCanon_eq {a : Args} {h : Host} {name : Str} {prim : Primitive} {key : Bytes} {comps : List SignatureComponent} {now : Int} :
    ({ label := none, components := comps, params := ⟨SignedParams (optSigning (a.opt h) name prim key comps) now⟩ } : CanonicalizeConfig) =
      signCanon a name comps := by
  unfold SignedParams signCanon
  rw [optTimes.1, optTimes.2]
  show CanonicalizeConfig.mk _ _ ⟨_ ++ []⟩ = _
  rw [List.append_nil]
  rfl

theorem run_sign_trace {f : AppFmt} {a : Args} {h : Host} {req : MockRequest} (ht : h.trace = true) (hm : a.mode = .sign)
    {name : Str} {prim : Primitive} {key : Bytes} {comps : List SignatureComponent} (ho : SignOptions a h name prim key comps) :
    (a.runLogged f h req).records =
      (signTraced f.toFmt req (optSigning (a.opt h) name prim key comps) h.signEnv).records := by
  have hc := signingConfig_iff.2 ⟨name, prim, key, comps, ho, rfl⟩
  unfold Args.runLogged
  rw [hm, ht]
  simp only [hc, then_records, signAt_result]
  cases sign req (optSigning (a.opt h) name prim key comps) h.signEnv with
  | error p => rfl
  | ok o => obtain ⟨r, o⟩ := o; cases o <;> exact List.append_nil _

theorem run_sign_canon {f : AppFmt} {a : Args} {h : Host} {req : MockRequest} (ht : h.trace = true) (hm : a.mode = .sign)
    {name : Str} {prim : Primitive} {key : Bytes} {comps : List SignatureComponent} (ho : SignOptions a h name prim key comps) :
    (0 ≤ h.signEnv.sysNow ∧ OptionTimesOk a (h.signEnv.sysNow / 1000000000) →
      (a.runLogged f h req).records = (canonicalizeTraced f.toFmt req (signCanon a name comps)).records) ∧
    (¬ (0 ≤ h.signEnv.sysNow ∧ OptionTimesOk a (h.signEnv.sysNow / 1000000000)) → (a.runLogged f h req).records = []) := by
  obtain ⟨alg, pem, g1, g2, g3, g4, g5⟩ := id ho
  have hauto := (optSigning_noAuto (a.opt h) name prim key comps).addAuto (env := h.signEnv) (mock_total (r := req) g5)
  have e : (if (optSigning (a.opt h) name prim key comps).skipMissing = true then
      (optSigning (a.opt h) name prim key comps).components.filter (fun k => (valueOf req k).isSome) else
      (optSigning (a.opt h) name prim key comps).components) = comps := rfl
  have hauto : addAutoHeaders req (optSigning (a.opt h) name prim key comps) h.signEnv = .ok (req, comps) := hauto
  rw [run_sign_trace ht hm ho, signTraced_canon f.toFmt hauto]
  refine ⟨fun ⟨h1, h2⟩ => ?_, fun hn => ?_⟩
  · rw [if_pos h1, buildCanonicalizeConfig_ok_iff.2 ⟨optSigning_times.2 h2, rfl⟩, signCanon_eq]
  · by_cases h1 : 0 ≤ h.signEnv.sysNow
    · rw [if_pos h1]
      cases hb : buildCanonicalizeConfig (optSigning (a.opt h) name prim key comps) comps (h.signEnv.sysNow / 1000000000) with
      | error e => rfl
      | ok cc => exact absurd ⟨h1, optSigning_times.1 (buildCanonicalizeConfig_ok_iff.1 hb).1⟩ hn
    · rw [if_neg h1]

/-- C123. The records of sign mode at level trace: beyond those of reading none if the options or the times are refused, else those
of the canonicalization. -/
theorem C123_trace_sign (f : AppFmt) (a : Args) (h : Host) (req : MockRequest) (l : List Str) (ht : h.trace = true)
    (hm : a.mode = .sign) (hr : ReadsRequest a h req) (hl : StartRecords f a h req l) :
    (∀ e, SignRefused (a.opt h) e → (a.mainLogged f h).records = l) ∧
    ∀ name prim key comps, SignOptions a h name prim key comps →
      (¬ (0 ≤ h.signEnv.sysNow ∧ OptionTimesOk a (h.signEnv.sysNow / 1000000000)) → (a.mainLogged f h).records = l) ∧
      (0 ≤ h.signEnv.sysNow ∧ OptionTimesOk a (h.signEnv.sysNow / 1000000000) →
        ∃ t, CanonTrace f.toFmt (canonicalize req (signCanon a name comps)) t ∧ (a.mainLogged f h).records = l ++ t) := by
  rw [mainLogged_reads hr l hl]
  refine ⟨fun e he => ?_, fun name prim key comps ho => ⟨fun hn => ?_, fun hy => ⟨_, (canonTraced f.toFmt req _).2, ?_⟩⟩⟩
  · unfold Args.runLogged
    rw [hm, (C76_sign_refused _ _).2 he]
    exact List.append_nil _
  · rw [(run_sign_canon ht hm ho).2 hn, List.append_nil]
  · rw [(run_sign_canon ht hm ho).1 hy]

/-- C123. The records of a successful signing at level trace end with the signature base that was signed. -/
theorem C123_trace_signed (f : AppFmt) (a : Args) (h : Host) (l : List Str) (ht : h.trace = true) (hm : a.mode = .sign)
    (req r' : MockRequest) (hr : ReadsRequest a h req) (hl : StartRecords f a h req l) (hs : Signs a h req r') :
    ∃ name prim key comps ids lids vals vs, SignOptions a h name prim key comps ∧ Values req comps vals ∧
      Forall2 Ident comps ids ∧ Forall2 ListIdent comps lids ∧
      FirstLine r' hSignature vs ∧ vs.bytes = utf8 (a.label.getD (str% "sig") ++ str% "=:" ++ Base64.encode (Deps.asymSign prim key h.signEnv.rnd
        (utf8 (specBase ids lids vals (signParamsText a name)))) ++ str% ":") ∧
      (a.mainLogged f h).records = l ++
        [str% "Signature Base [u8]: " ++ debugBytes (utf8 (specBase ids lids vals (signParamsText a name))),
         str% "Signature Base String: " ++ specBase ids lids vals (signParamsText a name),
         str% "SignatureInut: " ++ f.debugInput (signCanon a name comps).toSignatureInput] := by
  obtain ⟨name, prim, key, comps, ids, lids, vals, vi, vs, ho, hn, hto, hw, h1, h2, h3, h4, h5, rfl⟩ := hs
  obtain ⟨alg, pem, g1, g2, g3, g4, g5⟩ := id ho
  refine ⟨name, prim, key, comps, ids, lids, vals, vs, ho, h1, h2, h3, firstLine_iff.2 (HeaderMap.get_insert_self _ _ _), h5, ?_⟩
  obtain ⟨t, hct, hrec⟩ := ((C123_trace_sign f a h req l ht hm hr hl).2 name prim key comps ho).2 ⟨hn, hto⟩
  have hps : ParamsText (SignedParams (optSigning (a.opt h) name prim key comps) (h.signEnv.sysNow / 1000000000)) _ :=
    paramsText_signed_iff.2 ⟨(optSigning_writable g2).2 hw, rfl⟩
  rw [optSigning_text] at hps
  have hcan : canonicalize req (signCanon a name comps) =
      .ok (.ok (utf8 (specBase ids lids vals (signParamsText a name)), (signCanon a name comps).toSignatureInput)) := by
    rw [← signCanon_eq (h := h) (prim := prim) (key := key) (now := h.signEnv.sysNow / 1000000000)]
    exact canonicalize_ok_iff.2 ⟨vals, ids, lids, _, h1, h2, h3, hps, rfl, rfl⟩
  rw [hcan] at hct
  rw [hrec]
  generalize hx : utf8 (specBase ids lids vals (signParamsText a name)) = x at hct
  cases hct with
  | base =>
    cases utf8_injective hx
    rfl

/-! ### The private key -/

theorem withFile_input {a : Args} {h : Host} {p : Str} (s : FileState) (hi : a.inFile ≠ some p) : a.input (h.withFile p s) = a.input h := by
  unfold Args.input Host.withFile
  cases hf : a.inFile with
  | none => rfl
  | some q =>
    have : q ≠ p := fun e => hi (by rw [hf, e])
    simp only [if_neg this]

theorem withFile_source {a : Args} {h : Host} {p : Str} {s : FileState} (hi : a.inFile ≠ some p) {input : Bytes} :
    Source a (h.withFile p s) input ↔ Source a h input := by
  rw [← source_iff, ← source_iff, withFile_input s hi]

theorem withFile_reads {a : Args} {h : Host} {p : Str} {s : FileState} (hi : a.inFile ≠ some p) {req : MockRequest} :
    ReadsRequest a (h.withFile p s) req ↔ ReadsRequest a h req := by
  unfold ReadsRequest
  simp only [withFile_source hi]
  rfl

theorem withFile_start {f : AppFmt} {a : Args} {h : Host} {p : Str} {s : FileState} (hi : a.inFile ≠ some p) {req : MockRequest}
    {l : List Str} : StartRecords f a (h.withFile p s) req l ↔ StartRecords f a h req l := by
  unfold StartRecords
  simp only [withFile_source hi]
  rfl

theorem headerOption_unique {o o' : Opt} {c c' : List SignatureComponent} (he : o.headers = o'.headers) (h : HeaderOption o c)
    (h' : HeaderOption o' c') : c = c' := by
  obtain ⟨x, h1, rfl⟩ := headerOption_iff.1 h
  obtain ⟨x', h1', rfl⟩ := headerOption_iff.1 h'
  have : o.parseHeaders = o'.parseHeaders := by unfold Opt.parseHeaders; rw [he]
  rw [this, h1'] at h1
  cases h1
  rfl

/-- C123. Nothing of the private key is logged: whatever is in the file, the log is one of two, and which of them only tells whether
the options, among them the file, are in order. -/
theorem C123_private_key (f : AppFmt) (a : Args) (h : Host) (p : Str) (hi : a.inFile ≠ some p)
    (hp : a.mode = .verify → a.publicKey ≠ some p) :
    ∃ before after, ∀ s : FileState,
      ((∃ e, SignRefused (a.opt (h.withFile p s)) e) → (a.mainLogged f (h.withFile p s)).records = before) ∧
      ((∀ e, ¬ SignRefused (a.opt (h.withFile p s)) e) → (a.mainLogged f (h.withFile p s)).records = before ++ after) := by
  by_cases hr : ∃ req, ReadsRequest a h req
  · obtain ⟨req, hr⟩ := hr
    obtain ⟨l, hl⟩ := startRecords_ex f hr
    have hrec : ∀ s, (a.mainLogged f (h.withFile p s)).records = l ++ (a.runLogged f (h.withFile p s) req).records :=
      fun s => mainLogged_reads ((withFile_reads hi).2 hr) l ((withFile_start hi).2 hl)
    simp only [hrec]
    by_cases hm : a.mode = .sign
    · cases ht : h.trace with
      | false =>
        have hz : ∀ s, (a.runLogged f (h.withFile p s) req).records = [] := fun s => run_info_other ht (by rw [hm]; simp)
        exact ⟨l, [], fun s => by simp [hz]⟩
      | true =>
        have hrefused : ∀ s e, SignRefused (a.opt (h.withFile p s)) e → (a.runLogged f (h.withFile p s) req).records = [] := by
          intro s e he
          unfold Args.runLogged
          rw [hm, (C76_sign_refused _ _).2 he]
        have hoptions : ∀ s, (∀ e, ¬ SignRefused (a.opt (h.withFile p s)) e) →
            ∃ name prim key comps, SignOptions a (h.withFile p s) name prim key comps := by
          intro s hs
          cases hc : (a.opt (h.withFile p s)).signingConfig with
          | error e => exact absurd ((C76_sign_refused _ _).1 hc) (hs e)
          | ok c =>
            obtain ⟨name, prim, key, comps, ho, _⟩ := signingConfig_iff.1 hc
            exact ⟨name, prim, key, comps, ho⟩
        by_cases htimes : 0 ≤ h.signEnv.sysNow ∧ OptionTimesOk a (h.signEnv.sysNow / 1000000000)
        · by_cases hex : ∃ s name prim key comps, SignOptions a (h.withFile p s) name prim key comps
          · obtain ⟨s0, name, prim, key, comps, ho⟩ := hex
            refine ⟨l, (canonicalizeTraced f.toFmt req (signCanon a name comps)).records, fun s => ⟨fun ⟨e, he⟩ => ?_, fun hs => ?_⟩⟩
            · rw [hrefused s e he, List.append_nil]
            · obtain ⟨name', prim', key', comps', ho'⟩ := hoptions s hs
              rw [(run_sign_canon (h := h.withFile p s) ht hm ho').1 htimes]
              obtain ⟨alg, pem, g1, g2, g3, g4, g5⟩ := ho
              obtain ⟨alg', pem', g1', g2', g3', g4', g5'⟩ := ho'
              rw [g1] at g1'
              cases g1'
              rw [(supports_det g2 g2').1, headerOption_unique rfl g5 g5']
          · refine ⟨l, [], fun s => ⟨fun ⟨e, he⟩ => ?_, fun hs => ?_⟩⟩
            · rw [hrefused s e he, List.append_nil]
            · exact absurd ⟨s, hoptions s hs⟩ hex
        · refine ⟨l, [], fun s => ⟨fun ⟨e, he⟩ => ?_, fun hs => ?_⟩⟩
          · rw [hrefused s e he, List.append_nil]
          · obtain ⟨name, prim, key, comps, ho⟩ := hoptions s hs
            rw [(run_sign_canon (h := h.withFile p s) ht hm ho).2 htimes]
    · have hrun : ∀ s, a.runLogged f (h.withFile p s) req = a.runLogged f h req := by
        intro s
        cases hm' : a.mode with
        | sign => exact absurd hm' hm
        | canonicalize => unfold Args.runLogged; rw [hm']; rfl
        | verify =>
          have ho : a.opt (h.withFile p s) = { a.opt h with privateKey := (a.opt (h.withFile p s)).privateKey } := by
            unfold Args.opt
            congr 1
            cases hk : a.publicKey with
            | none => rfl
            | some q =>
              have : q ≠ p := fun e => hp hm' (by rw [hk, e])
              simp [Host.withFile, if_neg this]
          unfold Args.runLogged
          rw [hm', ho]
          rfl
      exact ⟨l ++ (a.runLogged f h req).records, [], fun s => by simp [hrun]⟩
  · have hr : ∀ req, ¬ ReadsRequest a h req := fun req hh => hr ⟨req, hh⟩
    have hrec : ∀ s, (a.mainLogged f (h.withFile p s)).records = (a.mainLogged f h).records := by
      intro s
      rw [mainLogged_unreadable (fun req hh => hr req ((withFile_reads hi).1 hh))]
      simp only [withFile_source hi]
      exact (mainLogged_unreadable hr _).1 rfl
    exact ⟨(a.mainLogged f h).records, [], fun s => by simp [hrec]⟩

end

/-! ### Examples -/
section
attribute [local instance] toyDeps

/-- Formatting for the examples. -/
def exAppFmt : AppFmt := { exFmt with request := fun r => str% "MockRequest " ++ r.path }

/-- At level trace: verification of what sign mode wrote. `C123_trace_verify` has its hypotheses met; the base in bytes is left out. -/
example : (exVerifyArgs.main { exHost with stdin := some (exSignArgs.main exHost).stdout }).status = .ok (.ok ()) ∧ exHost.trace = true :=
  ⟨Exit.kind_ok (by decide +kernel), rfl⟩
example : ((exVerifyArgs.mainLogged exAppFmt { exHost with stdin := some (exSignArgs.main exHost).stdout }).records.take 6) =
    [str% "Messge Body: hello", str% "Attempting to use host header", str% "MockRequest /a?x=1", str% "Using key_id: k",
     str% "Reading public key from file", str% "Loading rsa-pss-sha256"] := by decide +kernel
example : ((exVerifyArgs.mainLogged exAppFmt { exHost with stdin := some (exSignArgs.main exHost).stdout }).records[7]?) =
    some (str% "Signature Base String: \"@method\": POST\n\"host\": h\n\"digest\": SHA-256=aGVsbG8=\n\"@query-params\";name=\"x\": 1\n\"@signature-params\": (\"@method\" \"host\" \"digest\" \"@query-params\";name=\"x\");alg=\"rsa-pss-sha512\";created=100;keyid=\"k\"") := by
  decide +kernel

/-- At level trace: canonicalization with a component that has no value; options that are refused. -/
example : (({ exSignArgs with mode := .canonicalize, headers := some (some (str% "date")) } : Args).mainLogged exAppFmt exHost).records =
    [str% "Messge Body: hello", str% "Attempting to use host header", str% "MockRequest /a?x=1",
     str% "CanonicalizeConfig is missing required components: [Header(\"date\")]"] := by decide +kernel
example : (({ exSignArgs with mode := .canonicalize, algorithm := none } : Args).mainLogged exAppFmt exHost).records =
    [str% "Messge Body: hello", str% "Attempting to use host header", str% "MockRequest /a?x=1"] := by decide +kernel

/-- `C123_private_key`: both logs occur. -/
example : exSignArgs.inFile ≠ some (str% "key") ∧ exSignArgs.mode ≠ .verify ∧
    (exSignArgs.mainLogged exAppFmt (exHost.withFile (str% "key") .missing)).records =
      [str% "Messge Body: hello", str% "Attempting to use host header", str% "MockRequest /a?x=1"] ∧
    (exSignArgs.mainLogged exAppFmt (exHost.withFile (str% "key") (.contents exKeyFile))).records.length = 6 := by decide +kernel

/-- At level info: a verification that fails for its key id, one that succeeds, and one whose options are refused. -/
example : (({ exVerifyArgs with keyId := none } : Args).mainLogged exAppFmt
      { exHost with trace := false, stdin := some (exSignArgs.main exHost).stdout }).records =
    [str% "Verification Failed: Unknown key (keyId=k, algorithm=rsa-pss-sha512)"] := by decide +kernel
example : (exVerifyArgs.mainLogged exAppFmt { exHost with trace := false, stdin := some (exSignArgs.main exHost).stdout }).records = [] ∧
    (exVerifyArgs.main { exHost with trace := false, stdin := some (exSignArgs.main exHost).stdout }).kind = 0 ∧
    (({ exVerifyArgs with publicKey := none } : Args).mainLogged exAppFmt
      { exHost with trace := false, stdin := some (exSignArgs.main exHost).stdout }).records = [] := by decide +kernel

/-- At level info: before a panic. -/
example : (({ exVerifyArgs with inFile := some (str% "bad") } : Args).mainLogged exAppFmt { exHost with trace := false }).records =
    [str% "Verification Failed: failed to parse SignatureInput", str% "Verification Failed: Bad 'Signature-input' header"] := by decide +kernel

/-- A request without host: the escape sequence of the target gets into the log. -/
def exHomeless : Bytes := utf8 (str% "GET /\x1b[2J HTTP/1.1\n")
example : (exVerifyArgs.mainLogged exAppFmt { exHost with trace := false, stdin := some exHomeless }).records =
    [str% "Cannot use relative URLs: /\x1b[2J"] := by decide +kernel
example : ∃ path, Homeless exVerifyArgs { exHost with trace := false, stdin := some exHomeless } path ∧ ¬ PrintableLine path := by
  have hrec : (exVerifyArgs.mainLogged exAppFmt { exHost with trace := false, stdin := some exHomeless }).records =
    [str% "Cannot use relative URLs: /\x1b[2J"] := by decide +kernel
  have hk : (exVerifyArgs.main { exHost with trace := false, stdin := some exHomeless }).kind = 3 := by decide +kernel
  obtain ⟨p, hp⟩ : ∃ p, (exVerifyArgs.main { exHost with trace := false, stdin := some exHomeless }).status = .error p := by
    unfold Exit.kind at hk
    split at hk
    · cases hk
    · cases hk
    · cases hk
    · exact ⟨_, by assumption⟩
  rcases C123_info_panic exAppFmt _ _ p rfl hp with e | ⟨path, h1, e⟩ | ⟨_, _, v, _, _, hb⟩
  · rw [hrec] at e; cases e
  · rw [hrec] at e
    refine ⟨path, h1, ?_⟩
    have e : path = str% "/\x1b[2J" := by simpa using e.symm
    subst e
    intro hpr
    exact absurd (hpr '\x1b' (by simp)).1 (by decide)
  · rw [hrec] at hb; cases hb

end
end Httpsig
