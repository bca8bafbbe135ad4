import Verif.Spec.Process
import Verif.Props.Accept
import Verif.Props.Refused
/-
C121: verify mode as a program, in terms of texts, key and clock.
-/
set_option linter.unusedSectionVars false
namespace Httpsig
open Sfv
variable [Deps]

theorem digestEntry_of_supported {e : Str} {alg : HttpDigest} {value : Str} (b : Bytes) (h : Supported defaultDigestProvider e alg value) :
    DigestEntry e b (alg.digest b = value) := by
  obtain ⟨k, v, name, h1, h2, h3, h4, h5⟩ := h
  refine ⟨k, v, name, value, h1, h2, h3, h4, ?_⟩
  rcases (C38_default_provider name alg).1 h5 with ⟨s, rfl⟩ | ⟨s, rfl⟩
  · refine .inl ⟨s, ?_⟩
    rw [isBase64_iff]
    exact eq_comm
  · refine .inr ⟨s, ?_⟩
    rw [isBase64_iff]
    exact eq_comm

theorem supported_of_digestEntry {e : Str} {b : Bytes} {good : Prop} (h : DigestEntry e b good) :
    ∃ alg value, Supported defaultDigestProvider e alg value ∧ (good ↔ alg.digest b = value) := by
  obtain ⟨k, v, name, value, h1, h2, h3, h4, ⟨h5, h6⟩ | ⟨h5, h6⟩⟩ := h
  · refine ⟨documentedSha256, value, ⟨k, v, name, h1, h2, h3, h4, (C38_default_provider name _).2 (.inl ⟨h5, rfl⟩)⟩, ?_⟩
    rw [h6, isBase64_iff]
    exact eq_comm
  · refine ⟨documentedSha512, value, ⟨k, v, name, h1, h2, h3, h4, (C38_default_provider name _).2 (.inr ⟨h5, rfl⟩)⟩, ?_⟩
    rw [h6, isBase64_iff]
    exact eq_comm

theorem digestHeader_iff {t : Str} {b : Bytes} :
    DigestHeader t b ↔ ∃ alg value, FirstSupported defaultDigestProvider t alg value ∧ alg.digest b = value := by
  constructor
  · rintro ⟨before, entry, after, h1, h2, h3, h4⟩
    obtain ⟨alg, value, h5, h6⟩ := supported_of_digestEntry h3
    refine ⟨alg, value, ⟨before, entry, after, h1, h2, h5, fun e he a v hs => ?_⟩, h6.1 trivial⟩
    exact h4 e he _ (digestEntry_of_supported b hs)
  · rintro ⟨alg, value, ⟨before, entry, after, h1, h2, h3, h4⟩, h5⟩
    refine ⟨before, entry, after, h1, h2, ?_, fun e he good hs => ?_⟩
    · have := digestEntry_of_supported b h3
      rwa [eq_true h5] at this
    · obtain ⟨a, v, hs', _⟩ := supported_of_digestEntry hs
      exact h4 e he a v hs'

theorem bodyAgrees_iff {r : MockRequest} {keys : Str → List HttpSignatureVerify} :
    DigestMatches r (optVerifying keys) ↔ BodyAgrees r := by
  unfold DigestMatches BodyAgrees
  have e1 : (optVerifying keys).digestProvider = defaultDigestProvider := rfl
  have e2 : (optVerifying keys).validateDigest = true := rfl
  have e3 : (optVerifying keys).requireDigest = false := rfl
  rw [e1, e2, e3]
  constructor
  · rintro (⟨t, h1, h2⟩ | ⟨h1, _⟩)
    · obtain ⟨alg, value, b, h3, h4, h5⟩ := h2 rfl
      exact .inr ⟨t, b, h1, h4, digestHeader_iff.2 ⟨alg, value, h3, h5⟩⟩
    · exact .inl h1
  · rintro (h | ⟨t, b, h1, h2, h3⟩)
    · exact .inr ⟨h, fun e => by cases e⟩
    · obtain ⟨alg, value, h4, h5⟩ := digestHeader_iff.1 h3
      exact .inl ⟨t, h1, fun _ => ⟨alg, value, b, h4, h2, h5⟩⟩

theorem b64Verify_iff {check : Bytes → Bytes → Bool} {m : Bytes} {s : Str} :
    b64Verify check m s = true ↔ ∃ tag, s = Base64.encode tag ∧ check m tag = true := by
  unfold b64Verify
  simp only [← C31_lossless]
  cases h : Base64.strictDecode s with
  | none => simp
  | some t => simp

theorem genuine_iff {r : MockRequest} {env : VerifyEnv} {kid name : Str} {prim : Primitive} {key : Bytes} :
    (∃ keyId, Acceptable r (optVerifying (onlyKey kid (asymVerifier name prim key))) env keyId) ↔
      Genuine r env.sysNow kid prim key ∧ BodyAgrees r := by
  unfold Acceptable
  constructor
  · rintro ⟨keyId, l, comps, sig, ⟨hp, h1, h2, h3, vals, ids, lids, ps, k1, k2, k3, k4, k, hk, hv⟩, _, _, hd⟩
    have hk' : keyId = kid ∧ k = asymVerifier name prim key := by
      have : k ∈ (if keyId = kid then [asymVerifier name prim key] else []) := hk
      by_cases e : keyId = kid
      · rw [if_pos e] at this
        exact ⟨e, List.mem_singleton.1 this⟩
      · rw [if_neg e] at this
        cases this
    obtain ⟨rfl, rfl⟩ := hk'
    obtain ⟨tag, h4, h5⟩ := b64Verify_iff.1 hv
    exact ⟨⟨l, comps, sig, vals, ids, lids, ps, tag, hp, h1, h2, h3, k1, k2, k3, k4, isBase64_iff.2 h4, h5⟩, bodyAgrees_iff.1 hd⟩
  · rintro ⟨⟨l, comps, sig, vals, ids, lids, ps, tag, hp, h1, h2, h3, k1, k2, k3, k4, h4, h5⟩, hd⟩
    refine ⟨kid, l, comps, sig, ⟨hp, h1, h2, h3, vals, ids, lids, ps, k1, k2, k3, k4, asymVerifier name prim key, ?_, ?_⟩,
      (fun q hq => by cases hq), (fun e => by cases e), bodyAgrees_iff.2 hd⟩
    · show _ ∈ (if kid = kid then [asymVerifier name prim key] else [])
      simp
    · exact b64Verify_iff.2 ⟨tag, isBase64_iff.1 h4, h5⟩

theorem verifies_iff {a : Args} {h : Host} {r : MockRequest} {vc : VerifyingConfig} (hc : (a.opt h).verificationConfig = .ok vc) :
    Verifies a h r ↔ ∃ keyId, Acceptable r vc h.verifyEnv keyId := by
  constructor
  · rintro ⟨name, prim, key, ⟨alg, pem, g1, g2, g3, g4⟩, h2⟩
    have := (C50_verifying_exact (a.opt h) _).2 (.inr ⟨alg, name, prim, pem, key, g1, g2, keyFile_iff.2 g3, g4, rfl⟩)
    rw [hc] at this
    cases this
    exact genuine_iff.2 h2
  · rintro ⟨keyId, h2⟩
    rcases (C50_verifying_exact (a.opt h) vc).1 hc with ⟨_, _, rfl⟩ | ⟨alg, name, prim, pem, key, g1, g2, g3, g4, rfl⟩
    · obtain ⟨l, comps, sig, hs, _⟩ := h2
      obtain ⟨_, _, _, _, _, _, _, _, k, hk, _⟩ := hs.key
      cases hk
    · exact ⟨name, prim, key, ⟨alg, pem, g1, g2, keyFile_iff.1 g3, g4⟩, genuine_iff.1 ⟨keyId, h2⟩⟩

theorem crashes_iff {a : Args} {h : Host} {r : MockRequest} {vc : VerifyingConfig} (hc : (a.opt h).verificationConfig = .ok vc) :
    Crashes r h.verifyEnv.sysNow ↔ Upsetting r vc h.verifyEnv := by
  have hreq : vc.requiredComponents = [] := by
    rcases (C50_verifying_exact (a.opt h) vc).1 hc with ⟨_, _, rfl⟩ | ⟨_, _, _, _, _, _, _, _, _, rfl⟩ <;> rfl
  unfold Crashes Upsetting
  constructor
  · rintro (h1 | h1)
    · exact .inl h1
    · exact .inr (.inl h1)
  · rintro (h1 | h1 | ⟨_, _, _, _, _, before, q, after, h2, _⟩)
    · exact .inl h1
    · exact .inr h1
    · rw [hreq] at h2
      simp at h2

/-- C121. Verify mode exits with success exactly when its input is a request with a genuine signature under the given key id, for the key
in the given file, and with a digest header, if any, that is right about the body. -/
theorem C121_accepts (a : Args) (h : Host) (hm : a.mode = .verify) :
    (a.main h).status = .ok (.ok ()) ↔ ∃ req, ReadsRequest a h req ∧ Verifies a h req := by
  by_cases hr : ∃ req, ReadsRequest a h req
  · obtain ⟨req, hr⟩ := hr
    have : (∃ req, ReadsRequest a h req ∧ Verifies a h req) ↔ Verifies a h req :=
      ⟨fun ⟨req', h1, h2⟩ => by rw [reads_unique hr h1]; exact h2, fun h2 => ⟨req, hr, h2⟩⟩
    rw [this, main_reads hr]
    unfold Args.run
    rw [hm]
    show runVerify req (a.opt h) h.verifyEnv = .ok (.ok ()) ↔ _
    rw [runVerify_iff]
    constructor
    · rintro ⟨vc, kid, hvc, hv⟩
      exact (verifies_iff hvc).2 ⟨kid, (C119_accepted _ _ _ _).1 hv⟩
    · intro hv
      obtain ⟨vc, hvc⟩ := verifyStarts_iff.1 (.inr ⟨hv.choose, hv.choose_spec.choose, hv.choose_spec.choose_spec.choose,
        hv.choose_spec.choose_spec.choose_spec.1⟩)
      obtain ⟨kid, hk⟩ := (verifies_iff hvc).1 hv
      exact ⟨vc, kid, hvc, (C119_accepted _ _ _ _).2 hk⟩
  · have hr : ∀ req, ¬ ReadsRequest a h req := fun req h => hr ⟨req, h⟩
    obtain ⟨p, hp⟩ := main_unreadable hr
    rw [hp]
    exact ⟨(fun e => by cases e), fun ⟨req, h1, _⟩ => absurd h1 (hr req)⟩

/-- C121. It panics exactly when the input is no request or, with usable options, the `Signature-Input` field is not a list of components,
or the clock is before 1970 and the request presents a signature. -/
theorem C121_panics (a : Args) (h : Host) (hm : a.mode = .verify) :
    (∃ p, (a.main h).status = .error p) ↔ (∀ req, ¬ ReadsRequest a h req) ∨
      ∃ req, ReadsRequest a h req ∧ VerifyStarts a h ∧ Crashes req h.verifyEnv.sysNow := by
  by_cases hr : ∃ req, ReadsRequest a h req
  · obtain ⟨req, hr⟩ := hr
    have : ((∀ req, ¬ ReadsRequest a h req) ∨ ∃ req, ReadsRequest a h req ∧ VerifyStarts a h ∧ Crashes req h.verifyEnv.sysNow) ↔
        VerifyStarts a h ∧ Crashes req h.verifyEnv.sysNow := by
      constructor
      · rintro (h1 | ⟨req', h1, h2⟩)
        · exact absurd hr (h1 req)
        · rw [reads_unique hr h1]; exact h2
      · exact fun h2 => .inr ⟨req, hr, h2⟩
    rw [this, main_reads hr, verifyStarts_iff]
    unfold Args.run
    rw [hm]
    show (∃ p, runVerify req (a.opt h) h.verifyEnv = .error p) ↔ _
    unfold runVerify
    cases hc : (a.opt h).verificationConfig with
    | error e => exact ⟨(fun ⟨p, hp⟩ => by cases hp), fun ⟨⟨vc, hvc⟩, _⟩ => by cases hvc⟩
    | ok vc =>
      simp only
      rw [crashes_iff hc, ← C119_panics]
      constructor
      · rintro ⟨p, hp⟩
        refine ⟨⟨vc, rfl⟩, ?_⟩
        cases hv : verify req vc h.verifyEnv with
        | error q => exact ⟨q, rfl⟩
        | ok x =>
          rw [hv] at hp
          cases x <;> cases hp
      · rintro ⟨_, p, hp⟩
        exact ⟨p, by rw [hp]; rfl⟩
  · have hr : ∀ req, ¬ ReadsRequest a h req := fun req h => hr ⟨req, h⟩
    obtain ⟨p, hp⟩ := main_unreadable hr
    rw [hp]
    exact ⟨fun _ => .inl hr, fun _ => ⟨p, rfl⟩⟩

/-- C121. It says that the verification failed exactly when options and `Signature-Input` field are in order and the request is not
accepted. -/
theorem C121_fails (a : Args) (h : Host) (hm : a.mode = .verify) :
    (a.main h).status = .ok (.error .verification) ↔
      ∃ req, ReadsRequest a h req ∧ VerifyStarts a h ∧ ¬ Crashes req h.verifyEnv.sysNow ∧ ¬ Verifies a h req := by
  by_cases hr : ∃ req, ReadsRequest a h req
  · obtain ⟨req, hr⟩ := hr
    have : (∃ req, ReadsRequest a h req ∧ VerifyStarts a h ∧ ¬ Crashes req h.verifyEnv.sysNow ∧ ¬ Verifies a h req) ↔
        VerifyStarts a h ∧ ¬ Crashes req h.verifyEnv.sysNow ∧ ¬ Verifies a h req :=
      ⟨fun ⟨req', h1, h2⟩ => by rw [reads_unique hr h1]; exact h2, fun h2 => ⟨req, hr, h2⟩⟩
    rw [this, main_reads hr, verifyStarts_iff]
    unfold Args.run
    rw [hm]
    show runVerify req (a.opt h) h.verifyEnv = .ok (.error .verification) ↔ _
    unfold runVerify
    cases hc : (a.opt h).verificationConfig with
    | error e =>
      refine ⟨fun hp => ?_, fun ⟨⟨vc, hvc⟩, _⟩ => by cases hvc⟩
      have : e = .verification := by
        have : (Except.ok (Except.error e) : P (Except AppError Unit)) = .ok (.error .verification) := hp
        injection this with this
        injection this
      rw [this] at hc
      cases (C76_verify_refused _ _).1 hc
    | ok vc =>
      simp only
      rw [crashes_iff hc, verifies_iff hc, ← C119_panics]
      cases hv : verify req vc h.verifyEnv with
      | error q => exact ⟨(fun e => by cases e), fun ⟨_, h1, _⟩ => absurd ⟨q, rfl⟩ h1⟩
      | ok x =>
        cases x with
        | error u =>
          refine ⟨fun _ => ⟨⟨vc, rfl⟩, (fun ⟨p, e⟩ => by cases e), fun ⟨kid, hk⟩ => ?_⟩, fun _ => rfl⟩
          rw [(C119_accepted _ _ _ _).2 hk] at hv
          cases hv
        | ok x =>
          refine ⟨(fun e => by cases e), fun ⟨_, _, h1⟩ => absurd ⟨x.2, (C119_accepted _ _ _ _).1 ?_⟩ h1⟩
          rw [hv]
  · have hr : ∀ req, ¬ ReadsRequest a h req := fun req h => hr ⟨req, h⟩
    obtain ⟨p, hp⟩ := main_unreadable hr
    rw [hp]
    exact ⟨(fun e => by cases e), fun ⟨req, h1, _⟩ => absurd h1 (hr req)⟩

/-- C121. It reports any other error exactly when the input is a request and the options are refused for that reason. -/
theorem C121_refuses (a : Args) (h : Host) (e : AppError) (hm : a.mode = .verify) (he : e ≠ .verification) :
    (a.main h).status = .ok (.error e) ↔ ∃ req, ReadsRequest a h req ∧ VerifyRefused (a.opt h) e := by
  by_cases hr : ∃ req, ReadsRequest a h req
  · obtain ⟨req, hr⟩ := hr
    have : (∃ req, ReadsRequest a h req ∧ VerifyRefused (a.opt h) e) ↔ VerifyRefused (a.opt h) e :=
      ⟨fun ⟨_, _, h2⟩ => h2, fun h2 => ⟨req, hr, h2⟩⟩
    rw [this, main_reads hr, ← C76_verify_refused]
    unfold Args.run
    rw [hm]
    show runVerify req (a.opt h) h.verifyEnv = .ok (.error e) ↔ _
    unfold runVerify
    cases hc : (a.opt h).verificationConfig with
    | error e' =>
      simp
    | ok vc =>
      simp only
      refine ⟨fun h1 => ?_, fun h1 => by cases h1⟩
      cases hv : verify req vc h.verifyEnv with
      | error q => rw [hv] at h1; cases h1
      | ok x =>
        rw [hv] at h1
        cases x with
        | error u =>
          have : (Except.ok (Except.error .verification) : P (Except AppError Unit)) = .ok (.error e) := h1
          injection this with this
          injection this with this
          exact absurd this.symm he
        | ok x => cases h1
  · have hr : ∀ req, ¬ ReadsRequest a h req := fun req h => hr ⟨req, h⟩
    obtain ⟨p, hp⟩ := main_unreadable hr
    rw [hp]
    exact ⟨(fun e => by cases e), fun ⟨req, h1, _⟩ => absurd h1 (hr req)⟩

end Httpsig

namespace Httpsig
section
attribute [local instance] toyDeps

/-- What sign mode wrote is genuine; with a changed method it is not, and the program says so. -/
example : ∃ req, ReadsRequest exVerifyArgs { exHost with stdin := some (exSignArgs.main exHost).stdout } req ∧
    Verifies exVerifyArgs { exHost with stdin := some (exSignArgs.main exHost).stdout } req :=
  (C121_accepts _ _ rfl).1 (Exit.kind_ok (by decide +kernel))

example : ¬ ∃ req, ReadsRequest exVerifyArgs { exHost with stdin := some (71 :: 69 :: 84 :: (exSignArgs.main exHost).stdout.drop 4) } req ∧
    Verifies exVerifyArgs { exHost with stdin := some (71 :: 69 :: 84 :: (exSignArgs.main exHost).stdout.drop 4) } req := by
  rw [← C121_accepts _ _ rfl]
  intro h
  have : (exVerifyArgs.main { exHost with stdin := some (71 :: 69 :: 84 :: (exSignArgs.main exHost).stdout.drop 4) }).kind = 2 := by decide +kernel
  unfold Exit.kind at this
  rw [h] at this
  cases this

/-- A digest header with an unknown and two known digests: the first known one counts. -/
example : DigestHeader (str% "md5=x, sha-256 = aGVsbG8=,SHA-512=z") (utf8 (str% "hello")) :=
  digestHeader_iff.2 ⟨documentedSha256, str% "aGVsbG8=", (C38_first_supported _ _ _ _).1 rfl, rfl⟩
example : ¬ DigestHeader (str% "md5=x, sha-256 = aGVsbG9=,SHA-512=z") (utf8 (str% "hello")) := by
  rw [digestHeader_iff]
  rintro ⟨alg, value, h1, h2⟩
  cases (C38_first_supported _ _ _ _).2 h1
  revert h2
  decide

/-- The other outcomes: a malformed field, and a key that is missing. -/
example : ∃ req, ReadsRequest { exVerifyArgs with inFile := some (str% "bad") } exHost req ∧ Crashes req 200000000000 := by
  obtain ⟨p, hp⟩ : ∃ p, (({ exVerifyArgs with inFile := some (str% "bad") } : Args).main exHost).status = .error p := by
    have : (({ exVerifyArgs with inFile := some (str% "bad") } : Args).main exHost).kind = 3 := by decide +kernel
    unfold Exit.kind at this
    split at this
    · cases this
    · cases this
    · cases this
    · exact ⟨_, by assumption⟩
  have hr : ∃ req, ReadsRequest { exVerifyArgs with inFile := some (str% "bad") } exHost req := by
    have : (MockRequest.fromReader (utf8 (str% "POST /a HTTP/1.1\nHost: h\nSignature-Input: x=\n")) true).toOption.any Option.isSome = true := by decide +kernel
    cases hx : MockRequest.fromReader (utf8 (str% "POST /a HTTP/1.1\nHost: h\nSignature-Input: x=\n")) true with
    | error e => rw [hx] at this; cases this
    | ok o =>
      cases o with
      | none => rw [hx] at this; cases this
      | some r =>
        obtain ⟨h1, h2⟩ := (C60_reads_exactly _ _ _).1 hx
        exact ⟨r, _, rfl, h1, h2⟩
  rcases (C121_panics _ _ rfl).1 ⟨p, hp⟩ with h | ⟨req, h1, _, h2⟩
  · obtain ⟨r, hr⟩ := hr
    exact absurd hr (h r)
  · exact ⟨req, h1, h2⟩

example : VerifyRefused ({ exVerifyArgs with publicKey := none }.opt exHost) (.badArg (str% "No key provided")) :=
  .noKey (str% "rsa-pss-sha256") rfl rfl (by decide)

end
end Httpsig
