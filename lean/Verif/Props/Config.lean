import Verif.Spec.Setters
import Verif.Props.Sign
/-
C40, C53: configuration builders and their defaults.
-/
set_option linter.unusedSectionVars false
namespace Httpsig
open Sfv

theorem lastCall_append {α β : Type} (pick : α → Option β) (l : List α) (a : α) :
    lastCall pick (l ++ [a]) = match pick a with | some b => some b | none => lastCall pick l := by
  unfold lastCall
  rw [List.filterMap_append]
  cases h : pick a with
  | none => simp [h]
  | some b => simp [h]

/-- Induction over histories from their end. -/
theorem history_induction {α : Type} {p : List α → Prop} (nil : p []) (snoc : ∀ l a, p l → p (l ++ [a])) (l : List α) : p l := by
  have : ∀ m : List α, p m.reverse := by
    intro m
    induction m with
    | nil => exact nil
    | cons a m ih => rw [List.reverse_cons]; exact snoc _ _ ih
  have h := this l.reverse
  rwa [List.reverse_reverse] at h

variable [Deps]

theorem signingAfter_append (label keyId : Str) (alg : HttpSignatureSign) (l : List SigningCall) (a : SigningCall) :
    signingAfter label keyId alg (l ++ [a]) = SigningCall.run (signingAfter label keyId alg l) a := by
  unfold signingAfter
  rw [List.foldl_append]
  rfl

/-- C40 for `SigningConfig`. After any history of setter calls every getter returns the value of the last call that sets
it, or the default if there is none; label, key id and algorithm are those given to `new`. -/
theorem C40_signing_histories (label keyId : Str) (alg : HttpSignatureSign) (calls : List SigningCall) :
    let c := signingAfter label keyId alg calls
    c.label = label ∧ c.keyId = keyId ∧ c.signature = alg ∧
    c.nonce = lastCall (fun | .nonce n => some n | _ => none) calls ∧
    c.digest = (lastCall (fun | .digest d => some d | _ => none) calls).getD documentedSha256 ∧
    c.computeDigest = (lastCall (fun | .computeDigest b => some b | _ => none) calls).getD true ∧
    c.addDate = (lastCall (fun | .addDate b => some b | _ => none) calls).getD true ∧
    c.addHost = (lastCall (fun | .addHost b => some b | _ => none) calls).getD true ∧
    c.components = (lastCall (fun | .components l => some l | _ => none) calls).getD [] ∧
    c.skipMissing = (lastCall (fun | .skipMissing b => some b | _ => none) calls).getD true := by
  induction calls using history_induction with
  | nil =>
    exact ⟨rfl, rfl, rfl, rfl, rfl, rfl, rfl, rfl, rfl, rfl⟩
  | snoc l a h =>
    simp only [signingAfter_append, lastCall_append] at h ⊢
    obtain ⟨h1, h2, h3, h4, h5, h6, h7, h8, h9, h10⟩ := h
    cases a with
    | nonce n => exact ⟨h1, h2, h3, rfl, h5, h6, h7, h8, h9, h10⟩
    | digest d => exact ⟨h1, h2, h3, h4, rfl, h6, h7, h8, h9, h10⟩
    | computeDigest b => exact ⟨h1, h2, h3, h4, h5, rfl, h7, h8, h9, h10⟩
    | addDate b => exact ⟨h1, h2, h3, h4, h5, h6, rfl, h8, h9, h10⟩
    | addHost b => exact ⟨h1, h2, h3, h4, h5, h6, h7, rfl, h9, h10⟩
    | components l => exact ⟨h1, h2, h3, h4, h5, h6, h7, h8, rfl, h10⟩
    | skipMissing b => exact ⟨h1, h2, h3, h4, h5, h6, h7, h8, h9, rfl⟩
    | _ => exact ⟨h1, h2, h3, h4, h5, h6, h7, h8, h9, h10⟩

/-- C40 for the `created` setters, which share one option: the last of the two calls decides. -/
theorem C40_created_histories (label keyId : Str) (alg : HttpSignatureSign) (calls : List SigningCall) :
    let c := signingAfter label keyId alg calls
    let last := lastCall (fun | .createdAuto => some none | .createdAt t => some (some t) | _ => none) calls
    (c.createdAuto = true ↔ last = some none) ∧ (∀ t, c.createdAt = some t ↔ last = some (some t)) ∧
    ∀ now, createdTime c now = match last with | none => none | some none => some now | some (some t) => some t := by
  induction calls using history_induction with
  | nil =>
    refine ⟨⟨fun h => ?_, fun h => ?_⟩, fun t => ⟨fun h => ?_, fun h => ?_⟩, fun _ => rfl⟩ <;> cases h
  | snoc l a h =>
    simp only [signingAfter_append, lastCall_append] at h ⊢
    cases a with
    | createdAuto =>
      exact ⟨⟨fun _ => rfl, fun _ => rfl⟩, fun t => ⟨(fun h => by cases h), (fun h => by cases h)⟩, fun _ => rfl⟩
    | createdAt t =>
      exact ⟨⟨(fun h => by cases h), (fun h => by cases h)⟩, fun t => ⟨(fun h => by cases h; rfl), (fun h => by cases h; rfl)⟩, fun _ => rfl⟩
    | _ => exact h

/-- C40 for the `expires` setters. -/
theorem C40_expires_histories (label keyId : Str) (alg : HttpSignatureSign) (calls : List SigningCall) :
    let c := signingAfter label keyId alg calls
    let last := lastCall (fun | .expiresRelative o => some (Sum.inl o) | .expiresAt t => some (Sum.inr t) | _ => none) calls
    (∀ o, c.expiresRelative = some o ↔ last = some (.inl o)) ∧ (∀ t, c.expiresAt = some t ↔ last = some (.inr t)) ∧
    ((∀ now, expiresTime c now = none) ↔ last = none) := by
  induction calls using history_induction with
  | nil =>
    exact ⟨fun o => ⟨(fun h => by cases h), (fun h => by cases h)⟩, fun o => ⟨(fun h => by cases h), (fun h => by cases h)⟩,
      ⟨fun _ => rfl, fun _ _ => rfl⟩⟩
  | snoc l a h =>
    simp only [signingAfter_append, lastCall_append] at h ⊢
    cases a with
    | expiresRelative o =>
      exact ⟨fun o => ⟨(fun h => by cases h; rfl), (fun h => by cases h; rfl)⟩, fun o => ⟨(fun h => by cases h), (fun h => by cases h)⟩,
        ⟨fun h => absurd (h 0) (by intro h; cases h), (fun h => by cases h)⟩⟩
    | expiresAt t =>
      exact ⟨fun o => ⟨(fun h => by cases h), (fun h => by cases h)⟩, fun o => ⟨(fun h => by cases h; rfl), (fun h => by cases h; rfl)⟩,
        ⟨fun h => absurd (h 0) (by intro h; cases h), (fun h => by cases h)⟩⟩
    | _ => exact h

theorem verifyingAfter_append (kp : Str → List HttpSignatureVerify) (l : List VerifyingCall) (a : VerifyingCall) :
    verifyingAfter kp (l ++ [a]) = (verifyingAfter kp l).bind fun c => VerifyingCall.run c a := by
  unfold verifyingAfter
  rw [List.foldlM_append]
  cases List.foldlM VerifyingCall.run (VerifyingConfig.new kp) l with
  | error p => rfl
  | ok c =>
    simp only [Bind.bind, Except.bind, List.foldlM]
    cases VerifyingCall.run c a <;> rfl

/-- C40 for `VerifyingConfig`: after any history that does not panic, every option has the value of the last call that
sets it, or the default. -/
theorem C40_verifying_histories (kp : Str → List HttpSignatureVerify) (calls : List VerifyingCall) (c : VerifyingConfig)
    (h : verifyingAfter kp calls = .ok c) :
    c.keyProvider = kp ∧
    c.digestProvider = (lastCall (fun | .digestProvider d => some d | _ => none) calls).getD defaultDigestProvider ∧
    c.requireDigest = (lastCall (fun | .requireDigest b => some b | _ => none) calls).getD true ∧
    c.validateDigest = (lastCall (fun | .validateDigest b => some b | _ => none) calls).getD true ∧
    c.validateDate = (lastCall (fun | .validateDate b => some b | _ => none) calls).getD true ∧
    c.dateLeeway = (lastCall (fun | .dateLeeway n => some n | _ => none) calls).getD 30000000000 ∧
    (match lastCall (fun | .requiredComponents l => some l | _ => none) calls with
      | none => c.requiredComponents = []
      | some l => collectBTreeSet l = .ok c.requiredComponents) := by
  induction calls using history_induction generalizing c with
  | nil =>
    cases h
    refine ⟨rfl, rfl, rfl, rfl, rfl, ?_, rfl⟩
    show 30 * 1000000000 = 30000000000
    decide
  | snoc l a ih =>
    rw [verifyingAfter_append] at h
    have hc := h
    clear h
    cases h0 : verifyingAfter kp l with
    | error p => rw [h0] at hc; cases hc
    | ok c0 =>
      rw [h0] at hc
      obtain ⟨h1, h2, h3, h4, h5, h6, h7⟩ := ih c0 h0
      simp only [lastCall_append]
      cases a with
      | requiredComponents l =>
        replace hc : c0.setRequiredComponents l = .ok c := hc
        unfold VerifyingConfig.setRequiredComponents at hc
        cases hs : collectBTreeSet l with
        | error p => rw [hs] at hc; cases hc
        | ok s => rw [hs] at hc; cases hc; exact ⟨h1, h2, h3, h4, h5, h6, hs⟩
      | digestProvider d => cases hc; exact ⟨h1, rfl, h3, h4, h5, h6, h7⟩
      | requireDigest b => cases hc; exact ⟨h1, h2, rfl, h4, h5, h6, h7⟩
      | validateDigest b => cases hc; exact ⟨h1, h2, h3, rfl, h5, h6, h7⟩
      | validateDate b => cases hc; exact ⟨h1, h2, h3, h4, rfl, h6, h7⟩
      | dateLeeway n => cases hc; exact ⟨h1, h2, h3, h4, h5, rfl, h7⟩

/-- Non-vacuity: a history with overwritten and interleaved settings. -/
example : (signingAfter (str% "l") (str% "k") exSigner
    [.addDate false, .createdAt 3, .nonce (str% "a"), .addDate true, .createdAuto, .nonce (str% "b"), .addHost false]).nonce = some (str% "b") ∧
    lastCall (fun | .nonce n => some n | _ => none) ([.nonce (str% "a"), .createdAuto, .nonce (str% "b"), .addHost false] : List SigningCall) = some (str% "b") :=
  ⟨rfl, rfl⟩
example : ∃ c, verifyingAfter (fun _ => []) [.requireDigest false, .requiredComponents [.header hDate, .header hHost, .header hDate], .dateLeeway 5] = .ok c ∧
    c.requiredComponents = [.header hDate, .header hHost] := ⟨_, rfl, rfl⟩

/-! ### C53 -/

/-- C53 fails: the documentation promises `host`, `date` and `digest` as default components, but after any history
without a call of the component setter the list is empty, and so a signature covers no part of the request: its
`Signature-Input` value is a function of the configuration and the clock alone, and the signature is computed over the
single line `"@signature-params": ()…`. -/
theorem C53_neg_default_covers_nothing {R : Type} [ClientRequestLike R] [LawfulClient R] [HeaderStore R] (r r' : R)
    (label keyId : Str) (alg : HttpSignatureSign) (calls : List SigningCall) (env : SignEnv)
    (hc : ∀ l, SigningCall.components l ∉ calls)
    (h : sign r (signingAfter label keyId alg calls) env = .ok (r', .ok ())) :
    ∃ vi vs, (HeaderStore.headers r').getAll hSignatureInput = [vi] ∧ (HeaderStore.headers r').getAll hSignature = [vs] ∧
      vi.bytes = utf8 (str% "sig=()" ++ signedParamsText (signingAfter label keyId alg calls) (env.sysNow / 1000000000)) ∧
      vs.bytes = utf8 (label ++ str% "=:" ++ alg.sign env.rnd (utf8 (str% "\"@signature-params\": ()" ++
        signedParamsText (signingAfter label keyId alg calls) (env.sysNow / 1000000000))) ++ str% ":") := by
  obtain ⟨ids, lids, vals, vi, vs, h1, h2, h3, h4, h5, h6, h7⟩ := C29_emitted_headers r r' _ env h
  obtain ⟨e1, _, e3, _, _, _, _, _, e9, _⟩ := C40_signing_histories label keyId alg calls
  have hl : lastCall (fun | .components l => some l | _ => none) calls = none := by
    unfold lastCall
    rw [List.getLast?_eq_none_iff, List.filterMap_eq_nil_iff]
    intro a ha
    cases a with
    | components l => exact absurd ha (hc l)
    | _ => rfl
  rw [hl] at e9
  have e9 : (signingAfter label keyId alg calls).components = [] := e9
  have hcov : coveredComponents r r' (signingAfter label keyId alg calls) = [] := by
    unfold coveredComponents
    rw [e9]
    split <;> rfl
  rw [hcov] at h1 h2 h3
  cases h1; cases h2
  cases vals with
  | cons _ _ => simp at h3
  | nil =>
    rw [e1, e3] at h7
    exact ⟨vi, vs, h4, h6, h5, h7⟩

/-- C40. What `new_default` stands for: the label and the key id are those given, the algorithm is HMAC with SHA-256 and the given key, and
the options are at their defaults. So these are the headers of a signed request. -/
theorem C40_new_default {R : Type} [ClientRequestLike R] [LawfulClient R] [HeaderStore R] (r r' : R) (label keyId : Str) (key : Bytes)
    (env : SignEnv) (h : sign r (SigningConfig.newDefault label keyId key) env = .ok (r', .ok ())) :
    ∃ vi vs, (HeaderStore.headers r').getAll hSignatureInput = [vi] ∧ (HeaderStore.headers r').getAll hSignature = [vs] ∧
      vi.bytes = utf8 (str% "sig=();alg=\"hmac-sha256\";keyid=" ++ quoted keyId) ∧
      vs.bytes = utf8 (label ++ str% "=:" ++ Base64.encode (Deps.hmac256 key
        (utf8 (str% "\"@signature-params\": ();alg=\"hmac-sha256\";keyid=" ++ quoted keyId))) ++ str% ":") := by
  have e : SigningConfig.newDefault label keyId key = signingAfter label keyId (hmacSha256Sign key) [] := rfl
  rw [e] at h
  obtain ⟨vi, vs, h1, h2, h3, h4⟩ := C53_neg_default_covers_nothing r r' label keyId _ [] env (by simp) h
  have t : signedParamsText (signingAfter label keyId (hmacSha256Sign key) []) (env.sysNow / 1000000000) =
      str% ";alg=\"hmac-sha256\";keyid=" ++ quoted keyId := by
    show str% ";alg=\"hmac-sha256\"" ++ [] ++ [] ++ str% ";keyid=" ++ quoted keyId ++ [] = _
    simp
  rw [t] at h3 h4
  exact ⟨vi, vs, h1, h2, h3, h4⟩

/-- C53 fails on the other side as well: a verifier built without a call of its component setter requires nothing,
although the documentation promises `(request-target)` and `date`. -/
theorem C53_neg_default_requires_nothing (kp : Str → List HttpSignatureVerify) (calls : List VerifyingCall) (c : VerifyingConfig)
    (hc : ∀ l, VerifyingCall.requiredComponents l ∉ calls) (h : verifyingAfter kp calls = .ok c) :
    c.requiredComponents = [] := by
  obtain ⟨_, _, _, _, _, _, h7⟩ := C40_verifying_histories kp calls c h
  have hl : lastCall (fun | .requiredComponents l => some l | _ => none) calls = none := by
    unfold lastCall
    rw [List.getLast?_eq_none_iff, List.filterMap_eq_nil_iff]
    intro a ha
    cases a with
    | requiredComponents l => exact absurd ha (hc l)
    | _ => rfl
  rw [hl] at h7
  exact h7

/-- Non-vacuity: two requests for different targets, signed with a configuration without component setter, carry the
same two signature headers. -/
example : ∃ r1 r2, sign exReqwest (signingAfter (str% "sig") (str% "k1") exSigner [.createdAuto, .computeDigest false]) exSignEnv = .ok (r1, .ok ()) ∧
    sign { exReqwest with method := ⟨str% "DELETE", rfl⟩, body := .bytes (utf8 (str% "other")) }
      (signingAfter (str% "sig") (str% "k1") exSigner [.createdAuto, .computeDigest false]) exSignEnv = .ok (r2, .ok ()) ∧
    r1.headers.getAll hSignature = r2.headers.getAll hSignature ∧
    r1.headers.getAll hSignatureInput = r2.headers.getAll hSignatureInput ∧ r1.method.str = str% "POST" ∧ r2.method.str = str% "DELETE" :=
  ⟨_, _, rfl, rfl, rfl, rfl, rfl, rfl⟩

end Httpsig

namespace Httpsig
section
attribute [local instance] toyDeps

/-- C40: a request signed with `new_default`. -/
example : ∃ r', sign exReqwest (SigningConfig.newDefault (str% "l") (str% "k") (utf8 (str% "secret"))) exSignEnv = .ok (r', .ok ()) :=
  ⟨_, rfl⟩

end
end Httpsig
