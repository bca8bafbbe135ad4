import Verif.Props.Unsigned
/-
C106: the names of the headers that are written and read, spelled out.
-/
set_option linter.unusedSectionVars false
namespace Httpsig
open Sfv
variable [Deps]

theorem HeaderName.ext_str {a b : HeaderName} (h : a.str = b.str) : a = b := by
  cases a; cases b; cases h; rfl

theorem Touches.stored {R : Type} [ClientRequestLike R] [HeaderStore R] {w : HeaderName → Prop} {r r' : R} (h : Touches w r r')
    {n : HeaderName} (hn : ¬ w n) : (HeaderStore.headers r').getAll n = (HeaderStore.headers r).getAll n := by
  induction h with
  | refl => rfl
  | set m v hm _ ih =>
    rw [HeaderStore.headers_set, HeaderMap.getAll_insert_ne _ _ (by rintro rfl; exact hn hm), ih]
  | digest d _ ih => rw [HeaderStore.headers_digest, ih]

section
variable {R : Type} [ClientRequestLike R] [LawfulClient R] [HeaderStore R]

/-- C106. Signing, successful or not, changes no header except `signature`, `signature-input`, `date`, `host` and `digest`. -/
theorem C106_only_these (r r' : R) (config : SigningConfig) (env : SignEnv) (res : Except Error Unit)
    (h : sign r config env = .ok (r', res)) (n : HeaderName)
    (hn : n.str ∉ [str% "signature", str% "signature-input", str% "date", str% "host", str% "digest"]) :
    (HeaderStore.headers r').getAll n = (HeaderStore.headers r).getAll n := by
  refine (sign_touches h).stored ?_
  rintro (rfl | rfl | ⟨⟨rfl, _⟩ | ⟨rfl, _⟩ | ⟨rfl, _⟩, _⟩) <;> exact hn (by simp [hSignature, hSignatureInput, hDate, hHost, hDigest])

/-- C106. A signed request has exactly one `signature` and one `signature-input` header. -/
theorem C106_signature_headers (r r' : R) (config : SigningConfig) (env : SignEnv) (h : sign r config env = .ok (r', .ok ()))
    (n : HeaderName) (hn : n.str = str% "signature" ∨ n.str = str% "signature-input") :
    ∃ v, (HeaderStore.headers r').getAll n = [v] := by
  obtain ⟨_, _, _, vi, vs, _, _, _, h1, _, h2, _⟩ := C29_emitted_headers r r' config env h
  rcases hn with hn | hn
  · exact ⟨vs, by rw [HeaderName.ext_str (b := hSignature) hn, h2]⟩
  · exact ⟨vi, by rw [HeaderName.ext_str (b := hSignatureInput) hn, h1]⟩

/-- C106. What is added automatically goes to the headers `date`, `host` and `digest`. -/
theorem C106_automatic_headers (r r' : R) (config : SigningConfig) (env : SignEnv) (res : Except Error Unit)
    (h : sign r config env = .ok (r', res)) (n : HeaderName) (hno : RequestLike.derive r (.header n) = .ok none) :
    (n.str = str% "date" → config.addDate = true →
      RequestLike.derive r' (.header n) = .ok (some (formatDate env.utcNow))) ∧
    (n.str = str% "host" → config.addHost = true → ∀ s, ClientRequestLike.host r = some s → (∀ c ∈ s, VisibleChar c) →
      RequestLike.derive r' (.header n) = .ok (some s)) ∧
    (n.str = str% "digest" → config.computeDigest = true → ∀ s, (ClientRequestLike.computeDigest r config.digest).2 = some s →
      (∀ c ∈ config.digest.name ++ str% "=" ++ s, VisibleChar c) →
      RequestLike.derive r' (.header n) = .ok (some (config.digest.name ++ str% "=" ++ s))) := by
  obtain ⟨h1, h2, h3, _⟩ := C52_automatic_headers r r' config env res h
  refine ⟨fun hn => ?_, fun hn => ?_, fun hn => ?_⟩
  · cases HeaderName.ext_str (b := hDate) hn
    exact fun hc => h1 hc hno
  · cases HeaderName.ext_str (b := hHost) hn
    exact fun hc s hs hv => h2 hc hno s hs (visible_iff.2 hv)
  · cases HeaderName.ext_str (b := hDigest) hn
    exact fun hc s hs hv => h3 hc hno s hs (visible_iff.2 hv)

end

section
variable {R Rem : Type} [ServerRequestLike R Rem]

/-- C106. A request that is accepted has readable headers `signature` and `signature-input`. -/
theorem C106_verify_reads (req : R) (config : VerifyingConfig) (env : VerifyEnv) (rem : Rem) (keyId : Str)
    (h : verify req config env = .ok (.ok (rem, keyId))) (n : HeaderName)
    (hn : n.str = str% "signature" ∨ n.str = str% "signature-input") : ∃ v, RequestLike.derive req (.header n) = .ok (some v) := by
  obtain ⟨c, sig, base, hs, _, _, _⟩ := verify_ok_iff.1 h
  rcases hn with hn | hn
  · cases HeaderName.ext_str (b := hSignature) hn
    obtain ⟨v, _, hv, _⟩ := hs.signature
    exact ⟨v, hv⟩
  · cases HeaderName.ext_str (b := hSignatureInput) hn
    obtain ⟨v, hv, _⟩ := hs.input
    exact ⟨v, hv⟩

/-- C106. The digest that is validated is the one in the header `digest`. -/
theorem C106_verify_digest (req : R) (config : VerifyingConfig) (env : VerifyEnv) (rem : Rem) (keyId v : Str) (n : HeaderName)
    (hn : n.str = str% "digest") (hval : config.validateDigest = true) (hv : RequestLike.derive req (.header n) = .ok (some v))
    (h : verify req config env = .ok (.ok (rem, keyId))) :
    ∃ alg value, FirstSupported config.digestProvider v alg value ∧
      ServerRequestLike.completeWithDigest req alg = (some value, rem) := by
  cases HeaderName.ext_str (b := hDigest) hn
  exact C16_digest_enforced req config env rem keyId v hval hv h

end

/-- Non-vacuity: a request that is signed with all options on, and other headers. -/
example : ∃ r', sign exReqwest exSigning exSignEnv = .ok (r', .ok ()) ∧
    (r'.headers.getAll ⟨str% "signature", rfl⟩).length = 1 ∧ (r'.headers.getAll ⟨str% "signature-input", rfl⟩).length = 1 ∧
    RequestLike.derive r' (.header ⟨str% "digest", rfl⟩) = .ok (some (str% "TOY=aGVsbG8=")) := ⟨_, rfl, rfl, rfl, rfl⟩

end Httpsig
namespace Httpsig
section
attribute [local instance] toyDeps
/-- Non-vacuity: a request that is accepted with a digest header. -/
example : verify exSigned exVerifying exEnv = .ok (.ok ((), str% "k1")) ∧ exVerifying.validateDigest = true ∧
    ∃ v, RequestLike.derive (self := ServerRequestLike.toRequestLike (Remnant := Unit)) exSigned (.header ⟨str% "digest", rfl⟩) =
      .ok (some v) := ⟨rfl, rfl, _, rfl⟩
end
end Httpsig
