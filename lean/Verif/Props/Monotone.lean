import Verif.Props.Keys
import Verif.Spec.TestDeps
/-
C85–C87: how the verdict depends on the clock, on the strictness of the configuration and on the key provider.
-/
set_option linter.unusedSectionVars false
namespace Httpsig
open Sfv
variable [Deps] {R Rem : Type} [ServerRequestLike R Rem]

/-! ### C85 -/

/-- C85. Exactly when a request that was accepted once is accepted at another time: the clock is not before 1970, the
second it shows lies in the window of the signature, and, with date validation, `date` is within the leeway of it.
Nothing else is remembered: the same request is accepted any number of times (a `nonce` is not looked at). -/
theorem C85_accepted_again_iff (req : R) (config : VerifyingConfig) (env env' : VerifyEnv) (rem : Rem) (keyId v : Str)
    (c : CanonicalizeConfig) (hv : RequestLike.derive req (.header hSignatureInput) = .ok (some v))
    (hc : CanonicalizeConfig.fromSignatureInput v = .ok (.ok c)) (h : verify req config env = .ok (.ok (rem, keyId))) :
    verify req config env' = .ok (.ok (rem, keyId)) ↔
      0 ≤ env'.sysNow ∧ InWindow c (env'.sysNow / 1000000000) ∧ DateOk config env' c := by
  obtain ⟨c', sig, base, hs, hr, hd, hg⟩ := verify_ok_iff.1 h
  obtain ⟨v', hv', hc'⟩ := hs.input
  rw [hv] at hv'; cases hv'
  rw [hc] at hc'; cases hc'
  constructor
  · intro h'
    obtain ⟨c', sig', base', hs', _, hd', _⟩ := verify_ok_iff.1 h'
    obtain ⟨v', hv', hc'⟩ := hs'.input
    rw [hv] at hv'; cases hv'
    rw [hc] at hc'; cases hc'
    exact ⟨hs'.clock, hs'.window, hd'⟩
  · rintro ⟨h1, h2, h3⟩
    exact verify_ok_iff.2 ⟨c, sig, base, ⟨hs.1, hs.2, hs.3, hs.4, h1, h2, hs.7, hs.8⟩, hr, h3, hg⟩

/-- C85. A request is accepted during one interval of time: between two moments of acceptance there is no rejection. -/
theorem C85_one_interval (req : R) (config : VerifyingConfig) (e₁ e₂ e₃ : VerifyEnv) (rem rem' : Rem) (keyId keyId' : Str)
    (h1 : verify req config e₁ = .ok (.ok (rem, keyId))) (h3 : verify req config e₃ = .ok (.ok (rem', keyId')))
    (hs1 : e₁.sysNow ≤ e₂.sysNow) (hs3 : e₂.sysNow ≤ e₃.sysNow) (hu1 : e₁.utcNow ≤ e₂.utcNow) (hu3 : e₂.utcNow ≤ e₃.utcNow) :
    verify req config e₂ = .ok (.ok (rem, keyId)) := by
  obtain ⟨c, sig, base, hs, hr, hd, hg⟩ := verify_ok_iff.1 h1
  obtain ⟨v, hv, hc⟩ := hs.input
  obtain ⟨c', sig', base', hs', hr', hd', hg'⟩ := verify_ok_iff.1 h3
  obtain ⟨v', hv', hc'⟩ := hs'.input
  rw [hv] at hv'; cases hv'
  rw [hc] at hc'; cases hc'
  refine (C85_accepted_again_iff req config e₁ e₂ rem keyId v c hv hc h1).2 ⟨?_, ⟨?_, ?_⟩, ?_⟩
  · have := hs.clock; omega
  · intro t ht
    have := hs.window.1 t ht
    omega
  · intro t ht
    have := hs'.window.2 t ht
    omega
  · intro hval
    obtain ⟨t, ht, hrange, ha, hb⟩ := hd hval
    obtain ⟨t', ht', hrange', ha', hb'⟩ := hd' hval
    have e := (get_int (read_nodup hc)).2 ht
    rw [(get_int (read_nodup hc)).2 ht'] at e
    cases e
    exact ⟨t, ht, hrange, by omega, by omega⟩

/-- C85. Without date validation and without an integer `expires`, an accepted request stays acceptable for ever. -/
theorem C85_never_expires (req : R) (config : VerifyingConfig) (env env' : VerifyEnv) (rem : Rem) (keyId v : Str)
    (c : CanonicalizeConfig) (hv : RequestLike.derive req (.header hSignatureInput) = .ok (some v))
    (hc : CanonicalizeConfig.fromSignatureInput v = .ok (.ok c)) (h : verify req config env = .ok (.ok (rem, keyId)))
    (hdate : config.validateDate = false) (hexp : ∀ t, (str% "expires", BareItem.integer t) ∉ c.params.params)
    (hlater : env.sysNow ≤ env'.sysNow) :
    verify req config env' = .ok (.ok (rem, keyId)) := by
  obtain ⟨h1, h2, _⟩ := (C85_accepted_again_iff req config env env rem keyId v c hv hc h).1 h
  refine (C85_accepted_again_iff req config env env' rem keyId v c hv hc h).2 ⟨by omega, ⟨?_, ?_⟩, ?_⟩
  · intro t ht
    have := h2.1 t ht
    omega
  · intro t ht
    exact absurd ht (hexp t)
  · intro hval
    rw [hdate] at hval
    cases hval

/-- With date validation, leeway 30 s. -/
def exDated : VerifyingConfig := (exVerifying.setValidateDate true).setDateLeeway 30000000000
/-- A signature without `expires`, long after. -/
example : verify (exWithInput ⟨utf8 (str% "sig=(\"@method\");alg=\"toy\";keyid=\"k1\";created=100"), rfl⟩) exVerifying
    ⟨99999999999999999999, 0⟩ = .ok (.ok ((), str% "k1")) := by rfl

/-! ### C86 -/

/-- `lax` asks for no more than `strict`: fewer required components, no date or digest checks that `strict` does not make, a
leeway at least as large, at least the same keys, and the same digest algorithms where digests are checked. -/
structure Laxer (lax strict : VerifyingConfig) : Prop where
  keys : ∀ id k, k ∈ strict.keyProvider id → k ∈ lax.keyProvider id
  required : ∀ k ∈ lax.requiredComponents, k ∈ strict.requiredComponents
  date : lax.validateDate = true → strict.validateDate = true ∧ strict.dateLeeway ≤ lax.dateLeeway
  requireDigest : lax.requireDigest = true → strict.requireDigest = true
  validateDigest : lax.validateDigest = true → strict.validateDigest = true ∧ lax.digestProvider = strict.digestProvider

/-- C86. What a configuration accepts, every laxer one accepts, with the same key id. -/
theorem C86_laxer_accepts_more (req : R) (lax strict : VerifyingConfig) (env : VerifyEnv) (rem : Rem) (keyId : Str)
    (hl : Laxer lax strict) (h : verify req strict env = .ok (.ok (rem, keyId))) :
    ∃ rem', verify req lax env = .ok (.ok (rem', keyId)) := by
  obtain ⟨c, sig, base, hs, hr, hd, hg⟩ := verify_ok_iff.1 h
  obtain ⟨k, hk, hk'⟩ := hs.key
  have hg' : ∃ rem', DigestOk req lax rem' := by
    rcases hg with ⟨v, hv, hg⟩ | ⟨hv, hg⟩
    · cases hval : lax.validateDigest with
      | false => exact ⟨_, .inl ⟨v, hv, by rw [hval]; rfl⟩⟩
      | true =>
        obtain ⟨h1, h2⟩ := hl.validateDigest hval
        rw [h1] at hg
        exact ⟨rem, .inl ⟨v, hv, by rw [hval, h2]; exact hg⟩⟩
    · cases hval : lax.requireDigest with
      | false => exact ⟨_, .inr ⟨hv, by rw [hval]; rfl⟩⟩
      | true =>
        rw [hl.requireDigest hval] at hg
        exact ⟨rem, .inr ⟨hv, by rw [hval]; exact hg⟩⟩
  obtain ⟨rem', hg'⟩ := hg'
  refine ⟨rem', verify_ok_iff.2 ⟨c, sig, base, ⟨hs.1, hs.2, hs.3, hs.4, hs.5, hs.6, hs.7, ⟨k, hl.keys _ _ hk, hk'⟩⟩,
    fun r hmem => hr r (hl.required r hmem), ?_, hg'⟩⟩
  intro hval
  obtain ⟨h1, h2⟩ := hl.date hval
  obtain ⟨t, ht, hrange, ha, hb⟩ := hd h1
  exact ⟨t, ht, hrange, by omega, by omega⟩

/-- C86. In particular, turning off the date and digest checks and all requirements never rejects what was accepted, and
then the request is handed on by its plain completion. -/
theorem C86_checks_off (req : R) (config : VerifyingConfig) (env : VerifyEnv) (rem : Rem) (keyId : Str)
    (h : verify req config env = .ok (.ok (rem, keyId))) :
    verify req { config with requiredComponents := [], validateDate := false, validateDigest := false, requireDigest := false } env =
      .ok (.ok (ServerRequestLike.complete req, keyId)) := by
  obtain ⟨rem', h'⟩ := C86_laxer_accepts_more req
    { config with requiredComponents := [], validateDate := false, validateDigest := false, requireDigest := false } config env
    rem keyId
    ⟨fun _ _ h => h, (fun _ h => nomatch h), (fun h => nomatch h), (fun h => nomatch h), (fun h => nomatch h)⟩ h
  obtain ⟨c, sig, base, hs, hr, hd, hg⟩ := verify_ok_iff.1 h'
  have : rem' = ServerRequestLike.complete req := by
    rcases hg with ⟨v, hv, hg⟩ | ⟨hv, hg⟩ <;> exact hg
  rw [h', this]

/-- The configurations of the examples are comparable, and both accept. -/
example : Laxer exVerifying exDated :=
  ⟨fun _ _ h => h, fun _ h => h, (fun h => nomatch h), fun h => h, fun h => ⟨h, rfl⟩⟩
/-- The condition on the digest algorithms is needed: the example has the digest header `MD5=abc, TOY = aGVsbG8= `, and a
provider that also knows MD5 makes the verifier look at the first entry. -/
example : verify exSigned (exVerifying.setDigestProvider fun n => if n = str% "TOY" ∨ n = str% "MD5" then some exDigest else none)
    exEnv = .ok (.error ()) := by rfl

/-! ### C87 -/

/-- C87. The key provider is asked for no key id but the one presented: providers that agree on it give the same outcome,
whether acceptance, rejection or panic. -/
theorem C87_only_presented_key (req : R) (config : VerifyingConfig) (env : VerifyEnv) (kp : Str → List HttpSignatureVerify)
    (h : ∀ v c id, RequestLike.derive req (.header hSignatureInput) = .ok (some v) →
      CanonicalizeConfig.fromSignatureInput v = .ok (.ok c) → (str% "keyid", BareItem.string id) ∈ c.params.params →
      kp id = config.keyProvider id) :
    verify req { config with keyProvider := kp } env = verify req config env := by
  have : verifySignatureOnly req { config with keyProvider := kp } env = verifySignatureOnly req config env := by
    unfold verifySignatureOnly
    cases hv : RequestLike.derive req (.header hSignatureInput) with
    | error p => rfl
    | ok o =>
      cases o with
      | none => rfl
      | some v =>
        simp only [Bind.bind, Except.bind]
        cases hc : CanonicalizeConfig.fromSignatureInput v with
        | error p => rfl
        | ok x =>
          cases x with
          | error e => rfl
          | ok c =>
            have hkey : ∀ id, c.keyid = some id → kp id = config.keyProvider id := fun id hk =>
              h v c id hv hc ((get_string (read_nodup hc)).1 hk)
            simp only
            cases hk : c.keyid with
            | none => rfl
            | some id => simp only [hkey id hk]
  unfold verify verifyExceptDigest
  rw [this]
  rfl

/-- Keys for other ids make no difference for the example. -/
example : verify exSigned { exVerifying with keyProvider := fun id => if id = str% "k1" then [exKey] else [exOtherKey, exKey] } exEnv =
    .ok (.ok ((), str% "k1")) := by rfl

end Httpsig

namespace Httpsig
section
attribute [local instance] toyDeps
/-! With date validation the example is accepted from 120 s to 180 s and not outside. -/
example : verify exSigned exDated ⟨120000000000, 120000000000⟩ = .ok (.ok ((), str% "k1")) := by rfl
example : verify exSigned exDated ⟨180000000000, 180000000000⟩ = .ok (.ok ((), str% "k1")) := by rfl
example : verify exSigned exDated ⟨119999999999, 119999999999⟩ = .ok (.error ()) := by rfl
example : verify exSigned exDated ⟨180000000001, 180000000001⟩ = .ok (.error ()) := by rfl
end
end Httpsig
