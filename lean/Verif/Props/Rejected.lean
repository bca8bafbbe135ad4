import Verif.Props.Verify
/-
C114: what verification does with the request, also when it rejects it.
-/
set_option linter.unusedSectionVars false
namespace Httpsig
open Sfv
section
variable [Deps] {R Rem : Type} [ServerRequestLike R Rem]

/-- All conditions of acceptance but the one on the digest. -/
def OtherwiseOk (req : R) (config : VerifyingConfig) (env : VerifyEnv) : Prop :=
  ∃ c sig keyId base, SignatureOk req config env c sig keyId base ∧ RequiredOk config c ∧ DateOk config env c

/-- The digest of the body is asked for: to compare it with the first supported entry of the digest header, or to see whether there
is a body. -/
def DigestWanted (req : R) (config : VerifyingConfig) (alg : HttpDigest) : Prop :=
  (config.validateDigest = true ∧ ∃ v value, RequestLike.derive req (.header hDigest) = .ok (some v) ∧
    FirstSupported config.digestProvider v alg value) ∨
  (config.requireDigest = true ∧ RequestLike.derive req (.header hDigest) = .ok none ∧ alg = documentedSha256)

/-- The condition on the digest fails, and what remains of the request. -/
inductive DigestFails (req : R) (config : VerifyingConfig) : Rem → Prop
  | unsupported {v : Str} : config.validateDigest = true → RequestLike.derive req (.header hDigest) = .ok (some v) →
      (∀ alg value, ¬ FirstSupported config.digestProvider v alg value) → DigestFails req config (ServerRequestLike.complete req)
  | differs {v value : Str} {alg : HttpDigest} : config.validateDigest = true → RequestLike.derive req (.header hDigest) = .ok (some v) →
      FirstSupported config.digestProvider v alg value → (ServerRequestLike.completeWithDigest req alg).1 ≠ some value →
      DigestFails req config (ServerRequestLike.completeWithDigest req alg).2
  | missing {d : Str} : config.requireDigest = true → RequestLike.derive req (.header hDigest) = .ok none →
      (ServerRequestLike.completeWithDigest req documentedSha256).1 = some d →
      DigestFails req config (ServerRequestLike.completeWithDigest req documentedSha256).2

/-- C114. Exactly when a request is rejected, and what is handed back: if another condition than the one on the digest fails, the
request completed without a digest; else what the digest check left. (Panics: C69.) -/
theorem C114_rejected_iff (req : R) (config : VerifyingConfig) (env : VerifyEnv) (rem : Rem) :
    verify req config env = .ok (.error rem) ↔ (∀ p, verify req config env ≠ .error p) ∧
      ((¬ OtherwiseOk req config env ∧ rem = ServerRequestLike.complete req) ∨ (OtherwiseOk req config env ∧ DigestFails req config rem)) := by
  have hauth : OtherwiseOk req config env ↔ ∃ k, verifyExceptDigest req config env = .ok (some k) := by
    constructor
    · rintro ⟨c, s, k, b, h⟩; exact ⟨k, verifyExceptDigest_iff.2 ⟨c, s, b, h⟩⟩
    · rintro ⟨k, h⟩
      obtain ⟨c, s, b, h⟩ := verifyExceptDigest_iff.1 h
      exact ⟨c, s, k, b, h⟩
  rw [hauth]
  have hsha : documentedSha256 = defaultDigest := rfl
  cases h1 : verifyExceptDigest req config env with
  | error p =>
    have e : verify req config env = .error p := by unfold verify; rw [h1]; rfl
    constructor
    · intro h; rw [e] at h; cases h
    · rintro ⟨h, _⟩; exact absurd e (h p)
  | ok o =>
  cases o with
  | none =>
    have e : verify req config env = .ok (.error (ServerRequestLike.complete req)) := by unfold verify; rw [h1]; rfl
    rw [e]
    constructor
    · intro h; cases h
      exact ⟨(fun p h => by cases h), .inl ⟨(fun ⟨k, h⟩ => by cases h), rfl⟩⟩
    · rintro ⟨_, ⟨_, rfl⟩ | ⟨⟨k, h⟩, _⟩⟩
      · rfl
      · cases h
  | some kid =>
  cases h2 : RequestLike.derive req (.header hDigest) with
  | error p =>
    have e : verify req config env = .error p := by unfold verify; simp only [h1, Bind.bind, Except.bind, h2]
    constructor
    · intro h; rw [e] at h; cases h
    · rintro ⟨h, _⟩; exact absurd e (h p)
  | ok o2 =>
  have hv : verify req config env = match (generalizing := false) o2 with
      | some digestValue =>
        if config.validateDigest then
          match selectDigest config.digestProvider digestValue with
          | some (alg, provided) =>
            match (ServerRequestLike.completeWithDigest req alg).1 with
            | some expected =>
              if utf8 provided = utf8 expected then .ok (.ok ((ServerRequestLike.completeWithDigest req alg).2, kid))
              else .ok (.error (ServerRequestLike.completeWithDigest req alg).2)
            | none => .ok (.error (ServerRequestLike.completeWithDigest req alg).2)
          | none => .ok (.error (ServerRequestLike.complete req))
        else .ok (.ok (ServerRequestLike.complete req, kid))
      | none =>
        if config.requireDigest then
          if (ServerRequestLike.completeWithDigest req defaultDigest).1.isSome
          then .ok (.error (ServerRequestLike.completeWithDigest req defaultDigest).2)
          else .ok (.ok ((ServerRequestLike.completeWithDigest req defaultDigest).2, kid))
        else .ok (.ok (ServerRequestLike.complete req, kid)) := by
    unfold verify
    simp only [h1, Bind.bind, Except.bind, h2]
    rfl
  have reduce : verify req config env = .ok (.error rem) ↔ DigestFails req config rem := by
    rw [hv]
    cases o2 with
    | none =>
      simp only
      split
      · rename_i hq
        cases hd : (ServerRequestLike.completeWithDigest req defaultDigest).1 with
        | none =>
          simp only [Option.isSome_none, Bool.false_eq_true, if_false]
          constructor
          · intro h; cases h
          · rintro (⟨_, h, _⟩ | ⟨_, h, _⟩ | ⟨_, _, h⟩)
            · rw [h2] at h; cases h
            · rw [h2] at h; cases h
            · rw [hsha, hd] at h; cases h
        | some d =>
          simp only [Option.isSome_some, if_true]
          constructor
          · intro h; cases h
            exact .missing hq h2 hd
          · rintro (⟨_, h, _⟩ | ⟨_, h, _⟩ | ⟨_, _, h⟩)
            · rw [h2] at h; cases h
            · rw [h2] at h; cases h
            · rfl
      · rename_i hq
        constructor
        · intro h; cases h
        · rintro (⟨_, h, _⟩ | ⟨_, h, _⟩ | ⟨h, _, _⟩)
          · rw [h2] at h; cases h
          · rw [h2] at h; cases h
          · exact absurd h hq
    | some dv =>
      simp only
      split
      · rename_i hq
        cases hs : selectDigest config.digestProvider dv with
        | none =>
          simp only
          have hn := selectDigest_none_iff.1 hs
          constructor
          · intro h; cases h
            exact .unsupported hq h2 hn
          · rintro (⟨_, h, _⟩ | ⟨_, h, hf, _⟩ | ⟨_, h, _⟩)
            · rfl
            · rw [h2] at h; cases h; exact absurd hf (hn _ _)
            · rw [h2] at h; cases h
        | some e =>
        obtain ⟨alg, provided⟩ := e
        simp only
        have hf := selectDigest_iff.1 hs
        have huniq : ∀ a v, FirstSupported config.digestProvider dv a v → a = alg ∧ v = provided := by
          intro a v h
          have := (selectDigest_iff.2 h).symm.trans hs
          cases this; exact ⟨rfl, rfl⟩
        have hiff : DigestFails req config rem ↔ (ServerRequestLike.completeWithDigest req alg).1 ≠ some provided ∧
            rem = (ServerRequestLike.completeWithDigest req alg).2 := by
          constructor
          · rintro (⟨_, h, hn⟩ | ⟨_, h, hf', hd⟩ | ⟨_, h, _⟩)
            · rw [h2] at h; cases h; exact absurd hf (hn _ _)
            · rw [h2] at h; cases h
              obtain ⟨rfl, rfl⟩ := huniq _ _ hf'
              exact ⟨hd, rfl⟩
            · rw [h2] at h; cases h
          · rintro ⟨hd, rfl⟩
            exact .differs hq h2 hf hd
        rw [hiff]
        cases hd : (ServerRequestLike.completeWithDigest req alg).1 with
        | none =>
          simp only
          constructor
          · intro h; cases h; exact ⟨by simp, rfl⟩
          · rintro ⟨_, rfl⟩; rfl
        | some d =>
          simp only
          split
          · rename_i he
            have := utf8_injective he
            subst this
            constructor
            · intro h; cases h
            · rintro ⟨h, _⟩; exact absurd rfl h
          · rename_i he
            constructor
            · intro h; cases h
              refine ⟨?_, rfl⟩
              intro h; cases h; exact he rfl
            · rintro ⟨_, rfl⟩; rfl
      · rename_i hq
        constructor
        · intro h; cases h
        · rintro (⟨h, _, _⟩ | ⟨h, _, _⟩ | ⟨_, h, _⟩)
          · exact absurd h hq
          · exact absurd h hq
          · rw [h2] at h; cases h
  rw [reduce]
  constructor
  · intro h
    refine ⟨fun p hp => ?_, .inr ⟨⟨kid, rfl⟩, h⟩⟩
    rw [reduce.2 h] at hp; cases hp
  · rintro ⟨_, ⟨hn, _⟩ | ⟨_, h⟩⟩
    · exact absurd ⟨kid, rfl⟩ hn
    · exact h

/-- The same request type, with another way of computing the digest of the body. -/
@[reducible] def otherDigest (inst : ServerRequestLike R Rem) (f : R → HttpDigest → Option Str × Rem) : ServerRequestLike R Rem :=
  { inst with completeWithDigest := f }

/-- C114. The body is looked at only if all other conditions hold and its digest is wanted: else the outcome, whatever it is, does not
depend on how the request computes digests, so that nobody without a key can make the verifier read a body. -/
theorem C114_body_not_read (inst : ServerRequestLike R Rem) (req : R) (config : VerifyingConfig) (env : VerifyEnv)
    (h : ¬ OtherwiseOk req config env ∨ ∀ alg, ¬ DigestWanted req config alg) (f : R → HttpDigest → Option Str × Rem) :
    @verify _ R Rem (otherDigest inst f) req config env = verify req config env := by
  have hsame : @verifyExceptDigest _ R Rem (otherDigest inst f) req config env = verifyExceptDigest req config env := rfl
  unfold verify
  rw [hsame]
  cases h1 : verifyExceptDigest req config env with
  | error p => rfl
  | ok o =>
  cases o with
  | none => rfl
  | some kid =>
  have ha : OtherwiseOk req config env := by
    obtain ⟨c, s, b, h⟩ := verifyExceptDigest_iff.1 h1
    exact ⟨c, s, kid, b, h⟩
  have h := h.resolve_left (fun hn => hn ha)
  simp only [Bind.bind, Except.bind]
  cases h2 : RequestLike.derive req (.header hDigest) with
  | error p => rfl
  | ok o2 =>
  cases o2 with
  | none =>
    simp only
    split
    · rename_i hq
      exact absurd (.inr ⟨hq, h2, rfl⟩) (h documentedSha256)
    · rfl
  | some dv =>
    simp only
    split
    · rename_i hq
      cases hs : selectDigest config.digestProvider dv with
      | none => rfl
      | some e => exact absurd (.inl ⟨hq, dv, e.2, h2, selectDigest_iff.1 hs⟩) (h e.1)
    · rfl

/-- C114. What is handed back, accepted or not: what computing the wanted digest left if all other conditions hold and a digest is wanted,
else the request completed without one. -/
theorem C114_handed_back (req : R) (config : VerifyingConfig) (env : VerifyEnv) (rem : Rem)
    (h : verify req config env = .ok (.error rem) ∨ ∃ keyId, verify req config env = .ok (.ok (rem, keyId))) :
    (∀ alg, OtherwiseOk req config env → DigestWanted req config alg → rem = (ServerRequestLike.completeWithDigest req alg).2) ∧
    ((¬ OtherwiseOk req config env ∨ ∀ alg, ¬ DigestWanted req config alg) → rem = ServerRequestLike.complete req) := by
  have sel : ∀ {v : Str} {a a' : HttpDigest} {x x' : Str}, FirstSupported config.digestProvider v a x →
      FirstSupported config.digestProvider v a' x' → a = a' := by
    intro v a a' x x' h h'
    have := (selectDigest_iff.2 h).symm.trans (selectDigest_iff.2 h')
    cases this; rfl
  constructor
  · intro alg ha hw
    rcases h with h | ⟨keyId, h⟩
    · rcases ((C114_rejected_iff req config env rem).1 h).2 with ⟨hn, _⟩ | ⟨_, hd⟩
      · exact absurd ha hn
      rcases hw with ⟨_, v, value, hv, hf⟩ | ⟨_, hv, rfl⟩
      · rcases hd with ⟨_, hv', hn⟩ | ⟨_, hv', hf', _⟩ | ⟨_, hv', _⟩ <;> rw [hv] at hv' <;> cases hv'
        · exact absurd hf (hn _ _)
        · rw [sel hf hf']
      · rcases hd with ⟨_, hv', hn⟩ | ⟨_, hv', hf', _⟩ | ⟨_, hv', _⟩
        · rw [hv] at hv'; cases hv'
        · rw [hv] at hv'; cases hv'
        · rfl
    · obtain ⟨c, sig, base, _, _, _, hd⟩ := verify_ok_iff.1 h
      rcases hw with ⟨hq, v, value, hv, hf⟩ | ⟨hq, hv, rfl⟩
      · rcases hd with ⟨v', hv', hd⟩ | ⟨hv', _⟩ <;> rw [hv] at hv' <;> cases hv'
        rw [if_pos hq] at hd
        obtain ⟨a, x, hf', hc⟩ := hd
        rw [sel hf hf', hc]
      · rcases hd with ⟨v', hv', hd⟩ | ⟨hv', hd⟩
        · rw [hv] at hv'; cases hv'
        · rw [if_pos hq] at hd
          rw [hd]
  · intro hn
    rcases h with h | ⟨keyId, h⟩
    · rcases ((C114_rejected_iff req config env rem).1 h).2 with ⟨_, rfl⟩ | ⟨ha, hd⟩
      · rfl
      have hn := hn.resolve_left (fun hn => hn ha)
      rcases hd with ⟨_, _, _⟩ | ⟨hq, hv, hf, _⟩ | ⟨hq, hv, _⟩
      · rfl
      · exact absurd (.inl ⟨hq, _, _, hv, hf⟩) (hn _)
      · exact absurd (.inr ⟨hq, hv, rfl⟩) (hn _)
    · obtain ⟨c, sig, base, h1, h2, h3, hd⟩ := verify_ok_iff.1 h
      have hn := hn.resolve_left (fun hn => hn ⟨c, sig, keyId, base, h1, h2, h3⟩)
      rcases hd with ⟨v, hv, hd⟩ | ⟨hv, hd⟩
      · split at hd
        · rename_i hq
          obtain ⟨a, x, hf, _⟩ := hd
          exact absurd (.inl ⟨hq, _, _, hv, hf⟩) (hn _)
        · exact hd
      · split at hd
        · rename_i hq
          exact absurd (.inr ⟨hq, hv, rfl⟩) (hn _)
        · exact hd

end

/-! ### Examples -/

section
variable [Deps]

/-- A request whose body is read only when its digest is computed; what remains says whether it was. -/
structure StreamedRequest where
  req : MockRequest

instance : ServerRequestLike StreamedRequest Bool where
  derive r c := RequestLike.derive r.req c
  hasComponent r c := RequestLike.hasComponent r.req c
  completeWithDigest r d := (r.req.body.map d.digest, true)
  complete _ := false

/-- Accepted, with the body read. -/
example : verify (⟨exSigned⟩ : StreamedRequest) exVerifying exEnv = .ok (.ok (true, str% "k1")) := by rfl
/-- Another body: rejected because of the digest, with the body read. -/
example : verify (⟨{ exSigned with body := some (utf8 (str% "hullo")) }⟩ : StreamedRequest) exVerifying exEnv = .ok (.error true) := by rfl
/-- Expired: rejected, with the body not read. -/
example : verify (⟨exSigned⟩ : StreamedRequest) exVerifying { exEnv with sysNow := 201000000000 } = .ok (.error false) := by rfl
/-- No supported algorithm in the digest header: rejected, with the body not read. -/
example : verify (⟨exSigned⟩ : StreamedRequest) (exVerifying.setDigestProvider fun _ => none) exEnv = .ok (.error false) := by rfl

/-- The hypothesis of `C114_body_not_read` holds for the expired request. -/
example : ¬ OtherwiseOk (⟨exSigned⟩ : StreamedRequest) exVerifying { exEnv with sysNow := 201000000000 } := by
  have h : verify (⟨exSigned⟩ : StreamedRequest) exVerifying { exEnv with sysNow := 201000000000 } = .ok (.error false) := by rfl
  rcases ((C114_rejected_iff _ _ _ _).1 h).2 with ⟨hn, _⟩ | ⟨_, hd⟩
  · exact hn
  · have h2 : RequestLike.derive (⟨exSigned⟩ : StreamedRequest) (.header hDigest) = .ok (some (str% "MD5=abc, TOY = aGVsbG8= ")) := by rfl
    generalize hb : false = b at hd
    rcases hd with ⟨_, h', hn⟩ | ⟨_, h', _⟩ | ⟨_, h', _⟩
    · rw [h2] at h'; cases h'
      exact absurd (selectDigest_iff.1 (show selectDigest _ _ = some (exDigest, str% "aGVsbG8=") from rfl)) (hn _ _)
    · cases hb
    · cases hb

end
end Httpsig
