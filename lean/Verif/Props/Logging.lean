import Verif.Lemmas.Logging2
import Verif.Props.Verify
import Verif.Spec.Example
/-
C116 and C117: what `verify` logs at level info.
-/
namespace Httpsig
open Sfv
section
variable [Deps] {R Rem : Type} [ServerRequestLike R Rem]

/-- C116. Logging does not change the outcome. -/
theorem C116_result (f : Fmt) (req : R) (config : VerifyingConfig) (env : VerifyEnv) :
    (verifyLogged f req config env).result = verify req config env := (verifyLogged_spec f req config env).1

/-- C116. A request is rejected with log `ms` exactly if `ms` is the text belonging to the first check it does not pass. -/
theorem C116_rejected (f : Fmt) (req : R) (config : VerifyingConfig) (env : VerifyEnv) (ms : List Str) :
    (∃ rem, verify req config env = .ok (.error rem) ∧ (verifyLogged f req config env).records = ms) ↔ Refusal f req config env ms := by
  obtain ⟨h1, _, h3⟩ := verifyLogged_spec f req config env
  rw [← h3, ← h1]
  constructor
  · rintro ⟨rem, a, rfl⟩; exact ⟨rem, Logged.eq_of rfl a⟩
  · rintro ⟨rem, a⟩; rw [a]; exact ⟨rem, rfl, rfl⟩

/-- C116. An accepted request leaves no record; a rejected one leaves one, or the same one twice. -/
theorem C116_accepted (f : Fmt) (req : R) (config : VerifyingConfig) (env : VerifyEnv) :
    (∀ r, verify req config env = .ok (.ok r) → (verifyLogged f req config env).records = []) ∧
    (∀ rem, verify req config env = .ok (.error rem) → ∃ m, (verifyLogged f req config env).records = [m] ∨
      (verifyLogged f req config env).records = [m, m]) := by
  refine ⟨(verifyLogged_spec f req config env).2.1, fun rem h => ?_⟩
  have := (C116_rejected f req config env _).1 ⟨rem, h, rfl⟩
  generalize (verifyLogged f req config env).records = ms at this
  cases this with
  | signature h => cases h <;> first | exact ⟨_, .inr rfl⟩ | exact ⟨_, .inl rfl⟩
  | condition => exact ⟨_, .inl rfl⟩
  | digest => exact ⟨_, .inl rfl⟩

/-- C116. Before a panic nothing is logged, except that a `Signature-Input` value which cannot be read is reported. -/
theorem C116_panic (f : Fmt) (req : R) (config : VerifyingConfig) (env : VerifyEnv) :
    (∀ p, verify req config env = .error p → (verifyLogged f req config env).records = [] ∨
      ∃ v, RequestLike.derive req (.header hSignatureInput) = .ok (some v) ∧ BadInput v (verifyLogged f req config env).records ∧
        p = .badSignatureInput) ∧
    ∀ v ms, RequestLike.derive req (.header hSignatureInput) = .ok (some v) → BadInput v ms →
      verify req config env = .error .badSignatureInput ∧ (verifyLogged f req config env).records = ms := by
  refine ⟨fun p h => ?_, fun v ms h hb => ?_⟩
  · rw [← C116_result f] at h
    exact verifyLogged_panic (Logged.eq_of rfl h)
  · rw [← C116_result f, verifyLogged_badInput f config env h hb]
    exact ⟨rfl, rfl⟩

/-- C117. Every record is a single line of printable ASCII, whatever the request contains and whether or not `verify` panics. -/
theorem C117_printable (f : Fmt) (hf : f.Printable) (req : R) (config : VerifyingConfig) (env : VerifyEnv) :
    ∀ m ∈ (verifyLogged f req config env).records, PrintableLine m := by
  cases h : verify req config env with
  | error p =>
    rcases (C116_panic f req config env).1 p h with e | ⟨v, _, hb, _⟩
    · rw [e]; intro m hm; cases hm
    · generalize (verifyLogged f req config env).records = ms at hb
      intro m hm
      rw [printable_iff]
      cases hb <;> simp only [List.mem_cons, List.not_mem_nil, or_false] at hm
      · rcases hm with rfl | rfl <;> rfl
      · rcases hm with rfl | rfl <;> rfl
      · subst hm; rfl
  | ok r =>
    cases r with
    | ok r => rw [(C116_accepted f req config env).1 r h]; intro m hm; cases hm
    | error rem => exact printable_refusal hf ((C116_rejected f req config env _).1 ⟨rem, h, rfl⟩)

end

/-! ### Examples -/
attribute [local instance] toyDeps

/-- Formatting for the examples. -/
def exFmt : Fmt := ⟨fun d => intStr d, fun c => 0xa0 < c.toNat, str% "parse_bare_item: item type can't be identified"⟩

/-- C117's hypothesis is met. -/
example : exFmt.Printable := by
  intro d
  show PrintableLine (intStr d)
  rw [printable_iff, intStr_eq, List.all_append, natStr_printable, Bool.and_true]
  split <;> decide

/-- C116: accepted; unknown key; wrong body; no signature; malformed signature. -/
example : (verifyLogged exFmt exSigned exVerifying exEnv).records = [] ∧
    (verifyLogged exFmt exSigned (VerifyingConfig.new fun _ => []) exEnv).records =
      [str% "Verification Failed: Unknown key (keyId=k1, algorithm=toy)"] ∧
    (verifyLogged exFmt { exSigned with body := some (utf8 (str% "other")) } exVerifying exEnv).records =
      [str% "Verification Failed: Computed digest did not match the 'digest' header"] ∧
    (verifyLogged exFmt (exMock [] none) exVerifying exEnv).records = [str% "Verification Failed: No 'Signature-Input' header"] ∧
    (verifyLogged exFmt (exMock (exSignedHeaders.insert hSignature ⟨utf8 (str% "sig"), rfl⟩) none) exVerifying exEnv).records =
      [str% "Verification Failed: Malformed 'Signature' header", str% "Verification Failed: Malformed 'Signature' header"] :=
  ⟨rfl, rfl, rfl, rfl, rfl⟩

/-- C116: a missing component, with the name the other party chose quoted. -/
example : (verifyLogged exFmt (exWithInput ⟨utf8 (str% "sig=(\"x-y\" \"@\\\"a\");alg=\"toy\";keyid=\"k1\""), rfl⟩) exVerifying exEnv).records =
    [str% "Canonicalization Failed: Missing components required for signature: [Header(\"x-y\"), Derived(DerivedComponent { item: Item { bare_item: String(\"@\\\"a\"), params: {} } })]"] := rfl

/-- C116: before panics. -/
example : (verifyLogged exFmt (exWithInput ⟨utf8 (str% "sig=("), rfl⟩) exVerifying exEnv).records =
      [str% "Verification Failed: failed to parse SignatureInput", str% "Verification Failed: Bad 'Signature-input' header"] ∧
    (verifyLogged exFmt (exWithInput ⟨utf8 (str% ""), rfl⟩) exVerifying exEnv).records =
      [str% "Verification Failed: malformed structured field", str% "Verification Failed: Bad 'Signature-input' header"] ∧
    (verifyLogged exFmt (exWithInput ⟨utf8 (str% "sig=1"), rfl⟩) exVerifying exEnv).records =
      [str% "Verification Failed: Bad 'Signature-input' header"] := ⟨rfl, rfl, rfl⟩

/-- C116: a component required by the configuration. -/
example : (verifyLogged exFmt (exWithInput ⟨utf8 (str% "sig=(\"@method\");alg=\"toy\";keyid=\"k1\""), rfl⟩)
      { exVerifying with requiredComponents := [.derived (.new atMethod), .header hHost] } exEnv).records =
    [str% "Verification Failed: Missing header '\"@method\"' required by configuration"] := rfl

end Httpsig
