import Verif.Lemmas.Total
/- Exactly when `verify` panics. -/
set_option linter.unusedSectionVars false
namespace Httpsig
open Sfv
variable [Deps] {R Rem : Type} [ServerRequestLike R Rem]

theorem verifySignatureOnly_panics_iff {req : R} {config : VerifyingConfig} {env : VerifyEnv}
    (hd : ∀ k, ComponentRead k → ∃ v, RequestLike.derive req k = .ok v) :
    (∃ p, verifySignatureOnly req config env = .error p) ↔
      (∃ v, RequestLike.derive req (.header hSignatureInput) = .ok (some v) ∧
        ∀ c, CanonicalizeConfig.fromSignatureInput v ≠ .ok (.ok c)) ∨
      (env.sysNow < 0 ∧ ∃ c sig kid, SignaturePresented req c sig kid) := by
  constructor
  · rintro ⟨p, hp⟩
    refine Classical.byContradiction fun hno => ?_
    have hin : ∀ v, RequestLike.derive req (.header hSignatureInput) = .ok (some v) →
        ∃ c, CanonicalizeConfig.fromSignatureInput v = .ok (.ok c) := fun v hv =>
      Classical.byContradiction fun hc => hno (.inl ⟨v, hv, fun c h => hc ⟨c, h⟩⟩)
    by_cases hn : 0 ≤ env.sysNow
    · obtain ⟨x, hx⟩ := verifySignatureOnly_total (config := config) hn hd hin
      rw [hp] at hx; cases hx
    · have hnp : ∀ c sig kid, ¬ SignaturePresented req c sig kid := fun c sig kid h => hno (.inr ⟨by omega, c, sig, kid, h⟩)
      have : ∃ x, verifySignatureOnly req config env = .ok x := by
        unfold verifySignatureOnly
        obtain ⟨iv, hiv⟩ := hd (.header hSignatureInput) trivial
        rw [hiv]
        cases iv with
        | none => exact ⟨_, rfl⟩
        | some iv =>
        obtain ⟨c, hc⟩ := hin iv hiv
        simp only [Bind.bind, Except.bind]
        rw [hc]
        simp only
        obtain ⟨sv, hsv⟩ := hd (.header hSignature) trivial
        rw [hsv]
        cases sv with
        | none => exact ⟨_, rfl⟩
        | some sv =>
        simp only
        cases h4 : parseSignatureHeader sv with
        | none => exact ⟨_, rfl⟩
        | some p =>
        obtain ⟨label, sig⟩ := p
        simp only
        by_cases h5 : c.getLabel = label
        rotate_left
        · rw [if_pos h5]; exact ⟨_, rfl⟩
        rw [if_neg (by simpa using h5)]
        cases h6 : c.keyid with
        | none => exact ⟨_, rfl⟩
        | some kid =>
        cases h7 : c.alg with
        | none => exact ⟨_, rfl⟩
        | some alg =>
        have hnd := read_nodup hc
        exact absurd ⟨⟨iv, hiv, hc⟩, ⟨sv, label, hsv, parseSignatureHeader_iff.1 h4, by rw [read_label hc, h5]⟩,
          (get_string hnd).1 h6, ⟨alg, (get_string hnd).1 h7⟩⟩ (hnp c sig kid)
      obtain ⟨x, hx⟩ := this
      rw [hp] at hx; cases hx
  · rintro (⟨v, hv, hbad⟩ | ⟨hn, c, sig, kid, ⟨iv, h1, h2⟩, ⟨sv, label, h3, h4, h5⟩, h6, alg, h7⟩)
    · unfold verifySignatureOnly
      rw [hv]
      simp only [Bind.bind, Except.bind]
      cases hc : CanonicalizeConfig.fromSignatureInput v with
      | error p => exact ⟨p, rfl⟩
      | ok x =>
        cases x with
        | error e => exact ⟨.badSignatureInput, rfl⟩
        | ok c => exact absurd hc (hbad c)
    · have hnd := read_nodup h2
      have h5' : c.getLabel = label := by rw [read_label h2] at h5; simpa using h5
      have h6' : c.keyid = some kid := (get_string hnd).2 h6
      have h7' : c.alg = some alg := (get_string hnd).2 h7
      unfold verifySignatureOnly
      rw [h1]
      simp only [Bind.bind, Except.bind]
      rw [h2]
      simp only
      rw [h3]
      simp only
      rw [parseSignatureHeader_iff.2 h4]
      simp only
      rw [if_neg (by simpa using h5'), h6']
      simp only
      rw [h7']
      simp only [unixTimestamp]
      rw [if_pos hn]
      exact ⟨_, rfl⟩

theorem checkRequired_panics_iff {c : CanonicalizeConfig} : ∀ {l : List SignatureComponent},
    (∃ p, checkRequired c.toSignatureInput l = .error p) ↔
      ∃ before k after, l = before ++ k :: after ∧ (∀ s, k.display ≠ .ok s) ∧
        ∀ r ∈ before, ∃ s, r.display = .ok s ∧ ∃ k ∈ c.components, (itemOf k).bare = .string s
  | [] => by simp [checkRequired]
  | r :: l => by
    have ih := checkRequired_panics_iff (c := c) (l := l)
    unfold checkRequired
    cases hd : r.display with
    | error p =>
      refine ⟨fun _ => ⟨[], r, l, rfl, (fun s h => by rw [hd] at h; cases h), by simp⟩, fun _ => ⟨p, rfl⟩⟩
    | ok s =>
      simp only [Bind.bind, Except.bind]
      by_cases hs : (c.toSignatureInput.list.getItem s).isSome = true
      · rw [if_neg (by simpa [← Option.isSome_iff_ne_none] using hs), ih]
        constructor
        · rintro ⟨b, k, a, rfl, h1, h2⟩
          refine ⟨r :: b, k, a, rfl, h1, fun x hx => ?_⟩
          rcases List.mem_cons.1 hx with rfl | hx
          · exact ⟨s, hd, getItem_isSome.1 hs⟩
          · exact h2 x hx
        · rintro ⟨b, k, a, he, h1, h2⟩
          cases b with
          | nil => cases he; exact absurd hd (h1 s)
          | cons x b => cases he; exact ⟨b, k, a, rfl, h1, fun y hy => h2 y (by simp [hy])⟩
      · rw [if_pos (by simpa [← Option.isSome_iff_ne_none] using hs)]
        constructor
        · rintro ⟨p, h⟩; cases h
        · rintro ⟨b, k, a, he, h1, h2⟩
          cases b with
          | nil => cases he; exact absurd hd (h1 s)
          | cons x b =>
            cases he
            obtain ⟨s', hs', hk⟩ := h2 r (by simp)
            rw [hd] at hs'
            cases hs'
            exact absurd (getItem_isSome.2 hk) hs

theorem verify_panics_iff {req : R} {config : VerifyingConfig} {env : VerifyEnv}
    (hd : ∀ k, ComponentRead k → ∃ v, RequestLike.derive req k = .ok v) :
    (∃ p, verify req config env = .error p) ↔
      (∃ v, RequestLike.derive req (.header hSignatureInput) = .ok (some v) ∧
        ∀ c, CanonicalizeConfig.fromSignatureInput v ≠ .ok (.ok c)) ∨
      (env.sysNow < 0 ∧ ∃ c sig kid, SignaturePresented req c sig kid) ∨
      ∃ c sig kid base, SignatureOk req config env c sig kid base ∧ RequiredPanics config c := by
  have hv := verifySignatureOnly_panics_iff (config := config) (env := env) hd
  have tail : ∀ {y}, verifyExceptDigest req config env = .ok y → ∃ x, verify req config env = .ok x := by
    intro y hy
    unfold verify
    rw [hy]
    cases y with
    | none => exact ⟨_, rfl⟩
    | some keyId =>
      obtain ⟨dv, hdv⟩ := hd (.header hDigest) trivial
      simp only [Bind.bind, Except.bind]
      rw [hdv]
      cases dv with
      | none =>
        simp only
        split
        · split <;> exact ⟨_, rfl⟩
        · exact ⟨_, rfl⟩
      | some dv =>
        simp only
        split
        · cases selectDigest config.digestProvider dv with
          | none => exact ⟨_, rfl⟩
          | some p =>
            simp only
            cases (ServerRequestLike.completeWithDigest req p.1).1 with
            | none => exact ⟨_, rfl⟩
            | some e =>
              simp only
              split <;> exact ⟨_, rfl⟩
        · exact ⟨_, rfl⟩
  have head : (∃ p, verify req config env = .error p) ↔ ∃ p, verifyExceptDigest req config env = .error p := by
    constructor
    · rintro ⟨p, hp⟩
      cases he : verifyExceptDigest req config env with
      | error q => exact ⟨q, rfl⟩
      | ok y => obtain ⟨x, hx⟩ := tail he; rw [hp] at hx; cases hx
    · rintro ⟨p, hp⟩
      exact ⟨p, by unfold verify; rw [hp]; rfl⟩
  rw [head]
  have hbad : ∀ {a b c : Prop}, (a ∨ b ↔ c) → (a ∨ b ∨ (∃ c sig kid base, SignatureOk req config env c sig kid base ∧ RequiredPanics config c) ↔
      c ∨ ∃ c sig kid base, SignatureOk req config env c sig kid base ∧ RequiredPanics config c) := by
    intro a b c h; rw [← or_assoc, h]
  rw [hbad hv.symm]
  cases hs : verifySignatureOnly req config env with
  | error p =>
    refine ⟨fun _ => .inl ⟨p, rfl⟩, fun _ => ⟨p, by unfold verifyExceptDigest; rw [hs]; rfl⟩⟩
  | ok o =>
    have hne : ¬ ∃ p, (Except.ok o : P (Option (SignatureInput × Str))) = .error p := fun ⟨p, h⟩ => by cases h
    simp only [hne, false_or]
    cases o with
    | none =>
      constructor
      · rintro ⟨p, hp⟩
        unfold verifyExceptDigest at hp
        rw [hs] at hp
        cases hp
      · rintro ⟨c, sig, kid, base, hok, _⟩
        have := verifySignatureOnly_iff.2 ⟨c, sig, base, hok, rfl⟩
        rw [hs] at this
        cases this
    | some x =>
      obtain ⟨si, kid⟩ := x
      obtain ⟨c, sig, base, hok, rfl⟩ := verifySignatureOnly_iff.1 hs
      have e : (∃ p, verifyExceptDigest req config env = .error p) ↔
          ∃ p, checkRequired c.toSignatureInput config.requiredComponents = .error p := by
        unfold verifyExceptDigest
        rw [hs]
        simp only [Bind.bind, Except.bind]
        cases hr : checkRequired c.toSignatureInput config.requiredComponents with
        | error p => exact ⟨fun _ => ⟨p, rfl⟩, fun _ => ⟨p, rfl⟩⟩
        | ok b =>
          obtain ⟨b', hb'⟩ := checkDate_ok c.toSignatureInput config env
          refine ⟨?_, fun ⟨p, h⟩ => by cases h⟩
          rintro ⟨p, hp⟩
          simp only [hb'] at hp
          split at hp
          · cases hp
          · split at hp <;> cases hp
      rw [e, checkRequired_panics_iff]
      constructor
      · intro h
        exact ⟨c, sig, kid, base, hok, h⟩
      · rintro ⟨c', _, _, _, hok', h⟩
        obtain ⟨v, h1, h2⟩ := hok.input
        obtain ⟨v', h1', h2'⟩ := hok'.input
        rw [h1] at h1'
        cases h1'
        rw [h2] at h2'
        cases h2'
        exact h

end Httpsig
