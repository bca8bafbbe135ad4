import Verif.Props.Sign
/-
C112: the result of signing is determined by the request and the configuration.
-/
set_option linter.unusedSectionVars false
namespace Httpsig
open Sfv

section
variable [Deps] {R : Type} [ClientRequestLike R]

/-- The result that signing `r` at second `now` must have, provided it returns. -/
inductive SignResult (r : R) (config : SigningConfig) (now : Int) : Except Error Unit → Prop
  | created : (∃ t, createdTime config now = some t ∧ now < t) → SignResult r config now (.error .invalidSignatureCreationDate)
  | expires : (∀ t, createdTime config now = some t → t ≤ now) → (∃ t, expiresTime config now = some t ∧ t < now) →
      SignResult r config now (.error .invalidSignatureExpiresDate)
  | missing : TimesOk config now → config.skipMissing = false → (∃ k ∈ config.components, ¬ Available r config k) →
      SignResult r config now (.error .canonicalize)
  | label : TimesOk config now → (config.skipMissing = true ∨ ∀ k ∈ config.components, Available r config k) →
      (∃ c ∈ config.label, Control c) → SignResult r config now (.error .convertHeader)
  | success : TimesOk config now → (config.skipMissing = true ∨ ∀ k ∈ config.components, Available r config k) →
      (∀ c ∈ config.label, ¬ Control c) → SignResult r config now (.ok ())

/-- Signatures are texts without control characters. -/
def PlainSignatures (a : HttpSignatureSign) : Prop := ∀ rnd m, ∀ c ∈ a.sign rnd m, ¬ Control c

end

variable [Deps] {R : Type} [ClientRequestLike R] [LawfulClient R]

theorem signResult_unique {r : R} {config : SigningConfig} {now : Int} {x y : Except Error Unit}
    (hx : SignResult r config now x) (hy : SignResult r config now y) : x = y := by
  have hc : TimesOk config now → ¬ ∃ t, createdTime config now = some t ∧ now < t := by
    rintro h ⟨t, h1, h2⟩; have := h.1 t h1; omega
  have he : TimesOk config now → ¬ ∃ t, expiresTime config now = some t ∧ t < now := by
    rintro h ⟨t, h1, h2⟩; have := h.2 t h1; omega
  have hm : config.skipMissing = false → (∃ k ∈ config.components, ¬ Available r config k) →
      ¬ (config.skipMissing = true ∨ ∀ k ∈ config.components, Available r config k) := by
    rintro h ⟨k, hk, hn⟩ (h' | h')
    · rw [h] at h'; cases h'
    · exact hn (h' k hk)
  have hl : (∃ c ∈ config.label, Control c) → ¬ ∀ c ∈ config.label, ¬ Control c := fun ⟨c, h1, h2⟩ h => h c h1 h2
  cases hx with
  | created h =>
    cases hy with
    | created _ => rfl
    | expires h1 _ => obtain ⟨t, h2, h3⟩ := h; have := h1 t h2; omega
    | missing h1 _ _ => exact absurd h (hc h1)
    | label h1 _ _ => exact absurd h (hc h1)
    | success h1 _ _ => exact absurd h (hc h1)
  | expires h0 h =>
    cases hy with
    | created h1 => obtain ⟨t, h2, h3⟩ := h1; have := h0 t h2; omega
    | expires _ _ => rfl
    | missing h1 _ _ => exact absurd h (he h1)
    | label h1 _ _ => exact absurd h (he h1)
    | success h1 _ _ => exact absurd h (he h1)
  | missing h0 hs h =>
    cases hy with
    | created h1 => exact absurd h1 (hc h0)
    | expires _ h1 => exact absurd h1 (he h0)
    | missing _ _ _ => rfl
    | label _ h1 _ => exact absurd h1 (hm hs h)
    | success _ h1 _ => exact absurd h1 (hm hs h)
  | label h0 hs h =>
    cases hy with
    | created h1 => exact absurd h1 (hc h0)
    | expires _ h1 => exact absurd h1 (he h0)
    | missing _ h1 h2 => exact absurd hs (hm h1 h2)
    | label _ _ _ => rfl
    | success _ _ h1 => exact absurd h1 (hl h)
  | success h0 hs h =>
    cases hy with
    | created h1 => exact absurd h1 (hc h0)
    | expires _ h1 => exact absurd h1 (he h0)
    | missing _ h1 h2 => exact absurd hs (hm h1 h2)
    | label _ _ h1 => exact absurd h (hl h1)
    | success _ _ _ => rfl

theorem encode_plain (b : Bytes) : ∀ c ∈ Base64.encode b, ¬ Control c := by
  intro c hc hctl
  have h := List.all_eq_true.1 (Base64.encode_all b) c hc
  unfold Base64.isAlphabet at h
  have hlt : c.toNat < 32 ∨ c.toNat = 127 := hctl.imp And.left id
  simp only [Bool.or_eq_true, beq_iff_eq] at h
  rcases h with h | rfl
  · unfold Base64.val at h
    simp only at h
    repeat' split at h
    all_goals first | omega | cases h
  · exact absurd hlt (by decide)

/-- C112. Every algorithm of the library makes signatures without control characters. -/
theorem C112_algorithms (key : Bytes) : PlainSignatures (hmacSha256Sign key) ∧ PlainSignatures (hmacSha512Sign key) ∧
    ∀ e : AlgEntry, PlainSignatures (e.signer key) :=
  ⟨fun _ _ => encode_plain _, fun _ _ => encode_plain _, fun _ _ _ => encode_plain _⟩

/-- C112. If signing returns at all, its result is the one that the request and the configuration determine. -/
theorem C112_result (r r' : R) (config : SigningConfig) (env : SignEnv) (res : Except Error Unit)
    (hvis : config.skipMissing = true ∨ AutoVisible r config) (hplain : PlainSignatures config.signature)
    (h : sign r config env = .ok (r', res)) (x : Except Error Unit) :
    SignResult r config (env.sysNow / 1000000000) x ↔ x = res := by
  have main : SignResult r config (env.sysNow / 1000000000) res := by
    obtain ⟨r1, comps, ha, _, h⟩ := sign_iff.1 h
    have hcomps := addAuto_comps ha
    have hav : config.skipMissing = false → ∀ k, valueOf r1 k ≠ none ↔ Available r config k := fun hs k =>
      valueOf_addAuto_iff ha (hvis.resolve_left (by rw [hs]; simp)) k
    rcases h with ⟨e, he, rfl, rfl⟩ | ⟨cc, hb, h⟩
    · rcases buildCanonicalizeConfig_error_iff.1 he with ⟨t, h1, h2, rfl⟩ | ⟨h0, t, h1, h2, rfl⟩
      · exact .created ⟨t, h1, h2⟩
      · exact .expires h0 ⟨t, h1, h2⟩
    · obtain ⟨ht, rfl⟩ := buildCanonicalizeConfig_ok_iff.1 hb
      rcases h with ⟨e, hcan, rfl, rfl⟩ | ⟨base, si, s, hcan, hdisp, h⟩
      · obtain ⟨k, hk, hv⟩ := canonicalize_error_value hcan
        have hk : k ∈ comps := hk
        rw [hcomps] at hk
        split at hk
        · have := (List.mem_filter.1 hk).2
          rw [hv] at this; cases this
        · rename_i hs
          have hs : config.skipMissing = false := by simpa using hs
          exact .missing ht hs ⟨k, hk, fun h => (hav hs k).2 h hv⟩
      · have hpres : config.skipMissing = true ∨ ∀ k ∈ config.components, Available r config k := by
          cases hs : config.skipMissing with
          | true => exact .inl rfl
          | false =>
            right
            intro k hk
            refine (hav hs k).1 fun hn => ?_
            obtain ⟨vals, ids, lids, ps, h1, _⟩ := canonicalize_ok_iff.1 hcan
            have h2 := values_of_map h1
            have hk : k ∈ comps := by rw [hcomps, hs]; exact hk
            have : valueOf r1 k ∈ vals.map some := by rw [← h2]; exact List.mem_map.2 ⟨k, hk, rfl⟩
            rw [hn] at this
            simp at this
        rcases h with ⟨hv, rfl, rfl⟩ | ⟨v, hv, h⟩
        · exfalso
          obtain ⟨vals, ids, lids, ps, h1, h2, h3, h4, rfl, rfl⟩ := canonicalize_ok_iff.1 hcan
          have hd := display_default (display_list_iff.2 ⟨lids, _, h3, h4, rfl⟩)
          rw [hd] at hdisp
          cases hdisp
          obtain ⟨v', hv', _⟩ := fromStr_visible (visible_of_printable (inputText_printable h3 h4))
          rw [hv] at hv'; cases hv'
        · have hchars : ∀ c, c ∈ config.label ++ str% "=:" ++ config.signature.sign env.rnd base ++ str% ":" → Control c →
              c ∈ config.label := by
            intro c hc hctl
            simp only [List.mem_append] at hc
            rcases hc with ((hc | hc) | hc) | hc
            · exact hc
            · exfalso
              simp only [List.mem_cons, List.not_mem_nil, or_false] at hc
              rcases hc with rfl | rfl <;> exact absurd hctl (by unfold Control; decide)
            · exact absurd hctl (hplain _ _ c hc)
            · exfalso
              simp only [List.mem_cons, List.not_mem_nil, or_false] at hc
              subst hc
              exact absurd hctl (by unfold Control; decide)
          rcases h with ⟨hw, rfl, rfl⟩ | ⟨w, hw, rfl, rfl⟩
          · obtain ⟨c, hc, hctl⟩ := fromStr_none_iff.1 hw
            exact .label ht hpres ⟨c, hchars c hc hctl, hctl⟩
          · exact .success ht hpres fun c hc => fromStr_ok_iff.1 ⟨w, hw⟩ c (by simp [hc])
  exact ⟨fun hx => signResult_unique hx main, fun e => e ▸ main⟩

/-- C112. Signing succeeds if and only if the automatic headers can be written, the clock is after the epoch, the times are
acceptable, every component can be computed, none is missing (or missing ones are skipped), the parameters and the
components that have a value can be written, and the label contains no control character. -/
theorem C112_success (r : R) (config : SigningConfig) (env : SignEnv)
    (hvis : config.skipMissing = true ∨ AutoVisible r config) (hplain : PlainSignatures config.signature) :
    (∃ r', sign r config env = .ok (r', .ok ())) ↔
      AutoOk r config ∧ 0 ≤ env.sysNow ∧ TimesOk config (env.sysNow / 1000000000) ∧
      (∀ k ∈ config.components, ∃ v, RequestLike.derive r k = .ok v) ∧
      (config.skipMissing = true ∨ ∀ k ∈ config.components, Available r config k) ∧
      WritableParams config (env.sysNow / 1000000000) ∧
      (∀ k ∈ config.components, Available r config k → ∃ i, ListIdent k i) ∧
      ∀ c ∈ config.label, ¬ Control c := by
  constructor
  · rintro ⟨r', h⟩
    obtain ⟨h1, h2, h3, h4⟩ := (sign_returns_exact hvis).1 ⟨r', _, h⟩
    cases (C112_result r r' config env _ hvis hplain h _).2 rfl with
    | success ht hp hl => exact ⟨h1, h2, ht, h3 (.inr ht), hp, (h4 ht hp).1, (h4 ht hp).2, hl⟩
  · rintro ⟨h1, h2, ht, h3, hp, h4, h5, hl⟩
    obtain ⟨r', res, h⟩ := (sign_returns_exact hvis).2 ⟨h1, h2, fun _ => h3, fun _ _ => ⟨h4, h5⟩⟩
    have := (C112_result r r' config env res hvis hplain h (.ok ())).1 (.success ht hp hl)
    exact ⟨r', this ▸ h⟩

/-- Non-vacuity: each of the five results occurs, and the label of the fourth is what `C112_result` says. -/
example : (∃ r', sign exReqwest exSigning exSignEnv = .ok (r', .ok ())) ∧
    (∃ r', sign exReqwest (exSigning.setCreatedAt 151) exSignEnv = .ok (r', .error .invalidSignatureCreationDate)) ∧
    (∃ r', sign exReqwest (exSigning.setExpiresRelative (-1)) exSignEnv = .ok (r', .error .invalidSignatureExpiresDate)) ∧
    (∃ r', sign exReqwest (exMissing.setSkipMissing false) exSignEnv = .ok (r', .error .canonicalize)) ∧
    (∃ r', sign exReqwest exBadLabel exSignEnv = .ok (r', .error .convertHeader)) :=
  ⟨⟨_, rfl⟩, ⟨_, rfl⟩, ⟨_, rfl⟩, ⟨_, rfl⟩, ⟨_, rfl⟩⟩
example : exSigning.skipMissing = true ∧ PlainSignatures exSigning.signature ∧
    SignResult exReqwest exBadLabel 150 (.error .convertHeader) :=
  ⟨rfl, fun _ _ => encode_plain _, .label ⟨fun t h => by cases h; decide, fun t h => by cases h; decide⟩ (.inl rfl)
    ⟨'\n', by show '\n' ∈ str% "a\nb"; decide, .inl ⟨by decide, by decide⟩⟩⟩

end Httpsig
