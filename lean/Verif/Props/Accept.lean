import Verif.Spec.Accept
import Verif.Props.Grammar
import Verif.Props.Keys
import Verif.Props.Derive
import Verif.Props.Base
import Verif.Props.Text
import Verif.Lemmas.Reader
/-
C119: what verification accepts, in terms of the texts of the request.
-/
set_option linter.unusedSectionVars false
namespace Httpsig
open Sfv
section
variable [Deps]

theorem firstLine_iff {r : MockRequest} {n : HeaderName} {v : HeaderValue} : FirstLine r n v ↔ r.headers.get n = some v := by
  unfold FirstLine HeaderMap.get
  rw [Option.map_eq_some_iff]
  constructor
  · rintro ⟨a, b, e, h⟩
    refine ⟨(n, v), ?_, rfl⟩
    rw [e, List.find?_append, List.find?_eq_none.2 (fun x hx => by simpa using h x hx)]
    simp
  · rintro ⟨⟨m, w⟩, h, rfl⟩
    obtain ⟨h1, a, b, e, h2⟩ := List.find?_eq_some_iff_append.1 h
    simp only [decide_eq_true_eq] at h1
    subst h1
    exact ⟨a, b, e, fun x hx => by simpa using h2 x hx⟩

theorem toStr_iff {v : HeaderValue} {s : Str} : v.toStr = some s ↔ v.bytes = utf8 s ∧ ∀ c ∈ s, isVisibleChar c = true := by
  constructor
  · intro h
    obtain ⟨h1, h2⟩ := toStr_facts h
    exact ⟨fromStr_bytes h1, h2⟩
  · rintro ⟨h1, h2⟩
    obtain ⟨w, h3, h4⟩ := fromStr_visible (List.all_eq_true.2 h2)
    have : w = v := by
      have := fromStr_bytes h3
      rw [← h1] at this
      cases w; cases v; cases this; rfl
    rw [← this]; exact h4

theorem fieldText_iff {r : MockRequest} {n : HeaderName} {s : Str} :
    FieldText r n s ↔ ∃ v, r.headers.get n = some v ∧ v.toStr.getD [] = s := by
  constructor
  · intro h
    cases h with
    | visible h1 h2 h3 => exact ⟨_, firstLine_iff.1 h1, by rw [toStr_iff.2 ⟨h2, h3⟩]; rfl⟩
    | @other v h1 h2 =>
      refine ⟨_, firstLine_iff.1 h1, ?_⟩
      cases h : v.toStr with
      | none => rfl
      | some t =>
        obtain ⟨h3, h4⟩ := toStr_iff.1 h
        obtain ⟨c, hc, h5⟩ := h2 t h3
        rw [h4 c hc] at h5; cases h5
  · rintro ⟨v, h1, rfl⟩
    cases h : v.toStr with
    | some t => exact .visible (firstLine_iff.2 h1) (toStr_iff.1 h).1 (toStr_iff.1 h).2
    | none =>
      refine .other (firstLine_iff.2 h1) fun s hs => ?_
      cases hv : s.all isVisibleChar with
      | true => rw [toStr_iff.2 ⟨hs, List.all_eq_true.1 hv⟩] at h; cases h
      | false =>
        rw [List.all_eq_false] at hv
        obtain ⟨c, hc, hh⟩ := hv
        exact ⟨c, hc, by simpa using hh⟩

theorem derive_field {r : MockRequest} {n : HeaderName} {s : Str} :
    RequestLike.derive (self := ServerRequestLike.toRequestLike (Remnant := Unit)) r (.header n) = .ok (some s) ↔ FieldText r n s := by
  rw [fieldText_iff]
  show (Except.ok ((r.headers.get n).map fun v => v.toStr.getD []) : P _) = _ ↔ _
  simp [Option.map_eq_some_iff]

theorem derive_field_none {r : MockRequest} {n : HeaderName} :
    RequestLike.derive (self := ServerRequestLike.toRequestLike (Remnant := Unit)) r (.header n) = .ok none ↔ ∀ s, ¬ FieldText r n s := by
  simp only [fieldText_iff]
  show (Except.ok ((r.headers.get n).map fun v => v.toStr.getD []) : P _) = _ ↔ _
  cases r.headers.get n <;> simp

theorem derive_value {r : MockRequest} {k : SignatureComponent} {s : Str} :
    RequestLike.derive (self := ServerRequestLike.toRequestLike (Remnant := Unit)) r k = .ok (some s) ↔ ComponentValue r k s := by
  cases k with
  | header n =>
    rw [derive_field]
    exact ⟨.field, fun h => by cases h; assumption⟩
  | derived d =>
    constructor
    · intro h
      have h0 : d.derive none r.method r.url = .ok (some s) := h
      cases hn : d.name with
      | error p => unfold DerivedComponent.derive at h0; rw [hn] at h0; cases h0
      | ok n =>
        have hc := called_iff.2 hn
        by_cases hq : n = str% "@query-params"
        · subst hq
          obtain ⟨ps, hps, _⟩ := C34_every_query_decodes (utf8 (r.url.query.getD []))
          cases hp : d.param (str% "name") with
          | none =>
            have := C34_needs_name ⟨r.method, r.url, r.headers, .absent⟩ d hc (noParam_iff.2 hp)
            have h1 : RequestLike.derive (⟨r.method, r.url, r.headers, .absent⟩ : ReqwestRequest) (.derived d) =
              d.derive r.url.host r.method r.url := rfl
            rw [h1, derive_of_name hn] at this
            rw [derive_of_name hn] at h0
            exact nomatch this.symm.trans h0
          | some name =>
            have h1 := C34_selects_validator r d name ps _ hc (hasParam_iff.2 hp) hps (selected_iff.2 rfl)
            rw [h] at h1
            cases h1
            exact .param hc (hasParam_iff.2 hp) hps (selected_iff.2 rfl)
        · by_cases ht : ∃ v, (n, v) ∈ derivedTable none r.method r.url
          · obtain ⟨v, hv⟩ := ht
            have h1 := ((C33_validator r d n hc).1 v hv).2
            rw [h] at h1
            cases h1
            exact .derived hc hv
          · have h1 := ((C33_validator r d n hc).2 (fun v hv => ht ⟨v, hv⟩) hq).2
            rw [h] at h1; cases h1
    · intro h
      cases h with
      | derived h1 h2 => exact ((C33_validator r d _ h1).1 _ h2).2
      | param h1 h2 h3 h4 => exact C34_selects_validator r d _ _ _ h1 h2 h3 h4

theorem values_text {r : MockRequest} : ∀ {comps : List SignatureComponent} {vals : List Str},
    @Values _ MockRequest (ServerRequestLike.toRequestLike (Remnant := Unit)) r comps vals ↔ Forall2 (ComponentValue r) comps vals
  | [], vals => by
    unfold Values
    cases vals with
    | nil => exact ⟨fun _ => .nil, fun _ => rfl⟩
    | cons v vs => exact ⟨(fun h => nomatch h), fun h => nomatch h⟩
  | k :: comps, vals => by
    cases vals with
    | nil => exact ⟨(fun h => by cases h), fun h => by cases h⟩
    | cons v vs =>
      have ih := values_text (r := r) (comps := comps) (vals := vs)
      unfold Values at ih ⊢
      rw [List.map_cons, List.map_cons, List.cons.injEq, ih, derive_value]
      exact ⟨fun ⟨a, b⟩ => .cons a b, fun h => by cases h with | cons a b => exact ⟨a, b⟩⟩

theorem printed_iff {q : SignatureComponent} {s : Str} : q.display = .ok s ↔ Printed q s := by
  cases q with
  | header h =>
    rw [C107_component_text.1 h]
    exact ⟨fun e => by cases e; exact .header, fun e => by cases e; rfl⟩
  | derived d =>
    rw [C107_component_text.2.1 d s]
    exact ⟨.derived, fun e => by cases e; assumption⟩

theorem signatureOk_text {r : MockRequest} {config : VerifyingConfig} {env : VerifyEnv} {c : CanonicalizeConfig} {sig keyId : Str}
    {base : Bytes} (h : SignatureOk r config env c sig keyId base) :
    ∃ l, c.params = ⟨l.params⟩ ∧ ValidlySigned r config env l c.components sig keyId := by
  obtain ⟨⟨v, h1, h2⟩, ⟨w, label, h3, h4, h5⟩, h6, h7, h8, h9, ⟨si, h10⟩, h11⟩ := h
  obtain ⟨d, label', l, hd, hh, hl, hc, hp⟩ := (C72_accepted v c).1 h2
  rw [hl] at h5
  cases h5
  obtain ⟨vals, ids, lids, ps, k1, k2, k3, k4, rfl, _⟩ := (C03_base_layout r c base si).1 h10
  rw [hp] at h6 h7 k4
  unfold InWindow at h9
  rw [hp] at h9
  exact ⟨l, hp, ⟨⟨⟨label, v, w, derive_field.1 h1, ⟨d, hd, hh, hc⟩, derive_field.1 h3, h4⟩, h6, h7⟩, h8, h9.1, h9.2,
    vals, ids, lids, ps, values_text.1 k1, k2, k3, k4, h11⟩⟩

theorem presented_text {r : MockRequest} {l : InnerList} {comps : List SignatureComponent} {sig keyId : Str} (h : Presents r l comps sig keyId) :
    ∃ c : CanonicalizeConfig, c.components = comps ∧ c.params = ⟨l.params⟩ ∧ SignaturePresented r c sig keyId := by
  obtain ⟨⟨label, v, w, h1, ⟨d, h2, h3, h4⟩, h5, h6⟩, h7, h8⟩ := h
  refine ⟨{ label := some label, components := comps, params := ⟨l.params⟩ }, rfl, rfl, ?_⟩
  exact ⟨⟨v, derive_field.2 h1, (C72_accepted v _).2 ⟨d, label, l, h2, h3, rfl, h4, rfl⟩⟩, ⟨w, label, derive_field.2 h5, h6, rfl⟩, h7, h8⟩

theorem presented_text' {r : MockRequest} {c : CanonicalizeConfig} {sig keyId : Str} (h : SignaturePresented r c sig keyId) :
    ∃ l, Presents r l c.components sig keyId := by
  obtain ⟨⟨v, h1, h2⟩, ⟨w, label, h3, h4, h5⟩, h6, h7⟩ := h
  obtain ⟨d, label', l, hd, hh, hl, hc, hp⟩ := (C72_accepted v c).1 h2
  rw [hl] at h5
  cases h5
  rw [hp] at h6 h7
  exact ⟨l, ⟨label, v, w, derive_field.1 h1, ⟨d, hd, hh, hc⟩, derive_field.1 h3, h4⟩, h6, h7⟩

theorem validlySigned_text {r : MockRequest} {config : VerifyingConfig} {env : VerifyEnv} {l : InnerList} {comps : List SignatureComponent}
    {sig keyId : Str} (h : ValidlySigned r config env l comps sig keyId) :
    ∃ c base, c.components = comps ∧ c.params = ⟨l.params⟩ ∧ SignatureOk r config env c sig keyId base := by
  obtain ⟨hp, h1, h2, h3, vals, ids, lids, ps, k1, k2, k3, k4, k5⟩ := h
  obtain ⟨c, rfl, hc, a1, a2, a3, a4⟩ := presented_text hp
  refine ⟨c, utf8 (specBase ids lids vals ps), rfl, hc, a1, a2, a3, a4, h1, ?_, ?_, k5⟩
  · unfold InWindow
    rw [hc]
    exact ⟨h2, h3⟩
  · refine ⟨_, (C03_base_layout r c _ _).2 ⟨vals, ids, lids, ps, values_text.2 k1, k2, k3, ?_, rfl, rfl⟩⟩
    rw [hc]; exact k4

theorem requiredOk_text {config : VerifyingConfig} {c : CanonicalizeConfig} :
    RequiredOk config c ↔ ∀ q ∈ config.requiredComponents, Demanded c.components q := by
  unfold RequiredOk Demanded
  simp only [printed_iff]

theorem digestOk_text {r : MockRequest} {config : VerifyingConfig} : DigestOk r config () ↔ DigestMatches r config := by
  unfold DigestOk DigestMatches
  simp only [derive_field, derive_field_none]
  apply or_congr
  · constructor
    · rintro ⟨t, h1, h2⟩
      refine ⟨t, h1, fun hv => ?_⟩
      rw [if_pos hv] at h2
      obtain ⟨alg, value, h3, h4⟩ := h2
      have h5 : (r.body.map alg.digest, ()) = (some value, ()) := h4
      obtain ⟨b, h6, h7⟩ := Option.map_eq_some_iff.1 (congrArg Prod.fst h5)
      exact ⟨alg, value, b, h3, h6, h7⟩
    · rintro ⟨t, h1, h2⟩
      refine ⟨t, h1, ?_⟩
      by_cases hv : config.validateDigest = true
      · rw [if_pos hv]
        obtain ⟨alg, value, b, h3, h4, h5⟩ := h2 hv
        refine ⟨alg, value, h3, ?_⟩
        show (r.body.map alg.digest, ()) = (some value, ())
        rw [h4, Option.map_some, h5]
      · rw [if_neg hv]; trivial
  · apply and_congr_right
    intro _
    by_cases hv : config.requireDigest = true
    · rw [if_pos hv]
      show (r.body.map documentedSha256.digest, ()) = (none, ()) ↔ _
      simp [hv]
    · rw [if_neg hv]
      simp [hv]

/-- C119. Verification succeeds, with this key id, exactly on the acceptable requests. -/
theorem C119_accepted (r : MockRequest) (config : VerifyingConfig) (env : VerifyEnv) (keyId : Str) :
    verify r config env = .ok (.ok ((), keyId)) ↔ Acceptable r config env keyId := by
  rw [C10_acceptance_iff]
  constructor
  · rintro ⟨c, sig, base, h1, h2, h3, h4⟩
    obtain ⟨l, hp, h5⟩ := signatureOk_text h1
    refine ⟨l, c.components, sig, h5, requiredOk_text.1 h2, ?_, digestOk_text.1 h4⟩
    unfold DateOk at h3
    rw [hp] at h3
    exact h3
  · rintro ⟨l, comps, sig, h1, h2, h3, h4⟩
    obtain ⟨c, base, rfl, hp, h5⟩ := validlySigned_text h1
    refine ⟨c, sig, base, h5, requiredOk_text.2 h2, ?_, digestOk_text.2 h4⟩
    unfold DateOk
    rw [hp]
    exact h3

/-- C119. Verification panics exactly on the upsetting requests. -/
theorem C119_panics (r : MockRequest) (config : VerifyingConfig) (env : VerifyEnv) :
    (∃ p, verify r config env = .error p) ↔ Upsetting r config env := by
  rw [C19_mock_exact]
  unfold Upsetting
  refine or_congr ?_ (or_congr ?_ ?_)
  · simp only [fieldText_iff]
    have key : ∀ v, (∀ c, CanonicalizeConfig.fromSignatureInput v ≠ .ok (.ok c)) ↔ ∀ label l comps, ¬ InputText v label l comps := by
      intro v
      constructor
      · rintro h label l comps ⟨d, h1, h2, h3⟩
        exact h { label := some label, components := comps, params := ⟨l.params⟩ } ((C72_accepted v _).2 ⟨d, label, l, h1, h2, rfl, h3, rfl⟩)
      · intro h c hc
        obtain ⟨d, label, l, h1, h2, _, h3, _⟩ := (C72_accepted v c).1 hc
        exact h label l c.components ⟨d, h1, h2, h3⟩
    constructor
    · rintro ⟨v, h1, h2⟩; exact ⟨_, ⟨v, h1, rfl⟩, (key _).1 h2⟩
    · rintro ⟨_, ⟨v, h1, rfl⟩, h2⟩; exact ⟨v, h1, (key _).2 h2⟩
  · apply and_congr_right
    intro _
    constructor
    · rintro ⟨c, sig, kid, h⟩
      obtain ⟨l, h⟩ := presented_text' h
      exact ⟨l, _, sig, kid, h⟩
    · rintro ⟨l, comps, sig, kid, h⟩
      obtain ⟨c, _, _, h⟩ := presented_text h
      exact ⟨c, sig, kid, h⟩
  · have key : ∀ c : CanonicalizeConfig, RequiredPanics config c ↔ ∃ before q after, config.requiredComponents = before ++ q :: after ∧
        (∀ s, ¬ Printed q s) ∧ ∀ p ∈ before, Demanded c.components p := by
      intro c
      unfold RequiredPanics Demanded
      simp only [← printed_iff, ne_eq]
    constructor
    · rintro ⟨c, sig, kid, base, h1, h2⟩
      obtain ⟨l, hp, h3⟩ := signatureOk_text h1
      exact ⟨l, _, sig, kid, h3, (key c).1 h2⟩
    · rintro ⟨l, comps, sig, kid, h1, h2⟩
      obtain ⟨c, base, rfl, _, h3⟩ := validlySigned_text h1
      exact ⟨c, sig, kid, base, h3, (key c).2 h2⟩

/-- C119. All other requests are rejected. -/
theorem C119_rejected (r : MockRequest) (config : VerifyingConfig) (env : VerifyEnv) :
    verify r config env = .ok (.error ()) ↔ (∀ keyId, ¬ Acceptable r config env keyId) ∧ ¬ Upsetting r config env := by
  rw [← C119_panics]
  simp only [← C119_accepted]
  cases verify r config env with
  | error p => exact ⟨(fun h => nomatch h), fun h => absurd ⟨p, rfl⟩ h.2⟩
  | ok x =>
    cases x with
    | error u => exact ⟨fun _ => ⟨(fun _ h => nomatch h), fun ⟨_, h⟩ => nomatch h⟩, fun _ => rfl⟩
    | ok x =>
      obtain ⟨_, k⟩ := x
      exact ⟨(fun h => nomatch h), fun h => absurd rfl (h.1 k)⟩

/-- The three outcomes: the signed request; with a header that is no dictionary, with a clock before 1970, and with a required component
that has no text; a key that does not fit, another body, a missing component, and no signature at all. -/
example : Acceptable exSigned exVerifying exEnv (str% "k1") := (C119_accepted _ _ _ _).1 rfl
example : Upsetting (exWithInput ⟨utf8 (str% "sig=(\"a b\")"), rfl⟩) exVerifying exEnv := (C119_panics _ _ _).1 ⟨.itemBadHeaderName, rfl⟩
example : Upsetting exSigned exVerifying ⟨-1, 0⟩ := (C119_panics _ _ _).1 ⟨.clockBeforeEpoch, rfl⟩
example : Upsetting exSigned { exVerifying with requiredComponents :=
    [.header hHost, .derived ((DerivedComponent.new atMethod).withParam (str% "Bad Name") [])] } exEnv :=
  (C119_panics _ _ _).1 ⟨.displayDerived, rfl⟩
example : ∀ keyId, ¬ Acceptable exSigned { exVerifying with keyProvider := fun _ => [exOtherKey] } exEnv keyId :=
  ((C119_rejected _ _ _).1 rfl).1
example : ∀ keyId, ¬ Acceptable { exSigned with body := some [] } exVerifying exEnv keyId := ((C119_rejected _ _ _).1 rfl).1
example : ∀ keyId, ¬ Acceptable exSigned { exVerifying with requiredComponents := [.derived (.new atPath)] } exEnv keyId :=
  ((C119_rejected _ _ _).1 rfl).1
example : ∀ keyId, ¬ Acceptable (exMock [] none) exVerifying exEnv keyId := ((C119_rejected _ _ _).1 rfl).1

end
end Httpsig
