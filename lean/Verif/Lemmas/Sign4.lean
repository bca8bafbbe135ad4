import Verif.Lemmas.Sign3
import Verif.Lemmas.Total
import Verif.Lemmas.HeaderText
/- Successful signing in terms of the specification. -/
set_option linter.unusedSectionVars false
namespace Httpsig
open Sfv

/-! ### Rendered text is printable -/

theorem serKey_printable {k s : Str} (h : serKey k = some s) : s = k ∧ s.all isStringChar = true := by
  unfold serKey at h
  split at h
  · rename_i hall
    have hp : k.all isStringChar = true := by
      rw [List.all_eq_true] at hall ⊢
      intro c hc
      have := hall c hc
      charcls; omega
    split at h
    · cases h; exact ⟨rfl, rfl⟩
    · split at h
      · cases h; exact ⟨rfl, hp⟩
      · cases h
  · cases h

theorem serParam_printable {k : Str} {v : BareItem} {s : Str} (h : serParam k v = some s) : s.all isStringChar = true := by
  simp only [serParam, Option.bind_eq_bind, Option.bind_eq_some_iff] at h
  obtain ⟨ks, hk, h⟩ := h
  have hk' := (serKey_printable hk).2
  split at h
  · cases h; simp only [List.all_cons, hk']; decide
  · simp only [Option.bind_eq_some_iff] at h
    obtain ⟨vs, hv, h⟩ := h
    cases h
    simp only [List.cons_append, List.all_cons, List.all_append, hk', serBare_printable hv]
    decide

theorem serParams_printable : ∀ {ps : Params} {s : Str}, serParams ps = some s → s.all isStringChar = true
  | [], s, h => by cases h; rfl
  | (k, v) :: ps, s, h => by
    simp only [serParams, Option.bind_eq_bind, Option.bind_eq_some_iff] at h
    obtain ⟨a, ha, b, hb, h⟩ := h
    cases h
    rw [List.all_append, serParam_printable ha, serParams_printable hb]; rfl

theorem serItem_printable {i : Item} {s : Str} (h : serItem i = some s) : s.all isStringChar = true := by
  simp only [serItem, Option.bind_eq_bind, Option.bind_eq_some_iff] at h
  obtain ⟨a, ha, b, hb, h⟩ := h
  cases h
  rw [List.all_append, serBare_printable ha, serParams_printable hb]; rfl

theorem specListText_printable {ids : List Str} (h : ∀ i ∈ ids, i.all isStringChar = true) :
    (specListText ids).all isStringChar = true := by
  cases ids with
  | nil => decide
  | cons i is =>
    have : (is.flatMap fun j => ' ' :: j).all isStringChar = true := by
      rw [List.all_eq_true]
      intro c hc
      obtain ⟨j, hj, hc⟩ := List.mem_flatMap.1 hc
      rcases List.mem_cons.1 hc with rfl | hc
      · decide
      · exact List.all_eq_true.1 (h j (by simp [hj])) c hc
    simp only [specListText, List.cons_append, List.all_cons, List.all_append, h i (by simp), this]
    decide

/-! ### The parameters -/
variable [Deps]

theorem serParams_cons_iff {k : Str} {v : BareItem} {ps : Params} {s : Str} (hk : serKey k = some k)
    (hv : v ≠ .boolean true) :
    serParams ((k, v) :: ps) = some s ↔ ∃ a b, serBare v = some a ∧ serParams ps = some b ∧ s = ';' :: k ++ '=' :: a ++ b := by
  simp only [serParams, serParam, hk, Option.bind_eq_bind, Option.bind_some, if_neg hv, Option.bind_eq_some_iff]
  constructor
  · rintro ⟨a, ⟨vs, h1, h2⟩, b, h3, h4⟩
    cases h2; cases h4
    exact ⟨vs, b, h1, h3, rfl⟩
  · rintro ⟨a, b, h1, h2, rfl⟩
    exact ⟨_, ⟨a, h1, rfl⟩, b, h2, rfl⟩

/-- Rendering of the parameters of a new signature. -/
theorem paramsText_signed_iff {config : SigningConfig} {now : Int} {ps : Str} :
    ParamsText (SignedParams config now) ps ↔ WritableParams config now ∧ ps = signedParamsText config now := by
  rw [← serParams_iff]
  have knonce : ∀ s, serParams (config.nonce.toList.map fun n => (str% "nonce", BareItem.token n)) = some s ↔
      (∀ n, config.nonce = some n → TokenText n) ∧
      s = (match config.nonce with | some n => str% ";nonce=" ++ n | none => []) := by
    intro s
    cases config.nonce with
    | none =>
      simp only [Option.toList_none, List.map_nil, serParams, Option.some.injEq]
      exact ⟨fun h => ⟨(fun n e => by cases e), h.symm⟩, fun h => h.2.symm⟩
    | some n =>
      simp only [Option.toList_some, List.map_cons, List.map_nil]
      rw [serParams_cons_iff (by decide) (by simp)]
      simp only [serBare, serTokenText_iff, serParams]
      constructor
      · rintro ⟨a, b, ⟨h1, rfl⟩, h2, rfl⟩
        cases h2
        exact ⟨fun m e => by cases e; exact h1, by simp⟩
      · rintro ⟨h1, rfl⟩
        exact ⟨n, [], ⟨h1 n rfl, rfl⟩, rfl, by simp⟩
  have kkey : ∀ s, serParams ([(str% "keyid", BareItem.string config.keyId)] ++
      (config.nonce.toList.map fun n => (str% "nonce", BareItem.token n))) = some s ↔
      (∀ c ∈ config.keyId, 32 ≤ c.toNat ∧ c.toNat < 127) ∧
      (∀ n, config.nonce = some n → TokenText n) ∧
      s = str% ";keyid=" ++ quoted config.keyId ++ (match config.nonce with | some n => str% ";nonce=" ++ n | none => []) := by
    intro s
    rw [List.singleton_append, serParams_cons_iff (by decide) (by simp)]
    simp only [serBare, serString_some_iff, knonce]
    constructor
    · rintro ⟨a, b, ⟨h1, rfl⟩, ⟨h2, rfl⟩, rfl⟩
      exact ⟨h1, h2, by simp⟩
    · rintro ⟨h1, h2, rfl⟩
      exact ⟨_, _, ⟨h1, rfl⟩, ⟨h2, rfl⟩, by simp⟩
  have ktime : ∀ (k : Str) (o : Option Int) (rest : Params) (s : Str), serKey k = some k →
      (serParams (o.toList.map (fun t => (k, BareItem.integer t)) ++ rest) = some s ↔
      ∃ b, serParams rest = some b ∧ (∀ t, o = some t → -999999999999999 ≤ t ∧ t ≤ 999999999999999) ∧
      s = (match o with | some t => ';' :: k ++ '=' :: timeText t | none => []) ++ b) := by
    intro k o rest s hk
    cases o with
    | none => simp [eq_comm]
    | some t =>
      simp only [Option.toList_some, List.map_cons, List.map_nil, List.cons_append, List.nil_append]
      rw [serParams_cons_iff hk (by simp)]
      simp only [serBare, serInteger_some_iff]
      constructor
      · rintro ⟨a, b, ⟨h1, rfl⟩, h2, rfl⟩
        exact ⟨b, h2, fun t' e => by cases e; exact h1, by simp⟩
      · rintro ⟨b, h2, h1, rfl⟩
        exact ⟨_, b, ⟨h1 t rfl, rfl⟩, h2, by simp⟩
  unfold SignedParams
  rw [List.append_assoc, List.append_assoc, List.append_assoc, List.singleton_append,
    serParams_cons_iff (by decide) (by simp)]
  simp only [serBare, serString_some_iff, ktime (str% "created") _ _ _ (by decide), ktime (str% "expires") _ _ _ (by decide), kkey]
  constructor
  · rintro ⟨a, b, ⟨h1, rfl⟩, ⟨_, ⟨_, ⟨h2, h3, rfl⟩, h4, rfl⟩, h5, rfl⟩, rfl⟩
    refine ⟨⟨h1, h2, h5, h4, h3⟩, ?_⟩
    unfold signedParamsText
    cases createdTime config now <;> cases expiresTime config now <;> cases config.nonce <;> simp
  · rintro ⟨⟨h1, h2, h5, h4, h3⟩, rfl⟩
    refine ⟨_, _, ⟨h1, rfl⟩, ⟨_, ⟨_, ⟨h2, h3, rfl⟩, h4, rfl⟩, h5, rfl⟩, ?_⟩
    unfold signedParamsText
    cases createdTime config now <;> cases expiresTime config now <;> cases config.nonce <;> simp

/-- The two ways in which the configured times are rejected. -/
theorem buildCanonicalizeConfig_error_iff {config : SigningConfig} {comps : List SignatureComponent} {now : Int} {e : Error} :
    buildCanonicalizeConfig config comps now = .error e ↔
      (∃ t, createdTime config now = some t ∧ now < t ∧ e = .invalidSignatureCreationDate) ∨
      ((∀ t, createdTime config now = some t → t ≤ now) ∧
        ∃ t, expiresTime config now = some t ∧ t < now ∧ e = .invalidSignatureExpiresDate) := by
  unfold buildCanonicalizeConfig
  rw [created_get, expires_get]
  simp only [Bind.bind, Except.bind, pure, Except.pure]
  cases hc : createdTime config now with
  | none =>
    simp only
    cases he : expiresTime config now with
    | none => simp
    | some t =>
      simp only
      by_cases h : t < now
      · rw [if_pos h]; simp [h, eq_comm]
      · rw [if_neg h]; simp [h]
  | some t =>
    simp only
    by_cases hlt : t > now
    · rw [if_pos hlt]
      have : ¬ t ≤ now := by omega
      simp [hlt, this, eq_comm]
    · rw [if_neg hlt]
      have : t ≤ now := by omega
      cases he : expiresTime config now with
      | none => simp [hlt]
      | some t' =>
        simp only
        by_cases h : t' < now
        · rw [if_pos h]; simp [h, hlt, this, eq_comm]
        · rw [if_neg h]; simp [h, hlt]

theorem fromStr_bytes {s : Str} {v : HeaderValue} (h : HeaderValue.fromStr s = some v) : v.bytes = utf8 s := by
  unfold HeaderValue.fromStr HeaderValue.fromBytes at h
  split at h
  · cases h; rfl
  · cases h

theorem valueOf_isSome {R : Type} [RequestLike R] {r : R} {k : SignatureComponent} (h : (valueOf r k).isSome = true) :
    ∃ v, RequestLike.derive r k = .ok (some v) := by
  unfold valueOf at h
  cases hd : RequestLike.derive r k with
  | error p => rw [hd] at h; cases h
  | ok v =>
    rw [hd] at h
    cases v with
    | none => cases h
    | some v => exact ⟨v, rfl⟩

instance : HeaderStore ReqwestRequest where
  headers r := r.headers
  headers_set _ _ _ := rfl
  headers_digest r d := by simp only [ClientRequestLike.computeDigest]; split <;> rfl

instance : HeaderStore BlockingRequest where
  headers r := r.headers
  headers_set _ _ _ := rfl
  headers_digest r d := by simp only [ClientRequestLike.computeDigest]; split <;> rfl

instance : HeaderStore MockRequest where
  headers r := r.headers
  headers_set _ _ _ := rfl
  headers_digest _ _ := rfl

instance : HeaderReads ReqwestRequest where
  derive_congr r s h e := by
    show Except.ok ((r.headers.get h).bind HeaderValue.toStr) = Except.ok ((s.headers.get h).bind HeaderValue.toStr)
    rw [HeaderMap.get_eq_head_getAll, HeaderMap.get_eq_head_getAll, show r.headers.getAll h = s.headers.getAll h from e]

instance : HeaderReads BlockingRequest where
  derive_congr r s h e := by
    show Except.ok ((r.headers.get h).bind HeaderValue.toStr) = Except.ok ((s.headers.get h).bind HeaderValue.toStr)
    rw [HeaderMap.get_eq_head_getAll, HeaderMap.get_eq_head_getAll, show r.headers.getAll h = s.headers.getAll h from e]

instance : HeaderReads MockRequest where
  derive_congr r s h e := by
    show Except.ok ((r.headers.get h).map fun v => v.toStr.getD []) = Except.ok ((s.headers.get h).map fun v => v.toStr.getD [])
    rw [HeaderMap.get_eq_head_getAll, HeaderMap.get_eq_head_getAll, show r.headers.getAll h = s.headers.getAll h from e]

/-! ### The moment of signing -/
section
variable {R : Type} [ClientRequestLike R] [LawfulClient R]

theorem autoWrite_not_sig {r : R} {config : SigningConfig} {n : HeaderName} (h : AutoWrite r config n) :
    n ≠ hSignature ∧ n ≠ hSignatureInput := by
  obtain ⟨⟨rfl, _⟩ | ⟨rfl, _⟩ | ⟨rfl, _⟩, _⟩ := h
  · exact ⟨hSignature_ne_hDate.symm, hInput_ne_hDate.symm⟩
  · exact ⟨hSignature_ne_hHost.symm, hInput_ne_hHost.symm⟩
  · exact ⟨hSignature_ne_hDigest.symm, hInput_ne_hDigest.symm⟩

/-- `signedValue` is the value on the request right before the signature headers are set. -/
theorem signedValue_eq {r r1 r' : R} {config : SigningConfig} (t : Touches (AutoWrite r config) r r1)
    (h : r' = r1 ∨ (∃ v, r' = ClientRequestLike.setHeader r1 hSignatureInput v) ∨
      ∃ v w, r' = ClientRequestLike.setHeader (ClientRequestLike.setHeader r1 hSignatureInput v) hSignature w)
    (k : SignatureComponent) : signedValue r r' k = valueOf r1 k := by
  unfold signedValue
  by_cases hk : k = .header hSignature ∨ k = .header hSignatureInput
  · rw [if_pos hk]
    have := t.derive (k := k) fun n hn e => by
      have hs := autoWrite_not_sig hn
      rcases hk with rfl | rfl
      · cases e; exact hs.1 rfl
      · cases e; exact hs.2 rfl
    unfold valueOf
    rw [this]
  · rw [if_neg hk]
    simp only [not_or] at hk
    unfold valueOf
    rcases h with rfl | ⟨v, rfl⟩ | ⟨v, w, rfl⟩
    · rfl
    · rw [LawfulClient.derive_set_ne _ _ _ _ hk.2]
    · rw [LawfulClient.derive_set_ne _ _ _ _ hk.1, LawfulClient.derive_set_ne _ _ _ _ hk.2]

theorem values_of_map {r1 : R} : ∀ {comps : List SignatureComponent} {vals : List Str}, Values r1 comps vals →
    comps.map (valueOf r1) = vals.map some
  | [], vals, h => by rw [Values.nil_iff] at h; subst h; rfl
  | c :: cs, vals, h => by
    rw [Values.cons_iff] at h
    obtain ⟨v, vs, rfl, h1, h2⟩ := h
    simp [derive_valueOf h1, values_of_map h2]

theorem addAuto_comps {r r1 : R} {config : SigningConfig} {env : SignEnv} {comps : List SignatureComponent}
    (h : addAutoHeaders r config env = .ok (r1, comps)) :
    comps = if config.skipMissing then config.components.filter fun k => (valueOf r1 k).isSome else config.components := by
  obtain ⟨a, b, _, _, _, h⟩ := addAutoHeaders_iff.1 h
  split at h
  · rename_i hs; rw [if_pos hs]; exact h.2
  · rename_i hs; rw [if_neg hs]; exact h

theorem ListIdent.ident {k : SignatureComponent} {s : Str} (h : ListIdent k s) : ∃ i, Ident k i := by
  cases k with
  | header n => exact ⟨_, .header n⟩
  | derived d => cases h with | derived _ _ h => exact ⟨s, .derived d s h⟩

theorem forall2_right {α β : Type} {r : α → β → Prop} {as : List α} {bs : List β} (h : Forall2 r as bs) :
    ∀ b ∈ bs, ∃ a ∈ as, r a b := by
  induction h with
  | nil => simp
  | @cons a b as bs h1 _ ih =>
    intro x hx
    rcases List.mem_cons.1 hx with rfl | hx
    · exact ⟨a, by simp, h1⟩
    · obtain ⟨y, hy, hr⟩ := ih x hx
      exact ⟨y, by simp [hy], hr⟩

theorem inputText_printable {comps : List SignatureComponent} {lids : List Str} {ps : Str} {params : Params}
    (h : Forall2 ListIdent comps lids) (hp : ParamsText params ps) :
    (str% "sig=" ++ (specListText lids ++ ps)).all isStringChar = true := by
  have h1 := specListText_printable (ids := lids) fun i hi => by
    obtain ⟨k, _, hk⟩ := forall2_right h i hi
    exact serItem_printable (listIdent_iff.1 hk)
  simp only [List.all_append, h1, serParams_printable (serParams_iff.2 hp)]
  decide

/-- What a successful `sign` did. -/
theorem sign_success {r r' : R} {config : SigningConfig} {env : SignEnv} (h : sign r config env = .ok (r', .ok ())) :
    ∃ r1 ids lids vals vi vs, AutoFacts r r1 config env ∧ TimesOk config (env.sysNow / 1000000000) ∧ 0 ≤ env.sysNow ∧
      WritableParams config (env.sysNow / 1000000000) ∧
      (∀ k, signedValue r r' k = valueOf r1 k) ∧
      Values r1 (coveredComponents r r' config) vals ∧
      Forall2 Ident (coveredComponents r r' config) ids ∧ Forall2 ListIdent (coveredComponents r r' config) lids ∧
      HeaderValue.fromStr (str% "sig=" ++ (specListText lids ++ signedParamsText config (env.sysNow / 1000000000))) = some vi ∧
      HeaderValue.fromStr (config.label ++ str% "=:" ++ config.signature.sign env.rnd
        (utf8 (specBase ids lids vals (signedParamsText config (env.sysNow / 1000000000)))) ++ str% ":") = some vs ∧
      r' = ClientRequestLike.setHeader (ClientRequestLike.setHeader r1 hSignatureInput vi) hSignature vs := by
  obtain ⟨r1, comps, ha, hn, h⟩ := sign_iff.1 h
  rcases h with ⟨e, _, _, h⟩ | ⟨cc, hb, ⟨e, _, _, h⟩ | ⟨base, si, x, hcan, hx, ⟨_, _, h⟩ | ⟨v, hv, ⟨_, _, h⟩ | ⟨w, hw, hr', _⟩⟩⟩⟩
  · cases h
  · cases h
  · cases h
  · cases h
  have hf := addAuto_facts ha
  have hsv := signedValue_eq hf.touches (Or.inr (Or.inr ⟨v, w, hr'⟩))
  obtain ⟨ht, rfl⟩ := buildCanonicalizeConfig_ok_iff.1 hb
  obtain ⟨vals, ids, lids, ps, h1, h2, h3, h4, rfl, rfl⟩ := canonicalize_ok_iff.1 hcan
  obtain ⟨hw', rfl⟩ := paramsText_signed_iff.1 h4
  have hcomps : coveredComponents r r' config = comps := by
    rw [addAuto_comps ha]
    unfold coveredComponents
    simp only [hsv]
  have hdisp := display_default (display_list_iff.2 ⟨lids, _, h3, h4, rfl⟩)
  have : x = str% "sig=" ++ (specListText lids ++ signedParamsText config (env.sysNow / 1000000000)) := by
    have e : SignatureInput.display _ = .ok x := hx
    rw [show CanonicalizeConfig.toSignatureInput _ = _ from rfl] at hdisp
    rw [e] at hdisp
    cases hdisp
    rfl
  subst this
  rw [hcomps]
  exact ⟨r1, ids, lids, vals, v, w, hf, ht, hn, hw', hsv, h1, h2, h3, hv, hw, hr'⟩

theorem addAuto_total {r : R} {config : SigningConfig} {env : SignEnv} (h : AutoOk r config)
    (hd : config.skipMissing = true → ∀ k ∈ config.components, ∃ v, RequestLike.derive r k = .ok v) : ∃ x, addAutoHeaders r config env = .ok x := by
  have s1 : ∃ a, addDateHeader r config env = .ok a := by
    obtain ⟨o, ho⟩ := LawfulClient.derive_header r hDate
    cases hc : config.addDate with
    | false => exact ⟨r, addDateHeader_iff.2 (.inr ⟨.inl hc, rfl⟩)⟩
    | true =>
      cases o with
      | some s => exact ⟨r, addDateHeader_iff.2 (.inr ⟨.inr ⟨s, ho⟩, rfl⟩)⟩
      | none =>
        obtain ⟨v, hv, _⟩ := fromStr_visible (formatDate_visible env.utcNow)
        exact ⟨_, addDateHeader_iff.2 (.inl ⟨hc, ho, v, hv, rfl⟩)⟩
  obtain ⟨a, ha⟩ := s1
  have ea := (addDate_facts ha).2.1
  have oa := addDate_other ha
  have s2 : ∃ b, addHostHeader a config = .ok b := by
    obtain ⟨o, ho⟩ := LawfulClient.derive_header a hHost
    cases hc : config.addHost with
    | false => exact ⟨a, addHostHeader_iff.2 (.inr ⟨.inl hc, rfl⟩)⟩
    | true =>
      cases o with
      | some s => exact ⟨a, addHostHeader_iff.2 (.inr ⟨.inr (.inl ⟨s, ho⟩), rfl⟩)⟩
      | none =>
        cases hh : ClientRequestLike.host a with
        | none => exact ⟨a, addHostHeader_iff.2 (.inr ⟨.inr (.inr hh), rfl⟩)⟩
        | some s =>
          have ho' := ho
          rw [ea _ (header_ne hHost_ne_hDate)] at ho'
          obtain ⟨v, hv⟩ := fromStr_ok_iff.2 (h.host ⟨.inr (.inl ⟨rfl, hc⟩), ho'⟩ s (by rw [← oa.1, hh]))
          exact ⟨_, addHostHeader_iff.2 (.inl ⟨s, v, hc, ho, hh, hv, rfl⟩)⟩
  obtain ⟨b, hb⟩ := s2
  have eb := (addHost_facts hb).2.1
  have ob := addHost_other hb
  have s3 : ∃ c, addDigestHeader b config = .ok c := by
    obtain ⟨o, ho⟩ := LawfulClient.derive_header b hDigest
    cases hc : config.computeDigest with
    | false => exact ⟨b, addDigestHeader_iff.2 (.inr (.inr ⟨.inl hc, rfl⟩))⟩
    | true =>
      cases o with
      | some s => exact ⟨b, addDigestHeader_iff.2 (.inr (.inr ⟨.inr ⟨s, ho⟩, rfl⟩))⟩
      | none =>
        cases hh : (ClientRequestLike.computeDigest b config.digest).2 with
        | none => exact ⟨_, addDigestHeader_iff.2 (.inr (.inl ⟨hc, ho, hh, rfl⟩))⟩
        | some s =>
          have ho' := ho
          rw [eb _ (header_ne hDigest_ne_hHost), ea _ (header_ne hDigest_ne_hDate)] at ho'
          obtain ⟨v, hv⟩ := fromStr_ok_iff.2 (h.digest ⟨.inr (.inr ⟨rfl, hc⟩), ho'⟩ s (by rw [← oa.2, ← ob, hh]))
          exact ⟨_, addDigestHeader_iff.2 (.inl ⟨s, v, hc, ho, hh, hv, rfl⟩)⟩
  obtain ⟨c, hc⟩ := s3
  have ec := (addDigest_facts hc).2.1
  refine ⟨(c, if config.skipMissing then config.components.filter fun k => (valueOf c k).isSome else config.components), ?_⟩
  refine addAutoHeaders_iff.2 ⟨a, b, ha, hb, hc, ?_⟩
  split
  · rename_i hsk
    refine ⟨fun k hk => ?_, rfl⟩
    cases k with
    | header n => exact LawfulClient.derive_header c n
    | derived d =>
      obtain ⟨v, hv⟩ := hd hsk _ hk
      exact ⟨v, by rw [ec _ (by simp), eb _ (by simp), ea _ (by simp), hv]⟩
  · rfl

theorem canonicalize_returns {R : Type} [RequestLike R] {r : R} {c : CanonicalizeConfig} (hc : ∀ k ∈ c.components, ∃ i, ListIdent k i)
    (hps : ∃ ps, ParamsText c.params.params ps) (hd : ∀ k ∈ c.components, ∃ v, RequestLike.derive r k = .ok v) :
    ∃ x, canonicalize r c = .ok x := by
  have hs := deriveAll_spec r (valueOf r) c.components fun k hk => by
    obtain ⟨v, hv⟩ := hd k hk
    rw [derive_valueOf hv, hv]
  by_cases hm : c.components.filter (fun k => (valueOf r k).isNone) = []
  · rw [hm] at hs
    obtain ⟨vals, hv, _⟩ := deriveAll_nil_iff.1 hs
    obtain ⟨ids, hi⟩ := forall2_of_forall fun k hk => (hc k hk).elim fun _ h => ListIdent.ident h
    obtain ⟨lids, hl⟩ := forall2_of_forall hc
    obtain ⟨ps, hps⟩ := hps
    exact ⟨_, canonicalize_ok_iff.2 ⟨vals, ids, lids, ps, hv, hi, hl, hps, rfl, rfl⟩⟩
  · refine ⟨.error (.missingComponents (c.components.filter fun k => (valueOf r k).isNone)), ?_⟩
    unfold canonicalize
    rw [hs]
    simp only [Bind.bind, Except.bind, ne_eq, hm, not_false_eq_true, if_true]
    rfl

end
end Httpsig
