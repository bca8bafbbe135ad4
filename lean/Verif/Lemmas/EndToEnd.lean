import Verif.Spec.EndToEnd
import Verif.Lemmas.Verify
import Verif.Lemmas.Sign4
/- Verification of signed requests. -/
set_option linter.unusedSectionVars false
namespace Httpsig
open Sfv

theorem same_asStr {a b : BareItem} (h : BareItem.Same a b) : a.asStr = b.asStr := by
  cases a <;> cases b <;> simp_all [BareItem.Same, BareItem.asStr]

theorem same_param {ps qs : Params} (h : ParamsSame ps qs) (k : Str) :
    (IMap.get ps k).bind BareItem.asStr = (IMap.get qs k).bind BareItem.asStr := by
  induction h with
  | nil => rfl
  | @cons a b as bs h1 _ ih =>
    obtain ⟨ka, va⟩ := a
    obtain ⟨kb, vb⟩ := b
    obtain ⟨rfl, h1⟩ := h1
    by_cases e : ka = k
    · simp [IMap.get, e, same_asStr h1]
    · simpa [IMap.get, e] using ih

theorem derive_same {d d' : DerivedComponent} (h : BareItem.Same d.item.bare d'.item.bare)
    (hp : ParamsSame d.item.params d'.item.params) (host : Option Str) (m : Method) (u : Url) :
    d.derive host m u = d'.derive host m u := by
  have e : ∀ k, d.param k = d'.param k := by
    intro k
    have := same_param hp k
    unfold DerivedComponent.param
    cases h1 : IMap.get d.item.params k <;> cases h2 : IMap.get d'.item.params k <;> rw [h1, h2] at this <;> exact this
  unfold DerivedComponent.derive DerivedComponent.name DerivedComponent.deriveNamed
  rw [same_asStr h]
  simp only [e]

variable [Deps]

theorem mock_derive_same (r : MockRequest) {k k' : SignatureComponent} (h : ComponentSame k k') : r.derive k = r.derive k' := by
  cases k <;> cases k'
  · exact derive_same h.1 h.2 _ _ _
  · cases h
  · cases h
  · cases h; rfl

theorem visible_iff {s : Str} : s.all isVisibleChar = true ↔ ∀ c ∈ s, VisibleChar c := by
  rw [List.all_eq_true]
  constructor <;> intro h c hc <;> have := h c hc <;> simpa [isVisibleChar, VisibleChar] using this

theorem mem_signedParams {config : SigningConfig} {now : Int} {e : Str × BareItem} :
    e ∈ SignedParams config now ↔ e = (str% "alg", .string config.signature.name) ∨
      (∃ t, createdTime config now = some t ∧ e = (str% "created", .integer t)) ∨
      (∃ t, expiresTime config now = some t ∧ e = (str% "expires", .integer t)) ∨
      e = (str% "keyid", .string config.keyId) ∨
      (∃ n, config.nonce = some n ∧ e = (str% "nonce", .token n)) := by
  unfold SignedParams
  simp only [List.mem_append, List.mem_singleton, List.mem_map, Option.mem_toList, or_assoc]
  constructor
  · rintro (h | ⟨t, h, rfl⟩ | ⟨t, h, rfl⟩ | h | ⟨t, h, rfl⟩)
    · exact .inl h
    · exact .inr (.inl ⟨t, h, rfl⟩)
    · exact .inr (.inr (.inl ⟨t, h, rfl⟩))
    · exact .inr (.inr (.inr (.inl h)))
    · exact .inr (.inr (.inr (.inr ⟨t, h, rfl⟩)))
  · rintro (h | ⟨t, h, rfl⟩ | ⟨t, h, rfl⟩ | h | ⟨t, h, rfl⟩)
    · exact .inl h
    · exact .inr (.inl ⟨t, h, rfl⟩)
    · exact .inr (.inr (.inl ⟨t, h, rfl⟩))
    · exact .inr (.inr (.inr (.inl h)))
    · exact .inr (.inr (.inr (.inr ⟨t, h, rfl⟩)))

theorem signedParams_clean {config : SigningConfig} {now : Int} (hn : config.nonce ≠ some []) :
    ParamsClean (SignedParams config now) := by
  constructor
  · unfold IMap.NodupKeys SignedParams
    cases createdTime config now <;> cases expiresTime config now <;> cases config.nonce <;>
      simp only [Option.toList, List.map_nil, List.map_cons, List.append_nil, List.cons_append, List.nil_append] <;> decide
  · intro e he
    rcases mem_signedParams.1 he with rfl | ⟨t, _, rfl⟩ | ⟨t, _, rfl⟩ | rfl | ⟨n, h, rfl⟩
    · exact ⟨by simp, by simp, rfl⟩
    · exact ⟨by simp, by simp, rfl⟩
    · exact ⟨by simp, by simp, rfl⟩
    · exact ⟨by simp, by simp, rfl⟩
    · refine ⟨by simp, ?_, rfl⟩
      intro e
      cases e
      exact hn h

theorem signedParams_window {config : SigningConfig} {now ts : Int} {c : CanonicalizeConfig}
    (hc : c.params.params = SignedParams config now) :
    InWindow c ts ↔ (∀ t, createdTime config now = some t → t ≤ ts) ∧ (∀ t, expiresTime config now = some t → ts ≤ t) := by
  unfold InWindow
  rw [hc]
  simp only [mem_signedParams]
  constructor
  · rintro ⟨h1, h2⟩
    exact ⟨fun t ht => h1 t (.inr (.inl ⟨t, ht, rfl⟩)), fun t ht => h2 t (.inr (.inr (.inl ⟨t, ht, rfl⟩)))⟩
  · rintro ⟨h1, h2⟩
    refine ⟨fun t ht => ?_, fun t ht => ?_⟩
    · rcases ht with h | ⟨t', h, e⟩ | ⟨t', h, e⟩ | h | ⟨n, h, e⟩
      · simp at h
      · simp at e; subst e; exact h1 _ h
      · simp at e
      · simp at h
      · simp at e
    · rcases ht with h | ⟨t', h, e⟩ | ⟨t', h, e⟩ | h | ⟨n, h, e⟩
      · simp at h
      · simp at e
      · simp at e; subst e; exact h2 _ h
      · simp at h
      · simp at e

theorem signedParams_date {config : SigningConfig} {now : Int} {v : BareItem} :
    (str% "date", v) ∉ SignedParams config now := by
  rw [mem_signedParams]
  simp

theorem signedParams_keyid {config : SigningConfig} {now : Int} {v : BareItem} :
    (str% "keyid", v) ∈ SignedParams config now ↔ v = .string config.keyId := by
  rw [mem_signedParams]
  simp

theorem signatureHeader_det {v l s l' s' : Str} (h : SignatureHeader v l s) (h' : SignatureHeader v l' s') :
    l = l' ∧ s = s' := by
  have e := parseSignatureHeader_iff.2 h
  rw [parseSignatureHeader_iff.2 h'] at e
  cases e
  exact ⟨rfl, rfl⟩

theorem signatureHeader_made {label s : Str} (hl : '=' ∉ label) (hs : ':' ∉ s) :
    SignatureHeader (label ++ str% "=:" ++ s ++ str% ":") label s := by
  refine ⟨':' :: s ++ str% ":", by simp, hl, str% ":", str% ":", by simp, by simp, by simp, ?_, ?_⟩
  · intro c hc
    have : c ∈ s := List.mem_of_mem_head? hc
    simp only [beq_eq_false_iff_ne]
    rintro rfl
    exact hs this
  · intro c hc
    have : c ∈ s := List.mem_of_mem_getLast? hc
    simp only [beq_eq_false_iff_ne]
    rintro rfl
    exact hs this

variable {R S Rem : Type} [ClientRequestLike R] [LawfulClient R] [ServerRequestLike S Rem]

theorem values_received {r1 : R} {req : S} : ∀ {comps : List SignatureComponent} {vals : List Str}, Values r1 comps vals →
    (∀ k ∈ comps, RequestLike.derive req (normComponent k) = .ok (valueOf r1 k)) → Values req (comps.map normComponent) vals
  | [], vals, h, _ => by rw [Values.nil_iff] at h; rw [List.map_nil, Values.nil_iff]; exact h
  | c :: cs, vals, h, hr => by
    rw [Values.cons_iff] at h
    rw [List.map_cons, Values.cons_iff]
    obtain ⟨v, vs, e, h1, h2⟩ := h
    exact ⟨v, vs, e, by rw [hr c (by simp), derive_valueOf h1], values_received h2 fun k hk => hr k (by simp [hk])⟩

theorem covered_subset {r r' : R} {config : SigningConfig} {k : SignatureComponent}
    (h : k ∈ coveredComponents r r' config) : k ∈ config.components := by
  unfold coveredComponents at h
  split at h
  · exact (List.mem_filter.1 h).1
  · exact h

theorem componentSame_norm {k : SignatureComponent} (h : ComponentRead k) : ComponentSame k (normComponent k) := by
  cases k with
  | header n => rfl
  | derived d => exact ⟨bareSame_norm h.2.1, paramsSame_norm h.2.2.2⟩

theorem ident_norm {k : SignatureComponent} {s : Str} (hk : ComponentRead k) (h : Ident k s) : Ident (normComponent k) s := by
  cases h with
  | header n => exact .header n
  | derived d s h => exact .derived _ _ (serItem_iff.1 (by rw [serItem_norm hk.2, serItem_iff.2 h]))

theorem listIdent_norm {k : SignatureComponent} {s : Str} (hk : ComponentRead k) (h : ListIdent k s) :
    ListIdent (normComponent k) s := by
  rw [listIdent_iff] at h ⊢
  rw [normComponent_toItem, serItem_norm (toItem_ok hk), h]

theorem forall2_imp_left {α β : Type} {p q : α → β → Prop} {l : List α} {m : List β}
    (h : Forall2 p l m) (hi : ∀ a ∈ l, ∀ b, p a b → q a b) : Forall2 q l m := by
  induction h with
  | nil => exact .nil
  | cons h1 _ ih => exact .cons (hi _ (by simp) _ h1) (ih fun a ha => hi a (by simp [ha]))

theorem requiredOk_norm {vc : VerifyingConfig} {c : CanonicalizeConfig} : RequiredOk vc c.norm ↔ RequiredOk vc c := by
  have key : ∀ (k : SignatureComponent) (s : Str), (itemOf (normComponent k)).bare = .string s ↔ (itemOf k).bare = .string s := by
    intro k s
    simp only [← toItem_eq]
    rw [normComponent_toItem]
    cases h : k.toItem.bare <;> simp [normItem, BareItem.norm, h]
  unfold RequiredOk
  simp only [CanonicalizeConfig.norm, List.mem_map]
  constructor
  · intro h r hr
    obtain ⟨s, h1, k, ⟨k', hk', rfl⟩, h2⟩ := h r hr
    exact ⟨s, h1, k', hk', (key k' s).1 h2⟩
  · intro h r hr
    obtain ⟨s, h1, k, hk, h2⟩ := h r hr
    exact ⟨s, h1, _, ⟨k, hk, rfl⟩, (key k s).2 h2⟩

omit [LawfulClient R] in
theorem signedInput_norm_params {r r' : R} {config : SigningConfig} {now : Int} :
    (signedInput r r' config now).norm.params.params = SignedParams config now := by
  apply normParams_of_clean
  intro e he
  rcases mem_signedParams.1 he with rfl | ⟨t, _, rfl⟩ | ⟨t, _, rfl⟩ | rfl | ⟨n, h, rfl⟩ <;> rfl

theorem values_exist {req : S} : ∀ (comps : List SignatureComponent), (∀ k ∈ comps, ∃ v, RequestLike.derive req (normComponent k) = .ok (some v)) →
    ∃ vals, Values req (comps.map normComponent) vals
  | [], _ => ⟨[], Values.nil_iff.2 rfl⟩
  | k :: ks, h => by
    obtain ⟨v, hv⟩ := h k (by simp)
    obtain ⟨vs, hvs⟩ := values_exist ks fun k hk => h k (by simp [hk])
    exact ⟨v :: vs, Values.cons_iff.2 ⟨v, vs, rfl, hv, hvs⟩⟩

/-- What a signed request looks like at a verifier that sees the signature headers and some value for each covered component. -/
theorem arrived_facts {r r' : R} {config : SigningConfig} {env : SignEnv} {req : S}
    (h : sign r config env = .ok (r', .ok ())) (harr : Arrived r r' config req) (hp : Portable config env.rnd) :
    ∃ x ids lids vals vals', SignedBase r r' config (env.sysNow / 1000000000)
        (utf8 (specBase ids lids vals (signedParamsText config (env.sysNow / 1000000000)))) ∧
      (coveredComponents r r' config).map (signedValue r r') = vals.map some ∧
      Values req ((coveredComponents r r' config).map normComponent) vals' ∧ ids.length = vals.length ∧
      (∀ k ∈ coveredComponents r r' config, ComponentRead k) ∧
      RequestLike.derive req (.header hSignatureInput) = .ok (some x) ∧
      CanonicalizeConfig.fromSignatureInput x = .ok (.ok (signedInput r r' config (env.sysNow / 1000000000)).norm) ∧
      RequestLike.derive req (.header hSignature) = .ok (some (config.label ++ str% "=:" ++ config.signature.sign env.rnd
        (utf8 (specBase ids lids vals (signedParamsText config (env.sysNow / 1000000000)))) ++ str% ":")) ∧
      canonicalize req (signedInput r r' config (env.sysNow / 1000000000)).norm =
        .ok (.ok (utf8 (specBase ids lids vals' (signedParamsText config (env.sysNow / 1000000000))),
          (signedInput r r' config (env.sysNow / 1000000000)).norm.toSignatureInput)) := by
  obtain ⟨r1, ids, lids, vals, vi, vs, _, _, _, hw, hsv, h1, h2, h3, h4, h5, hr'⟩ := sign_success h
  have h4p : ParamsText (signedInput r r' config (env.sysNow / 1000000000)).params.params
      (signedParamsText config (env.sysNow / 1000000000)) := paramsText_signed_iff.2 ⟨hw, rfl⟩
  have hprint := inputText_printable h3 h4p
  obtain ⟨vi', e4, t4⟩ := fromStr_visible (visible_of_printable hprint)
  rw [h4] at e4; cases e4
  have hdi : RequestLike.derive r' (.header hSignatureInput) = .ok (some (str% "sig=" ++ (specListText lids ++
      signedParamsText config (env.sysNow / 1000000000)))) := by
    rw [hr', LawfulClient.derive_set_ne _ _ _ _ (fun e => hSignature_ne_hInput (SignatureComponent.header.inj e).symm)]
    exact LawfulClient.derive_set_same _ _ _ _ t4
  have hvis : (config.label ++ str% "=:" ++ config.signature.sign env.rnd
        (utf8 (specBase ids lids vals (signedParamsText config (env.sysNow / 1000000000)))) ++ str% ":").all isVisibleChar = true := by
    rw [List.all_append, List.all_append, List.all_append, visible_iff.2 fun c hc => (hp.label c hc).1,
      visible_iff.2 fun c hc => (hp.signature _ c hc).1]
    decide
  obtain ⟨vs', e5, t5⟩ := fromStr_visible hvis
  rw [h5] at e5; cases e5
  have hds := LawfulClient.derive_set_same (ClientRequestLike.setHeader r1 hSignatureInput vi) hSignature vs _ t5
  rw [← hr'] at hds
  have hdisp := display_default (c := signedInput r r' config (env.sysNow / 1000000000))
    (display_list_iff.2 ⟨lids, _, h3, h4p, rfl⟩)
  have hpc := signedParams_clean (now := env.sysNow / 1000000000) hp.nonce
  obtain ⟨hk, hcs, hps⟩ := componentTidy_read hdisp (by simp [CanonicalizeConfig.getLabel])
    (fun k hk => hp.components k (covered_subset hk)) ⟨hpc.1, fun e he => ⟨(hpc.2 e he).1, (hpc.2 e he).2.tidy⟩⟩
  obtain ⟨y, hy, _, hread⟩ := read_render hk hcs hps
  rw [hdisp] at hy
  cases hy
  have hmap : (coveredComponents r r' config).map (signedValue r r') = vals.map some := by
    rw [← values_of_map h1]
    exact List.map_congr_left fun k _ => hsv k
  obtain ⟨vals', hv'⟩ := values_exist (req := req) (coveredComponents r r' config) fun k hk =>
    (harr.values k hk).imp fun v hv => hv _ (componentSame_norm (hcs k hk))
  refine ⟨_, ids, lids, vals, vals', ⟨ids, lids, vals, h2, h3, hmap, rfl⟩, hmap, hv', ?_, hcs, by rw [harr.input, hdi], hread,
    by rw [harr.signature, hds], ?_⟩
  · have := congrArg List.length hmap
    simp only [List.length_map] at this
    rw [← this]
    exact h2.length_eq.symm
  · exact canonicalize_ok_iff.2 ⟨vals', ids, lids, _, hv', forall2_map_left.2 (forall2_imp_left h2 fun k hk s => ident_norm (hcs k hk)),
      forall2_map_left.2 (forall2_imp_left h3 fun k hk s => listIdent_norm (hcs k hk)), (signedInput_norm_params (r := r) (r' := r')).symm ▸ h4p, rfl, rfl⟩

/-- Exactly when such a request is accepted: the tag of the signed base must fit the base that the verifier computes. -/
theorem verify_arrived_iff {r r' : R} {config : SigningConfig} {env : SignEnv} {req : S}
    (h : sign r config env = .ok (r', .ok ())) (harr : Arrived r r' config req) (hp : Portable config env.rnd) :
    ∃ x ids lids vals vals', SignedBase r r' config (env.sysNow / 1000000000)
        (utf8 (specBase ids lids vals (signedParamsText config (env.sysNow / 1000000000)))) ∧
      (coveredComponents r r' config).map (signedValue r r') = vals.map some ∧
      Values req ((coveredComponents r r' config).map normComponent) vals' ∧ ids.length = vals.length ∧
      (∀ k ∈ coveredComponents r r' config, ComponentRead k) ∧
      RequestLike.derive req (.header hSignatureInput) = .ok (some x) ∧
      CanonicalizeConfig.fromSignatureInput x = .ok (.ok (signedInput r r' config (env.sysNow / 1000000000)).norm) ∧
      canonicalize req (signedInput r r' config (env.sysNow / 1000000000)).norm =
        .ok (.ok (utf8 (specBase ids lids vals' (signedParamsText config (env.sysNow / 1000000000))),
          (signedInput r r' config (env.sysNow / 1000000000)).norm.toSignatureInput)) ∧
      ∀ vc venv rem kid, verify req vc venv = .ok (.ok (rem, kid)) ↔
        config.label = str% "sig" ∧ kid = config.keyId ∧ 0 ≤ venv.sysNow ∧
        (∀ t, createdTime config (env.sysNow / 1000000000) = some t → t ≤ venv.sysNow / 1000000000) ∧
        (∀ t, expiresTime config (env.sysNow / 1000000000) = some t → venv.sysNow / 1000000000 ≤ t) ∧
        (∃ k ∈ vc.keyProvider config.keyId, k.verify (utf8 (specBase ids lids vals' (signedParamsText config (env.sysNow / 1000000000))))
          (config.signature.sign env.rnd (utf8 (specBase ids lids vals (signedParamsText config (env.sysNow / 1000000000))))) = true) ∧
        RequiredOk vc (signedInput r r' config (env.sysNow / 1000000000)) ∧ vc.validateDate = false ∧
        DigestOk req vc rem := by
  obtain ⟨x, ids, lids, vals, vals', hb, hmap, hvals, hlen, hread, hx, hparse, hsig, hcan⟩ := arrived_facts h harr hp
  refine ⟨x, ids, lids, vals, vals', hb, hmap, hvals, hlen, hread, hx, hparse, hcan, fun vc venv rem kid => ?_⟩
  have hsh := signatureHeader_made (label := config.label) (s := config.signature.sign env.rnd
        (utf8 (specBase ids lids vals (signedParamsText config (env.sysNow / 1000000000)))))
    (fun hm => (hp.label _ hm).2 rfl) (fun hm => (hp.signature _ _ hm).2 rfl)
  have hpar := signedInput_norm_params (r := r) (r' := r') (config := config) (now := env.sysNow / 1000000000)
  rw [verify_ok_iff]
  constructor
  · rintro ⟨c, sig, base, hok, hreq, hdate, hdig⟩
    obtain ⟨v, e1, e2⟩ := hok.input
    rw [hx] at e1; cases e1
    rw [hparse] at e2; cases e2
    obtain ⟨w, label, e3, e4, e5⟩ := hok.signature
    rw [hsig] at e3; cases e3
    obtain ⟨el, es⟩ := signatureHeader_det e4 hsh
    subst el es
    have el : config.label = str% "sig" := (Option.some.inj e5).symm
    have ek := signedParams_keyid.1 (hpar ▸ hok.keyid)
    obtain ⟨si, e6⟩ := hok.canon
    rw [hcan] at e6; cases e6
    have ek : kid = config.keyId := by cases ek; rfl
    subst ek
    have hwin := (signedParams_window hpar).1 hok.window
    refine ⟨el, rfl, hok.clock, hwin.1, hwin.2, hok.key, requiredOk_norm.1 hreq, ?_, hdig⟩
    cases hv : vc.validateDate with
    | false => rfl
    | true =>
      obtain ⟨v, hm, _⟩ := hdate hv
      exact absurd (hpar ▸ hm) signedParams_date
  · rintro ⟨el, rfl, hclock, hc, he, hkey, hreq, hd, hdig⟩
    refine ⟨_, _, _, ⟨⟨x, hx, hparse⟩, ⟨_, _, hsig, hsh, ?_⟩, hpar ▸ signedParams_keyid.2 rfl, ⟨config.signature.name, ?_⟩, hclock,
      (signedParams_window hpar).2 ⟨hc, he⟩, ⟨_, hcan⟩, hkey⟩, requiredOk_norm.2 hreq, ?_, hdig⟩
    · rw [el]; rfl
    · rw [hpar]; exact mem_signedParams.2 (.inl rfl)
    · intro hv; rw [hd] at hv; cases hv

theorem Received.arrived {r r' : R} {config : SigningConfig} {env : SignEnv} {req : S}
    (h : sign r config env = .ok (r', .ok ())) (hrec : Received r r' config req) : Arrived r r' config req := by
  refine ⟨hrec.input, hrec.signature, fun k hk => ?_⟩
  obtain ⟨r1, ids, lids, vals, vi, vs, _, _, _, _, hsv, h1, _⟩ := sign_success h
  unfold Values at h1
  obtain ⟨i, hi, rfl⟩ := List.mem_iff_getElem.1 hk
  have hl : i < vals.length := by have := congrArg List.length h1; simp at this; omega
  have := congrArg (fun l => l[i]?) h1
  simp [hi, hl] at this
  exact ⟨vals[i], fun k' hk' => by rw [hrec.covered _ hk k' hk', hsv, derive_valueOf this]⟩

theorem values_unique {req : S} {comps : List SignatureComponent} {vals vals' : List Str} (h : Values req comps vals)
    (h' : Values req comps vals') : vals = vals' := by
  unfold Values at h h'
  rw [h] at h'
  exact (List.map_inj_right (by intro a b e; cases e; rfl)).1 h'

/-- Exactly when a signed request is accepted. -/
theorem verify_signed_iff {r r' : R} {config : SigningConfig} {env : SignEnv} {req : S}
    (h : sign r config env = .ok (r', .ok ())) (hrec : Received r r' config req) (hp : Portable config env.rnd) :
    ∃ base, SignedBase r r' config (env.sysNow / 1000000000) base ∧
      ∀ vc venv rem kid, verify req vc venv = .ok (.ok (rem, kid)) ↔
        config.label = str% "sig" ∧ kid = config.keyId ∧ 0 ≤ venv.sysNow ∧
        (∀ t, createdTime config (env.sysNow / 1000000000) = some t → t ≤ venv.sysNow / 1000000000) ∧
        (∀ t, expiresTime config (env.sysNow / 1000000000) = some t → venv.sysNow / 1000000000 ≤ t) ∧
        (∃ k ∈ vc.keyProvider config.keyId, k.verify base (config.signature.sign env.rnd base) = true) ∧
        RequiredOk vc (signedInput r r' config (env.sysNow / 1000000000)) ∧ vc.validateDate = false ∧
        DigestOk req vc rem := by
  obtain ⟨_, ids, lids, vals, vals', hb, hmap, hvals, _, hread, _, _, _, hiff⟩ := verify_arrived_iff h (hrec.arrived h) hp
  obtain ⟨r1, _, _, vals1, _, _, _, _, _, _, hsv, h1, _⟩ := sign_success h
  have e1 : vals1 = vals := by
    have := values_of_map h1
    rw [← List.map_congr_left fun k _ => hsv k, hmap] at this
    exact ((List.map_inj_right (by intro a b e; cases e; rfl)).1 this).symm
  have e2 : vals' = vals := by
    rw [← e1]
    exact values_unique hvals (values_received h1 fun k hk => by rw [hrec.covered k hk _ (componentSame_norm (hread k hk)), hsv k])
  subst e2
  exact ⟨_, hb, hiff⟩

end Httpsig
