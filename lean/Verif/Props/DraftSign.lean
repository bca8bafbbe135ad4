import Verif.Props.Draft
import Verif.Props.EndToEnd
import Verif.Props.Grammar
/-
C89: a verifier that follows the draft, on requests signed by the library.
-/
set_option linter.unusedSectionVars false
namespace Httpsig
open Sfv
variable [Deps]

/-! ### C89 -/

theorem dict_of_display {c : CanonicalizeConfig} {x : Str} (hr : c.toSignatureInput.display = .ok x) (hk : KeyOk c.getLabel)
    (hc : ∀ k ∈ c.components, ComponentRead k) (hp : ParamsOk c.params.params) :
    Grammar.Dict x [(c.getLabel, .innerList ⟨(c.components.map itemOf).map normItem, normParams c.params.params⟩)] := by
  have hd : DictOk [(c.toSignatureInput.label, .innerList c.toSignatureInput.list.inner)] := by
    refine ⟨by simp, by simp [IMap.NodupKeys], ?_⟩
    intro e he
    simp at he
    subst he
    exact ⟨hk, innerOk_of_read hc hp⟩
  obtain ⟨y, hy, _, hparse⟩ := parseDictionary_ser hd
  have := display_eq_ok hr
  rw [hy] at this
  cases this
  rw [← map_toItem]
  exact (Grammar.parseDictionary_iff _ _).1 hparse

theorem trimmed_ends {s : Str} (h1 : ∀ c ∈ s.head?, isOws c = false) (h2 : ∀ c ∈ s.getLast?, isOws c = false) : Trimmed isOws s s := by
  refine ⟨[], [], by simp, by simp, by simp, ?_, ?_⟩
  · intro c hc; exact h1 c hc
  · intro c hc; exact h2 c hc

theorem FieldValue.single {v : HeaderValue} {s w : Str} (h : v.toStr = some s) (ht : Trimmed isOws s s) : FieldValue [v] w ↔ w = s := by
  constructor
  · intro hw
    cases hw with
    | one h1 h2 =>
      rw [h] at h1; cases h1
      exact ((trimmed_self_iff h2).2 ht).symm
    | more _ _ h3 => exact h3.ne_nil.elim
  · rintro rfl; exact .one h ht

theorem paramsText_last {config : SigningConfig} {now : Int} (hw : WritableParams config now) (hn : config.nonce ≠ some []) (p : Str) :
    ∀ c ∈ (p ++ signedParamsText config now).getLast?, isOws c = false := by
  intro c hc
  unfold signedParamsText at hc
  rw [← List.append_assoc] at hc
  cases hv : config.nonce with
  | none =>
    rw [hv] at hc
    simp only [List.append_nil, quoted] at hc
    rw [← List.append_assoc, ← List.append_assoc, List.getLast?_append] at hc
    simp at hc
    rw [← hc]; rfl
  | some n =>
    rw [hv] at hc
    simp only at hc
    cases n with
    | nil => exact absurd hv hn
    | cons d ds =>
      have hb := (hw.nonce _ hv).resolve_left (by simp)
      rw [← Grammar.token_iff, Bool.and_eq_true, List.all_eq_true] at hb
      obtain ⟨h1, h2⟩ := hb
      rw [← List.append_assoc, ← List.append_assoc, List.getLast?_append] at hc
      have hc : c ∈ (d :: ds).getLast? := by
        cases hl : (d :: ds).getLast? with
        | none => simp at hl
        | some e => rw [hl] at hc; simpa using hc
      have : isTokenStart c = true ∨ isTokenChar c = true := by
        rcases List.mem_cons.1 (List.mem_of_getLast? hc) with rfl | hm
        · exact .inl h1
        · exact .inr (h2 c hm)
      cases ho : isOws c with
      | false => rfl
      | true =>
        unfold isOws at ho
        simp only [Bool.or_eq_true, beq_iff_eq] at ho
        rcases ho with rfl | rfl <;> revert this <;> decide

theorem DraftValue.shape {m : Message} {c : SignatureComponent} {w : Str} (h : DraftValue m c w) :
    (∃ n, c = .header n) ∨ ∃ s, c = .derived (.new ('@' :: s)) := by
  cases h with
  | field => exact .inl ⟨_, rfl⟩
  | _ => exact .inr ⟨_, rfl⟩

theorem component_of_item {m : Message} {k c : SignatureComponent} {w : Str} (hk : ComponentRead k) (hw : DraftValue m c w)
    (h : normItem (itemOf k) = (itemOf c)) : c = k := by
  cases k with
  | header n =>
    have h : (⟨.string n.str, []⟩ : Item) = (itemOf c) := h
    rcases hw.shape with ⟨n', rfl⟩ | ⟨s, rfl⟩
    · have h := BareItem.string.inj (congrArg Item.bare h)
      have : n = n' := by cases n; cases n'; cases h; rfl
      rw [this]
    · have h := BareItem.string.inj (congrArg Item.bare h)
      exact absurd (h ▸ by simp : '@' ∈ n.str) (headerName_no_at n)
  | derived d =>
    obtain ⟨⟨cs, hcs⟩, _⟩ := hk
    have hb : (BareItem.string ('@' :: cs)) = (itemOf c).bare := by
      rw [← h]
      show _ = d.item.bare.norm
      rw [hcs]
      rfl
    have hps : normParams d.item.params = (itemOf c).params := by rw [← h]; rfl
    rcases hw.shape with ⟨n', rfl⟩ | ⟨s, rfl⟩
    · have h := BareItem.string.inj hb
      exact absurd (h ▸ by simp : '@' ∈ n'.str) (headerName_no_at n')
    · have e1 : d.item.params = [] := List.map_eq_nil_iff.1 hps
      have e2 := BareItem.string.inj hb
      obtain ⟨⟨b, ps⟩⟩ := d
      cases e1
      cases hcs
      cases e2
      rfl

theorem components_of_items {m : Message} : ∀ {ks cs : List SignatureComponent} {ws : List Str}, (∀ k ∈ ks, ComponentRead k) →
    Forall2 (DraftValue m) cs ws → cs.map itemOf = (ks.map itemOf).map normItem → cs = ks
  | [], _, _, _, _, h => List.map_eq_nil_iff.1 h
  | k :: ks, [], _, _, _, h => nomatch h
  | k :: ks, c :: cs, _, hk, .cons h1 h2, h => by
    have e := (List.cons.inj h).1
    rw [component_of_item (hk k (by simp)) h1 e.symm,
      components_of_items (fun j hj => hk j (by simp [hj])) h2 (List.cons.inj h).2]

theorem items_of_components {m : Message} : ∀ {ks : List SignatureComponent} {ws : List Str}, Forall2 (DraftValue m) ks ws →
    (ks.map itemOf).map normItem = ks.map itemOf
  | [], _, _ => rfl
  | k :: ks, _, .cons h1 h2 => by
    rw [List.map_cons, List.map_cons, items_of_components h2]
    rcases h1.shape with ⟨n', rfl⟩ | ⟨s, rfl⟩ <;> rfl

/-- The parameters written by signing have the types of the draft exactly if there is no nonce. -/
theorem signedParams_types {config : SigningConfig} {now : Int} : ParamTypes (SignedParams config now) ↔ config.nonce = none := by
  constructor
  · intro h
    cases hn : config.nonce with
    | none => rfl
    | some n =>
      obtain ⟨s, hs⟩ := h.2 (str% "nonce") (by simp) (.token n) (mem_signedParams.2 (.inr (.inr (.inr (.inr ⟨n, hn, rfl⟩)))))
      cases hs
  · intro hn
    refine ⟨fun n hm v hv => ?_, fun n hm v hv => ?_⟩
    all_goals
      simp only [List.mem_cons, List.not_mem_nil, or_false] at hm
      rcases mem_signedParams.1 hv with e | ⟨t, _, e⟩ | ⟨t, _, e⟩ | e | ⟨t, h, e⟩
    all_goals first | (rw [hn] at h; cases h; done) | skip
    all_goals cases e
    all_goals first | exact ⟨_, rfl⟩ | (exfalso; revert hm; decide)

/-- C89. After a successful `sign` with a key as label and an algorithm whose signatures are texts in Base64: a verifier that
follows the draft, whatever its keys, accepts the signature named `l` exactly if `l` and the configured label are both `sig`,
there is no nonce, and the signature (made by the library over its own base) fits the base that the draft gives to the
signed request. -/
theorem C89_draft_verifier (r r' : ReqwestRequest) (config : SigningConfig) (env : SignEnv) (h : sign r config env = .ok (r', .ok ()))
    (hp : Portable config env.rnd) (hk : Grammar.Key config.label)
    (hsig : ∀ m, ∃ tag, Grammar.Base64Text (config.signature.sign env.rnd m) tag) :
    ∃ base tag, SignedBase r r' config (env.sysNow / 1000000000) base ∧
      Grammar.Base64Text (config.signature.sign env.rnd base) tag ∧
      ∀ l check, DraftAccepts r'.message l check ↔ l = str% "sig" ∧ config.label = str% "sig" ∧ config.nonce = none ∧
        ∃ b, DraftBase r'.message (coveredComponents r r' config) (SignedParams config (env.sysNow / 1000000000)) b ∧
          check (utf8 b) tag = true := by
  obtain ⟨r1, ids, lids, vals, vi, vs, _, _, _, hw, hsv, h1, h2, h3, h4, h5, hr'⟩ := sign_success h
  obtain ⟨tag, htag⟩ := hsig (utf8 (specBase ids lids vals (signedParamsText config (env.sysNow / 1000000000))))
  have hmap : (coveredComponents r r' config).map (signedValue r r') = vals.map some := by
    rw [← values_of_map h1]
    exact List.map_congr_left fun k _ => hsv k
  refine ⟨_, tag, ⟨ids, lids, vals, h2, h3, hmap, rfl⟩, htag, fun l check => ?_⟩
  have hi : r'.message.fields.getAll hSignatureInput = [vi] := by
    rw [hr']
    show HeaderMap.getAll (HeaderMap.insert _ _ _) _ = _
    rw [HeaderMap.getAll_insert_ne _ _ hSignature_ne_hInput.symm]
    exact HeaderMap.getAll_insert_self _ _ _
  have hs : r'.message.fields.getAll hSignature = [vs] := by
    rw [hr']
    exact HeaderMap.getAll_insert_self _ _ _
  have h4p : ParamsText (signedInput r r' config (env.sysNow / 1000000000)).params.params
      (signedParamsText config (env.sysNow / 1000000000)) := paramsText_signed_iff.2 ⟨hw, rfl⟩
  obtain ⟨vi', e4, t4⟩ := fromStr_visible (visible_of_printable (inputText_printable h3 h4p))
  rw [h4] at e4; cases e4
  have hvis : (config.label ++ str% "=:" ++ config.signature.sign env.rnd
        (utf8 (specBase ids lids vals (signedParamsText config (env.sysNow / 1000000000)))) ++ str% ":").all isVisibleChar = true := by
    rw [List.all_append, List.all_append, List.all_append, visible_iff.2 fun c hc => (hp.label c hc).1,
      visible_iff.2 fun c hc => (hp.signature _ c hc).1]
    decide
  obtain ⟨vs', e5, t5⟩ := fromStr_visible hvis
  rw [h5] at e5; cases e5
  have hdisp := display_default (c := signedInput r r' config (env.sysNow / 1000000000))
    (display_list_iff.2 ⟨lids, _, h3, h4p, rfl⟩)
  have hpc := signedParams_clean (now := env.sysNow / 1000000000) hp.nonce
  obtain ⟨hkk, hcs, hps⟩ := componentTidy_read hdisp (by simp [CanonicalizeConfig.getLabel])
    (fun k hk => hp.components k (covered_subset hk)) ⟨hpc.1, fun e he => ⟨(hpc.2 e he).1, (hpc.2 e he).2.tidy⟩⟩
  have hdict := dict_of_display hdisp hkk hcs hps
  have hnp : normParams (SignedParams config (env.sysNow / 1000000000)) = SignedParams config (env.sysNow / 1000000000) :=
    signedInput_norm_params (r := r) (r' := r')
  have hdict : Grammar.Dict (str% "sig=" ++ (specListText lids ++ signedParamsText config (env.sysNow / 1000000000)))
      [(str% "sig", .innerList ⟨((coveredComponents r r' config).map itemOf).map normItem,
        SignedParams config (env.sysNow / 1000000000)⟩)] := by
    rw [← hnp]; exact hdict
  have hdict' : Grammar.Dict (config.label ++ str% "=:" ++ config.signature.sign env.rnd
        (utf8 (specBase ids lids vals (signedParamsText config (env.sysNow / 1000000000)))) ++ str% ":")
      [(config.label, .item ⟨.byteSeq tag, []⟩)] := by
    have := Grammar.Dict.mk (w := []) (fun _ hc => nomatch hc) (.last (w := []) (.item hk (.mk (.binary htag) .nil)) (fun _ hc => nomatch hc))
    rw [show ∀ e : ListEntry, Grammar.collect [(config.label, e)] = [(config.label, e)] from fun e => by
      simp [Grammar.collect, Grammar.lastValue, List.eraseDups_cons]] at this
    simpa [Grammar.collect] using this
  have hf := fun w => FieldValue.single (w := w) t4 (trimmed_ends (by intro c hc; cases hc; rfl) (by
    rw [← List.append_assoc]; exact paramsText_last hw hp.nonce _))
  have hf' := fun w => FieldValue.single (w := w) t5 (trimmed_ends (by
    obtain ⟨d, ds, hd, n1, n2⟩ := hk.head
    intro c hc
    rw [hd] at hc
    cases hc
    simp [isOws, n1, n2]) (by
    intro c hc
    rw [List.getLast?_append] at hc
    simp at hc
    rw [← hc]; rfl))
  constructor
  · rintro ⟨x, y, d, e, comps, params, tag', b, g1, g2, g3, g4, g5, ⟨ps, g6⟩, g7, g8, g9⟩
    rw [hi, hf] at g1
    rw [hs, hf'] at g2
    subst g1 g2
    have := C72_unambiguous _ _ _ g3 hdict
    subst this
    have := C72_unambiguous _ _ _ g4 hdict'
    subst this
    simp only [List.mem_singleton, Prod.mk.injEq, ListEntry.innerList.injEq, InnerList.mk.injEq, ListEntry.item.injEq, Item.mk.injEq,
      BareItem.byteSeq.injEq] at g5 g6
    obtain ⟨rfl, e1, rfl⟩ := g5
    obtain ⟨e2, rfl, _⟩ := g6
    have hcomps : comps = coveredComponents r r' config := by
      obtain ⟨_, ws, _, _, hv, _⟩ := g8
      exact components_of_items hcs hv e1
    subst hcomps
    exact ⟨rfl, e2.symm, signedParams_types.1 g7, b, g8, g9⟩
  · rintro ⟨rfl, e2, hn, b, g8, g9⟩
    obtain ⟨_, ws, _, _, hv, _⟩ := id g8
    refine ⟨_, _, _, _, coveredComponents r r' config, _, tag, b, hi ▸ (hf _).2 rfl, hs ▸ (hf' _).2 rfl, hdict, hdict', ?_, ⟨[], ?_⟩,
      signedParams_types.2 hn, g8, g9⟩
    · rw [items_of_components hv]; exact List.mem_singleton.2 rfl
    · rw [e2]; exact List.mem_singleton.2 rfl

theorem signedBase_canonical {r r' : ReqwestRequest} {config : SigningConfig} {now : Int} {base : Bytes} (hb : SignedBase r r' config now base)
    (hw : WritableParams config now)
    (hcov : ∀ k ∈ coveredComponents r r' config, k ≠ .header hSignature ∧ k ≠ .header hSignatureInput) :
    ∃ text si, base = utf8 text ∧ canonicalize r' (signedInput r r' config now) = .ok (.ok (utf8 text, si)) := by
  obtain ⟨ids, lids, vals, h1, h2, h3, rfl⟩ := hb
  refine ⟨_, _, rfl, canonicalize_ok_iff.2 ⟨vals, ids, lids, _, ?_, h1, h2, paramsText_signed_iff.2 ⟨hw, rfl⟩, rfl, rfl⟩⟩
  have h3 : ∀ {ks : List SignatureComponent} {vals : List Str}, (∀ k ∈ ks, k ≠ .header hSignature ∧ k ≠ .header hSignatureInput) →
      ks.map (signedValue r r') = vals.map some → Values r' ks vals := by
    intro ks
    induction ks with
    | nil => intro vals _ h; rw [Values.nil_iff]; exact List.map_eq_nil_iff.1 h.symm
    | cons k ks ih =>
      intro vals hk h
      cases vals with
      | nil => cases h
      | cons v vals =>
        have h := List.cons.inj h
        refine Values.cons_iff.2 ⟨v, vals, rfl, ?_, ih (fun j hj => hk j (by simp [hj])) h.2⟩
        have := h.1
        unfold signedValue at this
        have hne := hk k (by simp)
        rw [if_neg (by rintro (h | h); exact hne.1 h; exact hne.2 h)] at this
        unfold valueOf at this
        split at this
        · rename_i w hw; rw [hw, this]
        · cases this
  exact h3 hcov ‹_›

/-- C89, partial. With the label `sig`, no nonce, and different covered components for which the signed request is regular, none of
them a signature header: a verifier that follows the draft accepts the signature exactly if its key accepts it over the base
that was signed. Missing: other labels, nonces, lists with repetitions and irregular requests, see `C89_draft_verifier`. -/
theorem C89_conforms_partial (r r' : ReqwestRequest) (config : SigningConfig) (env : SignEnv) (h : sign r config env = .ok (r', .ok ()))
    (hp : Portable config env.rnd) (hsig : ∀ m, ∃ tag, Grammar.Base64Text (config.signature.sign env.rnd m) tag)
    (hlabel : config.label = str% "sig") (hnonce : config.nonce = none)
    (hcov : ∀ k ∈ coveredComponents r r' config, k ≠ .header hSignature ∧ k ≠ .header hSignatureInput)
    (hq : ∀ n, .header n ∈ coveredComponents r r' config → '"' ∉ n.str) (hn : (coveredComponents r r' config).Nodup)
    (hreg : ∀ k ∈ coveredComponents r r' config, Regular r'.message k) :
    ∃ base tag, SignedBase r r' config (env.sysNow / 1000000000) base ∧
      Grammar.Base64Text (config.signature.sign env.rnd base) tag ∧
      ∀ check, DraftAccepts r'.message (str% "sig") check ↔ check base tag = true := by
  have hkey : Grammar.Key config.label := by
    rw [hlabel]
    exact .mk (.inl ⟨by decide, by decide⟩) (by
      intro d hd
      simp only [List.mem_cons, List.not_mem_nil, or_false] at hd
      rcases hd with rfl | rfl <;> exact .inl ⟨by decide, by decide⟩)
  obtain ⟨base, tag, hb, ht, hiff⟩ := C89_draft_verifier r r' config env h hp hkey hsig
  refine ⟨base, tag, hb, ht, fun check => ?_⟩
  obtain ⟨_, _, _, _, _, _, _, _, _, hw, _⟩ := sign_success h
  obtain ⟨text, si, rfl, hcan⟩ := signedBase_canonical hb hw hcov
  have hdb := (C88_computed_exact r' _ text si hq hcan).2 ⟨hn, hreg⟩
  rw [hiff]
  constructor
  · rintro ⟨_, _, _, b, hdb', hc⟩
    obtain ⟨si', hcan'⟩ := (C88_base_exact r' (signedInput r r' config (env.sysNow / 1000000000)) b hdb').2 hreg
    rw [hcan] at hcan'
    rw [(Prod.mk.inj (Except.ok.inj (Except.ok.inj hcan'))).1]
    exact hc
  · intro hc
    exact ⟨rfl, hlabel, hnonce, text, hdb, hc⟩

/-- C89, negative. Under every other label, and with every nonce, no verifier that follows the draft accepts the signed request,
whatever its keys; and neither if a component is covered twice. -/
theorem C89_neg_label_nonce (r r' : ReqwestRequest) (config : SigningConfig) (env : SignEnv) (h : sign r config env = .ok (r', .ok ()))
    (hp : Portable config env.rnd) (hk : Grammar.Key config.label)
    (hsig : ∀ m, ∃ tag, Grammar.Base64Text (config.signature.sign env.rnd m) tag)
    (hbad : config.label ≠ str% "sig" ∨ config.nonce ≠ none ∨ ¬ (coveredComponents r r' config).Nodup) (l : Str) (check : Bytes → Bytes → Bool) :
    ¬ DraftAccepts r'.message l check := by
  obtain ⟨_, _, _, _, hiff⟩ := C89_draft_verifier r r' config env h hp hk hsig
  rw [hiff]
  rintro ⟨_, h1, h2, b, h3, _⟩
  rcases hbad with hb | hb | hb
  · exact hb h1
  · exact hb h2
  · exact hb h3.1

/-! ### Examples -/

theorem base64Text_encode (b : Bytes) : Grammar.Base64Text (Base64.encode b) b :=
  (Grammar.lenientDecode_iff _ _).1 (Base64.lenientDecode_encode b)

/-- `exSigning` without the nonce. -/
def exPlain : SigningConfig := { exSigning with nonce := none }
/-- What signing makes of `exReqwest`. -/
def exPlainSigned : ReqwestRequest :=
  { exReqwestSigned with headers := exReqwestSigned.headers.insert hSignatureInput ⟨utf8 (str% "sig=(\"@method\" \"host\" \"digest\" \"date\");alg=\"toy\";created=150;expires=210;keyid=\"k1\""), rfl⟩ }

/-- C89: the hypotheses of the positive result can be met. -/
example : sign exReqwest exPlain exSignEnv = .ok (exPlainSigned, .ok ()) ∧ Portable exPlain exSignEnv.rnd ∧
    (∀ m, ∃ tag, Grammar.Base64Text (exPlain.signature.sign exSignEnv.rnd m) tag) ∧ exPlain.label = str% "sig" ∧ exPlain.nonce = none ∧
    (∀ k ∈ coveredComponents exReqwest exPlainSigned exPlain, k ≠ .header hSignature ∧ k ≠ .header hSignatureInput) ∧
    (∀ n, .header n ∈ coveredComponents exReqwest exPlainSigned exPlain → '"' ∉ n.str) ∧
    (coveredComponents exReqwest exPlainSigned exPlain).Nodup ∧
    (∀ k ∈ coveredComponents exReqwest exPlainSigned exPlain, Regular exPlainSigned.message k) := by
  have hc : coveredComponents exReqwest exPlainSigned exPlain =
    [.derived (.new atMethod), .header hHost, .header hDigest, .header hDate] := rfl
  rw [hc]
  refine ⟨rfl, ⟨exPortable.components, (by intro h; cases h), exPortable.label, exPortable.signature⟩, fun _ => ⟨_, base64Text_encode _⟩, rfl, rfl,
    ?_, ?_, ?_, ?_⟩
  · intro k hk
    simp only [List.mem_cons, List.not_mem_nil, or_false] at hk
    rcases hk with rfl | rfl | rfl | rfl <;> constructor <;> intro h <;> first | cases h; done | exact nomatch congrArg HeaderName.str (SignatureComponent.header.inj h)
  · intro n hn
    simp only [List.mem_cons, List.not_mem_nil, or_false, reduceCtorEq, false_or, SignatureComponent.header.injEq] at hn
    rcases hn with rfl | rfl | rfl
    · show '"' ∉ str% "host"; decide
    · show '"' ∉ str% "digest"; decide
    · show '"' ∉ str% "date"; decide
  · have h1 : hHost ≠ hDigest := fun e => nomatch congrArg HeaderName.str e
    have h2 : hHost ≠ hDate := fun e => nomatch congrArg HeaderName.str e
    have h3 : hDigest ≠ hDate := fun e => nomatch congrArg HeaderName.str e
    simp [h1, h2, h3]
  · intro k hk
    simp only [List.mem_cons, List.not_mem_nil, or_false] at hk
    rcases hk with rfl | rfl | rfl | rfl
    · exact .method
    · exact .field (v := ⟨utf8 (str% "example.com"), rfl⟩) (s := str% "example.com") rfl rfl (trimmed_iff.2 rfl)
    · exact .field (v := ⟨utf8 (str% "TOY=aGVsbG8="), rfl⟩) (s := str% "TOY=aGVsbG8=") rfl rfl (trimmed_iff.2 rfl)
    · exact .field (v := ⟨utf8 (str% "Thu, 01 Jan 1970 00:02:30 GMT"), rfl⟩) (s := str% "Thu, 01 Jan 1970 00:02:30 GMT") rfl rfl (trimmed_iff.2 rfl)

/-- C89: the hypotheses of the negative result can be met, with a nonce and with another label. -/
example : sign exReqwest exSigning exSignEnv = .ok (exReqwestSigned, .ok ()) ∧ exSigning.nonce ≠ none ∧
    sign exReqwest exOther exSignEnv = .ok (exOtherSigned, .ok ()) ∧ exOther.label ≠ str% "sig" ∧
    (∀ m, ∃ tag, Grammar.Base64Text (exOther.signature.sign exSignEnv.rnd m) tag) :=
  ⟨rfl, (fun h => nomatch h), rfl, (fun h => nomatch h), fun _ => ⟨_, base64Text_encode _⟩⟩

end Httpsig
