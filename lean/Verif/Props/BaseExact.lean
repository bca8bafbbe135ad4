import Verif.Lemmas.BaseExact
import Verif.Props.Tamper
import Verif.Props.Injection
/-
C05 and C36, exactly: when a signature base can be read in two ways.
-/
set_option linter.unusedSectionVars false
namespace Httpsig
open Sfv
variable [Deps]

/-! ### C05 -/

theorem base_lines {R S : Type} [RequestLike R] [RequestLike S] {r : R} {s : S} {c : CanonicalizeConfig} {base : Bytes}
    {si si' : SignatureInput} (h1 : canonicalize r c = .ok (.ok (base, si))) (h2 : canonicalize s c = .ok (.ok (base, si'))) :
    ∃ ids vals vals', Values r c.components vals ∧ Values s c.components vals' ∧ Forall2 Ident c.components ids ∧
      (∀ i ∈ ids, '\n' ∉ i) ∧ specLines ids vals = specLines ids vals' := by
  obtain ⟨v1, i1, l1, p1, a1, b1, c1, d1, e1, -⟩ := canonicalize_ok_iff.1 h1
  obtain ⟨v2, i2, l2, p2, a2, b2, c2, d2, e2, -⟩ := canonicalize_ok_iff.1 h2
  have hi : i1 = i2 := forall2_det (r := Ident) (fun _ _ _ a b => a.det b) b1 b2
  have hl : l1 = l2 := forall2_det (r := ListIdent) (fun _ _ _ a b => a.det b) c1 c2
  subst hi hl
  cases d1.det d2
  have he := utf8_injective (e1.symm.trans e2)
  unfold specBase at he
  rw [List.append_assoc, List.append_assoc, List.append_assoc, List.append_assoc] at he
  refine ⟨i1, v1, v2, a1, a2, b1, fun i hi => ?_, List.append_cancel_right he⟩
  obtain ⟨n, hn⟩ := List.mem_iff_getElem?.1 hi
  obtain ⟨k, _, hk⟩ := b1.getElem hn
  exact ident_one_line hk

theorem values_table : ∀ {cs : List SignatureComponent} {vals : List Str}, cs.Nodup → vals.length = cs.length →
    ∃ t : Table, Values t cs vals
  | [], [], _, _ => ⟨⟨fun _ => none⟩, rfl⟩
  | k :: cs, v :: vals, hn, hl => by
    obtain ⟨t, ht⟩ := values_table (List.nodup_cons.1 hn).2 (vals := vals) (by simpa using hl)
    refine ⟨⟨fun l => if l = k then some v else t.value l⟩, ?_⟩
    unfold Values at ht ⊢
    simp only [List.map_cons, List.cons.injEq, RequestLike.derive, if_true, true_and] at ht ⊢
    rw [← ht]
    apply List.map_congr_left
    intro l hm
    have : l ≠ k := by rintro rfl; exact (List.nodup_cons.1 hn).1 hm
    simp [this]

theorem values_same {R S : Type} [RequestLike R] [RequestLike S] {r : R} {s : S} {cs : List SignatureComponent} {vals : List Str}
    (h1 : Values r cs vals) (h2 : Values s cs vals) : ∀ k ∈ cs, RequestLike.derive s k = RequestLike.derive r k := by
  intro k hk
  obtain ⟨n, hn⟩ := List.mem_iff_getElem?.1 hk
  have e1 := congrArg (fun l => l[n]?) h1
  have e2 := congrArg (fun l => l[n]?) h2
  simp only [List.getElem?_map, hn, Option.map_some] at e1 e2
  rw [← e1] at e2
  exact Option.some.inj e2

/-- C05, exactly. Take a message whose base is `base`. Every message with that base (of any request type, under the same
configuration) has the same values for all covered components if and only if no value of the first message contains the
start of the next line, nor (unless it is the first) the start of its own line. -/
theorem C05_exact {R : Type} [RequestLike R] (r : R) (c : CanonicalizeConfig) (base : Bytes) (si : SignatureInput)
    (h : canonicalize r c = .ok (.ok (base, si))) (hc : c.components.Nodup) :
    (∀ (S : Type) [RequestLike S] (s : S) (si' : SignatureInput), canonicalize s c = .ok (.ok (base, si')) →
      ∀ k ∈ c.components, RequestLike.derive s k = RequestLike.derive r k) ↔ ¬ Confusable r c.components := by
  constructor
  · intro hu hconf
    obtain ⟨vals, ids, lids, ps, hv, hi, hl, hps, hb, hsi⟩ := canonicalize_ok_iff.1 h
    obtain ⟨vals', hlen, hne, he⟩ := specLines_other (by rw [hv.length, hi.length_eq]) (text_confusable hv hi hconf)
    obtain ⟨t, ht⟩ := values_table hc (vals := vals') (by rw [hlen, hi.length_eq])
    have hcan : canonicalize t c = .ok (.ok (base, si)) := by
      refine canonicalize_ok_iff.2 ⟨vals', ids, lids, ps, ht, hi, hl, hps, ?_, hsi⟩
      rw [hb]
      unfold specBase
      rw [he]
    apply hne
    have hsame := hu Table t si hcan
    unfold Values at hv ht
    have : vals'.map (fun v => (Except.ok (some v) : P (Option Str))) = vals.map fun v => .ok (some v) := by
      rw [← hv, ← ht]
      exact List.map_congr_left hsame
    refine List.map_inj_right ?_ |>.1 this
    intro a b e
    cases e
    rfl
  · intro hconf S _ s si' hs
    obtain ⟨ids, vals, vals', hv, hv', hi, hn, he⟩ := base_lines h hs
    have := specLines_unique (by rw [hv.length, hi.length_eq]) (by rw [hv'.length, hi.length_eq]) hn
      (fun hc => hconf (confusable_text hv hi hc)) he
    subst this
    exact values_same hv hv'

/-- C05 (partial): a base whose message is not confusable belongs to one message only. Nothing is assumed about the other
message, which may be of another request type, under another configuration, with any values. Missing: confusable messages,
for which the claim is false (`C05_exact`), and components and parameters that do not read back. -/
theorem C05_unconfusable_partial {R S : Type} [RequestLike R] [RequestLike S] (r : R) (s : S) (c d : CanonicalizeConfig) (base : Bytes)
    (si si' : SignatureInput)
    (h1 : canonicalize r c = .ok (.ok (base, si))) (h2 : canonicalize s d = .ok (.ok (base, si')))
    (hc : ∀ k ∈ c.components, ComponentTidy k) (hp : ParamsTidy c.params.params)
    (hd : ∀ k ∈ d.components, ComponentTidy k) (hq : ParamsTidy d.params.params)
    (hn : ¬ Confusable r c.components) :
    Forall2 ComponentSame c.components d.components ∧ ParamsSame c.params.params d.params.params ∧
      ∃ vals, Values r c.components vals ∧ Values s d.components vals := by
  obtain ⟨a, b, ids, vals, vals', hv, hv', hi, l2, hnl, he⟩ := base_idents h1 h2 hc hp hd hq
  have := specLines_unique (by rw [hv.length, hi.length_eq]) l2 hnl (fun hc => hn (confusable_text hv hi hc)) he
  subst this
  exact ⟨a, b, vals, hv, hv'⟩

/-- The identifier of a component that reads back begins with a double quote. -/
theorem ident_quote {k : SignatureComponent} {id : Str} (ht : ComponentTidy k) (h : Ident k id) : ∃ t, id = '"' :: t := by
  cases h with
  | header n => exact ⟨_, rfl⟩
  | derived d s h =>
    obtain ⟨⟨cs, hb⟩, _⟩ := ht
    rw [← serItem_iff] at h
    unfold serItem at h
    rw [hb] at h
    simp only [serBare, serString] at h
    split at h
    · simp only [Option.bind_eq_bind, Option.bind_eq_some_iff, Option.some.injEq] at h
      obtain ⟨a, rfl, b, _, rfl⟩ := h
      exact ⟨_, rfl⟩
    · simp at h

/-- Values that do not contain both a newline and a double quote do not confuse. -/
theorem unconfusable_of_values {R : Type} [RequestLike R] {r : R} {comps : List SignatureComponent}
    (ht : ∀ k ∈ comps, ComponentTidy k)
    (h : ∀ k ∈ comps, ∀ v, RequestLike.derive r k = .ok (some v) → '\n' ∉ v ∨ '"' ∉ v) : ¬ Confusable r comps := by
  rintro ⟨i, j, k, l, v, id, hk, hl, _, hv, hid, a, b, rfl⟩
  obtain ⟨t, rfl⟩ := ident_quote (ht l (List.mem_iff_getElem?.2 ⟨j, hl⟩)) hid
  rcases h k (List.mem_iff_getElem?.2 ⟨i, hk⟩) _ hv with h | h <;> simp [lineStart] at h

theorem joinLines_mem {c : Char} (hc : c ≠ '\n') : ∀ {l : List Str}, c ∈ joinLines l → ∃ s ∈ l, c ∈ s
  | [], h => by simp [joinLines] at h
  | [s], h => ⟨s, by simp, by simpa [joinLines] using h⟩
  | s :: t :: rest, h => by
    simp only [joinLines, List.mem_append, List.mem_cons, hc, false_or] at h
    rcases h with h | h
    · exact ⟨s, by simp, h⟩
    · obtain ⟨x, hx, hxc⟩ := joinLines_mem hc h
      exact ⟨x, by simp only [List.mem_cons] at hx ⊢; exact .inr hx, hxc⟩

theorem selected_mem {name : Str} {ps : List (Str × Str)} {vs : List Str} (h : Selected name ps vs) :
    ∀ v ∈ vs, ∃ p ∈ ps, p.2 = v := by
  induction h with
  | nil => simp
  | take _ ih =>
    intro v hv
    rcases List.mem_cons.1 hv with rfl | hv
    · exact ⟨(name, v), by simp, rfl⟩
    · obtain ⟨p, hp, e⟩ := ih v hv
      exact ⟨p, by simp [hp], e⟩
  | skip _ _ ih =>
    intro v hv
    obtain ⟨p, hp, e⟩ := ih v hv
    exact ⟨p, by simp [hp], e⟩

/-- Values of `reqwest` requests without quotes in the query contain no newline or no double quote. -/
theorem reqwest_value_cases {r : ReqwestRequest} {k : SignatureComponent} {v : Str}
    (hq : r.url.QuoteFree) (h : RequestLike.derive r k = .ok (some v)) : '\n' ∉ v ∨ '"' ∉ v := by
  by_cases hk : ∃ d, k = .derived d ∧ d.item.bare = .string atQueryParams
  · obtain ⟨d, rfl, hd⟩ := hk
    have hn : d.name = .ok (str% "@query-params") := by
      unfold DerivedComponent.name
      rw [hd]
      rfl
    obtain ⟨ps, hq, hps⟩ := hq
    cases hp : d.param (str% "name") with
    | none => rw [C34_needs_name r d (called_iff.2 hn) (noParam_iff.2 hp)] at h; cases h
    | some field =>
      have hsel : Selected field ps ((ps.filter fun p => field = p.1).map Prod.snd) := selected_iff.2 rfl
      rw [C34_selects r d field ps _ (called_iff.2 hn) (hasParam_iff.2 hp) hq hsel] at h
      cases h
      right
      intro hm
      obtain ⟨s, hs, hc⟩ := joinLines_mem (by decide) hm
      obtain ⟨p, hp, rfl⟩ := selected_mem hsel s hs
      exact hps p hp hc
  · left
    exact reqwestDerive_no_newline (fun d hd hb => hk ⟨d, hd, hb⟩) h

/-- C05 (partial) for `reqwest` requests: if no decoded query value of the message contains a double quote, its base
belongs to no other message, however many `@query-params` are covered and whatever the other message is. -/
theorem C05_quote_free_partial {S : Type} [RequestLike S] (r : ReqwestRequest) (s : S) (c d : CanonicalizeConfig) (base : Bytes)
    (si si' : SignatureInput) (hf : r.url.QuoteFree)
    (h1 : canonicalize r c = .ok (.ok (base, si))) (h2 : canonicalize s d = .ok (.ok (base, si')))
    (hc : ∀ k ∈ c.components, ComponentTidy k) (hp : ParamsTidy c.params.params)
    (hd : ∀ k ∈ d.components, ComponentTidy k) (hq : ParamsTidy d.params.params) :
    Forall2 ComponentSame c.components d.components ∧ ParamsSame c.params.params d.params.params ∧
      ∃ vals, Values r c.components vals ∧ Values s d.components vals :=
  C05_unconfusable_partial r s c d base si si' h1 h2 hc hp hd hq
    (unconfusable_of_values hc fun _ _ _ hv => reqwest_value_cases hf hv)

/-! ### C36 -/

/-- C36 (partial). Two requests with the same `Signature-Input` and `Signature` headers, both accepted under one HMAC key,
one of them not confusable: they have the same value for every covered component, or exhibit a collision of the tag
function. Nothing is assumed about the values of the other request. Missing: confusable requests, for which the claim is
false (`C36_neg_two_queries`). -/
theorem C36_unconfusable_partial {R S Rem Rem' : Type} [ServerRequestLike R Rem] [ServerRequestLike S Rem']
    (r : R) (s : S) (config config' : VerifyingConfig) (env env' : VerifyEnv)
    (rem : Rem) (rem' : Rem') (keyId keyId' : Str) (name : Str) (mac : Bytes → Bytes) (v w : Str) (c : CanonicalizeConfig)
    (hr1 : RequestLike.derive r (.header hSignatureInput) = .ok (some v))
    (hs1 : RequestLike.derive s (.header hSignatureInput) = .ok (some v))
    (hr2 : RequestLike.derive r (.header hSignature) = .ok (some w))
    (hs2 : RequestLike.derive s (.header hSignature) = .ok (some w))
    (hc : CanonicalizeConfig.fromSignatureInput v = .ok (.ok c))
    (hk : config.keyProvider keyId = [hmacVerify name mac]) (hk' : config'.keyProvider keyId = [hmacVerify name mac])
    (hr : verify r config env = .ok (.ok (rem, keyId))) (hs : verify s config' env' = .ok (.ok (rem', keyId')))
    (hn : ¬ Confusable r c.components) :
    (∀ k ∈ c.components, RequestLike.derive s k = RequestLike.derive r k) ∨
    ∃ b b' si, canonicalize r c = .ok (.ok (b, si)) ∧ canonicalize s c = .ok (.ok (b', si)) ∧ b ≠ b' ∧ mac b = mac b' := by
  rcases accepted_same_base hr1 hs1 hr2 hs2 hc hk hk' hr hs with ⟨base, si, hcan, hcan'⟩ | h
  · left
    obtain ⟨_, hcs, hps⟩ := fromSignatureInput_spec hc
    obtain ⟨_, _, vals, h1, h2⟩ := C05_unconfusable_partial r s c c base si si hcan hcan' (fun k hk => componentRead_tidy (hcs k hk))
      (paramsOk_tidy hps) (fun k hk => componentRead_tidy (hcs k hk)) (paramsOk_tidy hps) hn
    exact values_same h1 h2
  · exact .inr h

/-! ### Non-vacuity -/

/-- A query with two values for one name, and one with a newline. -/
example : (exQueryRequest ⟨str% "p=1&p=2&q=x%0Ay", rfl⟩).url.QuoteFree :=
  ⟨[(str% "p", str% "1"), (str% "p", str% "2"), (str% "q", str% "x\ny")], queryIs_iff.2 (by show formParse (utf8 (str% "p=1&p=2&q=x%0Ay")) = _; decide +kernel), by decide⟩

/-- A confusable request: the query `exInjectA` of `C05_neg_query_params`. -/
example : Confusable (exQueryRequest exInjectA) [qp (str% "p"), qp (str% "q")] := by
  refine ⟨0, 1, _, _, str% "x\n\"@query-params\";name=\"q\": y", str% "\"@query-params\";name=\"q\"", rfl, rfl, .inl rfl, ?_, ident_derived_iff.2 rfl,
    str% "x", str% "y", rfl⟩
  rw [derive_qp, exInjectA_pairs]
  rfl

end Httpsig
