import Verif.Props.Unsigned
/-
C111: exactly which rewritings of the `Signature-Input` header of an accepted request are accepted.
-/
set_option linter.unusedSectionVars false
namespace Httpsig
open Sfv
variable [Deps]

/-- Two spellings of a parameter value: equal ones, and decimals without fraction that differ in the number of zeros. -/
def SameValue : BareItem → BareItem → Prop
  | .decimal a, .decimal b => a = b ∨ a.neg = b.neg ∧ ∃ n, a.mant = n * 10 ^ a.scale ∧ b.mant = n * 10 ^ b.scale
  | a, b => a = b

/-- The same parameters, with values spelled in one way or another. -/
def SameValues : Params → Params → Prop := Forall2 fun a b => a.1 = b.1 ∧ SameValue a.2 b.2

/-- Two items that list the same component: two spellings of a header name, whatever the parameters, or a derived component with two
spellings of its parameters. -/
def SameListed (i j : Item) : Prop :=
  (∃ n n' ps ps', i = ⟨.string n, ps⟩ ∧ j = ⟨.string n', ps'⟩ ∧ n.head? ≠ some '@' ∧ lowered n = lowered n') ∨
  ∃ n ps ps', i = ⟨.string ('@' :: n), ps⟩ ∧ j = ⟨.string ('@' :: n), ps'⟩ ∧ SameValues ps ps'

theorem sameValue_iff {a b : BareItem} (ha : BareOk a) (hb : BareOk b) : SameValue a b ↔ a.norm = b.norm := by
  cases a <;> cases b <;> try simp [SameValue, BareItem.norm]
  rename_i a b
  rw [decimal_norm_eq ha.1, decimal_norm_eq hb.1]
  have hp : ∀ d : Decimal, 0 < 10 ^ d.scale := fun d => Nat.pow_pos (by omega)
  have hdiv : ∀ d : Decimal, d.mant % 10 ^ d.scale = 0 → d.mant = d.mant / 10 ^ d.scale * 10 ^ d.scale := by
    intro d h
    have := Nat.div_add_mod d.mant (10 ^ d.scale)
    rw [h, Nat.add_zero, Nat.mul_comm] at this
    exact this.symm
  constructor
  · rintro (rfl | ⟨h1, n, h2, h3⟩)
    · rfl
    · rw [if_pos (by rw [h2, Nat.mul_mod_left]), if_pos (by rw [h3, Nat.mul_mod_left]), h1, h2, h3, Nat.mul_div_cancel _ (hp a),
        Nat.mul_div_cancel _ (hp b)]
  · intro h
    by_cases h1 : a.mant % 10 ^ a.scale = 0 <;> by_cases h2 : b.mant % 10 ^ b.scale = 0
    · rw [if_pos h1, if_pos h2] at h
      simp only [Decimal.mk.injEq, and_true] at h
      refine .inr ⟨h.1, a.mant / 10 ^ a.scale, hdiv a h1, ?_⟩
      rw [Nat.eq_of_mul_eq_mul_right (by omega) h.2]
      exact hdiv b h2
    · rw [if_pos h1, if_neg h2] at h
      rw [← h] at h2
      simp at h2
    · rw [if_neg h1, if_pos h2] at h
      rw [h] at h1
      simp at h1
    · rw [if_neg h1, if_neg h2] at h
      exact .inl h

theorem sameValues_iff : ∀ {a b : Params}, (∀ e ∈ a, BareOk e.2) → (∀ e ∈ b, BareOk e.2) →
    (SameValues a b ↔ normParams a = normParams b)
  | [], [], _, _ => ⟨fun _ => rfl, fun _ => .nil⟩
  | [], _ :: _, _, _ => ⟨(fun h => by cases h), (fun h => by simp [normParams] at h)⟩
  | _ :: _, [], _, _ => ⟨(fun h => by cases h), (fun h => by simp [normParams] at h)⟩
  | x :: a, y :: b, ha, hb => by
    have ih := sameValues_iff (fun e he => ha e (by simp [he])) (fun e he => hb e (by simp [he])) (a := a) (b := b)
    have hv := sameValue_iff (ha x (by simp)) (hb y (by simp))
    constructor
    · intro h
      cases h with
      | cons h1 h2 =>
        have := ih.1 h2
        simp only [normParams, List.map_cons, List.cons.injEq, Prod.mk.injEq] at this ⊢
        exact ⟨⟨h1.1, hv.1 h1.2⟩, this⟩
    · intro h
      simp only [normParams, List.map_cons, List.cons.injEq, Prod.mk.injEq] at h
      exact .cons ⟨h.1.1, hv.2 h.1.2⟩ (ih.2 h.2)

theorem sameListed_iff {i j : Item} {k k' : SignatureComponent} (hi : Grammar.ComponentText i k) (hj : Grammar.ComponentText j k')
    (hk : ComponentRead k) (hk' : ComponentRead k') : SameListed i j ↔ normComponent k = normComponent k' := by
  cases hi with
  | @header n ps h hn hf =>
    cases hj with
    | @header n' ps' h' hn' hf' =>
      constructor
      · rintro (⟨_, _, _, _, e1, e2, _, h2⟩ | ⟨_, _, _, e1, _, _⟩)
        · cases e1; cases e2
          have : h.str = h'.str := by rw [hf.2, hf'.2, h2]
          have : h = h' := by cases h; cases h'; simp only at this; subst this; rfl
          rw [this]
        · cases e1; exact absurd rfl hn
      · intro e
        simp only [normComponent, SignatureComponent.header.injEq] at e
        subst e
        exact .inl ⟨n, n', ps, ps', rfl, rfl, hn, by rw [← hf.2, ← hf'.2]⟩
    | @derived n' ps' =>
      constructor
      · rintro (⟨_, _, _, _, e1, e2, h1, h2⟩ | ⟨_, _, _, e1, _, _⟩)
        · cases e1; cases e2
          exact absurd rfl (head_of_lowered h2 hn)
        · cases e1; exact absurd rfl hn
      · intro e; cases e
  | @derived n ps =>
    cases hj with
    | @header n' ps' h' hn' hf' =>
      constructor
      · rintro (⟨_, _, _, _, e1, e2, h1, h2⟩ | ⟨_, _, _, _, e2, _⟩)
        · cases e1; exact absurd rfl h1
        · cases e2; exact absurd rfl hn'
      · intro e; cases e
    | @derived n' ps' =>
      have hv := sameValues_iff (fun e he => (hk.2.2.2 e he).2) (fun e he => (hk'.2.2.2 e he).2)
      constructor
      · rintro (⟨_, _, _, _, e1, e2, h1, h2⟩ | ⟨_, _, _, e1, e2, h3⟩)
        · cases e1; exact absurd rfl h1
        · cases e1; cases e2
          simp only [normComponent, normItem]
          rw [hv.1 h3]
      · intro e
        simp only [normComponent, normItem, SignatureComponent.derived.injEq, DerivedComponent.mk.injEq, Item.mk.injEq, BareItem.norm,
          BareItem.string.injEq, List.cons.injEq, true_and] at e
        obtain ⟨rfl, e⟩ := e
        exact .inr ⟨n, ps, ps', rfl, rfl, hv.2 e⟩

theorem sameListeds_iff {l l' : List Item} {cs cs' : List SignatureComponent} (hi : Forall2 Grammar.ComponentText l cs)
    (hj : Forall2 Grammar.ComponentText l' cs') (hk : ∀ k ∈ cs, ComponentRead k) (hk' : ∀ k ∈ cs', ComponentRead k) :
    Forall2 SameListed l l' ↔ cs.map normComponent = cs'.map normComponent := by
  induction hi generalizing l' cs' with
  | nil =>
    cases hj with
    | nil => exact ⟨fun _ => rfl, fun _ => .nil⟩
    | cons _ _ => exact ⟨(fun h => by cases h), (fun h => by simp at h)⟩
  | @cons a b as bs h1 _ ih =>
    cases hj with
    | nil => exact ⟨(fun h => by cases h), (fun h => by simp at h)⟩
    | cons h3 h4 =>
      have ih := ih h4 (fun k h => hk k (by simp [h])) (fun k h => hk' k (by simp [h]))
      have h0 := sameListed_iff h1 h3 (hk _ (by simp)) (hk' _ (by simp))
      simp only [List.map_cons, List.cons.injEq, ← h0, ← ih]
      exact ⟨fun h => by cases h with | cons a b => exact ⟨a, b⟩, fun h => .cons h.1 h.2⟩

/-- Items that can be listed can be read. -/
theorem SameListed.readable {i j : Item} (h : SameListed i j) {k : SignatureComponent} (hk : Grammar.ComponentText i k) :
    ∃ k', Grammar.ComponentText j k' := by
  rcases h with ⟨n, n', ps, ps', rfl, rfl, h1, h2⟩ | ⟨n, ps, ps', rfl, rfl, _⟩
  · exact ⟨k, SameField.component (.inr ⟨n, n', ps, ps', rfl, rfl, h1, h2⟩) hk⟩
  · exact ⟨_, .derived⟩

theorem SameListed.readables {l l' : List Item} (h : Forall2 SameListed l l') {cs : List SignatureComponent}
    (hc : Forall2 Grammar.ComponentText l cs) : ∃ cs', Forall2 Grammar.ComponentText l' cs' := by
  induction h generalizing cs with
  | nil => exact ⟨[], .nil⟩
  | cons h _ ih =>
    cases hc with
    | cons h1 h2 =>
      obtain ⟨k, hk⟩ := h.readable h1
      obtain ⟨ks, hks⟩ := ih h2
      exact ⟨k :: ks, .cons hk hks⟩

/-- Equal bases list the same components with the same parameters, up to spelling. -/
theorem base_norm {R S : Type} [RequestLike R] [RequestLike S] {r : R} {s : S} {c d : CanonicalizeConfig} {base : Bytes}
    {si si' : SignatureInput} (h1 : canonicalize r c = .ok (.ok (base, si))) (h2 : canonicalize s d = .ok (.ok (base, si')))
    (hc : ∀ k ∈ c.components, ComponentTidy k) (hp : ParamsTidy c.params.params)
    (hd : ∀ k ∈ d.components, ComponentTidy k) (hq : ParamsTidy d.params.params) :
    c.components.map normComponent = d.components.map normComponent ∧ normParams c.params.params = normParams d.params.params := by
  obtain ⟨vals, ids, lids, ps, hv, hi, hl, hps, hb, _⟩ := canonicalize_ok_iff.1 h1
  obtain ⟨vals', ids', lids', ps', hv', hi', hl', hps', hb', _⟩ := canonicalize_ok_iff.1 h2
  have hd1 := display_list_iff.2 ⟨lids, ps, hl, hps, rfl⟩
  have hd2 := display_list_iff.2 ⟨lids', ps', hl', hps', rfl⟩
  obtain ⟨hr1, hok1, hn, hread⟩ := tidy_list_read hd1 hc hp
  obtain ⟨hr2, hok2, hn', hread'⟩ := tidy_list_read hd2 hd hq
  have htext := utf8_injective (hb.symm.trans hb')
  unfold specBase at htext
  rw [List.append_assoc, List.append_assoc, List.append_assoc, List.append_assoc] at htext
  have hpre : '\n' ∉ (str% "\"@signature-params\": ") := by decide
  obtain ⟨hz, hlast⟩ := specLines_last (by rw [List.mem_append, not_or]; exact ⟨hpre, hn⟩)
    (by rw [List.mem_append, not_or]; exact ⟨hpre, hn'⟩) htext
  have hsp := List.append_cancel_left hlast
  rw [hsp, hread', Except.ok.injEq, Except.ok.injEq] at hread
  simp only [CanonicalizeConfig.norm, CanonicalizeConfig.mk.injEq, SignatureParams.mk.injEq] at hread
  exact ⟨hread.2.1.symm, hread.2.2.symm⟩

theorem ident_of_norm {a b : SignatureComponent} {i : Str} (ha : ComponentRead a) (hb : ComponentRead b)
    (h : normComponent a = normComponent b) (hi : Ident a i) : Ident b i := by
  have h1 := ident_norm ha hi
  rw [h] at h1
  cases b with
  | header n => exact h1
  | derived d =>
    cases h1 with
    | derived _ _ hw => exact .derived _ _ (serItem_iff.1 (by rw [← serItem_norm hb.2]; exact serItem_iff.2 hw))

theorem listIdent_of_norm {a b : SignatureComponent} {i : Str} (ha : ComponentRead a) (hb : ComponentRead b)
    (h : normComponent a = normComponent b) (hi : ListIdent a i) : ListIdent b i := by
  have h1 := listIdent_norm ha hi
  rw [h, listIdent_iff, normComponent_toItem, serItem_norm (toItem_ok hb)] at h1
  exact listIdent_iff.2 h1

theorem forall2_of_norm {p : SignatureComponent → Str → Prop}
    (hp : ∀ {a b : SignatureComponent} {i : Str}, ComponentRead a → ComponentRead b → normComponent a = normComponent b → p a i → p b i) :
    ∀ {cs cs' : List SignatureComponent} {ids : List Str}, (∀ k ∈ cs, ComponentRead k) → (∀ k ∈ cs', ComponentRead k) →
      cs.map normComponent = cs'.map normComponent → Forall2 p cs ids → Forall2 p cs' ids
  | [], [], _, _, _, _, h => h
  | [], _ :: _, _, _, _, e, _ => by simp at e
  | _ :: _, [], _, _, _, e, _ => by simp at e
  | a :: cs, b :: cs', _, hc, hc', e, h => by
    simp only [List.map_cons, List.cons.injEq] at e
    cases h with
    | cons h1 h2 =>
      exact .cons (hp (hc a (by simp)) (hc' b (by simp)) e.1 h1)
        (forall2_of_norm (p := p) hp (fun k hk => hc k (by simp [hk])) (fun k hk => hc' k (by simp [hk])) e.2 h2)

theorem mock_values_of_norm (r : MockRequest) : ∀ {cs cs' : List SignatureComponent} {vals : List Str}, (∀ k ∈ cs, ComponentRead k) →
    (∀ k ∈ cs', ComponentRead k) → cs.map normComponent = cs'.map normComponent → Values r cs vals → Values r cs' vals
  | [], [], _, _, _, _, h => h
  | [], _ :: _, _, _, _, e, _ => by simp at e
  | _ :: _, [], _, _, _, e, _ => by simp at e
  | a :: cs, b :: cs', vals, hc, hc', e, h => by
    simp only [List.map_cons, List.cons.injEq] at e
    obtain ⟨v, vs, rfl, h1, h2⟩ := Values.cons_iff.1 h
    refine Values.cons_iff.2 ⟨v, vs, rfl, ?_, mock_values_of_norm r (fun k hk => hc k (by simp [hk])) (fun k hk => hc' k (by simp [hk])) e.2 h2⟩
    rw [← h1]
    exact (mock_derive_same r (componentSame_of_norm (hc a (by simp)) (hc' b (by simp)) e.1)).symm

theorem mem_params_of_norm {ps ps' : Params} (h : normParams ps = normParams ps') {k : Str} {b : BareItem}
    (hb : ∀ x : BareItem, x.norm = b ↔ x = b) : (k, b) ∈ ps ↔ (k, b) ∈ ps' := by
  have key : ∀ ps : Params, (k, b) ∈ ps ↔ (k, b) ∈ normParams ps := by
    intro ps
    simp only [normParams, List.mem_map, Prod.mk.injEq]
    constructor
    · intro h
      exact ⟨_, h, rfl, (hb b).2 rfl⟩
    · rintro ⟨⟨k', x⟩, hx, rfl, h⟩
      rw [← (hb x).1 h]
      exact hx
  rw [key ps, key ps', h]

theorem norm_string (s : Str) (x : BareItem) : x.norm = .string s ↔ x = .string s := by
  cases x <;> simp [BareItem.norm]

theorem norm_integer (n : Int) (x : BareItem) : x.norm = .integer n ↔ x = .integer n := by
  cases x <;> simp [BareItem.norm]

/-- C111. Let a request be accepted under `keyId`, where the keys for `keyId` accept the signature for one text only, and let neither of the
signature headers be covered. Replace `Signature-Input` by another value and `Signature` by the same signature under any label. The new
request is accepted under `keyId` if and only if the first member of the new value has this label and lists the same components with the
same parameters, up to: the parameters and letter case of header names, and the number of zeros of decimals without fraction. -/
theorem C111_exact (r : MockRequest) (config : VerifyingConfig) (env : VerifyEnv) (keyId : Str) (vi vs vi' vs' : HeaderValue)
    (v v' w w' : Str) (d : Dictionary) (label label' : Str) (l : InnerList) (sig : Str)
    (hi : r.headers.get hSignatureInput = some vi) (hs : r.headers.get hSignature = some vs)
    (hv : vi.toStr = some v) (hv' : vi'.toStr = some v') (hw : vs.toStr = some w) (hw' : vs'.toStr = some w')
    (hd : Grammar.Dict v d) (hh : d.head? = some (label, .innerList l))
    (hsw : SignatureHeader w label sig) (hsw' : SignatureHeader w' label' sig)
    (hcov : ∀ k, (∃ i ∈ l.items, Grammar.ComponentText i k) → k ≠ .header hSignatureInput ∧ k ≠ .header hSignature)
    (hkeys : ∀ k ∈ config.keyProvider keyId, ∀ k' ∈ config.keyProvider keyId, ∀ b b', k.verify b sig = true → k'.verify b' sig = true → b = b')
    (h : verify r config env = .ok (.ok ((), keyId))) :
    verify { r with headers := (r.headers.insert hSignatureInput vi').insert hSignature vs' } config env = .ok (.ok ((), keyId)) ↔
      ∃ d' l', Grammar.Dict v' d' ∧ d'.head? = some (label', .innerList l') ∧ Forall2 SameListed l.items l'.items ∧
        SameValues l.params l'.params := by
  have hne : hSignatureInput ≠ hSignature := fun e => nomatch congrArg HeaderName.str e
  have hne1 : hDigest ≠ hSignature := fun e => nomatch congrArg HeaderName.str e
  have hne2 : hDigest ≠ hSignatureInput := fun e => nomatch congrArg HeaderName.str e
  obtain ⟨c, sig0, base, hok, hreq, hdate, hdg⟩ := verify_ok_iff.1 h
  obtain ⟨v0, e1, e2⟩ := hok.input
  rw [mock_derive_header, hi] at e1
  simp only [Option.map_some, hv, Option.getD_some, Except.ok.injEq, Option.some.injEq] at e1
  subst e1
  obtain ⟨-, hread, hpok⟩ := fromSignatureInput_spec e2
  obtain ⟨d0, l0, i0, g1, g2, g3, g4, g5⟩ := (C72_accepted _ _).1 e2
  cases C72_unambiguous _ _ _ hd g1
  rw [hh] at g2; cases g2
  obtain ⟨w0, l1, e3, e4, e5⟩ := hok.signature
  rw [mock_derive_header, hs] at e3
  simp only [Option.map_some, hw, Option.getD_some, Except.ok.injEq, Option.some.injEq] at e3
  subst e3
  obtain ⟨-, rfl⟩ := signatureHeader_det hsw e4
  obtain ⟨si, hcan⟩ := hok.canon
  obtain ⟨key, hkey, hkv⟩ := hok.key
  have hin : RequestLike.derive (self := ServerRequestLike.toRequestLike (Remnant := Unit))
      { r with headers := (r.headers.insert hSignatureInput vi').insert hSignature vs' } (.header hSignatureInput) = .ok (some v') := by
    rw [mock_derive_header]; simp [HeaderMap.get_insert_ne _ _ hne, HeaderMap.get_insert_self, hv']
  have hsn : RequestLike.derive (self := ServerRequestLike.toRequestLike (Remnant := Unit))
      { r with headers := (r.headers.insert hSignatureInput vi').insert hSignature vs' } (.header hSignature) = .ok (some w') := by
    rw [mock_derive_header]; simp [HeaderMap.get_insert_self, hw']
  have hps : c.params.params = l.params := by rw [g5]
  constructor
  · intro h'
    obtain ⟨c', sig', base', hok', -⟩ := verify_ok_iff.1 h'
    obtain ⟨v1, e1, e2'⟩ := hok'.input
    rw [hin] at e1; cases e1
    obtain ⟨w1, l2, e3, e4', e5'⟩ := hok'.signature
    rw [hsn] at e3; cases e3
    obtain ⟨rfl, rfl⟩ := signatureHeader_det hsw' e4'
    obtain ⟨key', hkey', hkv'⟩ := hok'.key
    cases hkeys key hkey key' hkey' base base' hkv hkv'
    obtain ⟨si', hcan'⟩ := hok'.canon
    obtain ⟨-, hread', hpok'⟩ := fromSignatureInput_spec e2'
    obtain ⟨d', label1, l', f1, f2, f3, f4, f5⟩ := (C72_accepted _ _).1 e2'
    rw [e5'] at f3; cases f3
    obtain ⟨n1, n2⟩ := base_norm hcan hcan' (fun k hk => componentRead_tidy (hread k hk)) (paramsOk_tidy hpok)
      (fun k hk => componentRead_tidy (hread' k hk)) (paramsOk_tidy hpok')
    refine ⟨d', l', f1, f2, (sameListeds_iff g4 f4 hread hread').2 n1, ?_⟩
    rw [hps, f5] at n2
    exact (sameValues_iff (fun e he => (hpok.2 e (hps ▸ he)).2) (fun e he => (hpok'.2 e (by rw [f5]; exact he)).2)).2 n2
  · rintro ⟨d', l', f1, f2, f3, f4⟩
    obtain ⟨cs', f5⟩ := SameListed.readables f3 g4
    have e2' : CanonicalizeConfig.fromSignatureInput v' = .ok (.ok ⟨some label', cs', ⟨l'.params⟩⟩) :=
      (C72_accepted _ _).2 ⟨d', label', l', f1, f2, rfl, f5, rfl⟩
    obtain ⟨-, hread', hpok'⟩ := fromSignatureInput_spec e2'
    have n1 := (sameListeds_iff g4 f5 hread hread').1 f3
    have n2 := (sameValues_iff (fun e he => (hpok.2 e (hps ▸ he)).2) (fun e he => (hpok'.2 e he).2)).1 f4
    rw [← hps] at n2
    have hstr : ∀ k s, (k, BareItem.string s) ∈ c.params.params ↔ (k, BareItem.string s) ∈ l'.params :=
      fun k s => mem_params_of_norm n2 (norm_string s)
    have hint : ∀ k s, (k, BareItem.integer s) ∈ c.params.params ↔ (k, BareItem.integer s) ∈ l'.params :=
      fun k s => mem_params_of_norm n2 (norm_integer s)
    have hder : ∀ k ∈ c.components, RequestLike.derive (self := ServerRequestLike.toRequestLike (Remnant := Unit)) r k =
        RequestLike.derive (self := ServerRequestLike.toRequestLike (Remnant := Unit))
          { r with headers := (r.headers.insert hSignatureInput vi').insert hSignature vs' } k := by
      intro k hk
      obtain ⟨i, hi, hik⟩ := forall2_right g4 _ hk
      obtain ⟨h1, h2⟩ := hcov k ⟨i, hi, hik⟩
      cases k with
      | derived d => rfl
      | header n =>
        rw [mock_derive_header, mock_derive_header]
        simp only
        rw [HeaderMap.get_insert_ne _ _ (fun e => h2 (congrArg _ e)), HeaderMap.get_insert_ne _ _ (fun e => h1 (congrArg _ e))]
    rw [canonicalize_congr hder] at hcan
    obtain ⟨vals, ids, lids, ps, a1, a2, a3, a4, a5, _⟩ := canonicalize_ok_iff.1 hcan
    have a4' : ParamsText l'.params ps := by
      have hq : serParams c.params.params = some ps := serParams_iff.2 a4
      rw [← serParams_norm hpok.2, n2] at hq
      exact serParams_iff.1 (by rw [← serParams_norm hpok'.2]; exact hq)
    have hcan' : ∃ si, canonicalize { r with headers := (r.headers.insert hSignatureInput vi').insert hSignature vs' }
        ⟨some label', cs', ⟨l'.params⟩⟩ = .ok (.ok (base, si)) :=
      ⟨_, canonicalize_ok_iff.2 ⟨vals, ids, lids, ps, mock_values_of_norm _ hread hread' n1 a1, forall2_of_norm (p := Ident) ident_of_norm hread hread' n1 a2,
        forall2_of_norm (p := ListIdent) listIdent_of_norm hread hread' n1 a3, a4', a5, rfl⟩⟩
    refine verify_ok_iff.2 ⟨⟨some label', cs', ⟨l'.params⟩⟩, sig, base, ⟨⟨v', hin, e2'⟩, ⟨w', label', hsn, hsw', rfl⟩, (hstr _ _).1 hok.keyid,
      ?_, hok.clock, ?_, hcan', ⟨key, hkey, hkv⟩⟩, ?_, ?_, ?_⟩
    · obtain ⟨a, ha⟩ := hok.alg
      exact ⟨a, (hstr _ _).1 ha⟩
    · exact ⟨fun t ht => hok.window.1 t ((hint _ _).2 ht), fun t ht => hok.window.2 t ((hint _ _).2 ht)⟩
    · rw [← requiredOk_norm] at hreq ⊢
      intro q hq
      obtain ⟨s, h1, k, hk, h2⟩ := hreq q hq
      refine ⟨s, h1, k, ?_, h2⟩
      simp only [CanonicalizeConfig.norm] at hk ⊢
      rw [← n1]
      exact hk
    · intro hval
      obtain ⟨t, ht, h1⟩ := hdate hval
      exact ⟨t, (hint _ _).1 ht, h1⟩
    · unfold DigestOk at hdg ⊢
      rw [mock_derive_header] at hdg ⊢
      rw [HeaderMap.get_insert_ne _ _ hne1, HeaderMap.get_insert_ne _ _ hne2]
      exact hdg

/-! ### Examples -/

/-- A signature under a key that accepts each signature for one text only: the signature base itself in base64. -/
def exExactSig : Str :=
  str% "IkBtZXRob2QiOiBQT1NUCiJob3N0IjogZXhhbXBsZS5jb20KIkBzaWduYXR1cmUtcGFyYW1zIjogKCJAbWV0aG9kIiAiaG9zdCIpO2FsZz0idG95IjtrZXlpZD0iazEiO3g9MS4w"

/-- The signed request. -/
def exExact : MockRequest := exMock
  [(hHost, ⟨utf8 (str% "example.com"), rfl⟩),
   (hSignatureInput, ⟨utf8 (str% "sig=(\"@method\" \"host\");alg=\"toy\";keyid=\"k1\";x=1.0"), rfl⟩),
   (hSignature, ⟨utf8 (str% "sig=:" ++ exExactSig ++ str% ":"), rfl⟩)] none

/-- The verifier. -/
def exExactVerifying : VerifyingConfig :=
  (VerifyingConfig.new fun kid => if kid = str% "k1" then [hmacVerify (str% "toy") id] else []).setValidateDate false

/-- The list of its `Signature-Input`. -/
def exExactList : InnerList :=
  ⟨[⟨.string (str% "@method"), []⟩, ⟨.string (str% "host"), []⟩],
    [(str% "alg", .string (str% "toy")), (str% "keyid", .string (str% "k1")), (str% "x", .decimal ⟨false, 10, 1⟩)]⟩

set_option maxRecDepth 10000 in
/-- C111, non-vacuity: which replacements of `Signature-Input` are accepted. -/
theorem exExact_iff (vi' : HeaderValue) (v' : Str) (hv' : vi'.toStr = some v') :
    verify { exExact with headers := (exExact.headers.insert hSignatureInput vi').insert hSignature ⟨utf8 (str% "z=" ++ exExactSig), rfl⟩ }
      exExactVerifying exEnv = .ok (.ok ((), str% "k1")) ↔
      ∃ d' l', Grammar.Dict v' d' ∧ d'.head? = some (str% "z", .innerList l') ∧ Forall2 SameListed exExactList.items l'.items ∧
        SameValues exExactList.params l'.params := by
  refine C111_exact exExact exExactVerifying exEnv (str% "k1") ⟨utf8 (str% "sig=(\"@method\" \"host\");alg=\"toy\";keyid=\"k1\";x=1.0"), rfl⟩
    ⟨utf8 (str% "sig=:" ++ exExactSig ++ str% ":"), rfl⟩ vi' ⟨utf8 (str% "z=" ++ exExactSig), rfl⟩
    (str% "sig=(\"@method\" \"host\");alg=\"toy\";keyid=\"k1\";x=1.0") v' (str% "sig=:" ++ exExactSig ++ str% ":") (str% "z=" ++ exExactSig)
    [(str% "sig", .innerList exExactList)] (str% "sig") (str% "z") exExactList exExactSig rfl rfl rfl hv' rfl rfl
    ((Grammar.parseDictionary_iff _ _).1 rfl) rfl (parseSignatureHeader_iff.1 rfl) (parseSignatureHeader_iff.1 rfl) ?_ ?_ rfl
  · rintro k ⟨i, hi, hk⟩
    have h1 : HeaderName.fromStr (str% "host") = some hHost := rfl
    cases hk with
    | derived => exact ⟨(fun e => nomatch e), (fun e => nomatch e)⟩
    | @header n ps h hn hf =>
      simp only [exExactList, List.mem_cons, List.not_mem_nil, or_false, Item.mk.injEq, BareItem.string.injEq] at hi
      rcases hi with ⟨rfl, _⟩ | ⟨rfl, _⟩
      · exact absurd rfl hn
      · rw [names_iff, h1] at hf; cases hf
        exact ⟨(fun e => nomatch congrArg HeaderName.str (SignatureComponent.header.inj e)),
          (fun e => nomatch congrArg HeaderName.str (SignatureComponent.header.inj e))⟩
  · intro k hk k' hk' b b' h h'
    have hk : k ∈ [hmacVerify (str% "toy") id] := hk
    have hk' : k' ∈ [hmacVerify (str% "toy") id] := hk'
    cases List.mem_singleton.1 hk
    cases List.mem_singleton.1 hk'
    rw [hmacVerify_iff] at h h'
    exact Option.some.inj (h.symm.trans h')

/-- C111: letter case, parameters of header names, and zeros do not matter. -/
example : verify { exExact with headers := (exExact.headers.insert hSignatureInput
      ⟨utf8 (str% "z=(\"@method\" \"HOST\";req);alg=\"toy\";keyid=\"k1\";x=01.000"), rfl⟩).insert hSignature ⟨utf8 (str% "z=" ++ exExactSig), rfl⟩ }
    exExactVerifying exEnv = .ok (.ok ((), str% "k1")) := by
  refine (exExact_iff _ (str% "z=(\"@method\" \"HOST\";req);alg=\"toy\";keyid=\"k1\";x=01.000") rfl).2
    ⟨[(str% "z", .innerList ⟨[⟨.string (str% "@method"), []⟩, ⟨.string (str% "HOST"), [(str% "req", .boolean true)]⟩],
      [(str% "alg", .string (str% "toy")), (str% "keyid", .string (str% "k1")), (str% "x", .decimal ⟨false, 1000, 3⟩)]⟩)], _,
      (Grammar.parseDictionary_iff _ _).1 rfl, rfl, ?_, ?_⟩
  · exact .cons (.inr ⟨_, _, _, rfl, rfl, .nil⟩) (.cons (.inl ⟨_, _, _, _, rfl, rfl, by decide, by decide⟩) .nil)
  · exact .cons ⟨rfl, rfl⟩ (.cons ⟨rfl, rfl⟩ (.cons ⟨rfl, .inr ⟨rfl, 1, rfl, rfl⟩⟩ .nil))

/-- C111: a parameter of a derived component matters, although the method does not depend on it. -/
example : verify { exExact with headers := (exExact.headers.insert hSignatureInput
      ⟨utf8 (str% "z=(\"@method\";req \"host\");alg=\"toy\";keyid=\"k1\";x=1.0"), rfl⟩).insert hSignature ⟨utf8 (str% "z=" ++ exExactSig), rfl⟩ }
    exExactVerifying exEnv ≠ .ok (.ok ((), str% "k1")) := by
  intro h
  obtain ⟨d', l', h1, h2, h3, -⟩ := (exExact_iff _ (str% "z=(\"@method\";req \"host\");alg=\"toy\";keyid=\"k1\";x=1.0") rfl).1 h
  have : d' = [(str% "z", .innerList ⟨[⟨.string (str% "@method"), [(str% "req", .boolean true)]⟩, ⟨.string (str% "host"), []⟩],
      [(str% "alg", .string (str% "toy")), (str% "keyid", .string (str% "k1")), (str% "x", .decimal ⟨false, 10, 1⟩)]⟩)] :=
    C72_unambiguous _ _ _ h1 ((Grammar.parseDictionary_iff _ _).1 rfl)
  subst this
  cases h2
  cases h3 with
  | cons h3 _ =>
    rcases h3 with ⟨_, _, _, _, e, _, h4, _⟩ | ⟨_, _, _, e, e', h4⟩
    · cases e; exact h4 rfl
    · cases e; cases e'; cases h4

end Httpsig
