import Verif.Props.Monotone
import Verif.Props.Tamper
import Verif.Props.Grammar
import Verif.Lemmas.EndToEnd
/-
C91: what anyone can change in an accepted request without the key; and general forms of C14 and C18.
-/
set_option linter.unusedSectionVars false
namespace Httpsig
open Sfv
variable [Deps]

/-! ### C91 -/

section
variable {R S Rem Rem' : Type} [ServerRequestLike R Rem] [ServerRequestLike S Rem']

/-- Two items that list the same component for the library: equal ones, and two spellings of a header name that differ only in
letter case, whatever their parameters. -/
def SameField (i j : Item) : Prop :=
  i = j ∨ ∃ n n' ps ps', i = ⟨.string n, ps⟩ ∧ j = ⟨.string n', ps'⟩ ∧ n.head? ≠ some '@' ∧ lowered n = lowered n'

theorem head_of_lowered {n n' : Str} (h : lowered n = lowered n') (hn : n.head? ≠ some '@') : n'.head? ≠ some '@' := by
  rw [lowered_eq, lowered_eq] at h
  intro h'
  match n', h' with
  | c :: n', h' =>
    cases h'
    match n, h with
    | c :: n, h =>
      have h : asciiLower c = '@' := (List.cons.inj h).1
      refine hn ?_
      unfold asciiLower at h
      split at h
      · rename_i hu
        exfalso
        have hu : 65 ≤ c.toNat ∧ c.toNat ≤ 90 := (isUpper_iff c).1 hu
        have hval : (Char.ofNat (c.toNat + 32)).toNat = c.toNat + 32 := charToNat_ofNat (isValidChar_of_lt (by omega))
        rw [h] at hval
        simp at hval
        omega
      · rw [h]; rfl

theorem SameField.symm {i j : Item} (h : SameField i j) : SameField j i := by
  rcases h with rfl | ⟨n, n', ps, ps', rfl, rfl, h1, h2⟩
  · exact .inl rfl
  · exact .inr ⟨n', n, ps', ps, rfl, rfl, head_of_lowered h2 h1, h2.symm⟩

theorem SameField.component {i j : Item} (h : SameField i j) {k : SignatureComponent} (hk : Grammar.ComponentText i k) :
    Grammar.ComponentText j k := by
  rcases h with rfl | ⟨n, n', ps, ps', rfl, rfl, h1, h2⟩
  · exact hk
  · cases hk with
    | derived => exact absurd rfl h1
    | header _ hf =>
      refine .header (head_of_lowered h2 h1) ?_
      rw [names_iff] at hf ⊢
      unfold HeaderName.fromStr at hf ⊢
      rw [lowered_eq, lowered_eq] at h2
      rw [← h2]
      exact hf

theorem SameField.components {l l' : List Item} (h : Forall2 SameField l l') {cs : List SignatureComponent}
    (hc : Forall2 Grammar.ComponentText l cs) : Forall2 Grammar.ComponentText l' cs := by
  induction h generalizing cs with
  | nil => exact hc
  | cons h _ ih => cases hc with | cons h1 h2 => exact .cons (h.component h1) (ih h2)

theorem SameField.symms {l l' : List Item} (h : Forall2 SameField l l') : Forall2 SameField l' l := by
  induction h with
  | nil => exact .nil
  | cons h _ ih => exact .cons h.symm ih

theorem SameField.refls (l : List Item) : Forall2 SameField l l := by
  induction l with
  | nil => exact .nil
  | cons i l ih => exact .cons (.inl rfl) ih

/-- C110, negative. Parameters of covered fields are not signed. Let the `Signature-Input` values of two requests have the same parameters
and the same items up to letter case and parameters of header names, and let the `Signature` values have the same signature. If the
requests agree on the listed components, on the digest header and on the digests of the bodies, one is accepted exactly if the other is. -/
theorem C110_neg_parameters_unsigned (r : R) (s : S) (config : VerifyingConfig) (env : VerifyEnv) (keyId : Str)
    (v v' w w' : Str) (d d' : Dictionary) (label label' : Str) (l l' : InnerList) (sig : Str)
    (hi : RequestLike.derive r (.header hSignatureInput) = .ok (some v)) (hi' : RequestLike.derive s (.header hSignatureInput) = .ok (some v'))
    (hs : RequestLike.derive r (.header hSignature) = .ok (some w)) (hs' : RequestLike.derive s (.header hSignature) = .ok (some w'))
    (hd : Grammar.Dict v d) (hd' : Grammar.Dict v' d') (hh : d.head? = some (label, .innerList l)) (hh' : d'.head? = some (label', .innerList l'))
    (hl : Forall2 SameField l.items l'.items) (hps : l.params = l'.params)
    (hw : SignatureHeader w label sig) (hw' : SignatureHeader w' label' sig)
    (hcov : ∀ k, (∃ i ∈ l.items, Grammar.ComponentText i k) → RequestLike.derive r k = RequestLike.derive s k)
    (hdig : RequestLike.derive r (.header hDigest) = RequestLike.derive s (.header hDigest))
    (hbody : ∀ a, (ServerRequestLike.completeWithDigest r a).1 = (ServerRequestLike.completeWithDigest s a).1) :
    (∃ rem, verify r config env = .ok (.ok (rem, keyId))) ↔ ∃ rem, verify s config env = .ok (.ok (rem, keyId)) := by
  suffices H : ∀ {R S Rem Rem' : Type} [ServerRequestLike R Rem] [ServerRequestLike S Rem'] (r : R) (s : S) (v v' w w' : Str)
      (d d' : Dictionary) (label label' : Str) (l l' : InnerList)
      (hi : RequestLike.derive r (.header hSignatureInput) = .ok (some v)) (hi' : RequestLike.derive s (.header hSignatureInput) = .ok (some v'))
      (hs : RequestLike.derive r (.header hSignature) = .ok (some w)) (hs' : RequestLike.derive s (.header hSignature) = .ok (some w'))
      (hd : Grammar.Dict v d) (hd' : Grammar.Dict v' d') (hh : d.head? = some (label, .innerList l)) (hh' : d'.head? = some (label', .innerList l'))
      (hl : Forall2 SameField l.items l'.items) (hps : l.params = l'.params)
      (hw : SignatureHeader w label sig) (hw' : SignatureHeader w' label' sig)
      (hcov : ∀ k, (∃ i ∈ l.items, Grammar.ComponentText i k) → RequestLike.derive r k = RequestLike.derive s k)
      (hdig : RequestLike.derive r (.header hDigest) = RequestLike.derive s (.header hDigest))
      (hbody : ∀ a, (ServerRequestLike.completeWithDigest r a).1 = (ServerRequestLike.completeWithDigest s a).1)
      (rem : Rem), verify r config env = .ok (.ok (rem, keyId)) → ∃ rem : Rem', verify s config env = .ok (.ok (rem, keyId)) by
    constructor
    · rintro ⟨rem, h⟩
      exact H r s v v' w w' d d' label label' l l' hi hi' hs hs' hd hd' hh hh' hl hps hw hw' hcov hdig hbody rem h
    · rintro ⟨rem, h⟩
      exact H s r v' v w' w d' d label' label l' l hi' hi hs' hs hd' hd hh' hh (SameField.symms hl) hps.symm hw' hw
        (fun k ⟨i, hi, hk⟩ => by
          obtain ⟨j, hj, hij⟩ := forall2_right hl i hi
          exact (hcov k ⟨j, hj, hij.symm.component hk⟩).symm) hdig.symm
        (fun a => (hbody a).symm) rem h
  clear hbody hdig hcov hw hw' hl hps hh hh' hd hd' hs hs' hi hi' l l' label label' d d' w w' v v' r s
  intro R S Rem Rem' _ _ r s v v' w w' d d' label label' l l' hi hi' hs hs' hd hd' hh hh' hl hps hw hw' hcov hdig hbody rem h
  obtain ⟨c, sig', base, hok, hreq, hdate, hdg⟩ := verify_ok_iff.1 h
  obtain ⟨v1, e1, e2⟩ := hok.input
  rw [hi] at e1; cases e1
  obtain ⟨d1, l1, i1, g1, g2, g3, g4, g5⟩ := (C72_accepted _ _).1 e2
  cases C72_unambiguous _ _ _ hd g1
  rw [hh] at g2; cases g2
  obtain ⟨w1, l2, e3, e4, e5⟩ := hok.signature
  rw [hs] at e3; cases e3
  obtain ⟨e6, rfl⟩ := signatureHeader_det hw e4
  have hc : ∀ k ∈ c.components, RequestLike.derive r k = RequestLike.derive s k := by
    intro k hk
    obtain ⟨i, hi, hik⟩ := forall2_right g4 _ hk
    exact hcov k ⟨i, hi, hik⟩
  obtain ⟨rem', hdg'⟩ : ∃ rem', DigestOk s config rem' := by
    rcases hdg with ⟨x, h1, h2⟩ | ⟨h1, h2⟩
    · rw [hdig] at h1
      by_cases hval : config.validateDigest
      · rw [if_pos hval] at h2
        obtain ⟨alg, value, h3, h4⟩ := h2
        refine ⟨(ServerRequestLike.completeWithDigest s alg).2, .inl ⟨x, h1, ?_⟩⟩
        rw [if_pos hval]
        refine ⟨alg, value, h3, ?_⟩
        have := hbody alg
        rw [h4] at this
        rw [Prod.ext_iff]
        exact ⟨this.symm, rfl⟩
      · exact ⟨ServerRequestLike.complete s, .inl ⟨x, h1, by rw [if_neg hval]⟩⟩
    · rw [hdig] at h1
      by_cases hval : config.requireDigest
      · rw [if_pos hval] at h2
        refine ⟨(ServerRequestLike.completeWithDigest s documentedSha256).2, .inr ⟨h1, ?_⟩⟩
        rw [if_pos hval, Prod.ext_iff]
        have := hbody documentedSha256
        rw [h2] at this
        exact ⟨this.symm, rfl⟩
      · exact ⟨ServerRequestLike.complete s, .inr ⟨h1, by rw [if_neg hval]⟩⟩
  obtain ⟨si, hcan⟩ := hok.canon
  rw [canonicalize_congr hc] at hcan
  obtain ⟨vals, ids, lids, ps, a1, a2, a3, a4, a5, _⟩ := canonicalize_ok_iff.1 hcan
  have hcan' : ∃ si, canonicalize s { c with label := some label' } = .ok (.ok (base, si)) :=
    ⟨_, canonicalize_ok_iff.2 ⟨vals, ids, lids, ps, a1, a2, a3, a4, a5, rfl⟩⟩
  exact ⟨rem', verify_ok_iff.2 ⟨{ c with label := some label' }, sig, base,
    ⟨⟨v', hi', (C72_accepted _ _).2 ⟨d', label', l', hd', hh', rfl, SameField.components hl g4, hps ▸ g5⟩⟩, ⟨w', label', hs', hw', rfl⟩, hok.keyid, hok.alg, hok.clock,
      hok.window, hcan', hok.key⟩, hreq, hdate, hdg'⟩⟩

/-- C91. Let the `Signature-Input` values of two requests list the same components and parameters, whatever their spelling, their
labels and further members, and let the `Signature` values have the same signature, each under the label of its own request. If the
requests agree on the listed components, on the digest header and on the digests of the bodies, one is accepted exactly if the other is. -/
theorem C91_spelling_and_label_unsigned (r : R) (s : S) (config : VerifyingConfig) (env : VerifyEnv) (keyId : Str)
    (v v' w w' : Str) (d d' : Dictionary) (label label' : Str) (l : InnerList) (sig : Str)
    (hi : RequestLike.derive r (.header hSignatureInput) = .ok (some v)) (hi' : RequestLike.derive s (.header hSignatureInput) = .ok (some v'))
    (hs : RequestLike.derive r (.header hSignature) = .ok (some w)) (hs' : RequestLike.derive s (.header hSignature) = .ok (some w'))
    (hd : Grammar.Dict v d) (hd' : Grammar.Dict v' d') (hh : d.head? = some (label, .innerList l)) (hh' : d'.head? = some (label', .innerList l))
    (hw : SignatureHeader w label sig) (hw' : SignatureHeader w' label' sig)
    (hcov : ∀ k, (∃ i ∈ l.items, Grammar.ComponentText i k) → RequestLike.derive r k = RequestLike.derive s k)
    (hdig : RequestLike.derive r (.header hDigest) = RequestLike.derive s (.header hDigest))
    (hbody : ∀ a, (ServerRequestLike.completeWithDigest r a).1 = (ServerRequestLike.completeWithDigest s a).1) :
    (∃ rem, verify r config env = .ok (.ok (rem, keyId))) ↔ ∃ rem, verify s config env = .ok (.ok (rem, keyId)) :=
  C110_neg_parameters_unsigned r s config env keyId v v' w w' d d' label label' l l sig hi hi' hs hs' hd hd' hh hh' (SameField.refls _) rfl hw hw'
    hcov hdig hbody

/-! ### C14 -/

/-- C14, negative, for every request. If `created` and `expires` are not integers, they make no difference: accepted once, the request is
accepted at every time since 1970, before `created` and after `expires`, unless the date is validated. -/
theorem C14_neg_any_time (req : R) (config : VerifyingConfig) (env env' : VerifyEnv) (rem : Rem) (keyId v : Str)
    (c : CanonicalizeConfig) (hv : RequestLike.derive req (.header hSignatureInput) = .ok (some v))
    (hc : CanonicalizeConfig.fromSignatureInput v = .ok (.ok c)) (h : verify req config env = .ok (.ok (rem, keyId)))
    (hdate : config.validateDate = false)
    (hint : ∀ t, (str% "created", BareItem.integer t) ∉ c.params.params ∧ (str% "expires", BareItem.integer t) ∉ c.params.params)
    (hnow : 0 ≤ env'.sysNow) : verify req config env' = .ok (.ok (rem, keyId)) :=
  (C85_accepted_again_iff req config env env' rem keyId v c hv hc h).2 ⟨hnow,
    ⟨fun t ht => absurd ht (hint t).1, fun t ht => absurd ht (hint t).2⟩, fun hval => by rw [hdate] at hval; cases hval⟩

end

/-! ### C91 and C18 at the validator's request type -/

/-- The value of a header as the server reads it. -/
theorem mock_derive_header (r : MockRequest) (n : HeaderName) :
    RequestLike.derive (self := ServerRequestLike.toRequestLike (Remnant := Unit)) r (.header n) =
      .ok ((r.headers.get n).map fun v => v.toStr.getD []) := rfl

/-- C110, negative, for the validator's requests. Anyone can add parameters to the header names listed in the `Signature-Input` header of
an accepted request, remove them and change the letter case of the names: if neither signature header is covered, the new request is
accepted exactly if the old one is. -/
theorem C110_neg_rewritten (r : MockRequest) (config : VerifyingConfig) (env : VerifyEnv) (keyId : Str) (vi vs vi' vs' : HeaderValue)
    (v v' w w' : Str) (d d' : Dictionary) (label label' : Str) (l l' : InnerList) (sig : Str)
    (hi : r.headers.get hSignatureInput = some vi) (hs : r.headers.get hSignature = some vs)
    (hv : vi.toStr = some v) (hv' : vi'.toStr = some v') (hw : vs.toStr = some w) (hw' : vs'.toStr = some w')
    (hd : Grammar.Dict v d) (hd' : Grammar.Dict v' d') (hh : d.head? = some (label, .innerList l)) (hh' : d'.head? = some (label', .innerList l'))
    (hl : Forall2 SameField l.items l'.items) (hps : l.params = l'.params)
    (hsw : SignatureHeader w label sig) (hsw' : SignatureHeader w' label' sig)
    (hcov : ∀ k, (∃ i ∈ l.items, Grammar.ComponentText i k) → k ≠ .header hSignatureInput ∧ k ≠ .header hSignature) :
    verify r config env = .ok (.ok ((), keyId)) ↔
      verify { r with headers := (r.headers.insert hSignatureInput vi').insert hSignature vs' } config env = .ok (.ok ((), keyId)) := by
  have hne : hSignatureInput ≠ hSignature := fun e => nomatch congrArg HeaderName.str e
  have hne1 : hDigest ≠ hSignature := fun e => nomatch congrArg HeaderName.str e
  have hne2 : hDigest ≠ hSignatureInput := fun e => nomatch congrArg HeaderName.str e
  have key := C110_neg_parameters_unsigned r
    { r with headers := (r.headers.insert hSignatureInput vi').insert hSignature vs' } config env keyId v v' w w' d d' label label' l l' sig
    (by rw [mock_derive_header, hi]; simp [hv])
    (by rw [mock_derive_header]; simp [HeaderMap.get_insert_ne _ _ hne, HeaderMap.get_insert_self, hv'])
    (by rw [mock_derive_header, hs]; simp [hw])
    (by rw [mock_derive_header]; simp [HeaderMap.get_insert_self, hw'])
    hd hd' hh hh' hl hps hsw hsw'
    (by
      intro k hk
      obtain ⟨h1, h2⟩ := hcov k hk
      cases k with
      | derived d => rfl
      | header n =>
        rw [mock_derive_header, mock_derive_header]
        simp only
        rw [HeaderMap.get_insert_ne _ _ (fun e => h2 (congrArg _ e)), HeaderMap.get_insert_ne _ _ (fun e => h1 (congrArg _ e))])
    (by
      rw [mock_derive_header, mock_derive_header]
      simp only
      rw [HeaderMap.get_insert_ne _ _ hne1, HeaderMap.get_insert_ne _ _ hne2])
    (fun _ => rfl)
  constructor
  · intro h
    obtain ⟨_, h'⟩ := key.1 ⟨_, h⟩
    exact h'
  · intro h
    obtain ⟨_, h'⟩ := key.2 ⟨_, h⟩
    exact h'

/-- C91 for the validator's requests. Replace `Signature-Input` by any value with the same first inner list, and `Signature` by the
same signature under the new label, with any number of colons on both sides. If neither header is covered, the new request is accepted
exactly if the old one is. -/
theorem C91_rewritten (r : MockRequest) (config : VerifyingConfig) (env : VerifyEnv) (keyId : Str) (vi vs vi' vs' : HeaderValue)
    (v v' w w' : Str) (d d' : Dictionary) (label label' : Str) (l : InnerList) (sig : Str)
    (hi : r.headers.get hSignatureInput = some vi) (hs : r.headers.get hSignature = some vs)
    (hv : vi.toStr = some v) (hv' : vi'.toStr = some v') (hw : vs.toStr = some w) (hw' : vs'.toStr = some w')
    (hd : Grammar.Dict v d) (hd' : Grammar.Dict v' d') (hh : d.head? = some (label, .innerList l)) (hh' : d'.head? = some (label', .innerList l))
    (hsw : SignatureHeader w label sig) (hsw' : SignatureHeader w' label' sig)
    (hcov : ∀ k, (∃ i ∈ l.items, Grammar.ComponentText i k) → k ≠ .header hSignatureInput ∧ k ≠ .header hSignature) :
    verify r config env = .ok (.ok ((), keyId)) ↔
      verify { r with headers := (r.headers.insert hSignatureInput vi').insert hSignature vs' } config env = .ok (.ok ((), keyId)) :=
  C110_neg_rewritten r config env keyId vi vs vi' vs' v v' w w' d d' label label' l l sig hi hs hv hv' hw hw' hd hd' hh hh' (SameField.refls _) rfl
    hsw hsw' hcov

/-- C18, negative, for every request. If the signature does not list the digest header, the body of an accepted request can be replaced by any
other, together with the digest header, also with `require_digest` and `validate_digest` on. -/
theorem C18_neg_any_body (r : MockRequest) (config : VerifyingConfig) (env : VerifyEnv) (keyId : Str) (v : HeaderValue) (c : CanonicalizeConfig)
    (hv : r.headers.get hSignatureInput = some v) (hc : CanonicalizeConfig.fromSignatureInput (v.toStr.getD []) = .ok (.ok c))
    (hnot : .header hDigest ∉ c.components) (h : verify r config env = .ok (.ok ((), keyId)))
    (body : Bytes) (x : HeaderValue) (text : Str) (alg : HttpDigest) (hx : x.toStr = some text)
    (hfirst : FirstSupported config.digestProvider text alg (alg.digest body)) :
    verify { r with headers := r.headers.insert hDigest x, body := some body } config env = .ok (.ok ((), keyId)) := by
  have hne1 : hSignature ≠ hDigest := fun e => nomatch congrArg HeaderName.str e
  have hne2 : hSignatureInput ≠ hDigest := fun e => nomatch congrArg HeaderName.str e
  have hder : ∀ k, k ≠ .header hDigest →
      RequestLike.derive (self := ServerRequestLike.toRequestLike (Remnant := Unit)) r k =
      RequestLike.derive (self := ServerRequestLike.toRequestLike (Remnant := Unit))
        { r with headers := r.headers.insert hDigest x, body := some body } k := by
    intro k hk
    cases k with
    | derived d => rfl
    | header n =>
      rw [mock_derive_header, mock_derive_header]
      simp only
      rw [HeaderMap.get_insert_ne _ _ (fun e => hk (congrArg _ e))]
  obtain ⟨c', sig, base, hok, hreq, hdate, _⟩ := verify_ok_iff.1 h
  obtain ⟨v', e1, e2⟩ := hok.input
  have e1' := e1
  rw [mock_derive_header, hv] at e1
  cases e1
  rw [hc] at e2
  cases e2
  obtain ⟨w, l, e3, e4, e5⟩ := hok.signature
  obtain ⟨si, hcan⟩ := hok.canon
  rw [canonicalize_congr fun k hk => hder k (fun e => hnot (e ▸ hk))] at hcan
  refine verify_ok_iff.2 ⟨c, sig, base, ⟨⟨_, (hder _ (fun e => hne2 (SignatureComponent.header.inj e))).symm.trans e1', hc⟩,
    ⟨w, l, (hder _ (fun e => hne1 (SignatureComponent.header.inj e))).symm.trans e3, e4, e5⟩, hok.keyid, hok.alg, hok.clock,
    hok.window, ⟨_, hcan⟩, hok.key⟩, hreq, hdate, .inl ⟨text, ?_, ?_⟩⟩
  · rw [mock_derive_header]
    simp [HeaderMap.get_insert_self, hx]
  · split
    · exact ⟨alg, _, hfirst, rfl⟩
    · rfl

/-! ### Examples -/

/-- Another spelling of the `Signature-Input` header of `exSigned`, under another label and with a second member. -/
def exRespelled : HeaderValue :=
  ⟨utf8 (str% " z=( \"@method\"  \"host\" \"digest\" ); alg=\"toy\";created=100; expires=0200;keyid=\"k1\";date=150 , b=1"), rfl⟩

/-- The members of `Signature-Input` in `exSigned`. -/
def exList : InnerList :=
  ⟨[⟨.string (str% "@method"), []⟩, ⟨.string (str% "host"), []⟩, ⟨.string (str% "digest"), []⟩],
    [(str% "alg", .string (str% "toy")), (str% "created", .integer 100), (str% "expires", .integer 200), (str% "keyid", .string (str% "k1")),
     (str% "date", .integer 150)]⟩

/-- C91: the hypotheses can be met; both requests are accepted. -/
example : Grammar.Dict (str% "sig=(\"@method\" \"host\" \"digest\");alg=\"toy\";created=100;expires=200;keyid=\"k1\";date=150")
      [(str% "sig", .innerList exList)] ∧
    Grammar.Dict (str% " z=( \"@method\"  \"host\" \"digest\" ); alg=\"toy\";created=100; expires=0200;keyid=\"k1\";date=150 , b=1")
      [(str% "z", .innerList exList), (str% "b", .item ⟨.integer 1, []⟩)] ∧
    SignatureHeader (str% "sig=:IkBt:") (str% "sig") (str% "IkBt") ∧ SignatureHeader (str% "z=IkBt:::") (str% "z") (str% "IkBt") ∧
    (∀ k, (∃ i ∈ exList.items, Grammar.ComponentText i k) → k ≠ .header hSignatureInput ∧ k ≠ .header hSignature) ∧
    verify exSigned exVerifying exEnv = .ok (.ok ((), str% "k1")) ∧
    verify { exSigned with headers := (exSigned.headers.insert hSignatureInput exRespelled).insert hSignature ⟨utf8 (str% "z=IkBt:::"), rfl⟩ }
      exVerifying exEnv = .ok (.ok ((), str% "k1")) := by
  refine ⟨(Grammar.parseDictionary_iff _ _).1 rfl, (Grammar.parseDictionary_iff _ _).1 rfl, parseSignatureHeader_iff.1 rfl,
    parseSignatureHeader_iff.1 rfl, ?_, rfl, rfl⟩
  rintro k ⟨i, hi, hk⟩
  have h1 : HeaderName.fromStr (str% "host") = some hHost := rfl
  have h2 : HeaderName.fromStr (str% "digest") = some hDigest := rfl
  cases hk with
  | derived => exact ⟨(fun e => nomatch e), (fun e => nomatch e)⟩
  | @header n ps h hn hf =>
    simp only [exList, List.mem_cons, List.not_mem_nil, or_false, Item.mk.injEq, BareItem.string.injEq] at hi
    rcases hi with ⟨rfl, _⟩ | ⟨rfl, _⟩ | ⟨rfl, _⟩
    · exact absurd rfl hn
    · rw [names_iff, h1] at hf; cases hf
      exact ⟨(fun e => nomatch congrArg HeaderName.str (SignatureComponent.header.inj e)),
        (fun e => nomatch congrArg HeaderName.str (SignatureComponent.header.inj e))⟩
    · rw [names_iff, h2] at hf; cases hf
      exact ⟨(fun e => nomatch congrArg HeaderName.str (SignatureComponent.header.inj e)),
        (fun e => nomatch congrArg HeaderName.str (SignatureComponent.header.inj e))⟩

/-- C110: the hypotheses can be met; both requests are accepted, although for the draft the second value of the digest header that
is signed is another one, and that of the host would not be the one of this message. -/
example : Forall2 SameField exList.items
      [⟨.string (str% "@method"), []⟩, ⟨.string (str% "HOST"), [(str% "req", .boolean true)]⟩,
        ⟨.string (str% "digest"), [(str% "sf", .boolean true), (str% "key", .string (str% "sha-256"))]⟩] ∧
    verify exSigned exVerifying exEnv = .ok (.ok ((), str% "k1")) ∧
    verify { exSigned with headers := exSigned.headers.insert hSignatureInput ⟨utf8
        (str% "sig=(\"@method\" \"HOST\";req \"digest\";sf;key=\"sha-256\");alg=\"toy\";created=100;expires=200;keyid=\"k1\";date=150"), rfl⟩ }
      exVerifying exEnv = .ok (.ok ((), str% "k1")) :=
  ⟨.cons (.inl rfl) (.cons (.inr ⟨_, _, _, _, rfl, rfl, by decide, by decide⟩) (.cons (.inr ⟨_, _, _, _, rfl, rfl, by decide, by decide⟩) .nil)),
    rfl, rfl⟩

/-- C18: the hypotheses can be met. -/
example : verify (exNoDigest (some (utf8 (str% "hello")))) (exVerifying.setRequireDigest false) exEnv = .ok (.ok ((), str% "k1")) ∧
    FirstSupported (exVerifying.setRequireDigest false).digestProvider (str% "TOY=ZXZpbA==") exDigest (exDigest.digest (utf8 (str% "evil"))) :=
  ⟨rfl, selectDigest_iff.1 rfl⟩

/-- C14: a request with an unreadable `created`, accepted before and after. -/
example : verify (exWithInput ⟨utf8 (str% "sig=(\"@method\");alg=\"toy\";created=\"100\";expires=200.0;keyid=\"k1\""), rfl⟩) exVerifying
      { sysNow := 0, utcNow := 0 } = .ok (.ok ((), str% "k1")) ∧
    verify (exWithInput ⟨utf8 (str% "sig=(\"@method\");alg=\"toy\";created=\"100\";expires=200.0;keyid=\"k1\""), rfl⟩) exVerifying
      { sysNow := 10000000000000, utcNow := 0 } = .ok (.ok ((), str% "k1")) := ⟨rfl, rfl⟩

end Httpsig
