import Verif.Props.DraftSign
/-
C90: the verifier on requests signed by others according to the draft.
-/
set_option linter.unusedSectionVars false
namespace Httpsig
open Sfv
variable [Deps]

/-! ### C90 -/

theorem componentText_toItem {m : Message} {k : SignatureComponent} {w : Str} (h : DraftValue m k w) : Grammar.ComponentText (itemOf k) k := by
  rcases h.shape with ⟨n, rfl⟩ | ⟨s, rfl⟩
  · exact .header (by
      intro e
      exact headerName_no_at n (List.mem_of_mem_head? e)) (names_iff.2 n.fromStr_str)
  · exact .derived

theorem componentTexts_toItem {m : Message} : ∀ {ks : List SignatureComponent} {ws : List Str}, Forall2 (DraftValue m) ks ws →
    Forall2 Grammar.ComponentText (ks.map itemOf) ks
  | [], _, _ => .nil
  | _ :: _, _, .cons h1 h2 => .cons (componentText_toItem h1) (componentTexts_toItem h2)

theorem mock_derive_regular {req : MockRequest} {k : SignatureComponent} (h : Regular req.message k)
    (ha : k ≠ .derived (.new (str% "@authority"))) :
    RequestLike.derive (self := ServerRequestLike.toRequestLike (Remnant := Unit)) req k =
      RequestLike.derive (⟨req.method, req.url, req.headers, .absent⟩ : ReqwestRequest) k := by
  cases h with
  | @field n v s h1 h2 h3 =>
    have e : req.headers.get n = some v := by rw [get_eq_head]; rw [show req.headers.getAll n = [v] from h1]; rfl
    show (Except.ok ((req.headers.get n).map fun v => v.toStr.getD []) : P (Option Str)) = .ok ((req.headers.get n).bind HeaderValue.toStr)
    rw [e]
    simp [h2]
  | authority => exact absurd rfl ha
  | _ => rfl

/-- C90. Let a request arrive at the server with one `Signature-Input` line whose first member, under `label`, lists the components
`comps` with the parameters `params`, and with one `Signature` line `label=:sig:`. Let `base` be the base of the draft, the
request be regular for `comps`, and `@authority` not be among them. Then the library accepts the request under `kid` exactly if
`keyid` is `kid`, there is a parameter `alg`, the clock is in the window, a key for `kid` accepts `sig` over the base of the draft, and
the configured checks of required components, date and digest are passed. -/
theorem C90_draft_signatures_partial (req : MockRequest) (label : Str) (comps : List SignatureComponent) (params : Params) (base sig x : Str)
    (vi vs : HeaderValue) (d : Dictionary) (hi : req.headers.getAll hSignatureInput = [vi]) (hx : vi.toStr = some x) (hd : Grammar.Dict x d)
    (hfirst : d.head? = some (label, .innerList ⟨comps.map itemOf, params⟩))
    (hs : req.headers.getAll hSignature = [vs]) (hy : vs.toStr = some (label ++ str% "=:" ++ sig ++ str% ":")) (hsig : ':' ∉ sig)
    (hb : DraftBase req.message comps params base) (hreg : ∀ k ∈ comps, Regular req.message k)
    (hauth : .derived (.new (str% "@authority")) ∉ comps) (vc : VerifyingConfig) (venv : VerifyEnv) (kid : Str) :
    verify req vc venv = .ok (.ok ((), kid)) ↔
      (str% "keyid", BareItem.string kid) ∈ params ∧ (∃ a, (str% "alg", BareItem.string a) ∈ params) ∧ 0 ≤ venv.sysNow ∧
      InWindow ⟨some label, comps, ⟨params⟩⟩ (venv.sysNow / 1000000000) ∧ (∃ k ∈ vc.keyProvider kid, k.verify (utf8 base) sig = true) ∧
      RequiredOk vc ⟨some label, comps, ⟨params⟩⟩ ∧ DateOk vc venv ⟨some label, comps, ⟨params⟩⟩ ∧ DigestOk req vc () := by
  have hl : '=' ∉ label := by
    obtain ⟨c, cs, rfl, h1, h2⟩ := ((parseDictionary_spec ((Grammar.parseDictionary_iff _ _).2 hd)).2 _ (List.mem_of_mem_head? hfirst)).1
    intro hm
    rcases List.mem_cons.1 hm with rfl | hm
    · revert h1; decide
    · exact absurd (List.all_eq_true.1 h2 _ hm) (by decide)
  have hparse : CanonicalizeConfig.fromSignatureInput x = .ok (.ok ⟨some label, comps, ⟨params⟩⟩) := by
    obtain ⟨_, ws, _, _, hv, _⟩ := id hb
    exact (C72_accepted _ _).2 ⟨d, label, _, hd, hfirst, rfl, componentTexts_toItem hv, rfl⟩
  have hdi : RequestLike.derive (self := ServerRequestLike.toRequestLike (Remnant := Unit)) req (.header hSignatureInput) = .ok (some x) := by
    show (Except.ok ((req.headers.get _).map fun v => v.toStr.getD []) : P (Option Str)) = _
    rw [get_eq_head, hi]
    simp [hx]
  have hds : RequestLike.derive (self := ServerRequestLike.toRequestLike (Remnant := Unit)) req (.header hSignature) =
      .ok (some (label ++ str% "=:" ++ sig ++ str% ":")) := by
    show (Except.ok ((req.headers.get _).map fun v => v.toStr.getD []) : P (Option Str)) = _
    rw [get_eq_head, hs]
    simp [hy]
  obtain ⟨si, hcan⟩ : ∃ si, @canonicalize _ _ (ServerRequestLike.toRequestLike (Remnant := Unit)) req
      ⟨some label, comps, ⟨params⟩⟩ = .ok (.ok (utf8 base, si)) := by
    obtain ⟨si, h⟩ := (C88_base_exact ⟨req.method, req.url, req.headers, .absent⟩ ⟨some label, comps, ⟨params⟩⟩ base hb).2 hreg
    refine ⟨si, ?_⟩
    rw [← h]
    exact canonicalize_congr fun k hk => mock_derive_regular (hreg k hk) (fun e => hauth (e ▸ hk))
  rw [verify_ok_iff]
  constructor
  · rintro ⟨c, s, b, hok, hreq, hdate, hdig⟩
    obtain ⟨v, e1, e2⟩ := hok.input
    rw [hdi] at e1; cases e1
    rw [hparse] at e2; cases e2
    obtain ⟨w, l, e3, e4, e5⟩ := hok.signature
    rw [hds] at e3; cases e3
    obtain ⟨rfl, rfl⟩ := signatureHeader_det e4 (signatureHeader_made hl hsig)
    obtain ⟨si', e6⟩ := hok.canon
    have e6 := (Prod.mk.inj (Except.ok.inj (Except.ok.inj (hcan.symm.trans e6)))).1
    subst e6
    exact ⟨hok.keyid, hok.alg, hok.clock, hok.window, hok.key, hreq, hdate, hdig⟩
  · rintro ⟨h1, h2, h3, h4, h5, h6, h7, h8⟩
    exact ⟨_, _, _, ⟨⟨x, hdi, hparse⟩, ⟨_, _, hds, signatureHeader_made hl hsig, rfl⟩, h1, h2, h3, h4, ⟨_, hcan⟩, h5⟩, h6, h7, h8⟩

/-- A server finds the values that a client finds, if the draft has one; but never one for `@authority`. -/
theorem mock_derive_draft {req : MockRequest} {k : SignatureComponent} {w : Str} (h : DraftValue req.message k w)
    (ha : k ≠ .derived (.new (str% "@authority"))) :
    RequestLike.derive (self := ServerRequestLike.toRequestLike (Remnant := Unit)) req k =
      RequestLike.derive (⟨req.method, req.url, req.headers, .absent⟩ : ReqwestRequest) k := by
  cases h with
  | @field n _ hf =>
    show (Except.ok ((req.headers.get n).map fun v => v.toStr.getD []) : P (Option Str)) = .ok ((req.headers.get n).bind HeaderValue.toStr)
    rw [get_eq_head]
    change FieldValue (req.headers.getAll n) _ at hf
    generalize req.headers.getAll n = vs at hf
    cases hf with
    | one h1 _ => simp [h1]
    | more h1 _ _ => simp [h1]
  | authority => exact absurd rfl ha
  | _ => rfl

theorem forall2_left_mem {α β : Type} {r : α → β → Prop} {as : List α} {bs : List β} (h : Forall2 r as bs) :
    ∀ a ∈ as, ∃ b ∈ bs, r a b := by
  induction h with
  | nil => simp
  | @cons a b as bs h1 _ ih =>
    intro x hx
    rcases List.mem_cons.1 hx with rfl | hx
    · exact ⟨b, by simp, h1⟩
    · obtain ⟨y, hy, hr⟩ := ih x hx
      exact ⟨y, List.mem_cons_of_mem _ hy, hr⟩

/-- C90, negative. A signature that lists `@authority` is never accepted by the server type of this repository. -/
theorem C90_neg_authority (req : MockRequest) (label : Str) (comps : List SignatureComponent) (params : Params) (x : Str)
    (vi : HeaderValue) (d : Dictionary) (hi : req.headers.getAll hSignatureInput = [vi]) (hx : vi.toStr = some x) (hd : Grammar.Dict x d)
    (hfirst : d.head? = some (label, .innerList ⟨comps.map itemOf, params⟩))
    (hauth : .derived (.new (str% "@authority")) ∈ comps) (vc : VerifyingConfig) (venv : VerifyEnv) (kid : Str) :
    verify req vc venv ≠ .ok (.ok ((), kid)) := by
  have hdi : RequestLike.derive (self := ServerRequestLike.toRequestLike (Remnant := Unit)) req (.header hSignatureInput) = .ok (some x) := by
    show (Except.ok ((req.headers.get _).map fun v => v.toStr.getD []) : P (Option Str)) = _
    rw [get_eq_head, hi]
    simp [hx]
  rw [Ne, verify_ok_iff]
  rintro ⟨c, s, b, hok, _⟩
  obtain ⟨v, e1, e2⟩ := hok.input
  rw [hdi] at e1; cases e1
  obtain ⟨d', label', l', g1, g2, _, g4, g5⟩ := (C72_accepted _ _).1 e2
  cases C72_unambiguous _ _ _ hd g1
  rw [hfirst] at g2
  cases g2
  obtain ⟨k, hk, hik⟩ := forall2_left_mem g4 _ (List.mem_map.2 ⟨_, hauth, rfl⟩)
  have : k = .derived (.new (str% "@authority")) := by
    cases hik with
    | derived => rfl
    | header hn _ => exact absurd rfl hn
  subst this
  obtain ⟨si, hcan⟩ := hok.canon
  obtain ⟨vals, _, _, _, hv, _⟩ := canonicalize_ok_iff.1 hcan
  obtain ⟨i, hi⟩ := List.mem_iff_getElem?.1 hk
  obtain ⟨v, _, hd⟩ := hv.at hi
  cases hd

/-- C90, exactly. Let a request arrive with one `Signature-Input` line whose first member, under `label`, lists `comps` with `params`, with one
`Signature` line `label=:sig:`, where the keys accept `sig` for no other text than the base of the draft. Then the library accepts the request
under `kid` exactly if `keyid` is `kid`, there is a parameter `alg`, the clock is in the window, a key for `kid` accepts `sig` over this base, the
configured checks of required components, date and digest are passed, and in addition the request is regular for the listed components and
`@authority` is not among them. -/
theorem C90_exact (req : MockRequest) (label : Str) (comps : List SignatureComponent) (params : Params) (base sig x : Str)
    (vi vs : HeaderValue) (d : Dictionary) (hi : req.headers.getAll hSignatureInput = [vi]) (hx : vi.toStr = some x) (hd : Grammar.Dict x d)
    (hfirst : d.head? = some (label, .innerList ⟨comps.map itemOf, params⟩))
    (hs : req.headers.getAll hSignature = [vs]) (hy : vs.toStr = some (label ++ str% "=:" ++ sig ++ str% ":")) (hsig : ':' ∉ sig)
    (hb : DraftBase req.message comps params base) (vc : VerifyingConfig) (venv : VerifyEnv) (kid : Str)
    (honly : ∀ k ∈ vc.keyProvider kid, ∀ b, k.verify b sig = true → b = utf8 base) :
    verify req vc venv = .ok (.ok ((), kid)) ↔
      (str% "keyid", BareItem.string kid) ∈ params ∧ (∃ a, (str% "alg", BareItem.string a) ∈ params) ∧ 0 ≤ venv.sysNow ∧
      InWindow ⟨some label, comps, ⟨params⟩⟩ (venv.sysNow / 1000000000) ∧ (∃ k ∈ vc.keyProvider kid, k.verify (utf8 base) sig = true) ∧
      RequiredOk vc ⟨some label, comps, ⟨params⟩⟩ ∧ DateOk vc venv ⟨some label, comps, ⟨params⟩⟩ ∧ DigestOk req vc () ∧
      (∀ k ∈ comps, Regular req.message k) ∧ .derived (.new (str% "@authority")) ∉ comps := by
  constructor
  · intro h
    have hauth : .derived (.new (str% "@authority")) ∉ comps :=
      fun ha => C90_neg_authority req label comps params x vi d hi hx hd hfirst ha vc venv kid h
    have hreg : ∀ k ∈ comps, Regular req.message k := by
      obtain ⟨c, s, b, hok, _⟩ := verify_ok_iff.1 h
      have hdi : RequestLike.derive (self := ServerRequestLike.toRequestLike (Remnant := Unit)) req (.header hSignatureInput) = .ok (some x) := by
        show (Except.ok ((req.headers.get _).map fun v => v.toStr.getD []) : P (Option Str)) = _
        rw [get_eq_head, hi]
        simp [hx]
      have hds : RequestLike.derive (self := ServerRequestLike.toRequestLike (Remnant := Unit)) req (.header hSignature) =
          .ok (some (label ++ str% "=:" ++ sig ++ str% ":")) := by
        show (Except.ok ((req.headers.get _).map fun v => v.toStr.getD []) : P (Option Str)) = _
        rw [get_eq_head, hs]
        simp [hy]
      obtain ⟨v, e1, e2⟩ := hok.input
      rw [hdi] at e1; cases e1
      obtain ⟨d', label', l', g1, g2, g3, g4, g5⟩ := (C72_accepted _ _).1 e2
      cases C72_unambiguous _ _ _ hd g1
      rw [hfirst] at g2
      cases g2
      obtain ⟨_, vals, ids, ps, hv, _⟩ := id hb
      have hcomps : c.components = comps := by
        refine forall2_det (r := Grammar.ComponentText) (fun _ _ _ a b => ?_) g4 (componentTexts_toItem hv)
        cases a with
        | derived =>
          cases b with
          | derived => rfl
          | header hn _ => exact absurd rfl hn
        | header hn hf =>
          cases b with
          | derived => exact absurd rfl hn
          | header _ hf' => rw [names_iff] at hf hf'; rw [hf] at hf'; cases hf'; rfl
      obtain ⟨w, l, e3, e4, e5⟩ := hok.signature
      rw [hds] at e3; cases e3
      have hl : '=' ∉ label := by
        obtain ⟨c, cs, rfl, h1, h2⟩ := ((parseDictionary_spec ((Grammar.parseDictionary_iff _ _).2 hd)).2 _ (List.mem_of_mem_head? hfirst)).1
        intro hm
        rcases List.mem_cons.1 hm with rfl | hm
        · revert h1; decide
        · exact absurd (List.all_eq_true.1 h2 _ hm) (by decide)
      obtain ⟨_, rfl⟩ := signatureHeader_det (signatureHeader_made hl hsig) e4
      obtain ⟨k, hk, hkv⟩ := hok.key
      cases honly k hk b hkv
      obtain ⟨si, hcan⟩ := hok.canon
      have hcan : canonicalize (⟨req.method, req.url, req.headers, .absent⟩ : ReqwestRequest) c = .ok (.ok (utf8 base, si)) := by
        rw [← hcan]
        refine (canonicalize_congr fun k hk => ?_).symm
        rw [hcomps] at hk
        obtain ⟨w, hw⟩ := forall2_left hv k hk
        exact mock_derive_draft hw (fun e => hauth (e ▸ hk))
      have := (C88_base_exact (⟨req.method, req.url, req.headers, .absent⟩ : ReqwestRequest) c base
        (by rw [hcomps, g5]; exact hb)).1 ⟨si, hcan⟩
      rw [hcomps] at this
      exact this
    obtain ⟨h1, h2, h3, h4, h5, h6, h7, h8⟩ :=
      (C90_draft_signatures_partial req label comps params base sig x vi vs d hi hx hd hfirst hs hy hsig hb hreg hauth vc venv kid).1 h
    exact ⟨h1, h2, h3, h4, h5, h6, h7, h8, hreg, hauth⟩
  · rintro ⟨h1, h2, h3, h4, h5, h6, h7, h8, hreg, hauth⟩
    exact (C90_draft_signatures_partial req label comps params base sig x vi vs d hi hx hd hfirst hs hy hsig hb hreg hauth vc venv kid).2
      ⟨h1, h2, h3, h4, h5, h6, h7, h8⟩

/-- C90, negative. The draft allows signatures without `alg`; they are never accepted. -/
theorem C90_neg_alg (req : MockRequest) (x : Str) (vi : HeaderValue) (vis : List HeaderValue) (d : Dictionary) (label : Str) (l : InnerList)
    (hi : req.headers.getAll hSignatureInput = vi :: vis) (hx : vi.toStr = some x) (hd : Grammar.Dict x d)
    (hfirst : d.head? = some (label, .innerList l)) (halg : ∀ a, (str% "alg", BareItem.string a) ∉ l.params)
    (vc : VerifyingConfig) (venv : VerifyEnv) (kid : Str) : verify req vc venv ≠ .ok (.ok ((), kid)) := by
  have hdi : RequestLike.derive (self := ServerRequestLike.toRequestLike (Remnant := Unit)) req (.header hSignatureInput) = .ok (some x) := by
    show (Except.ok ((req.headers.get _).map fun v => v.toStr.getD []) : P (Option Str)) = _
    rw [get_eq_head, hi]
    simp [hx]
  rw [Ne, verify_ok_iff]
  rintro ⟨c, s, b, hok, _⟩
  obtain ⟨v, e1, e2⟩ := hok.input
  rw [hdi] at e1; cases e1
  obtain ⟨d', label', l', g1, g2, _, _, g3⟩ := (C72_accepted _ _).1 e2
  have := C72_unambiguous _ _ _ hd g1
  subst this
  rw [hfirst] at g2
  cases g2
  obtain ⟨a, ha⟩ := hok.alg
  rw [g3] at ha
  exact halg a ha

/-- C90, negative. The draft puts several signatures into one `Signature` line, as members of the dictionary. If the line has a
comma after the first `=`, the request is refused, as long as no key accepts a text with a comma as a signature. -/
theorem C90_neg_two_signatures (req : MockRequest) (label rest : Str) (vs : HeaderValue) (vss : List HeaderValue)
    (hs : req.headers.getAll hSignature = vs :: vss) (hy : vs.toStr = some (label ++ '=' :: rest)) (hl : '=' ∉ label) (hc : ',' ∈ rest)
    (vc : VerifyingConfig) (hkeys : ∀ id, ∀ k ∈ vc.keyProvider id, ∀ m s, k.verify m s = true → ',' ∉ s) (venv : VerifyEnv) (kid : Str) :
    verify req vc venv ≠ .ok (.ok ((), kid)) := by
  have hds : RequestLike.derive (self := ServerRequestLike.toRequestLike (Remnant := Unit)) req (.header hSignature) =
      .ok (some (label ++ '=' :: rest)) := by
    show (Except.ok ((req.headers.get _).map fun v => v.toStr.getD []) : P (Option Str)) = _
    rw [get_eq_head, hs]
    simp [hy]
  rw [Ne, verify_ok_iff]
  rintro ⟨c, s, b, hok, _⟩
  obtain ⟨w, l, e3, ⟨text, e4, e5, a, z, e6, ha, hz, _⟩, _⟩ := hok.signature
  rw [hds] at e3; cases e3
  have : rest = text := by
    rcases append_cons_cases e4 with ⟨_, e⟩ | ⟨y, e, _⟩ | ⟨y, e, _⟩
    · exact e
    · exact absurd (by rw [e]; simp) hl
    · exact absurd (by rw [e]; simp) e5
  subst this
  obtain ⟨k, hk, hv⟩ := hok.key
  refine hkeys _ k hk _ _ hv ?_
  rw [e6] at hc
  rcases List.mem_append.1 hc with hc | hc
  · rcases List.mem_append.1 hc with hc | hc
    · exact absurd (ha _ hc) (by decide)
    · exact hc
  · exact absurd (hz _ hc) (by decide)

/-- The crate's keys read signatures as Base64. -/
theorem b64Verify_no_comma (check : Bytes → Bytes → Bool) (m : Bytes) (s : Str) (h : b64Verify check m s = true) : ',' ∉ s := by
  unfold b64Verify at h
  split at h
  · cases h
  · rename_i tag ht
    rw [(C31_lossless _ _).1 ht]
    intro hm
    rcases C31_header_safe _ _ hm with h | h | h | h <;> revert h <;> decide

/-! ### Examples -/

/-- The request of C89 at a server. -/
def exPlainArrived : MockRequest := exMock exPlainSigned.headers (some (utf8 (str% "hello")))

/-- C90: the hypotheses can be met, and the request is accepted. -/
example : exPlainArrived.headers.getAll hSignatureInput = [⟨utf8 (str% "sig=(\"@method\" \"host\" \"digest\" \"date\");alg=\"toy\";created=150;expires=210;keyid=\"k1\""), rfl⟩] ∧
    Grammar.Dict (str% "sig=(\"@method\" \"host\" \"digest\" \"date\");alg=\"toy\";created=150;expires=210;keyid=\"k1\"")
      [(str% "sig", .innerList ⟨[SignatureComponent.derived (.new atMethod), .header hHost, .header hDigest, .header hDate].map itemOf,
        SignedParams exPlain 150⟩)] ∧
    exPlainArrived.headers.getAll hSignature = [⟨utf8 (str% "sig=:IkBt:"), rfl⟩] ∧
    (∃ base, DraftBase exPlainArrived.message [.derived (.new atMethod), .header hHost, .header hDigest, .header hDate] (SignedParams exPlain 150) base) ∧
    (∀ k ∈ [SignatureComponent.derived (.new atMethod), .header hHost, .header hDigest, .header hDate], Regular exPlainArrived.message k) ∧
    verify exPlainArrived exVerifying exEnv = .ok (.ok ((), str% "k1")) := by
  have hreg : ∀ k ∈ [SignatureComponent.derived (.new atMethod), .header hHost, .header hDigest, .header hDate], Regular exPlainSigned.message k := by
    intro k hk
    simp only [List.mem_cons, List.not_mem_nil, or_false] at hk
    rcases hk with rfl | rfl | rfl | rfl
    · exact .method
    · exact .field (v := ⟨utf8 (str% "example.com"), rfl⟩) (s := str% "example.com") rfl rfl (trimmed_iff.2 rfl)
    · exact .field (v := ⟨utf8 (str% "TOY=aGVsbG8="), rfl⟩) (s := str% "TOY=aGVsbG8=") rfl rfl (trimmed_iff.2 rfl)
    · exact .field (v := ⟨utf8 (str% "Thu, 01 Jan 1970 00:02:30 GMT"), rfl⟩) (s := str% "Thu, 01 Jan 1970 00:02:30 GMT") rfl rfl (trimmed_iff.2 rfl)
  refine ⟨rfl, (Grammar.parseDictionary_iff _ _).1 rfl, rfl, ⟨_, (C88_computed_exact exPlainSigned
    ⟨none, [.derived (.new atMethod), .header hHost, .header hDigest, .header hDate], ⟨SignedParams exPlain 150⟩⟩
    (str% "\"@method\": POST\n\"host\": example.com\n\"digest\": TOY=aGVsbG8=\n\"date\": Thu, 01 Jan 1970 00:02:30 GMT\n\"@signature-params\": (\"@method\" \"host\" \"digest\" \"date\");alg=\"toy\";created=150;expires=210;keyid=\"k1\"") _ ?_ rfl).2
    ⟨?_, hreg⟩⟩, hreg, rfl⟩
  · intro n hn
    simp only [List.mem_cons, List.not_mem_nil, or_false, reduceCtorEq, false_or, SignatureComponent.header.injEq] at hn
    rcases hn with rfl | rfl | rfl
    · show '"' ∉ str% "host"; decide
    · show '"' ∉ str% "digest"; decide
    · show '"' ∉ str% "date"; decide
  · have h1 : hHost ≠ hDigest := fun e => nomatch congrArg HeaderName.str e
    have h2 : hHost ≠ hDate := fun e => nomatch congrArg HeaderName.str e
    have h3 : hDigest ≠ hDate := fun e => nomatch congrArg HeaderName.str e
    simp [h1, h2, h3]

/-- C90: without `alg`, and with two signatures. -/
example : Grammar.Dict (str% "sig=();keyid=\"k1\"") [(str% "sig", .innerList ⟨[], [(str% "keyid", .string (str% "k1"))]⟩)] ∧
    (∀ a, (str% "alg", BareItem.string a) ∉ [(str% "keyid", BareItem.string (str% "k1"))]) ∧
    (str% "a=:IkBt:, b=:IkBt:") = str% "a" ++ '=' :: str% ":IkBt:, b=:IkBt:" ∧
    ∀ id, ∀ k ∈ exVerifying.keyProvider id, ∀ m s, k.verify m s = true → ',' ∉ s := by
  refine ⟨(Grammar.parseDictionary_iff _ _).1 rfl, by simp, rfl, fun id k hk m s h => ?_⟩
  have hk : k ∈ (if id = str% "k1" then [exKey] else []) := hk
  split at hk
  · cases List.mem_singleton.1 hk
    exact b64Verify_no_comma (fun msg tag => decide (tag = msg.take 3)) m s h
  · cases hk

/-- C90: a key that accepts a signature for one text only. -/
example (base : Str) : (hmacVerify (str% "toy") id).verify (utf8 base) (Base64.encode (utf8 base)) = true ∧
    ∀ b, (hmacVerify (str% "toy") id).verify b (Base64.encode (utf8 base)) = true → b = utf8 base := by
  simp only [hmacVerify_iff, Base64.strictDecode_encode]
  exact ⟨rfl, fun b h => (Option.some.inj h).symm⟩

end Httpsig
