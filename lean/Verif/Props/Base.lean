import Verif.Lemmas.CanonInj2
import Verif.Lemmas.Url
import Verif.Spec.Example
import Verif.Props.RoundTrip
/-
C03, C04, C05: the signature base.
-/
set_option linter.unusedSectionVars false
namespace Httpsig
open Sfv
variable [Deps] {R S : Type} [RequestLike R] [RequestLike S]

/-! ### C03 -/

/-- C03. `canonicalize` succeeds with `base` and `si` exactly when every component has a value on the request, the
identifiers and parameters can be rendered, `base` is the UTF-8 encoding of one line `identifier: value` per component
in configured order followed by the `"@signature-params"` line (`specBase`), and `si` has the configured label, items
and parameters. -/
theorem C03_base_layout (req : R) (c : CanonicalizeConfig) (base : Bytes) (si : SignatureInput) :
    canonicalize req c = .ok (.ok (base, si)) ↔
      ∃ vals ids lids ps, Values req c.components vals ∧ Forall2 Ident c.components ids ∧
        Forall2 ListIdent c.components lids ∧ ParamsText c.params.params ps ∧
        base = utf8 (specBase ids lids vals ps) ∧
        si = ⟨c.label.getD (str% "sig"), ⟨{ items := c.components.map itemOf, params := c.params.params }⟩⟩ := by
  rw [← map_toItem]
  exact canonicalize_ok_iff

theorem forall2_mono {α β : Type} {r s : α → β → Prop} {as : List α} {bs : List β} (h : Forall2 r as bs)
    (hrs : ∀ a ∈ as, ∀ b, r a b → s a b) : Forall2 s as bs := by
  induction h with
  | nil => exact .nil
  | cons h1 _ ih => exact .cons (hrs _ (by simp) _ h1) (ih fun a ha => hrs a (by simp [ha]))

theorem forall2_det {α β : Type} {r : α → β → Prop} (hd : ∀ a b b', r a b → r a b' → b = b') :
    ∀ {as : List α} {bs cs : List β}, Forall2 r as bs → Forall2 r as cs → bs = cs
  | [], _, _, .nil, .nil => rfl
  | _ :: _, _, _, .cons h1 h2, .cons h3 h4 => by rw [hd _ _ _ h1 h3, forall2_det hd h2 h4]

/-- C03, the identifiers at the start of the lines are the identifiers of the list, as long as no covered header name
contains a double quote. -/
theorem C03_same_identifiers (req : R) (c : CanonicalizeConfig) (base : Bytes) (si : SignatureInput)
    (hq : ∀ h, .header h ∈ c.components → '"' ∉ h.str) (h : canonicalize req c = .ok (.ok (base, si))) :
    ∃ vals ids ps, Values req c.components vals ∧ Forall2 Ident c.components ids ∧
      ParamsText c.params.params ps ∧ base = utf8 (specBase ids ids vals ps) := by
  obtain ⟨vals, ids, lids, ps, h1, h2, h3, h4, h5, _⟩ := canonicalize_ok_iff.1 h
  have h3' : Forall2 Ident c.components lids :=
    forall2_mono h3 fun a ha b hb => (listIdent_of_ident (fun n e => hq n (e ▸ ha))).1 hb
  have : ids = lids := forall2_det (r := Ident) (fun _ _ _ a b => a.det b) h2 h3'
  subst this
  exact ⟨vals, ids, ps, h1, h2, h4, h5⟩

/-- Non-vacuity, and what a base looks like. -/
def exBaseConfig : CanonicalizeConfig :=
  CanonicalizeConfig.run [.components [.derived (.new atMethod), .header hHost, .derived (.new atQuery)],
    .created 1618884475, .keyid (str% "k1")]

example : canonicalize exReqwest exBaseConfig = .ok (.ok (utf8
    (str% "\"@method\": POST\n\"host\": example.com\n\"@query\": ?param=value&pet=dog\n\"@signature-params\": (\"@method\" \"host\" \"@query\");created=1618884475;keyid=\"k1\""),
    exBaseConfig.toSignatureInput)) := by rfl

example : ∀ h, SignatureComponent.header h ∈ exBaseConfig.components → '"' ∉ h.str := by
  intro h hm
  have hm : SignatureComponent.header h ∈ [SignatureComponent.derived (.new atMethod), .header hHost, .derived (.new atQuery)] := hm
  simp at hm
  subst hm
  exact (by decide : '"' ∉ (str% "host"))

/-- C03: the base of a configuration without components is the single `"@signature-params"` line. -/
theorem C03_empty (req : R) (c : CanonicalizeConfig) (hc : c.components = []) (ps : Str)
    (hps : ParamsText c.params.params ps) :
    canonicalize req c = .ok (.ok (utf8 (str% "\"@signature-params\": ()" ++ ps), c.toSignatureInput)) := by
  refine canonicalize_ok_iff.2 ⟨[], [], [], ps, ?_, ?_, ?_, hps, ?_, rfl⟩
  · rw [hc, Values.nil_iff]
  · rw [hc]; exact .nil
  · rw [hc]; exact .nil
  · rfl

example : ∃ ps, (CanonicalizeConfig.run [.keyid (str% "k")]).components = [] ∧
    serParams (CanonicalizeConfig.run [.keyid (str% "k")]).params.params = some ps := ⟨_, rfl, rfl⟩

/-! ### C04 -/

theorem canonicalize_missing {req : R} {c : CanonicalizeConfig} {e : Error} (h : canonicalize req c = .ok (.error e)) :
    ∃ found missing, deriveAll req c.components = .ok (found, missing) ∧ missing ≠ [] ∧ e = .missingComponents missing := by
  unfold canonicalize at h
  cases hd : deriveAll req c.components with
  | error p => rw [hd] at h; cases h
  | ok x =>
    obtain ⟨found, missing⟩ := x
    rw [hd] at h
    by_cases hm : missing = []
    · simp only [Bind.bind, Except.bind, hm, ne_eq, not_true, if_false] at h
      split at h
      · cases h
      · split at h <;> cases h
    · refine ⟨found, missing, rfl, hm, ?_⟩
      simp only [Bind.bind, Except.bind, ne_eq, hm, not_false_eq_true, if_true] at h
      cases h
      rfl

/-- C04. Assume that computing the component values does not panic and gives `val`. Then `canonicalize` returns an
error exactly when some component has no value, the error is `MissingComponents`, and it lists precisely the components
without a value, in configured order. -/
theorem C04_missing_components_exact (req : R) (c : CanonicalizeConfig) (val : SignatureComponent → Option Str)
    (hv : ∀ k ∈ c.components, RequestLike.derive req k = .ok (val k)) (e : Error) :
    canonicalize req c = .ok (.error e) ↔
      (∃ k ∈ c.components, val k = none) ∧
      e = .missingComponents (c.components.filter fun k => (val k).isNone) := by
  have hs := deriveAll_spec req val c.components hv
  constructor
  · intro h
    obtain ⟨found, missing, hd, hm, rfl⟩ := canonicalize_missing h
    rw [hs] at hd
    cases hd
    refine ⟨?_, rfl⟩
    obtain ⟨k, hk⟩ := List.exists_mem_of_ne_nil _ hm
    rw [List.mem_filter] at hk
    exact ⟨k, hk.1, Option.isNone_iff_eq_none.1 hk.2⟩
  · rintro ⟨⟨k, hk, hn⟩, rfl⟩
    have hm : c.components.filter (fun k => (val k).isNone) ≠ [] :=
      List.ne_nil_of_mem (List.mem_filter.2 ⟨hk, by simp [hn]⟩)
    unfold canonicalize
    rw [hs]
    simp only [Bind.bind, Except.bind, ne_eq, hm, not_false_eq_true, if_true]
    rfl

/-- C04, consequence: an error and a base exclude each other, and with a value for every component there is no error. -/
theorem C04_no_error_when_present (req : R) (c : CanonicalizeConfig) (e : Error)
    (hv : ∀ k ∈ c.components, ∃ v, RequestLike.derive req k = .ok (some v)) :
    canonicalize req c ≠ .ok (.error e) := by
  intro h
  have := (C04_missing_components_exact req c (valueOf req) (fun k hk => by
    obtain ⟨v, hv⟩ := hv k hk
    rw [derive_valueOf hv, hv]) e).1 h
  obtain ⟨⟨k, hk, hn⟩, _⟩ := this
  obtain ⟨v, hv⟩ := hv k hk
  rw [derive_valueOf hv] at hn
  cases hn

example : canonicalize exReqwest (CanonicalizeConfig.run [.components [.header hDate, .header hHost, .header hDigest]]) =
    .ok (.error (.missingComponents [.header hDate, .header hDigest])) := by rfl

example : ∀ k ∈ (CanonicalizeConfig.run [.components [.header hDate, .header hHost]]).components,
    RequestLike.derive exReqwest k = .ok (valueOf exReqwest k) := by
  intro k hk
  have hk : k ∈ [SignatureComponent.header hDate, .header hHost] := hk
  simp only [List.mem_cons, List.not_mem_nil, or_false] at hk
  rcases hk with rfl | rfl <;> rfl

/-! ### C05 -/

theorem componentRead_tidy {k : SignatureComponent} (h : ComponentRead k) : ComponentTidy k := by
  cases k with
  | header => trivial
  | derived d => exact ⟨h.1, paramsOk_tidy h.2.2⟩

/-- C05, the part that holds without any condition on values: the signature base determines which components are covered,
in which order, and the signature parameters, whatever the values of the components contain. -/
theorem C05_coverage_determined (r : R) (s : S) (x y : Str) (c d : CanonicalizeConfig) (base : Bytes) (si si' : SignatureInput)
    (hx : CanonicalizeConfig.fromSignatureInput x = .ok (.ok c)) (hy : CanonicalizeConfig.fromSignatureInput y = .ok (.ok d))
    (h1 : canonicalize r c = .ok (.ok (base, si))) (h2 : canonicalize s d = .ok (.ok (base, si'))) :
    Forall2 ComponentSame c.components d.components ∧ ParamsSame c.params.params d.params.params := by
  obtain ⟨_, hc, hp⟩ := fromSignatureInput_spec hx
  obtain ⟨_, hd, hq⟩ := fromSignatureInput_spec hy
  obtain ⟨a, b, _⟩ := base_components h1 h2 (fun k hk => componentRead_tidy (hc k hk)) (paramsOk_tidy hp)
    (fun k hk => componentRead_tidy (hd k hk)) (paramsOk_tidy hq)
  exact ⟨a, b⟩

/-- C05 (partial). If two canonicalisations, of possibly different requests of possibly different types under
possibly different configurations, give the same signature base, then they cover the same components in the same order,
have the same signature parameters in the same order and every component has the same value. Missing for the full
claim: two or more component values containing a newline (only `@query-params` can produce them, and with two of them the
claim is false, see `C05_neg_query_params`) and components/parameters that do not read back (`ComponentTidy`, `ParamsTidy`;
see C01). -/
theorem C05_base_determines_message_partial (r : R) (s : S) (c d : CanonicalizeConfig) (base : Bytes)
    (si si' : SignatureInput)
    (h1 : canonicalize r c = .ok (.ok (base, si))) (h2 : canonicalize s d = .ok (.ok (base, si')))
    (hc : ∀ k ∈ c.components, ComponentTidy k) (hp : ParamsTidy c.params.params)
    (hd : ∀ k ∈ d.components, ComponentTidy k) (hq : ParamsTidy d.params.params)
    (hn : AtMostOneLong r c.components s d.components) :
    Forall2 ComponentSame c.components d.components ∧ ParamsSame c.params.params d.params.params ∧
      ∃ vals, Values r c.components vals ∧ Values s d.components vals :=
  base_inj h1 h2 hc hp hd hq hn

/-- The same for the form verification uses: configurations read from `Signature-Input` headers are always tidy. -/
theorem C05_read_headers_partial (r : R) (s : S) (x y : Str) (c d : CanonicalizeConfig) (base : Bytes)
    (si si' : SignatureInput)
    (hx : CanonicalizeConfig.fromSignatureInput x = .ok (.ok c)) (hy : CanonicalizeConfig.fromSignatureInput y = .ok (.ok d))
    (h1 : canonicalize r c = .ok (.ok (base, si))) (h2 : canonicalize s d = .ok (.ok (base, si')))
    (hn : AtMostOneLong r c.components s d.components) :
    Forall2 ComponentSame c.components d.components ∧ ParamsSame c.params.params d.params.params ∧
      ∃ vals, Values r c.components vals ∧ Values s d.components vals := by
  obtain ⟨_, hc, hp⟩ := fromSignatureInput_spec hx
  obtain ⟨_, hd, hq⟩ := fromSignatureInput_spec hy
  exact base_inj h1 h2 (fun k hk => componentRead_tidy (hc k hk)) (paramsOk_tidy hp)
    (fun k hk => componentRead_tidy (hd k hk)) (paramsOk_tidy hq) hn

theorem toStr_no_newline {v : HeaderValue} {s : Str} (h : v.toStr = some s) : '\n' ∉ s := by
  unfold HeaderValue.toStr at h
  split at h
  · rename_i hv
    cases h
    intro hm
    obtain ⟨b, hb, he⟩ := List.mem_map.1 hm
    have hvis := List.all_eq_true.1 hv b hb
    have hlt : b.toNat < 256 := b.toNat_lt
    have := congrArg Char.toNat he
    rw [charToNat_ofNat (isValidChar_of_lt (by omega))] at this
    have h10 : b.toNat = 10 := this
    simp [isVisibleByte, h10] at hvis
  · cases h

theorem method_no_newline (m : Method) : '\n' ∉ m.str := by
  intro hm
  have := m.ok
  simp only [Bool.and_eq_true, List.all_eq_true] at this
  have := this.2 _ hm
  revert this
  decide

/-- On `reqwest` requests no component except `@query-params` has a value with a newline. -/
theorem reqwestDerive_no_newline {m : Method} {u : Url} {hs : HeaderMap} {k : SignatureComponent} {v : Str}
    (hk : ∀ d, k = .derived d → d.item.bare ≠ .string atQueryParams)
    (h : reqwestDerive m u hs k = .ok (some v)) : '\n' ∉ v := by
  cases k with
  | header n =>
    simp only [reqwestDerive, reqwestHeader, Except.ok.injEq, Option.bind_eq_some_iff] at h
    obtain ⟨w, _, hw⟩ := h
    exact toStr_no_newline hw
  | derived d =>
    obtain ⟨hu1, hu2, hu3, hu4, hu5⟩ := u.no_newline
    simp only [reqwestDerive, DerivedComponent.derive] at h
    cases hn : d.name with
    | error e => rw [hn] at h; cases h
    | ok nm =>
      rw [hn] at h
      simp only [Bind.bind, Except.bind, pure, Except.pure, Except.ok.injEq] at h
      have hne : nm ≠ atQueryParams := by
        rintro rfl
        apply hk d rfl
        unfold DerivedComponent.name at hn
        cases hb : d.item.bare <;> rw [hb] at hn <;> simp [BareItem.asStr] at hn
        rw [hn]
      unfold DerivedComponent.deriveNamed at h
      rw [if_neg hne] at h
      repeat' split at h
      · cases h; exact method_no_newline m
      · cases h; exact hu1
      · cases h; exact hu1
      · exact hu3 _ h
      · cases h; exact hu2
      · cases h; exact hu4
      · cases hq : u.query with
        | none => rw [hq] at h; cases h
        | some q =>
          rw [hq] at h
          cases h
          simp [hu5 q hq]
      · cases h

/-- A list of components with at most one `@query-params`. -/
def AtMostOneQueryParams (cs : List SignatureComponent) : Prop :=
  ∀ (i j : Nat) (d e : DerivedComponent), cs[i]? = some (.derived d) → cs[j]? = some (.derived e) → d.item.bare = .string atQueryParams →
    e.item.bare = .string atQueryParams → i = j

/-- If only `@query-params` can have values with newlines, at most one `@query-params` means at most one such value. -/
theorem atMostOneLong_of_query {r : R} {s : S} {cs ds : List SignatureComponent} (h : AtMostOneQueryParams cs)
    (hsame : Forall2 ComponentSame cs ds)
    (hr : ∀ k, (∀ d, k = .derived d → d.item.bare ≠ .string atQueryParams) → OneLine r k)
    (hs : ∀ k, (∀ d, k = .derived d → d.item.bare ≠ .string atQueryParams) → OneLine s k) :
    AtMostOneLong r cs s ds := by
  have get : ∀ {i : Nat}, (∀ d, cs[i]? = some (.derived d) → d.item.bare ≠ .string atQueryParams) →
      (∀ k ∈ cs[i]?, OneLine r k) ∧ ∀ k ∈ ds[i]?, OneLine s k := by
    clear h
    induction hsame with
    | nil => intro i _; simp
    | @cons a b as bs h1 h2 ih =>
      intro i hi
      cases i with
      | succ i => simpa using ih (by simpa using hi)
      | zero =>
        simp only [List.getElem?_cons_zero, Option.some.injEq, Option.mem_def] at hi ⊢
        refine ⟨fun k hk => ?_, fun k hk => ?_⟩
        · subst hk
          exact hr _ fun d hd => hi d hd
        · subst hk
          refine hs _ fun e he hq => ?_
          subst he
          cases a with
          | header n => exact h1
          | derived d =>
            have hb := h1.1
            rw [hq] at hb
            apply hi d rfl
            cases hd : d.item.bare <;> rw [hd] at hb <;> first | exact hb | cases hb
  intro i j hij
  by_cases hi : ∀ d, cs[i]? = some (.derived d) → d.item.bare ≠ .string atQueryParams
  · exact Or.inl (get hi)
  · right
    apply get
    intro e he hq
    apply hi
    intro d hd hq'
    exact hij (h i j d e hd he hq' hq)

theorem componentSame_refl : ∀ k : SignatureComponent, ComponentSame k k
  | .header _ => rfl
  | .derived d => by
    have bare : ∀ b : BareItem, BareItem.Same b b := fun b => by cases b <;> simp [BareItem.Same]
    refine ⟨bare _, ?_⟩
    unfold ParamsSame
    induction d.item.params with
    | nil => exact .nil
    | cons e l ih => exact .cons ⟨rfl, bare _⟩ ih

theorem componentsSame_refl (l : List SignatureComponent) : Forall2 ComponentSame l l := by
  induction l with
  | nil => exact .nil
  | cons k l ih => exact .cons (componentSame_refl k) ih

/-- C05 for `reqwest` requests, as long as at most one `@query-params` is covered: equal bases mean equal messages. -/
theorem C05_reqwest_partial (r s : ReqwestRequest) (x y : Str) (c d : CanonicalizeConfig) (base : Bytes)
    (si si' : SignatureInput)
    (hx : CanonicalizeConfig.fromSignatureInput x = .ok (.ok c)) (hy : CanonicalizeConfig.fromSignatureInput y = .ok (.ok d))
    (h1 : canonicalize r c = .ok (.ok (base, si))) (h2 : canonicalize s d = .ok (.ok (base, si')))
    (hq : AtMostOneQueryParams c.components) :
    Forall2 ComponentSame c.components d.components ∧ ParamsSame c.params.params d.params.params ∧
      ∃ vals, Values r c.components vals ∧ Values s d.components vals :=
  C05_read_headers_partial r s x y c d base si si' hx hy h1 h2
    (atMostOneLong_of_query hq (C05_coverage_determined r s x y c d base si si' hx hy h1 h2).1
      (fun _ hk _ hv => reqwestDerive_no_newline hk hv) (fun _ hk _ hv => reqwestDerive_no_newline hk hv))

/-- `@query-params` selecting the parameter `n`. -/
def qp (n : Str) : SignatureComponent := .derived ((DerivedComponent.new atQueryParams).withParam (str% "name") n)

/-- Non-vacuity: two different requests, differing in what is not covered, with one base. -/
example : ∃ (r s : ReqwestRequest) (x : Str) (c : CanonicalizeConfig) (base : Bytes) (si : SignatureInput),
    r ≠ s ∧ CanonicalizeConfig.fromSignatureInput x = .ok (.ok c) ∧
    canonicalize r c = .ok (.ok (base, si)) ∧ canonicalize s c = .ok (.ok (base, si)) ∧ c.components.length = 2 ∧
    AtMostOneQueryParams c.components := by
  refine ⟨exReqwest, { exReqwest with body := .absent }, str% "sig=(\"@path\" \"host\");keyid=\"a\"",
    { label := some (str% "sig"), components := [.derived (.new atPath), .header hHost], params := ⟨[(kKeyid, .string (str% "a"))]⟩ },
    utf8 (str% "\"@path\": /foo\n\"host\": example.com\n\"@signature-params\": (\"@path\" \"host\");keyid=\"a\""),
    _, ?_, rfl, rfl, rfl, rfl, ?_⟩
  · intro h; cases h
  · intro i j d e hi _ hd _
    match i with
    | 0 => simp at hi; subst hi; simp [DerivedComponent.new, atPath, atQueryParams] at hd
    | 1 => simp at hi
    | n + 2 => simp at hi

/-- The query `p=x%0A%22@query-params%22;name=%22q%22:+y&q=z`. -/
def exInjectA : QueryText := ⟨str% "p=x%0A%22@query-params%22;name=%22q%22:+y&q=z", rfl⟩
/-- The query `p=x&q=y%0A%22@query-params%22;name=%22q%22:+z`. -/
def exInjectB : QueryText := ⟨str% "p=x&q=y%0A%22@query-params%22;name=%22q%22:+z", rfl⟩

theorem exInjectA_pairs : formParse (utf8 exInjectA.text) =
    [(str% "p", str% "x\n\"@query-params\";name=\"q\": y"), (str% "q", str% "z")] := by decide +kernel
theorem exInjectB_pairs : formParse (utf8 exInjectB.text) =
    [(str% "p", str% "x"), (str% "q", str% "y\n\"@query-params\";name=\"q\": z")] := by decide +kernel

/-- `GET https://example.com/?query`, without headers. -/
def exQueryRequest (q : QueryText) : ReqwestRequest where
  method := ⟨str% "GET", rfl⟩
  url := Url.withQuery { scheme := str% "https", authority := some { host := str% "example.com" }, path := str% "/", ok := rfl } q
  headers := []
  body := .absent

theorem derive_qp (q : QueryText) (n : Str) : RequestLike.derive (exQueryRequest q) (qp n) =
    .ok (some (joinWith (str% "\n") (((formParse (utf8 q.text)).filter fun p => n = p.1).map Prod.snd))) := rfl

/-- Non-vacuity with one covered `@query-params` whose value has a newline: the query is `exInjectA`. -/
example : ∃ (r s : ReqwestRequest) (c : CanonicalizeConfig) (base : Bytes) (si : SignatureInput),
    r ≠ s ∧ CanonicalizeConfig.fromSignatureInput (str% "sig=(\"@query-params\";name=\"p\" \"@method\")") = .ok (.ok c) ∧
    canonicalize r c = .ok (.ok (base, si)) ∧ canonicalize s c = .ok (.ok (base, si)) ∧
    AtMostOneQueryParams c.components ∧
    RequestLike.derive r (qp (str% "p")) = .ok (some (str% "x\n\"@query-params\";name=\"q\": y")) := by
  have hcan : ∀ b, canonicalize { exQueryRequest exInjectA with body := b }
      { label := some (str% "sig"), components := [qp (str% "p"), .derived (.new atMethod)] } =
      .ok (.ok (utf8 (str% "\"@query-params\";name=\"p\": x\n\"@query-params\";name=\"q\": y\n\"@method\": GET\n\"@signature-params\": (\"@query-params\";name=\"p\" \"@method\")"),
        ({ label := some (str% "sig"), components := [qp (str% "p"), .derived (.new atMethod)] } : CanonicalizeConfig).toSignatureInput)) := by
    intro b
    refine canonicalize_ok_iff.2 ⟨[str% "x\n\"@query-params\";name=\"q\": y", str% "GET"],
      [str% "\"@query-params\";name=\"p\"", str% "\"@method\""],
      [str% "\"@query-params\";name=\"p\"", str% "\"@method\""], [], ?_,
      .cons (ident_derived_iff.2 rfl) (.cons (ident_derived_iff.2 rfl) .nil), .cons (listIdent_iff.2 rfl) (.cons (listIdent_iff.2 rfl) .nil),
    serParams_iff.1 rfl, rfl, rfl⟩
    have h1 : RequestLike.derive ({ exQueryRequest exInjectA with body := b } : ReqwestRequest) (qp (str% "p")) =
        .ok (some (joinWith (str% "\n") (((formParse (utf8 exInjectA.text)).filter fun p => str% "p" = p.1).map Prod.snd))) := rfl
    have h2 : RequestLike.derive ({ exQueryRequest exInjectA with body := b } : ReqwestRequest) (.derived (.new atMethod)) =
        .ok (some (str% "GET")) := rfl
    simp only [Values, List.map_cons, List.map_nil, h1, h2, exInjectA_pairs]
    rfl
  refine ⟨{ exQueryRequest exInjectA with body := .absent }, { exQueryRequest exInjectA with body := .stream },
    { label := some (str% "sig"), components := [qp (str% "p"), .derived (.new atMethod)] }, _, _, ?_, rfl, hcan _, hcan _, ?_, ?_⟩
  · intro h; cases h
  · have key : ∀ (n : Nat) (f : DerivedComponent), ([qp (str% "p"), .derived (.new atMethod)] : List SignatureComponent)[n]? =
        some (.derived f) → f.item.bare = .string atQueryParams → n = 0 := by
      intro n f hn hf
      match n with
      | 0 => rfl
      | 1 => simp at hn; subst hn; simp [DerivedComponent.new, atMethod, atQueryParams] at hf
      | n + 2 => simp at hn
    intro i j d e hi hj hd he
    rw [key i d hi hd, key j e hj he]
  · rw [show RequestLike.derive ({ exQueryRequest exInjectA with body := .absent } : ReqwestRequest) (qp (str% "p")) = _ from
      derive_qp exInjectA (str% "p"), exInjectA_pairs]
    rfl

/-- C05 fails for two `@query-params`: values may contain newlines, so text can move from the value of one parameter to
the value of another. Two `GET` requests with different query strings and different values for both covered components
have the same signature base (and so the same signatures). -/
theorem C05_neg_query_params :
    ∃ (r s : ReqwestRequest) (c : CanonicalizeConfig) (base : Bytes) (si : SignatureInput),
      canonicalize r c = .ok (.ok (base, si)) ∧ canonicalize s c = .ok (.ok (base, si)) ∧
      (∀ k ∈ c.components, ComponentTidy k) ∧ ParamsTidy c.params.params ∧
      ∀ k ∈ c.components, RequestLike.derive r k ≠ RequestLike.derive s k := by
  have ht : ∀ k ∈ [qp (str% "p"), qp (str% "q")], ComponentTidy k := by
    intro k hk
    simp only [List.mem_cons, List.not_mem_nil, or_false] at hk
    rcases hk with rfl | rfl <;> exact C01_withParam_tidy _ _ _ (C01_new_tidy _) (by simp)
  refine ⟨exQueryRequest exInjectA, exQueryRequest exInjectB, { components := [qp (str% "p"), qp (str% "q")] },
    utf8 (str% "\"@query-params\";name=\"p\": x\n\"@query-params\";name=\"q\": y\n\"@query-params\";name=\"q\": z\n\"@signature-params\": (\"@query-params\";name=\"p\" \"@query-params\";name=\"q\")"),
    ({ components := [qp (str% "p"), qp (str% "q")] } : CanonicalizeConfig).toSignatureInput, ?_, ?_, ht, ⟨by simp [IMap.NodupKeys], by simp⟩, ?_⟩
  · refine canonicalize_ok_iff.2 ⟨[str% "x\n\"@query-params\";name=\"q\": y", str% "z"],
      [str% "\"@query-params\";name=\"p\"", str% "\"@query-params\";name=\"q\""],
      [str% "\"@query-params\";name=\"p\"", str% "\"@query-params\";name=\"q\""], [], ?_,
      .cons (ident_derived_iff.2 rfl) (.cons (ident_derived_iff.2 rfl) .nil), .cons (listIdent_iff.2 rfl) (.cons (listIdent_iff.2 rfl) .nil),
    serParams_iff.1 rfl, rfl, rfl⟩
    simp only [Values, List.map_cons, List.map_nil, derive_qp, exInjectA_pairs]
    rfl
  · refine canonicalize_ok_iff.2 ⟨[str% "x", str% "y\n\"@query-params\";name=\"q\": z"],
      [str% "\"@query-params\";name=\"p\"", str% "\"@query-params\";name=\"q\""],
      [str% "\"@query-params\";name=\"p\"", str% "\"@query-params\";name=\"q\""], [], ?_,
      .cons (ident_derived_iff.2 rfl) (.cons (ident_derived_iff.2 rfl) .nil), .cons (listIdent_iff.2 rfl) (.cons (listIdent_iff.2 rfl) .nil),
    serParams_iff.1 rfl, rfl, rfl⟩
    simp only [Values, List.map_cons, List.map_nil, derive_qp, exInjectB_pairs]
    rfl
  · intro k hk
    simp only [List.mem_cons, List.not_mem_nil, or_false] at hk
    rcases hk with rfl | rfl <;> simp [derive_qp, exInjectA_pairs, exInjectB_pairs, joinWith]

/-- C05 also needs the parameters and components to read back: a derived component named like a header has the same
base as the header. Two configurations with different components, one base. -/
theorem C05_neg_unnamed_derived :
    ∃ (T : Type) (_ : RequestLike T) (r : T) (c d : CanonicalizeConfig) (base : Bytes) (si si' : SignatureInput),
      canonicalize r c = .ok (.ok (base, si)) ∧ canonicalize r d = .ok (.ok (base, si')) ∧
      ¬ Forall2 ComponentSame c.components d.components := by
  refine ⟨Unit, ⟨fun _ _ => .ok (some (str% "v")), fun _ _ => .ok true⟩, (), { components := [.header hHost] },
    { components := [.derived (.new (str% "host"))] },
    utf8 (str% "\"host\": v\n\"@signature-params\": (\"host\")"), _, _, rfl, rfl, ?_⟩
  intro h
  cases h with
  | cons h _ => exact h

end Httpsig
