import Verif.Lemmas.Query
import Verif.Spec.UrlRequest
import Verif.Props.Base
/-
C33, C34, C35: values of derived components, query parameters, multi-valued headers.
-/
set_option linter.unusedSectionVars false
namespace Httpsig
open Sfv
variable [Deps]

/-! ### C33 -/

theorem derive_of_name {d : DerivedComponent} {n : Str} (hn : d.name = .ok n) (host : Option Str) (m : Method) (u : Url) :
    d.derive host m u = .ok (d.deriveNamed n host m u) := by
  unfold DerivedComponent.derive
  rw [hn]
  rfl

theorem derive_table {d : DerivedComponent} {n : Str} (hn : d.name = .ok n) (host : Option Str) (m : Method) (u : Url) :
    (∀ v, (n, v) ∈ derivedTable host m u → d.derive host m u = .ok v) ∧
    ((∀ v, (n, v) ∉ derivedTable host m u) → n ≠ str% "@query-params" → d.derive host m u = .ok none) := by
  rw [derive_of_name hn]
  constructor
  · intro v hv
    simp only [derivedTable, List.mem_cons, List.not_mem_nil, or_false, Prod.mk.injEq] at hv
    rcases hv with ⟨rfl, rfl⟩ | ⟨rfl, rfl⟩ | ⟨rfl, rfl⟩ | ⟨rfl, rfl⟩ | ⟨rfl, rfl⟩ | ⟨rfl, rfl⟩ | ⟨rfl, rfl⟩ <;> rfl
  · intro hv hq
    simp only [derivedTable, List.mem_cons, List.not_mem_nil, or_false, Prod.mk.injEq, not_or, not_and] at hv
    unfold DerivedComponent.deriveNamed
    rw [if_neg (show n ≠ atMethod from fun e => (hv _).1 e rfl),
      if_neg (show n ≠ atRequestTarget from fun e => (hv _).2.2.1 e rfl),
      if_neg (show n ≠ atTargetUri from fun e => (hv _).2.1 e rfl),
      if_neg (show n ≠ atAuthority from fun e => (hv _).2.2.2.2.2.2 e rfl),
      if_neg (show n ≠ atScheme from fun e => (hv _).2.2.2.1 e rfl),
      if_neg (show n ≠ atPath from fun e => (hv _).2.2.2.2.1 e rfl),
      if_neg (show n ≠ atQuery from fun e => (hv _).2.2.2.2.2.1 e rfl), if_neg (show n ≠ atQueryParams from hq)]

/-- C33 for `reqwest::Request`: on every request, a derived component (whatever its parameters) has the value the
table gives for its name, and no value for any name outside the table other than `@query-params`. -/
theorem C33_reqwest (r : ReqwestRequest) (d : DerivedComponent) (n : Str) (hn : d.Called n) :
    (∀ v, (n, v) ∈ derivedTable r.url.host r.method r.url → RequestLike.derive r (.derived d) = .ok v) ∧
    ((∀ v, (n, v) ∉ derivedTable r.url.host r.method r.url) → n ≠ str% "@query-params" →
      RequestLike.derive r (.derived d) = .ok none) :=
  derive_table (called_iff.1 hn) r.url.host r.method r.url

/-- C33 for `reqwest::blocking::Request`. -/
theorem C33_blocking (r : BlockingRequest) (d : DerivedComponent) (n : Str) (hn : d.Called n) :
    (∀ v, (n, v) ∈ derivedTable r.url.host r.method r.url → RequestLike.derive r (.derived d) = .ok v) ∧
    ((∀ v, (n, v) ∉ derivedTable r.url.host r.method r.url) → n ≠ str% "@query-params" →
      RequestLike.derive r (.derived d) = .ok none) :=
  derive_table (called_iff.1 hn) r.url.host r.method r.url

/-- C33 for the validator's request type, both as client and as server request: the same, except that `@authority`
never has a value. -/
theorem C33_validator (r : MockRequest) (d : DerivedComponent) (n : Str) (hn : d.Called n) :
    (∀ v, (n, v) ∈ derivedTable none r.method r.url →
      RequestLike.derive (self := ClientRequestLike.toRequestLike) r (.derived d) = .ok v ∧
      RequestLike.derive (self := ServerRequestLike.toRequestLike (Remnant := Unit)) r (.derived d) = .ok v) ∧
    ((∀ v, (n, v) ∉ derivedTable none r.method r.url) → n ≠ str% "@query-params" →
      RequestLike.derive (self := ClientRequestLike.toRequestLike) r (.derived d) = .ok none ∧
      RequestLike.derive (self := ServerRequestLike.toRequestLike (Remnant := Unit)) r (.derived d) = .ok none) :=
  ⟨fun v hv => ⟨(derive_table (called_iff.1 hn) none r.method r.url).1 v hv, (derive_table (called_iff.1 hn) none r.method r.url).1 v hv⟩,
   fun hv hq => ⟨(derive_table (called_iff.1 hn) none r.method r.url).2 hv hq, (derive_table (called_iff.1 hn) none r.method r.url).2 hv hq⟩⟩

/-- Non-vacuity: a component with a parameter, and an unknown name. -/
example : (DerivedComponent.new (str% "@query")).Called (str% "@query") ∧
    (str% "@query", some (str% "?param=value&pet=dog")) ∈ derivedTable exUrl.host exPost exUrl ∧
    ((DerivedComponent.new (str% "@status")).withParam (str% "a") (str% "b")).Called (str% "@status") ∧
    (∀ v, (str% "@status", v) ∉ derivedTable exUrl.host exPost exUrl) := by
  refine ⟨rfl, by decide, rfl, ?_⟩
  intro v h
  simp [derivedTable] at h

/-- C33 for `derive_component` of the trait `Derivable`, on `reqwest::Request`: the same values, and `derive` gives what
`derive_component` gives, panics included. -/
theorem C33_derivable_reqwest (r : ReqwestRequest) (d : DerivedComponent) :
    RequestLike.derive r (.derived d) = Derivable.deriveComponent r d ∧
    ∀ n, d.Called n →
      (∀ v, (n, v) ∈ derivedTable r.url.host r.method r.url → Derivable.deriveComponent r d = .ok v) ∧
      ((∀ v, (n, v) ∉ derivedTable r.url.host r.method r.url) → n ≠ str% "@query-params" →
        Derivable.deriveComponent r d = .ok none) :=
  ⟨rfl, fun _ hn => derive_table (called_iff.1 hn) r.url.host r.method r.url⟩

/-- C33 for `derive_component` on `reqwest::blocking::Request`. -/
theorem C33_derivable_blocking (r : BlockingRequest) (d : DerivedComponent) :
    RequestLike.derive r (.derived d) = Derivable.deriveComponent r d ∧
    ∀ n, d.Called n →
      (∀ v, (n, v) ∈ derivedTable r.url.host r.method r.url → Derivable.deriveComponent r d = .ok v) ∧
      ((∀ v, (n, v) ∉ derivedTable r.url.host r.method r.url) → n ≠ str% "@query-params" →
        Derivable.deriveComponent r d = .ok none) :=
  ⟨rfl, fun _ hn => derive_table (called_iff.1 hn) r.url.host r.method r.url⟩

/-- C33 for `derive_component` on the validator's request type, where `@authority` never has a value. -/
theorem C33_derivable_validator (r : MockRequest) (d : DerivedComponent) :
    RequestLike.derive (self := ClientRequestLike.toRequestLike) r (.derived d) = Derivable.deriveComponent r d ∧
    RequestLike.derive (self := ServerRequestLike.toRequestLike (Remnant := Unit)) r (.derived d) =
      Derivable.deriveComponent r d ∧
    ∀ n, d.Called n →
      (∀ v, (n, v) ∈ derivedTable none r.method r.url → Derivable.deriveComponent r d = .ok v) ∧
      ((∀ v, (n, v) ∉ derivedTable none r.method r.url) → n ≠ str% "@query-params" →
        Derivable.deriveComponent r d = .ok none) :=
  ⟨rfl, rfl, fun _ hn => derive_table (called_iff.1 hn) none r.method r.url⟩

/-- C33: `@authority` is absent exactly when the URL has no host. -/
theorem C33_authority (r : ReqwestRequest) (d : DerivedComponent) (hn : d.Called (str% "@authority")) :
    RequestLike.derive r (.derived d) = .ok none ↔ r.url.host = none := by
  rw [(C33_reqwest r d _ hn).1 r.url.host (by simp [derivedTable])]
  simp

example : (DerivedComponent.new (str% "@authority")).Called (str% "@authority") := rfl

/-! ### C34 -/

/-- Every query has exactly one reading as name-value pairs. -/
theorem C34_every_query_decodes (q : Bytes) : ∃ ps, QueryIs q ps ∧ ∀ ps', QueryIs q ps' → ps' = ps :=
  ⟨formParse q, queryIs_iff.2 rfl, fun _ h => (queryIs_iff.1 h).symm⟩

/-- C34, first half. On every request, `@query-params;name=field` has as its value the decoded values of the pairs
named `field`, in order, one per line. -/
theorem C34_selects (r : ReqwestRequest) (d : DerivedComponent) (field : Str) (ps : List (Str × Str)) (vs : List Str)
    (hn : d.Called (str% "@query-params")) (hp : d.HasParam (str% "name") field)
    (hq : QueryIs (utf8 (r.url.query.getD [])) ps) (hv : Selected field ps vs) :
    RequestLike.derive r (.derived d) = .ok (some (joinLines vs)) := by
  have h1 : RequestLike.derive r (.derived d) = d.derive r.url.host r.method r.url := rfl
  rw [h1, derive_of_name (called_iff.1 hn)]
  have h2 : d.deriveNamed (str% "@query-params") r.url.host r.method r.url =
      match d.param (str% "name") with
      | none => none
      | some field => some (joinWith (str% "\n") ((r.url.queryPairs.filter fun p => field = p.1).map Prod.snd)) := rfl
  rw [h2, hasParam_iff.1 hp]
  simp only [Url.queryPairs]
  rw [queryIs_iff.1 hq, selected_iff.1 hv, joinLines_eq]

/-- C34, first half, for blocking requests. -/
theorem C34_selects_blocking (r : BlockingRequest) (d : DerivedComponent) (field : Str) (ps : List (Str × Str)) (vs : List Str)
    (hn : d.Called (str% "@query-params")) (hp : d.HasParam (str% "name") field)
    (hq : QueryIs (utf8 (r.url.query.getD [])) ps) (hv : Selected field ps vs) :
    RequestLike.derive r (.derived d) = .ok (some (joinLines vs)) :=
  C34_selects ⟨r.method, r.url, r.headers, .absent⟩ d field ps vs hn hp hq hv

/-- C34, first half, for the validator's requests. -/
theorem C34_selects_validator (r : MockRequest) (d : DerivedComponent) (field : Str) (ps : List (Str × Str)) (vs : List Str)
    (hn : d.Called (str% "@query-params")) (hp : d.HasParam (str% "name") field)
    (hq : QueryIs (utf8 (r.url.query.getD [])) ps) (hv : Selected field ps vs) :
    RequestLike.derive (self := ServerRequestLike.toRequestLike (Remnant := Unit)) r (.derived d) =
      .ok (some (joinLines vs)) := by
  have h := C34_selects ⟨r.method, r.url, r.headers, .absent⟩ d field ps vs hn hp hq hv
  have h1 : RequestLike.derive (⟨r.method, r.url, r.headers, .absent⟩ : ReqwestRequest) (.derived d) =
      d.derive r.url.host r.method r.url := rfl
  have h2 : RequestLike.derive (self := ServerRequestLike.toRequestLike (Remnant := Unit)) r (.derived d) =
      d.derive none r.method r.url := rfl
  rw [h1, derive_of_name (called_iff.1 hn)] at h
  rw [h2, derive_of_name (called_iff.1 hn)]
  exact h

/-- C34: a query produced by form-encoding name-value pairs yields the values of those pairs: percent-encoding, plus
signs, repetition and order are undone exactly. -/
theorem C34_form_round_trip (r : ReqwestRequest) (d : DerivedComponent) (field : Str) (ps : List (Str × Str)) (vs : List Str)
    (hn : d.Called (str% "@query-params")) (hp : d.HasParam (str% "name") field)
    (hq : r.url.query = some (formEncodePairs ps)) (hv : Selected field ps vs) :
    RequestLike.derive r (.derived d) = .ok (some (joinLines vs)) :=
  C34_selects r d field ps vs hn hp (by rw [hq]; exact queryIs_encode ps) hv

/-- Without a `name` parameter (or with one that is not a string) the component has no value. -/
theorem C34_needs_name (r : ReqwestRequest) (d : DerivedComponent) (hn : d.Called (str% "@query-params"))
    (hp : ∀ field, ¬ d.HasParam (str% "name") field) : RequestLike.derive r (.derived d) = .ok none := by
  have h1 : RequestLike.derive r (.derived d) = d.derive r.url.host r.method r.url := rfl
  rw [h1, derive_of_name (called_iff.1 hn)]
  have h2 : d.deriveNamed (str% "@query-params") r.url.host r.method r.url =
      match d.param (str% "name") with
      | none => none
      | some field => some (joinWith (str% "\n") ((r.url.queryPairs.filter fun p => field = p.1).map Prod.snd)) := rfl
  rw [h2, noParam_iff.1 hp]

/-- Non-vacuity: two values for `p`, one of them encoded; and an encoding in which every rule is used. -/
example : QueryIs (utf8 (str% "p=x%41+b&&q&p=%zz")) [(str% "p", str% "xA b"), (str% "q", []), (str% "p", str% "%zz")] ∧
    Selected (str% "p") [(str% "p", str% "xA b"), (str% "q", []), (str% "p", str% "%zz")] [str% "xA b", str% "%zz"] ∧
    formEncodePairs [(str% "a b", str% "é=1"), (str% "c", [])] = str% "a+b=%C3%A9%3D1&c=" ∧
    (∀ field, ¬ (DerivedComponent.new atQueryParams).HasParam (str% "name") field) ∧
    ((DerivedComponent.new atQueryParams).withParam (str% "name") (str% "p")).HasParam (str% "name") (str% "p") :=
  ⟨queryIs_iff.2 (by decide +kernel), .take (.skip (by decide) (.take .nil)), by decide +kernel, noParam_iff.2 rfl, hasParam_iff.2 rfl⟩

/-- C34, second half, fails: a query without the parameter derives to the same value as a query where the parameter
is present and empty, for every parameter name. -/
theorem C34_neg_absent (r : ReqwestRequest) (d : DerivedComponent) (field : Str)
    (hn : d.Called (str% "@query-params")) (hp : d.HasParam (str% "name") field) :
    RequestLike.derive { r with url := r.url.withoutQuery } (.derived d) = .ok (some []) ∧
    RequestLike.derive { r with url := r.url.withQuery (formQuery [(field, [])]) } (.derived d) =
      .ok (some []) := by
  constructor
  · exact C34_selects _ d field [] [] hn hp (queryIs_iff.2 rfl) .nil
  · refine C34_form_round_trip _ d field [(field, [])] [[]] hn hp ?_ (.take .nil)
    rfl

example : (DerivedComponent.new (str% "@query-params")).Called (str% "@query-params") := rfl

/-- C34: nor are one value containing a newline and two values told apart. -/
theorem C34_neg_newline (r : ReqwestRequest) (d : DerivedComponent) (field a b : Str)
    (hn : d.Called (str% "@query-params")) (hp : d.HasParam (str% "name") field) :
    RequestLike.derive { r with url := r.url.withQuery (formQuery [(field, a ++ '\n' :: b)]) } (.derived d) =
    RequestLike.derive { r with url := r.url.withQuery (formQuery [(field, a), (field, b)]) } (.derived d) := by
  rw [C34_form_round_trip _ d field _ _ hn hp rfl (.take .nil), C34_form_round_trip _ d field _ _ hn hp rfl (.take (.take .nil))]
  rfl

/-- C34 (partial): the derived value does determine the list of values as long as no value contains a newline and
the parameter is present in both queries, or one of them has some non-empty value or more than one value. What is
missing is false: see the two `C34_neg_*` theorems. -/
theorem C34_distinguishes_partial (r s : ReqwestRequest) (d : DerivedComponent) (field : Str) (ps qs : List (Str × Str))
    (vs ws : List Str) (hn : d.Called (str% "@query-params")) (hp : d.HasParam (str% "name") field)
    (hr : QueryIs (utf8 (r.url.query.getD [])) ps) (hs : QueryIs (utf8 (s.url.query.getD [])) qs)
    (hv : Selected field ps vs) (hw : Selected field qs ws) (hvn : ∀ v ∈ vs, '\n' ∉ v) (hwn : ∀ v ∈ ws, '\n' ∉ v)
    (h : RequestLike.derive r (.derived d) = RequestLike.derive s (.derived d)) :
    vs = ws ∨ (vs = [] ∧ ws = [[]]) ∨ (vs = [[]] ∧ ws = []) := by
  rw [C34_selects r d field ps vs hn hp hr hv, C34_selects s d field qs ws hn hp hs hw] at h
  simp only [Except.ok.injEq, Option.some.injEq] at h
  have key : ∀ {l : List Str}, joinLines l = [] → l = [] ∨ l = [[]] := by
    intro l hl
    match l with
    | [] => exact .inl rfl
    | [s] => exact .inr (by rw [show s = [] from hl])
    | s :: t :: rest => simp [joinLines] at hl
  by_cases hv0 : vs = []
  · subst hv0
    rcases key (l := ws) (by rw [← h]; rfl) with rfl | rfl
    · exact .inl rfl
    · exact .inr (.inl ⟨rfl, rfl⟩)
  by_cases hw0 : ws = []
  · subst hw0
    rcases key (l := vs) (by rw [h]; rfl) with rfl | rfl
    · exact .inl rfl
    · exact .inr (.inr ⟨rfl, rfl⟩)
  · exact .inl (joinLines_inj hv0 hw0 hvn hwn h)

/-! ### C35 -/

theorem toStr_inj {v w : HeaderValue} {s : Str} (hv : v.toStr = some s) (hw : w.toStr = some s) : v = w := by
  have key : ∀ {x : HeaderValue}, x.toStr = some s → x.bytes = s.map fun c => UInt8.ofNat c.toNat := by
    intro x hx
    unfold HeaderValue.toStr at hx
    split at hx
    · cases hx
      rw [List.map_map]
      symm
      rw [List.map_congr_left (g := id), List.map_id]
      intro b _
      have : (Char.ofNat b.toNat).toNat = b.toNat := charToNat_ofNat (isValidChar_of_lt (by have := b.toNat_lt; omega))
      simp only [Function.comp, this, id]
      simp
    · cases hx
  obtain ⟨vb, vo⟩ := v
  obtain ⟨wb, wo⟩ := w
  have : vb = wb := (key hv).trans (key hw).symm
  subst this
  rfl

theorem get_eq_head (m : HeaderMap) (n : HeaderName) : m.get n = (m.getAll n).head? := by
  unfold HeaderMap.get HeaderMap.getAll
  induction m with
  | nil => rfl
  | cons e m ih =>
    by_cases h : e.1 = n
    · rw [List.find?_cons_of_pos (by simp [h]), List.filter_cons_of_pos (by simp [h])]
      rfl
    · rw [List.find?_cons_of_neg (by simp [h]), List.filter_cons_of_neg (by simp [h])]
      exact ih

theorem values_mem {R S : Type} [RequestLike R] [RequestLike S] {r : R} {s : S} {cs : List SignatureComponent} {vals : List Str}
    (h1 : Values r cs vals) (h2 : Values s cs vals) {k : SignatureComponent} (hk : k ∈ cs) :
    ∃ v, RequestLike.derive r k = .ok (some v) ∧ RequestLike.derive s k = .ok (some v) := by
  induction cs generalizing vals with
  | nil => cases hk
  | cons a as ih =>
    obtain ⟨v, vs, rfl, hv, hvs⟩ := Values.cons_iff.1 h1
    obtain ⟨w, ws, he, hw, hws⟩ := Values.cons_iff.1 h2
    cases he
    rcases List.mem_cons.1 hk with rfl | hk
    · exact ⟨v, hv, hw⟩
    · exact ih hvs hws hk

/-- C35 (partial). Two requests with the same signature base have the same *first* value under every covered header
name, so they have the same values when there is at most one value per name. Assumed: `@query-params` is covered at most
once (`C35_neg_two_queries` shows that this is needed). For further values the claim is false: `C35_neg_further_values`. -/
theorem C35_single_values_partial (r s : ReqwestRequest) (c : CanonicalizeConfig) (base : Bytes) (si si' : SignatureInput)
    (h : HeaderName)
    (hq : AtMostOneQueryParams c.components)
    (hc : .header h ∈ c.components)
    (h1 : canonicalize r c = .ok (.ok (base, si))) (h2 : canonicalize s c = .ok (.ok (base, si'))) :
    (r.headers.getAll h).head? = (s.headers.getAll h).head? ∧ (r.headers.getAll h) ≠ [] ∧
    ((r.headers.getAll h).length ≤ 1 → (s.headers.getAll h).length ≤ 1 → r.headers.getAll h = s.headers.getAll h) := by
  obtain ⟨vals, hv, hw⟩ := values_eq_of_base h1 h2
    (atMostOneLong_of_query hq (componentsSame_refl _) (fun _ hk _ hv => reqwestDerive_no_newline hk hv)
      (fun _ hk _ hv => reqwestDerive_no_newline hk hv))
  obtain ⟨v, h3, h4⟩ := values_mem hv hw hc
  have e1 : reqwestHeader r.headers h = some v := by
    have : RequestLike.derive r (.header h) = .ok (reqwestHeader r.headers h) := rfl
    rw [this] at h3; exact Except.ok.inj h3
  have e2 : reqwestHeader s.headers h = some v := by
    have : RequestLike.derive s (.header h) = .ok (reqwestHeader s.headers h) := rfl
    rw [this] at h4; exact Except.ok.inj h4
  unfold reqwestHeader at e1 e2
  rw [get_eq_head] at e1 e2
  cases hh1 : r.headers.getAll h with
  | nil => rw [hh1] at e1; cases e1
  | cons x xs =>
    cases hh2 : s.headers.getAll h with
    | nil => rw [hh2] at e2; cases e2
    | cons y ys =>
      rw [hh1] at e1
      rw [hh2] at e2
      have hxy : x = y := toStr_inj e1 e2
      subst hxy
      refine ⟨rfl, by simp, ?_⟩
      intro l1 l2
      cases xs with
      | nil => cases ys with
        | nil => rfl
        | cons _ _ => simp at l2
      | cons _ _ => simp at l1

/-- The query `p=x&q=1%0A%22host%22:+b%0A%22@query-params%22;name=%22q%22:+2`. -/
def exSwapA : QueryText := ⟨str% "p=x&q=1%0A%22host%22:+b%0A%22@query-params%22;name=%22q%22:+2", rfl⟩
/-- The query `p=x%0A%22host%22:+a%0A%22@query-params%22;name=%22q%22:+1&q=2`. -/
def exSwapB : QueryText := ⟨str% "p=x%0A%22host%22:+a%0A%22@query-params%22;name=%22q%22:+1&q=2", rfl⟩

theorem exSwapA_pairs : formParse (utf8 exSwapA.text) =
    [(str% "p", str% "x"), (str% "q", str% "1\n\"host\": b\n\"@query-params\";name=\"q\": 2")] := by decide +kernel
theorem exSwapB_pairs : formParse (utf8 exSwapB.text) =
    [(str% "p", str% "x\n\"host\": a\n\"@query-params\";name=\"q\": 1"), (str% "q", str% "2")] := by decide +kernel

/-- C35 fails when `@query-params` is covered twice: requests to different hosts, with a single `host` header each, which is
covered, have the same signature base. -/
theorem C35_neg_two_queries : ∃ (r s : ReqwestRequest) (c : CanonicalizeConfig) (base : Bytes) (si : SignatureInput),
    canonicalize r c = .ok (.ok (base, si)) ∧ canonicalize s c = .ok (.ok (base, si)) ∧ .header hHost ∈ c.components ∧
    r.headers.getAll hHost = [⟨utf8 (str% "a"), rfl⟩] ∧ s.headers.getAll hHost = [⟨utf8 (str% "b"), rfl⟩] := by
  have h1 : ∀ (q : QueryText) n v, RequestLike.derive ({ exQueryRequest q with headers := [(hHost, v)] } : ReqwestRequest) (qp n) =
    .ok (some (joinWith (str% "\n") (((formParse (utf8 q.text)).filter fun p => n = p.1).map Prod.snd))) := fun _ _ _ => rfl
  have h2 : ∀ q v, RequestLike.derive ({ exQueryRequest q with headers := [(hHost, v)] } : ReqwestRequest) (.header hHost) =
    .ok v.toStr := by
    intro q v
    show Except.ok (reqwestHeader [(hHost, v)] hHost) = _
    simp [reqwestHeader, HeaderMap.get]
  refine ⟨{ exQueryRequest exSwapA with headers := [(hHost, ⟨utf8 (str% "a"), rfl⟩)] },
    { exQueryRequest exSwapB with headers := [(hHost, ⟨utf8 (str% "b"), rfl⟩)] },
    { components := [qp (str% "p"), .header hHost, qp (str% "q")] },
    utf8 (str% "\"@query-params\";name=\"p\": x\n\"host\": a\n\"@query-params\";name=\"q\": 1\n\"host\": b\n\"@query-params\";name=\"q\": 2\n\"@signature-params\": (\"@query-params\";name=\"p\" \"host\" \"@query-params\";name=\"q\")"),
    ({ components := [qp (str% "p"), .header hHost, qp (str% "q")] } : CanonicalizeConfig).toSignatureInput, ?_, ?_, by simp, ?_, ?_⟩
  · refine canonicalize_ok_iff.2 ⟨[str% "x", str% "a", str% "1\n\"host\": b\n\"@query-params\";name=\"q\": 2"],
      [str% "\"@query-params\";name=\"p\"", str% "\"host\"", str% "\"@query-params\";name=\"q\""],
      [str% "\"@query-params\";name=\"p\"", str% "\"host\"", str% "\"@query-params\";name=\"q\""], [], ?_,
      .cons (ident_derived_iff.2 rfl) (.cons (.header _) (.cons (ident_derived_iff.2 rfl) .nil)),
    .cons (listIdent_iff.2 rfl) (.cons (listIdent_iff.2 rfl) (.cons (listIdent_iff.2 rfl) .nil)), serParams_iff.1 rfl, rfl, rfl⟩
    simp only [Values, List.map_cons, List.map_nil, h1, h2, exSwapA_pairs]
    rfl
  · refine canonicalize_ok_iff.2 ⟨[str% "x\n\"host\": a\n\"@query-params\";name=\"q\": 1", str% "b", str% "2"],
      [str% "\"@query-params\";name=\"p\"", str% "\"host\"", str% "\"@query-params\";name=\"q\""],
      [str% "\"@query-params\";name=\"p\"", str% "\"host\"", str% "\"@query-params\";name=\"q\""], [], ?_,
      .cons (ident_derived_iff.2 rfl) (.cons (.header _) (.cons (ident_derived_iff.2 rfl) .nil)),
    .cons (listIdent_iff.2 rfl) (.cons (listIdent_iff.2 rfl) (.cons (listIdent_iff.2 rfl) .nil)), serParams_iff.1 rfl, rfl, rfl⟩
    simp only [Values, List.map_cons, List.map_nil, h1, h2, exSwapB_pairs]
    rfl
  · simp [HeaderMap.getAll]
  · simp [HeaderMap.getAll]

/-- C35 fails for any further value: appending whatever value under a covered header name that is already present
leaves the outcome of `canonicalize`, and so the signature, unchanged. -/
theorem C35_neg_further_values (r : ReqwestRequest) (c : CanonicalizeConfig) (h : HeaderName) (extra : HeaderValue)
    (hp : r.headers.getAll h ≠ []) :
    (HeaderMap.getAll (r.headers ++ [(h, extra)]) h) = r.headers.getAll h ++ [extra] ∧
    canonicalize { r with headers := r.headers ++ [(h, extra)] } c = canonicalize r c := by
  constructor
  · simp [HeaderMap.getAll]
  · have hd : ∀ k, RequestLike.derive { r with headers := r.headers ++ [(h, extra)] } k = RequestLike.derive r k := by
      intro k
      cases k with
      | derived d => rfl
      | header n =>
        have e1 : RequestLike.derive r (.header n) = .ok (reqwestHeader r.headers n) := rfl
        have e2 : RequestLike.derive { r with headers := r.headers ++ [(h, extra)] } (.header n) =
          .ok (reqwestHeader (r.headers ++ [(h, extra)]) n) := rfl
        rw [e1, e2]
        congr 1
        unfold reqwestHeader
        congr 1
        rw [get_eq_head, get_eq_head]
        have happ : HeaderMap.getAll (r.headers ++ [(h, extra)]) n =
            r.headers.getAll n ++ if h = n then [extra] else [] := by
          by_cases hn : h = n <;> simp [HeaderMap.getAll, hn]
        rw [happ]
        by_cases hn : h = n
        · subst hn
          cases hg : HeaderMap.getAll r.headers h with
          | nil => exact absurd hg hp
          | cons a as => rfl
        · simp [hn]
    have hall : ∀ cs, deriveAll { r with headers := r.headers ++ [(h, extra)] } cs = deriveAll r cs := by
      intro cs
      induction cs with
      | nil => rfl
      | cons k ks ih => simp only [deriveAll, hd, ih]
    unfold canonicalize
    rw [hall]

/-- Non-vacuity: `exReqwest` has a host header, it is covered, and signing succeeds. -/
example : exReqwest.headers.getAll hHost ≠ [] ∧ (exReqwest.headers.getAll hHost).length ≤ 1 ∧
    SignatureComponent.header hHost ∈ exBaseConfig.components ∧
    (∀ d, .derived d ∈ exBaseConfig.components → d.item.bare ≠ .string atQueryParams) ∧
    ∃ base si, canonicalize exReqwest exBaseConfig = .ok (.ok (base, si)) := by
  refine ⟨?_, ?_, ?_, ?_, _, _, rfl⟩
  · rw [show exReqwest.headers.getAll hHost = [⟨utf8 (str% "example.com"), rfl⟩] from rfl]; simp
  · rw [show exReqwest.headers.getAll hHost = [⟨utf8 (str% "example.com"), rfl⟩] from rfl]; simp
  · exact .tail _ (.head _)
  · intro d hd
    change SignatureComponent.derived d ∈ [SignatureComponent.derived (.new atMethod), .header hHost, .derived (.new atQuery)] at hd
    simp only [List.mem_cons, SignatureComponent.derived.injEq, List.not_mem_nil, or_false, reduceCtorEq, false_or] at hd
    rcases hd with rfl | rfl <;> (intro h; cases h)

end Httpsig
